import Verif.XmlTextThms
import Verif.XmlUsed
import Verif.XmlWriteClosed
import Verif.XmlFactory

/-!
# The text of a written document

`tounicode(root, pretty_print=True)` (`xml_writer.py:86`) as a function, `Text.show`; the tree that a parser finds in its text has white space that the
writer did not put there (`Spec.LaidOut`), which neither the schema nor the reader sees.
-/

namespace Verif
namespace Spec
open Xml (Elem)

mutual
/-- The second document is the first one with white space added between elements.  An empty text cannot be told from none. -/
inductive LaidOut : Elem → Elem → Prop
  | leaf {tag : String} {as : List (String × String)} {tx : Option String} : LaidOut ⟨tag, as, tx, []⟩ ⟨tag, as, if tx = some "" then none else tx, []⟩
  | inner {tag : String} {as : List (String × String)} {tx : Option String} {ch ch' : List Elem} : ch ≠ [] → (∀ s, tx = some s → BlankText s.toList) →
      LaidOutL ch ch' → LaidOut ⟨tag, as, none, ch⟩ ⟨tag, as, tx, ch'⟩
inductive LaidOutL : List Elem → List Elem → Prop
  | nil : LaidOutL [] []
  | cons {e e' : Elem} {r r' : List Elem} : LaidOut e e' → LaidOutL r r' → LaidOutL (e :: r) (e' :: r')
end

mutual
/-- A document that can be written as text: names are names, no two attributes of an element have the same name, texts have representable characters,
and an element has text or children, not both. -/
def Textual : Elem → Prop
  | ⟨tag, as, tx, ch⟩ => NameText tag.toList ∧ ':' ∉ tag.toList ∧ (∀ p ∈ as, NameText p.1.toList ∧ declares p.1.toList = false ∧ Printable p.2) ∧
      (as.map (·.1)).Nodup ∧ (∀ s, tx = some s → Printable s ∧ ch = []) ∧ TextualL ch
termination_by structural e => e
def TextualL : List Elem → Prop
  | [] => True
  | e :: r => Textual e ∧ TextualL r
termination_by structural l => l
end

end Spec

namespace Xml
open Spec

/-! ## The schema and the reader do not see the white space -/

theorem blank_xmlSpace {l : List Char} (h : BlankText l) : l.all Xsd.xmlSpace = true := by
  rw [List.all_eq_true]
  intro c hc
  rcases h c hc with h | h | h <;> subst h <;> decide

theorem laidOutL_length {l l' : List Elem} (h : LaidOutL l l') : l.length = l'.length := by
  induction h using LaidOutL.rec (motive_1 := fun _ _ _ => True) with
  | leaf => trivial
  | inner => trivial
  | nil => rfl
  | cons _ _ _ ih => simp [ih]

mutual
theorem validE_laid (S : Xsd.Schema) : ∀ {d d' : Elem}, LaidOut d d' → ∀ ty, Xsd.validE S d' ty = Xsd.validE S (reparse d) ty
  | _, _, .leaf, ty => by simp only [reparse, reparseL]
  | _, _, .inner (tag := tag) (as := as) (tx := tx) (ch := ch) (ch' := ch') hne hb hk, ty => by
    have hlen := laidOutL_length hk
    have hne' : ch'.isEmpty = false := by
      cases ch' with
      | nil => exact absurd (List.length_eq_zero_iff.1 hlen) hne
      | cons => rfl
    have htags : ch'.map (·.tag) = (reparseL ch).map (·.tag) := tags_laid hk
    have hre : (reparseL ch).isEmpty = false := by
      cases ch with
      | nil => exact absurd rfl hne
      | cons e r => rfl
    simp only [reparse, Xsd.validE]
    cases Xsd.simpleOf ty with
    | some t => simp [hne', hre]
    | none =>
      cases Dict.get? S.types ty with
      | none => rfl
      | some ct =>
        simp only [htags]
        cases hm : Xsd.matchParts ct.parts ((reparseL ch).map (·.tag)) with
        | none => simp
        | some tys =>
          have hp : ct.parts.isEmpty = false := by
            cases hp : ct.parts with
            | nil =>
              rw [hp, Xsd.matchParts] at hm
              cases ch with
              | nil => exact absurd rfl hne
              | cons e r => simp [reparseL] at hm
            | cons => rfl
          have h1 : Xsd.textOk ct tx = true := by
            simp only [Xsd.textOk, hp, Bool.false_eq_true, if_false, Bool.or_eq_true]
            right
            cases tx with
            | none => rfl
            | some s => exact blank_xmlSpace (hb s rfl)
          have h2 : Xsd.textOk ct (if (none : Option String) = some "" then none else none) = true := by
            simp [Xsd.textOk, hp]
          simp only [h1, h2, validL_laid S hk tys]
theorem validL_laid (S : Xsd.Schema) : ∀ {l l' : List Elem}, LaidOutL l l' → ∀ tys, Xsd.validL S l' tys = Xsd.validL S (reparseL l) tys
  | _, _, .nil, tys => by simp only [reparseL]
  | _, _, .cons h hr, tys => by
    cases tys with
    | nil => simp only [reparseL, Xsd.validL]
    | cons ty ts => simp only [reparseL, Xsd.validL, validE_laid S h ty, validL_laid S hr ts]
theorem tag_laid : ∀ {d d' : Elem}, LaidOut d d' → d'.tag = (reparse d).tag
  | _, _, .leaf => rfl
  | _, _, .inner _ _ _ => rfl
theorem tags_laid : ∀ {l l' : List Elem}, LaidOutL l l' → l'.map (·.tag) = (reparseL l).map (·.tag)
  | _, _, .nil => rfl
  | _, _, .cons h hr => by simp only [reparseL, List.map_cons, tag_laid h, tags_laid hr]
end

theorem valid_laid {S : Xsd.Schema} {d d' : Elem} (h : LaidOut d d') : Xsd.valid S d' = Xsd.valid S (reparse d) := by
  unfold Xsd.valid
  rw [tag_laid h]
  rw [validE_laid S h]

mutual
/-- Elements named `crossExpr` have no children. -/
def crossLeaf : Elem → Bool
  | ⟨tag, _, _, ch⟩ => (tag != "crossExpr" || ch.isEmpty) && crossLeafL ch
termination_by structural e => e
def crossLeafL : List Elem → Bool
  | [] => true
  | e :: r => crossLeaf e && crossLeafL r
termination_by structural l => l
end

mutual
theorem hasUsed_laid : ∀ {d d' : Elem}, LaidOut d d' → hasUsed d' = hasUsed (reparse d)
  | _, _, .leaf => by simp only [reparse, reparseL, hasUsed]
  | _, _, .inner _ _ hk => by simp only [reparse, hasUsed, hasUsedL_laid hk]
theorem hasUsedL_laid : ∀ {l l' : List Elem}, LaidOutL l l' → hasUsedL l' = hasUsedL (reparseL l)
  | _, _, .nil => rfl
  | _, _, .cons h hr => by simp only [reparseL, hasUsedL, hasUsed_laid h, hasUsedL_laid hr]
end

mutual
theorem prune_laid : ∀ {d d' : Elem}, LaidOut d d' → crossLeaf d = true → prune d' = prune (reparse d)
  | _, _, .leaf, _ => by simp only [reparse, reparseL, prune]
  | _, _, .inner (tag := tag) hne _ hk, hc => by
    simp only [crossLeaf, Bool.and_eq_true, Bool.or_eq_true, bne_iff_ne, ne_eq, List.isEmpty_iff] at hc
    have ht : tag ≠ "crossExpr" := hc.1.resolve_right hne
    simp only [reparse, prune, if_neg ht, pruneL_laid hk hc.2]
theorem pruneL_laid : ∀ {l l' : List Elem}, LaidOutL l l' → crossLeafL l = true → pruneL l' = pruneL (reparseL l)
  | _, _, .nil, _ => rfl
  | _, _, .cons h hr, hc => by
    simp only [crossLeafL, Bool.and_eq_true] at hc
    simp only [reparseL, pruneL, hasUsed_laid h, prune_laid h hc.1, pruneL_laid hr hc.2]
end

/-- Validating and reading give the same result with and without the layout. -/
theorem factoryRead_laid (flt : FloatText) {d d' : Elem} (h : LaidOut d d') (hc : crossLeaf d = true) : factoryRead flt d' = factoryRead flt (reparse d) := by
  unfold factoryRead
  rw [valid_laid h, C110_same flt _ _ (prune_laid h hc)]

/-! ## Written documents -/

theorem textualL_append {l m : List Elem} : TextualL (l ++ m) ↔ TextualL l ∧ TextualL m := by
  induction l with
  | nil => simp [TextualL]
  | cons e r ih => simp [TextualL, ih, and_assoc]

theorem textualL_map {α : Type} {f : α → Elem} {l : List α} : TextualL (l.map f) ↔ ∀ x ∈ l, Textual (f x) := by
  induction l with
  | nil => simp [TextualL]
  | cons e r ih => simp [TextualL, ih]

theorem crossLeafL_append {l m : List Elem} : crossLeafL (l ++ m) = (crossLeafL l && crossLeafL m) := by
  induction l with
  | nil => simp [crossLeafL]
  | cons e r ih => simp [crossLeafL, ih, Bool.and_assoc]

theorem crossLeafL_map {α : Type} {f : α → Elem} {l : List α} (h : ∀ x ∈ l, crossLeaf (f x) = true) : crossLeafL (l.map f) = true := by
  induction l with
  | nil => rfl
  | cons e r ih => simp [crossLeafL, h e (by simp), ih fun x hx => h x (by simp [hx])]

instance (n : List Char) : Decidable (NameText n) := by unfold NameText; infer_instance

/-- Names of elements and attributes. -/
def goodName (s : String) : Bool := decide (NameText s.toList) && decide (':' ∉ s.toList) && !declares s.toList

theorem textual_mk {tag : String} {as : List (String × String)} {ch : List Elem} (ns : List String) (hs : (as.map (·.1)).Sublist ns)
    (hg : (goodName tag && ns.all goodName && decide ns.Nodup) = true) (hv : ∀ p ∈ as, Printable p.2) (hc : TextualL ch) : Textual ⟨tag, as, none, ch⟩ := by
  simp only [Bool.and_eq_true, decide_eq_true_eq] at hg
  obtain ⟨⟨ht, ha⟩, hn⟩ := hg
  simp only [goodName, Bool.and_eq_true, decide_eq_true_eq] at ht
  refine ⟨ht.1.1, ht.1.2, ?_, hs.nodup hn, by simp, hc⟩
  intro p hp
  have := List.all_eq_true.1 ha p.1 (hs.subset (List.mem_map_of_mem hp))
  simp only [goodName, Bool.and_eq_true, decide_eq_true_eq, Bool.not_eq_true'] at this
  exact ⟨this.1.1, this.2, hv p hp⟩

theorem textual_text {tag : String} {s : String} (ht : goodName tag = true) (hs : Printable s) : Textual ⟨tag, [], some s, []⟩ := by
  simp only [goodName, Bool.and_eq_true, decide_eq_true_eq] at ht
  exact ⟨ht.1.1, ht.1.2, by simp, by simp, by rintro _ ⟨⟩; exact ⟨hs, rfl⟩, trivial⟩

theorem printable_lit {s : String} (h : xmlStr s = true) : Printable s := (xmlStr_iff s).1 h

theorem textual_contents (z : Int) : Textual (eContents z) :=
  textual_mk ["coverageCount"] (List.Sublist.refl _) (by decide) (by simp [printable_strInt]) trivial

theorem printable_kindText (k : Nat) : Printable (kindText k) := by
  unfold kindText
  split
  · exact printable_lit (by decide)
  · split <;> exact printable_lit (by decide)

theorem printable_0 : Printable "0" := printable_lit (by decide)
theorem printable_1 : Printable "1" := printable_lit (by decide)
theorem printable_m1 : Printable "-1" := printable_lit (by decide)

theorem textual_eBin {i : Item} (h : Printable i.name) : Textual (eBin i) := by
  refine textual_mk ["name", "type", "key"] (List.Sublist.refl _) (by decide) (by simp [h, printable_kindText, printable_0]) ⟨?_, trivial⟩
  exact textual_mk ["from", "to"] (List.Sublist.refl _) (by decide) (by simp [printable_m1]) ⟨textual_contents _, trivial⟩

theorem textual_options : Textual optionsElem := textual_mk [] (List.Sublist.refl _) (by decide) (by simp) trivial

theorem textual_eCp {cp : Scope} (h : WritableCp cp) : Textual (eCp cp) :=
  textual_mk ["name", "key"] (List.Sublist.refl _) (by decide) (by simp [h.1, printable_0])
    ⟨textual_options, textualL_map.2 fun i hi => textual_eBin (h.2 i hi).1⟩

theorem textual_eCrossBin {i : Item} (h : Printable i.name) : Textual (eCrossBin i) :=
  textual_mk ["name", "key", "type"] (List.Sublist.refl _) (by decide) (by simp [h, printable_0, printable_lit (s := "default") (by decide)])
    ⟨textual_text (by decide) printable_m1, textual_contents _, trivial⟩

theorem textual_eExpr {n : String} (h : Printable n) : Textual (eExpr some n) := textual_text (by decide) h

theorem textual_eCross {cr : Scope} (h : WritableCross cr) : Textual (eCross some cr) := by
  unfold WritableCross at h
  refine textual_mk ["name", "key"] (List.Sublist.refl _) (by decide) (by simp [h.1, printable_0])
    ⟨textual_options, textualL_append.2 ⟨textualL_map.2 ?_, textualL_map.2 ?_⟩⟩
  · intro n hn
    obtain ⟨cps, hc, hp⟩ := h.2.1
    rw [hc] at hn
    exact textual_eExpr (hp n hn)
  · exact fun i hi => textual_eCrossBin (h.2.2 i hi)

theorem textual_sourceId {t : String} (h : goodName t = true) : Textual (sourceIdElem t) :=
  textual_mk ["file", "line", "inlineCount"] (List.Sublist.refl _) (by rw [h]; decide) (by simp [printable_1]) trivial

theorem textual_eGroup {n : String} {g : Scope} (hn : Printable n) (h : WritableGroup g) : Textual (eGroup some n g) := by
  refine textual_mk ["name", "key"] (List.Sublist.refl _) (by decide) (by simp [h.1, printable_0])
    ⟨textual_options, ?_, textualL_append.2 ⟨textualL_map.2 fun c hc => textual_eCp (h.2.1 c hc), textualL_map.2 fun c hc => textual_eCross (h.2.2 c hc)⟩⟩
  exact textual_mk ["cgName", "moduleName"] (List.Sublist.refl _) (by decide) (by simp [hn])
    ⟨textual_sourceId (by decide), textual_sourceId (by decide), trivial⟩

theorem textual_eCg {g : Scope} (h : WritableCg g) : Textual (eCg some g) :=
  textual_mk [] (List.Sublist.refl _) (by decide) (by simp) (textualL_map.2 fun c hc => textual_eGroup h.1 (h.2 c hc))

theorem textual_eInst {i : Scope} (h : WritableInst i) : Textual (eInst some i) :=
  textual_mk ["name", "key"] (List.Sublist.refl _) (by decide) (by simp [h.1, printable_0])
    ⟨textual_mk ["file", "line", "inlineCount"] (List.Sublist.refl _) (by decide) (by simp [printable_1]) trivial,
      textualL_map.2 fun c hc => textual_eCg (h.2 c hc)⟩

theorem eOpt_names (n : String) (o : Option String) : ((eOpt n o).map (·.1)).Sublist [n] := by
  cases o <;> simp [eOpt]
theorem eNum_names (flt : FloatText) (n : String) (x : Rat) : ((eNum flt n x).map (·.1)).Sublist [n] := by
  unfold eNum; split <;> simp
theorem eInt_names (n : String) (z : Int) : ((eInt n z).map (·.1)).Sublist [n] := by
  unfold eInt; split <;> simp

theorem eOpt_printable {n : String} {o : Option String} (h : OptPrintable o) : ∀ p ∈ eOpt n o, Printable p.2 := by
  cases o with
  | none => simp [eOpt]
  | some v => simpa [eOpt] using h v rfl
theorem eNum_printable {flt : FloatText} {n : String} {x : Rat} (h : 0 ≤ x → Printable (flt.show_ x)) : ∀ p ∈ eNum flt n x, Printable p.2 := by
  unfold eNum
  split
  · simpa using h (by assumption)
  · simp
theorem eInt_printable {n : String} {z : Int} : ∀ p ∈ eInt n z, Printable p.2 := by
  unfold eInt; split <;> simp [printable_strInt]

theorem printable_isoOf {d : DateVal} (h : DateOk d) : Printable (isoOf d) := by
  obtain ⟨s, t, rfl, ht⟩ := h
  simp only [isoOf, ht]
  exact printable_iso t

theorem textual_eHist {flt : FloatText} {i : Nat} {h : Hist} (hw : WritableHist flt h) : Textual (eHist flt i h) := by
  obtain ⟨⟨n, hn, h1⟩, h2, h3, h4, h5, h6, h7, h8, h9, h10, h11, h12, h13, h14, h15, h16, h17, h18, h19, h21⟩ := hw
  refine textual_mk ("historyNodeId" :: "logicalName" :: (["physicalName"] ++ ["kind"] ++ "testStatus" :: (["simtime"] ++ ["timeunit"] ++ ["runCwd"] ++
    ["cpuTime"] ++ ["seed"] ++ ["cmd"] ++ ["args"] ++ ["compulsory"] ++ "date" :: (["userName"] ++ ["cost"] ++ "toolCategory" :: "ucisVersion" :: "vendorId" ::
      "vendorTool" :: "vendorToolVersion" :: (["sameTests"] ++ ["comment"]))))) ?_ (by decide) ?_ trivial
  · simp only [List.map_cons, List.map_append]
    repeat' first
      | exact eOpt_names _ _
      | exact eNum_names _ _ _
      | exact eInt_names _ _
      | apply List.Sublist.cons_cons
      | apply List.Sublist.append
  · intro p hp
    simp only [List.mem_cons, List.mem_append] at hp
    have hts : Printable (if h.status ≠ 0 then "true" else "false") := by split <;> exact printable_lit (by decide)
    rcases hp with rfl | rfl | (hp | hp) | rfl | (((((((hp | hp) | hp) | hp) | hp) | hp) | hp) | hp) | rfl | (hp | hp) | rfl | rfl | rfl | rfl | rfl | hp | hp
    · exact printable_strInt _
    · simpa [hn] using h1
    · exact eOpt_printable h2 p hp
    · exact eOpt_printable h3 p hp
    · exact hts
    · exact eNum_printable h4 p hp
    · exact eOpt_printable h5 p hp
    · exact eOpt_printable h6 p hp
    · exact eNum_printable h7 p hp
    · exact eOpt_printable h8 p hp
    · exact eOpt_printable h9 p hp
    · exact eOpt_printable h10 p hp
    · exact eOpt_printable h11 p hp
    · exact printable_isoOf h12
    · exact eOpt_printable h13 p hp
    · exact eNum_printable h14 p hp
    · exact h15
    · exact h16
    · exact h17
    · exact h18
    · exact h19
    · exact eInt_printable p hp
    · exact eOpt_printable h21 p hp

theorem textualL_eHists {flt : FloatText} : ∀ (l : List Hist) (i : Nat), (∀ h ∈ l, WritableHist flt h) → TextualL (eHists flt i l)
  | [], _, _ => trivial
  | h :: t, i, hw => ⟨textual_eHist (hw h (by simp)), textualL_eHists t (i + 1) fun x hx => hw x (by simp [hx])⟩

theorem textual_eDummy {now : String} (h : Printable now) : Textual (eDummy now) := by
  have hp : ["0", "dummy", "true", "", "unknown", "1.0", "PyUCIS"].all xmlStr = true := by decide
  simp only [List.all_cons, Bool.and_eq_true, xmlStr_iff] at hp
  refine textual_mk ["historyNodeId", "logicalName", "physicalName", "kind", "testStatus", "simtime", "timeunit", "runCwd", "cpuTime", "seed", "cmd", "args",
    "date", "userName", "toolCategory", "ucisVersion", "vendorId", "vendorTool", "vendorToolVersion"] (List.Sublist.refl _) (by decide) ?_ trivial
  simp [h, hp]

/-- What the writer writes can be written as text. -/
theorem write_textual {env : Env} (he : EnvOk env) {db : Database} {doc : Elem} (h : write env db = .ok doc) : Textual doc := by
  obtain ⟨⟨h1, h2, h3⟩, rfl⟩ := (write_ok he db doc).1 h
  refine textual_mk ["writtenBy", "writtenTime", "ucisVersion"] (List.Sublist.refl _) (by decide)
    (by simp [he.user, he.today, printable_lit (s := "1.0") (by decide)]) (textualL_append.2 ⟨textualL_append.2 ⟨textualL_map.2 ?_, ?_⟩, textualL_map.2 ?_⟩)
  · exact fun f hf => textual_mk ["fileName", "id"] (List.Sublist.refl _) (by decide) (by simp [h1 f hf, printable_strInt]) trivial
  · unfold eHistory
    cases hh : db.hist with
    | nil => exact ⟨textual_eDummy he.now, trivial⟩
    | cons a t => exact textualL_eHists _ _ (hh ▸ h2)
  · exact fun i hi => textual_eInst (h3 i hi)

theorem crossLeafL_eHists (flt : FloatText) : ∀ (l : List Hist) (i : Nat), crossLeafL (eHists flt i l) = true
  | [], _ => rfl
  | h :: t, i => by simp [eHists, crossLeafL, crossLeafL_eHists flt t (i + 1), eHist, crossLeaf]

theorem crossLeaf_eCp (c : Scope) : crossLeaf (eCp c) = true := by
  simp only [eCp, optionsElem, crossLeaf, crossLeafL]
  rw [crossLeafL_map (fun i _ => by simp [eBin, eContents, crossLeaf, crossLeafL])]
  simp

theorem crossLeaf_eCross (c : Scope) : crossLeaf (eCross some c) = true := by
  simp only [eCross, optionsElem, crossLeaf, crossLeafL, crossLeafL_append]
  rw [crossLeafL_map (fun i _ => by simp [eExpr, crossLeaf, crossLeafL]), crossLeafL_map (fun i _ => by simp [eCrossBin, eContents, crossLeaf, crossLeafL])]
  simp

theorem crossLeaf_eGroup (n : String) (g : Scope) : crossLeaf (eGroup some n g) = true := by
  simp only [eGroup, eCgId, sourceIdElem, optionsElem, crossLeaf, crossLeafL, crossLeafL_append]
  rw [crossLeafL_map (fun i _ => crossLeaf_eCp i), crossLeafL_map (fun i _ => crossLeaf_eCross i)]
  simp

theorem crossLeaf_eCg (g : Scope) : crossLeaf (eCg some g) = true := by
  simp only [eCg, crossLeaf]
  rw [crossLeafL_map (fun i _ => crossLeaf_eGroup g.name i)]
  simp

theorem crossLeaf_eInst (i : Scope) : crossLeaf (eInst some i) = true := by
  simp only [eInst, idElem, crossLeaf, crossLeafL]
  rw [crossLeafL_map (fun i _ => crossLeaf_eCg i)]
  simp

theorem write_crossLeaf {env : Env} (he : EnvOk env) {db : Database} {doc : Elem} (h : write env db = .ok doc) : crossLeaf doc = true := by
  obtain ⟨_, rfl⟩ := (write_ok he db doc).1 h
  have : crossLeafL (eHistory env db.hist) = true := by
    unfold eHistory
    cases db.hist with
    | nil => simp [eDummy, crossLeaf, crossLeafL]
    | cons a t => exact crossLeafL_eHists _ _ _
  simp only [eDoc, crossLeaf, crossLeafL_append, this]
  rw [crossLeafL_map (fun i _ => crossLeaf_eInst i), crossLeafL_map (fun f _ => by simp [eFile, crossLeaf, crossLeafL])]
  simp

/-! ## `tounicode(root, pretty_print=True)` -/

namespace Text

/-- How libxml2 writes a character of an attribute value (`attr = true`) or of text. -/
def esc (attr : Bool) (c : Char) : List Char :=
  if c = '<' then ['&', 'l', 't', ';']
  else if c = '>' then ['&', 'g', 't', ';']
  else if c = '&' then ['&', 'a', 'm', 'p', ';']
  else if c = '\r' then ['&', '#', '1', '3', ';']
  else if attr && c == '"' then ['&', 'q', 'u', 'o', 't', ';']
  else if attr && c == '\n' then ['&', '#', '1', '0', ';']
  else if attr && c == '\t' then ['&', '#', '9', ';']
  else [c]

def escStr (attr : Bool) (s : List Char) : List Char := s.flatMap (esc attr)

def showAttrs : List (String × String) → List Char
  | [] => []
  | (n, v) :: r => ' ' :: (n.toList ++ '=' :: '"' :: (escStr true v.toList ++ '"' :: showAttrs r))

/-- A new line with two spaces for each level; `none` inside an element with text, where no white space may be added. -/
def newLine : Option Nat → List Char
  | none => []
  | some d => '\n' :: List.replicate (2 * d) ' '

mutual
/-- An element without its name space declarations, `decl`, at a level. -/
def showElem (decl : List Char) (lv : Option Nat) : Elem → List Char
  | ⟨tag, as, none, []⟩ => '<' :: (tag.toList ++ (decl ++ showAttrs as ++ ([] ++ ['/', '>'])))
  | ⟨tag, as, none, e :: r⟩ => '<' :: (tag.toList ++ (decl ++ showAttrs as ++ ([] ++ '>' :: (newLine (lv.map (· + 1)) ++
      (showKids (lv.map (· + 1)) (newLine lv) (e :: r) ++ '<' :: '/' :: (tag.toList ++ ([] ++ ['>'])))))))
  | ⟨tag, as, some t, ch⟩ => '<' :: (tag.toList ++ (decl ++ showAttrs as ++ ([] ++ '>' :: (escStr false t.toList ++
      (showKids none [] ch ++ '<' :: '/' :: (tag.toList ++ ([] ++ ['>'])))))))
termination_by structural e => e
/-- The children; white space between them and, `last`, after them. -/
def showKids (lv : Option Nat) (last : List Char) : List Elem → List Char
  | [] => []
  | e :: r => showElem [] lv e ++ ((if r.isEmpty then last else newLine lv) ++ showKids lv last r)
termination_by structural l => l
end

/-- The declaration at the root, `xml_writer.py:43`, `:61-64`. -/
def rootDecl : List Char := ' ' :: ("xmlns:ucis".toList ++ '=' :: '"' :: ("http://www.w3.org/2001/XMLSchema-instance".toList ++ ['"']))

/-- `tounicode(root, pretty_print=True)` -/
def showDoc (e : Elem) : List Char := showElem rootDecl (some 0) e ++ ['\n']

mutual
/-- The tree in that text. -/
def lay (lv : Option Nat) : Elem → Elem
  | ⟨tag, as, none, []⟩ => ⟨tag, as, none, []⟩
  | ⟨tag, as, none, e :: r⟩ => ⟨tag, as, if newLine (lv.map (· + 1)) = [] then none else some (String.ofList (newLine (lv.map (· + 1)))), layL (lv.map (· + 1)) (e :: r)⟩
  | ⟨tag, as, some t, ch⟩ => ⟨tag, as, if t.toList = [] then none else some (String.ofList t.toList), layL none ch⟩
termination_by structural e => e
def layL (lv : Option Nat) : List Elem → List Elem
  | [] => []
  | e :: r => lay lv e :: layL lv r
termination_by structural l => l
end

theorem esc_text {attr : Bool} {c : Char} : CharText attr c (esc attr c) := by
  unfold esc
  split
  · rename_i h; subst h; exact CharText.entity (n := ['l', 't']) (by decide)
  split
  · rename_i h; subst h; exact CharText.entity (n := ['g', 't']) (by decide)
  split
  · rename_i h; subst h; exact CharText.entity (n := ['a', 'm', 'p']) (by decide)
  split
  · rename_i h; subst h
    exact CharText.decimal (ds := ['1', '3']) (Numeral.more (n := 1) (d := 3) (ds := ['1']) (Numeral.one (by decide)) (by decide))
  split
  · rename_i h; simp only [Bool.and_eq_true, beq_iff_eq] at h; obtain ⟨_, rfl⟩ := h; exact CharText.entity (n := ['q', 'u', 'o', 't']) (by decide)
  split
  · rename_i h; simp only [Bool.and_eq_true, beq_iff_eq] at h; obtain ⟨_, rfl⟩ := h
    exact CharText.decimal (ds := ['1', '0']) (Numeral.more (n := 1) (d := 0) (ds := ['1']) (Numeral.one (by decide)) (by decide))
  split
  · rename_i h; simp only [Bool.and_eq_true, beq_iff_eq] at h; obtain ⟨_, rfl⟩ := h
    exact CharText.decimal (ds := ['9']) (Numeral.one (by decide))
  · rename_i h1 h2 h3 h4 h5 h6 h7
    refine CharText.plain h1 h3 h4 ?_
    rintro rfl
    simp only [Bool.true_and, beq_iff_eq] at h5 h6 h7
    exact ⟨h5, h7, h6⟩

theorem xmlChar_of_printable {s : String} (h : Printable s) : ∀ c ∈ s.toList, xmlChar c = true := fun c hc => (xmlChar_iff c).2 (h c hc)

theorem esc_str {attr : Bool} : ∀ {s : List Char}, (∀ c ∈ s, xmlChar c = true) → StrText attr s (escStr attr s)
  | [], _ => .nil
  | c :: s, h => .cons (h c (by simp)) esc_text (esc_str fun x hx => h x (by simp [hx]))

theorem showAttrs_text : ∀ {as : List (String × String)}, (∀ p ∈ as, NameText p.1.toList ∧ declares p.1.toList = false ∧ Printable p.2) → AttrsText as (showAttrs as)
  | [], _ => .nil
  | (n, v) :: r, h => by
    have h1 := h (n, v) (by simp)
    exact AttrsText.attr (ws := [' ']) (by simp) (by intro c hc; simp at hc; simp [hc]) h1.1 h1.2.1 (esc_str (xmlChar_of_printable h1.2.2))
      (showAttrs_text fun p hp => h p (by simp [hp]))

theorem plain_str {attr : Bool} : ∀ {s : List Char}, (∀ c ∈ s, xmlChar c = true ∧ c ≠ '<' ∧ c ≠ '&' ∧ c ≠ '\r' ∧ (attr = true → c ≠ '"' ∧ c ≠ '\t' ∧ c ≠ '\n')) → StrText attr s s
  | [], _ => .nil
  | c :: s, h => by
    have h1 := h c (by simp)
    exact StrText.cons (t := [c]) h1.1 (.plain h1.2.1 h1.2.2.1 h1.2.2.2.1 h1.2.2.2.2) (plain_str fun x hx => h x (by simp [hx]))

theorem rootDecl_text {as : List (String × String)} {u : List Char} (h : AttrsText as u) : AttrsText as (rootDecl ++ u) := by
  have hp : ∀ c ∈ "http://www.w3.org/2001/XMLSchema-instance".toList,
      xmlChar c = true ∧ c ≠ '<' ∧ c ≠ '&' ∧ c ≠ '\r' ∧ ((true : Bool) = true → c ≠ '"' ∧ c ≠ '\t' ∧ c ≠ '\n') := by decide +kernel
  have := AttrsText.decl (ws := [' ']) (n := "xmlns:ucis".toList) (by simp) (by intro c hc; simp at hc; simp [hc]) (by decide +kernel) (by decide +kernel) (plain_str hp) h
  simpa [rootDecl] using this

theorem newLine_blank (lv : Option Nat) : BlankText (newLine lv) := by
  intro c hc
  cases lv with
  | none => simp [newLine] at hc
  | some d =>
    simp only [newLine, List.mem_cons] at hc
    rcases hc with hc | hc
    · exact .inr (.inr hc)
    · exact .inl (List.eq_of_mem_replicate hc)

theorem blank_str {l : List Char} (h : BlankText l) : StrText false l l := by
  refine plain_str fun c hc => ?_
  rcases h c hc with h | h | h <;> subst h <;> decide

theorem tag_text {tag : String} (h1 : NameText tag.toList) (h2 : ':' ∉ tag.toList) : TagText tag tag.toList := ⟨h1, h2, .inl rfl⟩

mutual
theorem showElem_text (decl : List Char) (hd : ∀ as u, AttrsText as u → AttrsText as (decl ++ u)) (lv : Option Nat) : ∀ (e : Elem), Textual e →
    ElemText (lay lv e) (showElem decl lv e)
  | ⟨tag, as, none, []⟩, ⟨h1, h2, h3, h4, _, _⟩ => by
    rw [lay, showElem]
    exact .empty (tag_text h1 h2) (hd _ _ (showAttrs_text h3)) h4 (by intro c hc; simp at hc)
  | ⟨tag, as, none, e :: r⟩, ⟨h1, h2, h3, h4, _, h6⟩ => by
    rw [lay, showElem]
    exact .full (tag_text h1 h2) (hd _ _ (showAttrs_text h3)) h4 (by intro c hc; simp at hc) (blank_str (newLine_blank _))
      (showKids_text (lv.map (· + 1)) (newLine lv) (newLine_blank lv) (e :: r) h6) (by intro c hc; simp at hc)
  | ⟨tag, as, some t, ch⟩, ⟨h1, h2, h3, h4, h5, h6⟩ => by
    rw [lay, showElem]
    exact .full (tag_text h1 h2) (hd _ _ (showAttrs_text h3)) h4 (by intro c hc; simp at hc) (esc_str (xmlChar_of_printable (h5 t rfl).1))
      (showKids_text none [] (by intro c hc; simp at hc) ch h6) (by intro c hc; simp at hc)
theorem showKids_text (lv : Option Nat) (last : List Char) (hl : BlankText last) : ∀ (l : List Elem), TextualL l → KidsText (layL lv l) (showKids lv last l)
  | [], _ => by rw [layL, showKids]; exact .nil
  | e :: r, ⟨h1, h2⟩ => by
    rw [layL, showKids]
    refine .cons (showElem_text [] (fun _ _ h => h) lv e h1) (s := if r.isEmpty then last else newLine lv) (blank_str ?_) (showKids_text lv last hl r h2)
    split
    · exact hl
    · exact newLine_blank lv
end

mutual
theorem lay_laid (lv : Option Nat) : ∀ (e : Elem), Textual e → LaidOut e (lay lv e)
  | ⟨tag, as, none, []⟩, _ => by
    rw [lay]
    exact LaidOut.leaf (tx := none)
  | ⟨tag, as, none, e :: r⟩, ⟨_, _, _, _, _, h6⟩ => by
    rw [lay]
    refine .inner (by simp) ?_ (layL_laid _ (e :: r) h6)
    intro s hs
    split at hs
    · cases hs
    · cases hs
      rw [String.toList_ofList]
      exact newLine_blank _
  | ⟨tag, as, some t, ch⟩, ⟨_, _, _, _, h5, _⟩ => by
    obtain rfl := (h5 t rfl).2
    rw [lay, layL]
    have : (if t.toList = [] then none else some (String.ofList t.toList)) = if some t = some "" then none else some t := by
      rw [String.ofList_toList]
      have : t.toList = [] ↔ t = "" := String.toList_eq_nil_iff
      simp only [this, Option.some.injEq]
    rw [this]
    exact .leaf
theorem layL_laid (lv : Option Nat) : ∀ (l : List Elem), TextualL l → LaidOutL l (layL lv l)
  | [], _ => by rw [layL]; exact .nil
  | e :: r, ⟨h1, h2⟩ => by rw [layL]; exact .cons (lay_laid lv e h1) (layL_laid lv r h2)
end

theorem showDoc_text {e : Elem} (h : Textual e) : DocText (lay (some 0) e) (showDoc e) :=
  ⟨_, ['\n'], showElem_text rootDecl (fun _ _ h => rootDecl_text h) (some 0) e h, by intro c hc; simp at hc; simp [hc], rfl⟩

end Text

/-- Serialising a written document, parsing the text, validating and reading give what validating and reading the document would give. -/
theorem text_roundtrip (flt : FloatText) {env : Env} (he : EnvOk env) {db : Database} {doc : Elem} (h : write env db = .ok doc) :
    ∃ d, Text.parse (Text.showDoc doc) = some d ∧ factoryRead flt d = factoryRead flt (reparse doc) :=
  ⟨_, Text.parse_text (Text.showDoc_text (write_textual he h)), factoryRead_laid flt (Text.lay_laid _ _ (write_textual he h)) (write_crossLeaf he h)⟩

end Xml
end Verif
