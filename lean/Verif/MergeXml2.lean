import Verif.MergeXml
/-!
# Databases read from XML documents can be merged, and the result can be stored
-/

namespace Verif
open Merge Xml

namespace Spec

/-- Every attribute value and text of a document is representable (XML parsers deliver no other characters). -/
def PrintableDoc (doc : Elem) : Prop :=
  ∀ e ∈ preorder doc, (∀ p ∈ e.attrs, Printable p.2) ∧ ∀ t, e.text = some t → Printable t

/-- No `crossExpr` is blank. -/
def NoBlankCross (doc : Elem) : Prop := ∀ e ∈ within "crossExpr" doc, crossed e ≠ ""

end Spec
open Spec

/-! ## Inside a document -/

mutual
theorem preorder_trans : ∀ (e : Elem) {x y : Elem}, x ∈ preorder e → y ∈ preorder x → y ∈ preorder e
  | ⟨tag, as, tx, ch⟩, x, y, hx, hy => by
    have hx0 := hx
    rw [preorder] at hx
    rcases List.mem_cons.1 hx with rfl | hx
    · exact hy
    · rw [preorder]
      exact List.mem_cons_of_mem _ (preorderL_trans ch hx hy)
termination_by structural e => e
theorem preorderL_trans : ∀ (l : List Elem) {x y : Elem}, x ∈ preorderL l → y ∈ preorder x → y ∈ preorderL l
  | [], _, _, hx, _ => by rw [preorderL] at hx; cases hx
  | e :: t, x, y, hx, hy => by
    rw [preorderL, List.mem_append] at hx ⊢
    rcases hx with hx | hx
    · exact .inl (preorder_trans e hx hy)
    · exact .inr (preorderL_trans t hx hy)
termination_by structural l => l
end

theorem within_trans {t t' : String} {e x y : Elem} (hx : x ∈ within t e) (hy : y ∈ within t' x) : y ∈ within t' e := by
  unfold within at *
  rw [List.mem_filter] at *
  exact ⟨preorder_trans e hx.1 hy.1, hy.2⟩

theorem within_pre {t : String} {e x : Elem} (hx : x ∈ within t e) : x ∈ preorder e := (List.mem_filter.1 hx).1

theorem printable_attr {doc e : Elem} (h : PrintableDoc doc) (he : e ∈ preorder doc) (n : String) {d : String} (hd : Printable d) :
    Printable ((attr e n).getD d) := by
  unfold attr
  cases hf : e.attrs.find? (fun p => p.1 = n) with
  | none => exact hd
  | some p => exact (h e he).1 p (List.mem_of_find?_eq_some hf)

theorem printable_crossed {doc e : Elem} (h : PrintableDoc doc) (he : e ∈ preorder doc) : Printable (crossed e) := by
  unfold crossed Printable
  rw [String.toList_ofList]
  intro c hc
  have hc' : c ∈ (e.text.getD "").toList := by
    unfold PyNum.stripL at hc
    have h1 := (List.dropWhile_sublist _).subset (List.mem_reverse.1 hc)
    rw [List.mem_reverse] at h1
    exact (List.dropWhile_sublist _).subset h1
  cases ht : e.text with
  | none => rw [ht] at hc'; simp at hc'
  | some t =>
    rw [ht] at hc'
    exact (h e he).2 t ht c hc'

theorem nonneg_attr {ct : Xsd.CType} {e : Elem} (h : Xsd.attrsOk ct e.attrs = true) {n : String}
    (hf : (ct.attrs.find? (fun d => d.name = n)).map (·.type) = some .nonNeg) : 0 ≤ intAttr e n := by
  unfold intAttr
  cases hv : attr e n with
  | none => simp
  | some v =>
    have := Xsd.attr_valid h hf hv
    simp only [Xsd.Simple.valid] at this
    cases hz : Xsd.integerVal v.toList with
    | none => rw [hz] at this; cases this
    | some z =>
      rw [hz] at this
      simp only [PyNum.parseInt, Xsd.parseIntL_of_integerVal hz]
      simpa using this

/-! ## Instances and design units of a database that was read -/

theorem tidyTree_plain {s : Scope} (h1 : s.src = SrcInfo.none) (h2 : s.du = none) (hc : ∀ c ∈ s.children, TidyTree c) : TidyTree s :=
  tidyTree_iff.2 ⟨tidyFile_none h1 h2, hc⟩

theorem tidyTree_pinst (p : PInst) : TidyTree p.scope := by
  refine tidyTree_plain rfl rfl (fun c hc => ?_)
  rcases List.mem_append.1 hc with hc | hc
  · obtain ⟨x, _, rfl⟩ := List.mem_map.1 hc
    exact tidyTree_plain rfl rfl (fun c hc => nomatch hc)
  · obtain ⟨x, _, rfl⟩ := List.mem_map.1 hc
    exact tidyTree_plain rfl rfl (fun c hc => nomatch hc)

theorem tidyTree_group (t : String) (ps : List PInst) : TidyTree (buildGroup t ps) := by
  refine tidyTree_plain rfl rfl (fun c hc => ?_)
  obtain ⟨x, hx, rfl⟩ := List.mem_map.1 hc
  cases x with
  | inst s =>
    have h := (foldl_stepInst_closed ps).2.2.1
    have : s ∈ ps.map PInst.scope := by
      rw [← h]
      exact List.mem_filterMap.2 ⟨_, hx, rfl⟩
    obtain ⟨p, _, rfl⟩ := List.mem_map.1 this
    exact tidyTree_pinst p
  | cp n => exact tidyTree_plain rfl rfl (fun c hc => nomatch hc)
  | cross n l => exact tidyTree_plain rfl rfl (fun c hc => nomatch hc)

theorem tops_tidy (l : List DInst) (h : ∀ d ∈ l, ∀ g ∈ d.cgs, TidyTree g) :
    ∀ s ∈ l.foldl stepD [], TidyTree s ∧ (maskHit s.stype ST.INSTANCE = true → s.du ≠ none) := by
  have aux : ∀ (l : List DInst) (tops : List Scope), (∀ d ∈ l, ∀ g ∈ d.cgs, TidyTree g) →
      (∀ s ∈ tops, TidyTree s ∧ (maskHit s.stype ST.INSTANCE = true → s.du ≠ none)) →
      ∀ s ∈ l.foldl stepD tops, TidyTree s ∧ (maskHit s.stype ST.INSTANCE = true → s.du ≠ none) := by
    intro l
    induction l with
    | nil => intro tops _ h; exact h
    | cons d t ih =>
      intro tops hl ht
      rw [List.foldl_cons]
      refine ih _ (fun d hd => hl d (List.mem_cons_of_mem _ hd)) ?_
      have hg := hl d List.mem_cons_self
      have h1 : ∀ s ∈ addModule d.module tops, TidyTree s ∧ (maskHit s.stype ST.INSTANCE = true → s.du ≠ none) := by
        unfold addModule
        split
        · exact ht
        · intro s hs
          rcases List.mem_append.1 hs with hs | hs
          · exact ht s hs
          · rw [List.mem_singleton.1 hs]
            exact ⟨tidyTree_plain rfl rfl (fun c hc => nomatch hc),
              fun h => absurd (show maskHit ST.DU_MODULE ST.INSTANCE = true from h) (by decide)⟩
      unfold stepD addInst
      split
      · intro s hs
        obtain ⟨x, hx, rfl⟩ := List.mem_map.1 hs
        obtain ⟨hx1, hx2⟩ := h1 x hx
        split
        · refine ⟨tidyTree_iff.2 ⟨(tidyTree_iff.1 hx1).1, fun c hc => ?_⟩, hx2⟩
          rcases List.mem_append.1 hc with hc | hc
          · exact (tidyTree_iff.1 hx1).2 c hc
          · exact hg c hc
        · exact ⟨hx1, hx2⟩
      · intro s hs
        rcases List.mem_append.1 hs with hs | hs
        · exact h1 s hs
        · rw [List.mem_singleton.1 hs]
          refine ⟨tidyTree_iff.2 ⟨⟨?_, ?_⟩, hg⟩, fun _ => by simp [mkInstance]⟩
          · intro f hf; cases hf
          · intro x hx
            cases hx
            intro f hf; cases hf
  exact aux l [] h (fun s hs => nomatch hs)

theorem read_tops {flt : FloatText} {doc : Elem} {db : Database} (h : Xml.read flt doc = .ok db) :
    ∀ s ∈ db.root.children, TidyTree s ∧ (maskHit s.stype ST.INSTANCE = true → s.du ≠ none) := by
  rw [read_root h]
  refine tops_tidy _ (fun d hd g hg => ?_)
  obtain ⟨i, _, rfl⟩ := List.mem_map.1 hd
  obtain ⟨c, _, hg⟩ := List.mem_flatMap.1 hg
  obtain ⟨t, _, rfl⟩ := List.mem_map.1 hg
  exact tidyTree_group _ _

/-! ## Groups -/

theorem linked_dInst {e : Elem} (h : GoodGroup e) : Linked (dInst e).scope where
  crosses x hx := by
    rw [kids_inst_cross] at hx
    obtain ⟨c, hc, rfl⟩ := List.mem_map.1 hx
    obtain ⟨y, hy, rfl⟩ := List.mem_map.1 hc
    refine ⟨_, rfl, fun n hn => ?_⟩
    obtain ⟨z, hz, rfl⟩ := List.mem_map.1 hn
    have := ((h.2 y hy).1 z hz).2
    rw [kids_inst_cp]
    simpa [dInst, mkCoverpoint, dCp, Function.comp_def] using this
  points x hx b hb := by
    rw [kids_inst_cp] at hx
    obtain ⟨c, hc, rfl⟩ := List.mem_map.1 hx
    obtain ⟨y, hy, rfl⟩ := List.mem_map.1 hc
    obtain ⟨z, hz, rfl⟩ := List.mem_map.1 (List.mem_filter.1 hb).1
    simp [itemOf, mkBin]
  bins x hx b hb := by
    rw [kids_inst_cross] at hx
    obtain ⟨c, hc, rfl⟩ := List.mem_map.1 hx
    obtain ⟨y, hy, rfl⟩ := List.mem_map.1 hc
    obtain ⟨z, hz, rfl⟩ := List.mem_map.1 (List.mem_filter.1 hb).1
    simp [itemOf, mkBin]

theorem linked_build {t : String} {es : List Elem} (h : ∀ e ∈ es, GoodGroup e) : Linked (buildGroup t (es.map dInst)) where
  crosses x hx := by
    have h1 : kids ST.COVERPOINT (buildGroup t (es.map dInst)) = _ := buildGroup_cps t _
    have h2 : kids ST.CROSS (buildGroup t (es.map dInst)) = _ := buildGroup_crosses t _
    rw [h2] at hx
    obtain ⟨n, hn, rfl⟩ := List.mem_map.1 hx
    refine ⟨_, rfl, fun a ha => ?_⟩
    rw [h1, List.map_map]
    suffices a ∈ firstSeen (((es.map dInst).flatMap (·.cps)).map (·.name)) by
      refine List.mem_map.2 ⟨a, this, rfl⟩
    rw [mem_firstSeen]
    unfold crExprs at ha
    cases hf : ((es.map dInst).flatMap (·.crs)).find? (fun c => c.name = n) with
    | none => rw [hf] at ha; cases ha
    | some c =>
      rw [hf] at ha
      have hc := List.mem_of_find?_eq_some hf
      obtain ⟨p, hp, hc⟩ := List.mem_flatMap.1 hc
      obtain ⟨e, he, rfl⟩ := List.mem_map.1 hp
      obtain ⟨y, hy, rfl⟩ := List.mem_map.1 hc
      have ha : a ∈ (within "crossExpr" y).map crossed := ha
      obtain ⟨z, hz, rfl⟩ := List.mem_map.1 ha
      obtain ⟨w, hw, e1⟩ := List.mem_map.1 (((h e he).2 y hy).1 z hz).2
      refine List.mem_map.2 ⟨dCp w, List.mem_flatMap.2 ⟨dInst e, List.mem_map_of_mem he, List.mem_map_of_mem hw⟩, e1⟩
  points x hx b hb := by
    have h1 : kids ST.COVERPOINT (buildGroup t (es.map dInst)) = _ := buildGroup_cps t _
    rw [h1] at hx
    obtain ⟨n, hn, rfl⟩ := List.mem_map.1 hx
    obtain ⟨z, hz, rfl⟩ := List.mem_map.1 (List.mem_filter.1 hb).1
    simp [mkBin]
  bins x hx b hb := by
    have h2 : kids ST.CROSS (buildGroup t (es.map dInst)) = _ := buildGroup_crosses t _
    rw [h2] at hx
    obtain ⟨n, hn, rfl⟩ := List.mem_map.1 hx
    obtain ⟨z, hz, rfl⟩ := List.mem_map.1 (List.mem_filter.1 hb).1
    simp [mkBin]

theorem insts_build (t : String) (ps : List PInst) : kids ST.COVERINSTANCE (buildGroup t ps) = ps.map PInst.scope := buildGroup_insts t ps

/-- A database read from XML can be merged. -/
theorem read_mergeable {flt : FloatText} {doc : Elem} {db : Database} (h : Xml.read flt doc = .ok db) : Mergeable db.root := by
  intro i hi
  obtain ⟨h1, h2⟩ := List.mem_filter.1 hi
  refine ⟨(read_tops h i h1).2 h2, fun g hg c hc => ?_⟩
  obtain ⟨t, es, _, hes, rfl⟩ := read_group h hi hg
  rcases List.mem_cons.1 hc with rfl | hc
  · exact linked_build (fun e he => (hes e he).1)
  · rw [insts_build, List.map_map] at hc
    obtain ⟨e, he, rfl⟩ := List.mem_map.1 hc
    exact linked_dInst (hes e he).1

/-! ## Schema-valid documents -/

/-- Where the covergroup instances of a read covergroup come from. -/
theorem read_group_from {flt : FloatText} {doc : Elem} {db : Database} (h : Xml.read flt doc = .ok db) {i g : Scope}
    (hi : i ∈ kids ST.INSTANCE db.root) (hg : g ∈ kids ST.COVERGROUP i) :
    ∃ t, ∃ es : List Elem, es ≠ [] ∧ (∀ e ∈ es, GoodGroup e ∧ typeOf e = t ∧ ∃ i ∈ within "instanceCoverages" doc,
      ∃ c ∈ within "covergroupCoverage" i, e ∈ within "cgInstance" c) ∧ g = buildGroup t (es.map dInst) := by
  have hgood := ((C37_read_accepts flt doc).1 ⟨db, h⟩).2.2
  have hm : (i.name, i.children) ∈ (kids ST.INSTANCE db.root).map (fun s => (s.name, s.children)) := List.mem_map_of_mem hi
  rw [read_insts h] at hm
  obtain ⟨n, _, hn⟩ := List.mem_map.1 hm
  have hch := (Prod.ext_iff.1 hn).2
  simp only at hch
  have hg1 : g ∈ i.children := (List.mem_filter.1 hg).1
  rw [← hch] at hg1
  obtain ⟨e, he, hg1⟩ := List.mem_flatMap.1 hg1
  obtain ⟨c, hc, hg1⟩ := List.mem_flatMap.1 hg1
  obtain ⟨t, ht, rfl⟩ := List.mem_map.1 hg1
  refine ⟨t, _, ?_, ?_, rfl⟩
  · rw [distinct_eq, mem_firstSeen] at ht
    obtain ⟨x, hx, rfl⟩ := List.mem_map.1 ht
    intro hnil
    rw [List.filter_eq_nil_iff] at hnil
    exact absurd (decide_eq_true rfl) (hnil x hx)
  · intro x hx
    obtain ⟨hx1, hx2⟩ := List.mem_filter.1 hx
    have he := (List.mem_filter.1 he).1
    exact ⟨(hgood e he).2.2 c hc x hx1, of_decide_eq_true hx2, e, he, c, hc, hx1⟩

theorem printable_const {s : String} (h : ∀ c ∈ s.toList, (32 ≤ c.toNat ∨ c.toNat = 9 ∨ c.toNat = 10 ∨ c.toNat = 13) ∧ c.toNat ≠ 0xFFFE ∧ c.toNat ≠ 0xFFFF) :
    Printable s := h

theorem contents_nonneg {e : Elem} {c : Elem} {ty : String} (hne : e.tag ≠ "contents") (h : Xsd.validE Xsd.ucisXsd e ty = true)
    (hc : (within "contents" e).head? = some c) : 0 ≤ intAttr c "coverageCount" := by
  have hv : Xsd.validE Xsd.ucisXsd c "BIN_CONTENTS" = true :=
    Xsd.typed_within h hne (by decide +kernel) (List.mem_of_mem_head? hc)
  exact nonneg_attr (Xsd.valid_inv (ct := Xsd.tBinContents) (by decide) rfl hv).1 (by decide)

theorem binOf_nonneg {b : Elem} (ht : b.tag = "coverpointBin") (h : Xsd.validE Xsd.ucisXsd b "COVERPOINT_BIN" = true) :
    0 ≤ (binOf b).2.2 := by
  unfold binOf
  simp only
  cases hc : binContents b with
  | none => simp
  | some c =>
    show 0 ≤ intAttr c "coverageCount"
    unfold binContents at hc
    obtain ⟨s, hs, hc⟩ := Option.bind_eq_some_iff.1 hc
    rw [Option.or_eq_some_iff] at hs
    rcases hs with hs | ⟨_, hs⟩
    · have hs := List.mem_of_mem_head? hs
      have := Xsd.typed_within h (by rw [ht]; decide) (t := "sequence") (ty' := "SEQUENCE") (by decide +kernel) hs
      exact contents_nonneg (by rw [Xsd.tag_within hs]; decide) this hc
    · have hs := List.mem_of_mem_head? hs
      have := Xsd.typed_within h (by rw [ht]; decide) (t := "range") (ty' := "RANGE_VALUE") (by decide +kernel) hs
      exact contents_nonneg (by rw [Xsd.tag_within hs]; decide) this hc

theorem crossBinOf_nonneg {b : Elem} (ht : b.tag = "crossBin") (h : Xsd.validE Xsd.ucisXsd b "CROSS_BIN" = true) :
    0 ≤ (crossBinOf b).2.2 := by
  unfold crossBinOf
  simp only
  cases hc : (within "contents" b).head? with
  | none => simp
  | some c =>
    show 0 ≤ intAttr c "coverageCount"
    exact contents_nonneg (by rw [ht]; decide) h hc

/-- A part of a sequence that is required occurs. -/
theorem required_within {e : Elem} {ty : String} {ct : Xsd.CType} (hs : Xsd.simpleOf ty = none) (ht : Dict.get? Xsd.ucisXsd.types ty = some ct)
    {n ty' : String} (hp : [(⟨n, ty', 1, none⟩ : Xsd.Occ)] ∈ ct.parts) (h : Xsd.validE Xsd.ucisXsd e ty = true) : within n e ≠ [] := by
  obtain ⟨_, _, h3⟩ := Xsd.valid_inv hs ht h
  obtain ⟨o, ho, c, hc, e1⟩ := h3 _ hp (by simp)
  rw [List.mem_singleton] at ho
  subst ho
  exact List.ne_nil_of_mem (Xsd.mem_within_child hc e1)

theorem storable_dInst {doc e : Elem} (hpd : PrintableDoc doc) (hb : NoBlankCross doc) (hm : e ∈ within "cgInstance" doc)
    (hv : Xsd.validE Xsd.ucisXsd e "CGINSTANCE" = true) (hg : GoodGroup e) : Storable (dInst e).scope := by
  have hte := Xsd.tag_within hm
  have hun : Printable "<unknown>" := by unfold Printable; decide
  have hde : Printable "default" := by unfold Printable; decide
  have hvp : ∀ p ∈ within "coverpoint" e, Xsd.validE Xsd.ucisXsd p "COVERPOINT" = true := fun p hp =>
    Xsd.typed_within hv (by rw [hte]; decide) (by decide +kernel) hp
  refine ⟨printable_attr hpd (within_pre hm) _ hun, ?_, fun p hp => ?_, fun x hx => ?_⟩
  · rw [kids_inst_cp]
    have := required_within (n := "coverpoint") (ty' := "COVERPOINT") (ct := Xsd.tCginstance) (by decide) rfl (by simp [Xsd.tCginstance]) hv
    simpa [dInst] using this
  · rw [kids_inst_cp] at hp
    obtain ⟨c, hc, rfl⟩ := List.mem_map.1 hp
    obtain ⟨y, hy, rfl⟩ := List.mem_map.1 hc
    have hk : ∀ b ∈ (mkCoverpoint (dCp y).name SrcInfo.none 1 (dCp y).bins).items, IsKind b.kind := by
      intro b hb
      obtain ⟨z, hz, rfl⟩ := List.mem_map.1 hb
      exact kind_binOf (hg.1 y hy z hz)
    rw [covBins_all hk]
    refine ⟨printable_attr hpd (within_pre (within_trans hm hy)) _ hun, ?_, fun b hb => ⟨?_, hk b hb, ?_⟩⟩
    · have := required_within (n := "coverpointBin") (ty' := "COVERPOINT_BIN") (ct := Xsd.tCoverpoint) (by decide) rfl (by simp [Xsd.tCoverpoint]) (hvp y hy)
      simpa [mkCoverpoint, dCp] using this
    · obtain ⟨z, hz, rfl⟩ := List.mem_map.1 hb
      exact printable_attr hpd (within_pre (within_trans (within_trans hm hy) hz)) _ hun
    · obtain ⟨z, hz, rfl⟩ := List.mem_map.1 hb
      exact binOf_nonneg (Xsd.tag_within hz) (Xsd.typed_within (hvp y hy) (by rw [Xsd.tag_within hy]; decide) (by decide +kernel) hz)
  · rw [kids_inst_cross] at hx
    obtain ⟨c, hc, rfl⟩ := List.mem_map.1 hx
    obtain ⟨y, hy, rfl⟩ := List.mem_map.1 hc
    have hvx : Xsd.validE Xsd.ucisXsd y "CROSS" = true := Xsd.typed_within hv (by rw [hte]; decide) (by decide +kernel) hy
    refine ⟨printable_attr hpd (within_pre (within_trans hm hy)) _ hun, fun b hb => ?_, fun n hn => ?_⟩
    · obtain ⟨z, hz, rfl⟩ := List.mem_map.1 (List.mem_filter.1 hb).1
      refine ⟨printable_attr hpd (within_pre (within_trans (within_trans hm hy) hz)) _ hde, ?_⟩
      exact crossBinOf_nonneg (Xsd.tag_within hz) (Xsd.typed_within hvx (by rw [Xsd.tag_within hy]; decide) (by decide +kernel) hz)
    · have hn : n ∈ (within "crossExpr" y).map crossed := hn
      obtain ⟨z, hz, rfl⟩ := List.mem_map.1 hn
      have hzd := within_trans (within_trans hm hy) hz
      refine ⟨printable_crossed hpd (within_pre hzd), hb z hzd, ?_⟩
      have e1 : String.ofList (PyNum.stripL (crossed z).toList) = crossed z := stripS_crossed z
      rw [e1, kids_inst_cp]
      simpa [dInst, mkCoverpoint, dCp, Function.comp_def] using ((hg.2 y hy).1 z hz).2

/-- A database read from a schema-valid document is tidy. -/
theorem read_tidy {flt : FloatText} {doc : Elem} {db : Database} (h : factoryRead flt doc = .ok db) (hpd : PrintableDoc doc)
    (hb : NoBlankCross doc) : Tidy db.root := by
  obtain ⟨hv, hr⟩ := factoryRead_ok.1 h
  have hme := read_mergeable hr
  unfold Xsd.valid at hv
  rw [Bool.and_eq_true, beq_iff_eq] at hv
  obtain ⟨htag, hv⟩ := hv
  have htag : doc.tag = "UCIS" := htag
  refine ⟨fun i hi => ⟨?_, (hme i hi).1, fun g hg => ?_⟩, ?_⟩
  · have hm : (i.name, i.children) ∈ (kids ST.INSTANCE db.root).map (fun s => (s.name, s.children)) := List.mem_map_of_mem hi
    rw [read_insts hr] at hm
    obtain ⟨n, hn, e⟩ := List.mem_map.1 hm
    rw [distinct_eq, mem_firstSeen] at hn
    obtain ⟨x, hx, rfl⟩ := List.mem_map.1 hn
    have e1 : (attr x "name").getD "" = i.name := (Prod.ext_iff.1 e).1
    rw [← e1]
    exact printable_attr hpd (within_pre hx) _ (by unfold Printable; decide)
  · obtain ⟨t, es, hne, hes, rfl⟩ := read_group_from hr hi hg
    have hin : ∀ e ∈ es, e ∈ within "cgInstance" doc := by
      intro e he
      obtain ⟨_, _, i, hi, c, hc, hx⟩ := hes e he
      exact within_trans (within_trans hi hc) hx
    refine ⟨?_, (hme i hi).2 _ hg, fun c hc => ?_⟩
    · obtain ⟨e, he⟩ := List.exists_mem_of_ne_nil _ hne
      show Printable t
      rw [← (hes e he).2.1]
      unfold typeOf
      cases hw : (within "cgId" e).head? with
      | none => show Printable "default"; unfold Printable; decide
      | some x =>
        exact printable_attr hpd (within_pre (within_trans (hin e he) (List.mem_of_mem_head? hw))) _ (by unfold Printable; decide)
    · rw [writtenGroups_build (by simpa using hne), List.map_map] at hc
      obtain ⟨e, he, rfl⟩ := List.mem_map.1 hc
      refine storable_dInst hpd hb (hin e he) ?_ (hes e he).1
      exact Xsd.typed_within hv (by rw [htag]; decide) (by decide +kernel) (hin e he)
  · intro s hs
    have aux : ∀ l : List Scope, (∀ c ∈ l, TidyTree c) → ∀ x ∈ subtreesL l, TidyFile x := by
      intro l
      induction l with
      | nil => intro _ x hx; cases hx
      | cons a t ih =>
        intro h x hx
        rw [subtreesL_cons, List.mem_append] at hx
        rcases hx with hx | hx
        · exact h a List.mem_cons_self x hx
        · exact ih (fun c hc => h c (List.mem_cons_of_mem _ hc)) x hx
    exact aux _ (fun c hc => (read_tops hr c hc).1) s hs

end Verif
