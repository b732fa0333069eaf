import Verif.XmlWriteClosed
import Verif.XmlReadClosed
/-!
# Reading a written document
-/

namespace Verif
namespace Xml
open PyNum Spec

def stripS (s : String) : String := String.ofList (stripL s.toList)

/-- All crosses of a written group can be resolved by the reader. -/
def Resolvable (g : Scope) : Prop :=
  ∀ cr ∈ kids ST.CROSS g, ∀ n ∈ cr.cps.getD [], n ≠ "" ∧ stripS n ∈ (kids ST.COVERPOINT g).map (·.name)

def pCp (c : Scope) : PCp := ⟨c.name, (covBins c).map (fun i => mkBin i.name i.kind 1 i.count)⟩
def pCr (c : Scope) : PCr := ⟨c.name, (c.cps.getD []).map stripS, (covBins c).map (fun i => mkBin i.name CT.CVGBIN 1 i.count)⟩
def pInst (g : Scope) : PInst := ⟨g.name, (kids ST.COVERPOINT g).map pCp, (kids ST.CROSS g).map pCr⟩

/-! ## Iteration over written elements -/

theorem iter_eBin (i : Item) : iter "coverpointBin" (eBin i) = [eBin i] := by
  simp [eBin, eContents, iter, iterL]
theorem iter_eBin_other {t : String} (h1 : "coverpointBin" ≠ t) (h2 : "range" ≠ t) (h3 : "contents" ≠ t) (i : Item) :
    iter t (eBin i) = [] := by
  simp [eBin, eContents, iter, iterL, h1, h2, h3]
theorem iter_eCrossBin (i : Item) : iter "crossBin" (eCrossBin i) = [eCrossBin i] := by
  simp [eCrossBin, eContents, iter, iterL]
theorem iter_eCrossBin_other {t : String} (h1 : "crossBin" ≠ t) (h2 : "index" ≠ t) (h3 : "contents" ≠ t) (i : Item) :
    iter t (eCrossBin i) = [] := by
  simp [eCrossBin, eContents, iter, iterL, h1, h2, h3]
theorem iter_eExpr (f : String → Option String) (n : String) : iter "crossExpr" (eExpr f n) = [eExpr f n] := by
  simp [eExpr, iter, iterL]
theorem iter_eExpr_other (f : String → Option String) {t : String} (h1 : "crossExpr" ≠ t) (n : String) : iter t (eExpr f n) = [] := by
  simp [eExpr, iter, iterL, h1]

theorem flatMap_single {α β : Type} (f : α → β) (l : List α) : l.flatMap (fun x => [f x]) = l.map f := by
  induction l with
  | nil => rfl
  | cons a t ih => simp [ih]

theorem flatMap_empty {α β : Type} (l : List α) : l.flatMap (fun _ => ([] : List β)) = [] := by
  simp

/-- Tags that do not occur inside a written coverpoint or cross. -/
def Outer (t : String) : Prop :=
  "coverpoint" ≠ t ∧ "options" ≠ t ∧ "coverpointBin" ≠ t ∧ "range" ≠ t ∧ "contents" ≠ t ∧ "cross" ≠ t ∧ "crossExpr" ≠ t ∧
  "crossBin" ≠ t ∧ "index" ≠ t

theorem iter_eCp_bins (c : Scope) : iter "coverpointBin" (eCp c) = (covBins c).map eBin := by
  simp [eCp, optionsElem, iter, iterL, iterL_map, iter_eBin, flatMap_single]
theorem iter_eCp_self (c : Scope) : iter "coverpoint" (eCp c) = [eCp c] := by
  simp [eCp, optionsElem, iter, iterL, iterL_map, iter_eBin_other]
theorem iter_eCp_cross (c : Scope) : iter "cross" (eCp c) = [] := by
  simp [eCp, optionsElem, iter, iterL, iterL_map, iter_eBin_other]
theorem iter_eCp_outer {t : String} (h : Outer t) (c : Scope) : iter t (eCp c) = [] := by
  obtain ⟨h1, h2, h3, h4, h5, _⟩ := h
  simp [eCp, optionsElem, iter, iterL, iterL_map, iter_eBin_other h3 h4 h5, h1, h2]

theorem iter_eCross_bins (f : String → Option String) (c : Scope) : iter "crossBin" (eCross f c) = (covBins c).map eCrossBin := by
  simp [eCross, optionsElem, iter, iterL, iterL_append, iterL_map, iter_eCrossBin, flatMap_single, iter_eExpr_other]
theorem iter_eCross_exprs (f : String → Option String) (c : Scope) : iter "crossExpr" (eCross f c) = (c.cps.getD []).map (eExpr f) := by
  simp [eCross, optionsElem, iter, iterL, iterL_append, iterL_map, iter_eCrossBin_other, flatMap_single, iter_eExpr]
theorem iter_eCross_self (f : String → Option String) (c : Scope) : iter "cross" (eCross f c) = [eCross f c] := by
  simp [eCross, optionsElem, iter, iterL, iterL_append, iterL_map, iter_eCrossBin_other, iter_eExpr_other]
theorem iter_eCross_cp (f : String → Option String) (c : Scope) : iter "coverpoint" (eCross f c) = [] := by
  simp [eCross, optionsElem, iter, iterL, iterL_append, iterL_map, iter_eCrossBin_other, iter_eExpr_other]
theorem iter_eCross_outer (f : String → Option String) {t : String} (h : Outer t) (c : Scope) : iter t (eCross f c) = [] := by
  obtain ⟨_, h2, _, _, h5, h6, h7, h8, h9⟩ := h
  simp [eCross, optionsElem, iter, iterL, iterL_append, iterL_map, iter_eCrossBin_other h8 h9 h5, iter_eExpr_other f h7, h6, h2]

theorem iter_eGroup_cps (f : String → Option String) (n : String) (g : Scope) :
    iter "coverpoint" (eGroup f n g) = (kids ST.COVERPOINT g).map eCp := by
  simp [eGroup, eCgId, sourceIdElem, optionsElem, iter, iterL, iterL_append, iterL_map, iter_eCp_self, iter_eCross_cp, flatMap_single]
theorem iter_eGroup_crs (f : String → Option String) (n : String) (g : Scope) :
    iter "cross" (eGroup f n g) = (kids ST.CROSS g).map (eCross f) := by
  simp [eGroup, eCgId, sourceIdElem, optionsElem, iter, iterL, iterL_append, iterL_map, iter_eCp_cross, iter_eCross_self, flatMap_single]
theorem iter_eGroup_cgId (f : String → Option String) (n : String) (g : Scope) : iter "cgId" (eGroup f n g) = [eCgId n] := by
  have h : Outer "cgId" := by unfold Outer; decide
  simp [eGroup, eCgId, sourceIdElem, optionsElem, iter, iterL, iterL_append, iterL_map, iter_eCp_outer h, iter_eCross_outer f h]
theorem iter_eGroup_self (f : String → Option String) (n : String) (g : Scope) : iter "cgInstance" (eGroup f n g) = [eGroup f n g] := by
  have h : Outer "cgInstance" := by unfold Outer; decide
  simp [eGroup, eCgId, sourceIdElem, optionsElem, iter, iterL, iterL_append, iterL_map, iter_eCp_outer h, iter_eCross_outer f h]

/-- Tags that do not occur inside a written cgInstance. -/
def Outer2 (t : String) : Prop :=
  Outer t ∧ "cgInstance" ≠ t ∧ "cgId" ≠ t ∧ "cginstSourceId" ≠ t ∧ "cgSourceId" ≠ t

theorem iter_eGroup_outer (f : String → Option String) {t : String} (h : Outer2 t) (n : String) (g : Scope) : iter t (eGroup f n g) = [] := by
  obtain ⟨h, h1, h2, h3, h4⟩ := h
  have h5 := h.2.1
  simp [eGroup, eCgId, sourceIdElem, optionsElem, iter, iterL, iterL_append, iterL_map, iter_eCp_outer h, iter_eCross_outer f h,
    h1, h2, h3, h4, h5]

theorem iter_eCg_insts (f : String → Option String) (g : Scope) :
    iter "cgInstance" (eCg f g) = (writtenGroups g).map (eGroup f g.name) := by
  simp [eCg, iter, iterL_map, iter_eGroup_self, flatMap_single]
theorem iter_eCg_self (f : String → Option String) (g : Scope) : iter "covergroupCoverage" (eCg f g) = [eCg f g] := by
  have h : Outer2 "covergroupCoverage" := by unfold Outer2 Outer; decide
  simp [eCg, iter, iterL_map, iter_eGroup_outer f h]
theorem iter_eCg_outer (f : String → Option String) {t : String} (h : Outer2 t) (h1 : "covergroupCoverage" ≠ t) (g : Scope) :
    iter t (eCg f g) = [] := by
  simp [eCg, iter, iterL_map, iter_eGroup_outer f h, h1]

theorem iter_eInst_cgs (f : String → Option String) (i : Scope) :
    iter "covergroupCoverage" (eInst f i) = (kids ST.COVERGROUP i).map (eCg f) := by
  simp [eInst, idElem, iter, iterL, iterL_map, iter_eCg_self, flatMap_single]
theorem iter_eInst_id (f : String → Option String) (i : Scope) : iter "id" (eInst f i) = [idElem] := by
  have h : Outer2 "id" := by unfold Outer2 Outer; decide
  simp [eInst, idElem, iter, iterL, iterL_map, iter_eCg_outer f h]
theorem iter_eInst_self (f : String → Option String) (i : Scope) : iter "instanceCoverages" (eInst f i) = [eInst f i] := by
  have h : Outer2 "instanceCoverages" := by unfold Outer2 Outer; decide
  simp [eInst, idElem, iter, iterL, iterL_map, iter_eCg_outer f h]
theorem iter_eInst_outer (f : String → Option String) {t : String} (h : Outer2 t) (h1 : "covergroupCoverage" ≠ t)
    (h2 : "instanceCoverages" ≠ t) (h3 : "id" ≠ t) (i : Scope) : iter t (eInst f i) = [] := by
  simp [eInst, idElem, iter, iterL, iterL_map, iter_eCg_outer f h h1, h2, h3]

theorem iterL_eHists (flt : FloatText) (t : String) (k : Nat) (l : List Hist) :
    iterL t (eHists flt k l) = if t = "historyNodes" then eHists flt k l else [] := by
  induction l generalizing k with
  | nil => simp [eHists, iterL]
  | cons a r ih =>
    simp only [eHists, iterL, ih, eHist, iter]
    by_cases h : t = "historyNodes"
    · simp [h]
    · simp [h, Ne.symm h]

theorem iterL_eHistory (env : Env) (t : String) (l : List Hist) :
    iterL t (eHistory env l) = if t = "historyNodes" then eHistory env l else [] := by
  unfold eHistory
  cases l with
  | nil =>
    by_cases h : t = "historyNodes"
    · simp [h, iterL, iter, eDummy]
    · simp [h, iterL, iter, eDummy, Ne.symm h]
  | cons a r => exact iterL_eHists _ _ _ _

theorem iter_eDoc_insts (f : String → Option String) (env : Env) (db : Database) :
    iter "instanceCoverages" (eDoc f env db) = (kids ST.INSTANCE db.root).map (eInst f) := by
  simp [eDoc, iter, iterL, iterL_append, iterL_map, iter_eInst_self, iterL_eHistory, eFile, flatMap_single]
theorem iter_eDoc_files (f : String → Option String) (env : Env) (db : Database) :
    iter "sourceFiles" (eDoc f env db) = (fileTable db.root).map eFile := by
  have h : Outer2 "sourceFiles" := by unfold Outer2 Outer; decide
  simp only [eDoc, iter, iterL_append, iterL_map, iter_eInst_outer f h (by decide) (by decide) (by decide), iterL_eHistory, flatMap_empty]
  simp [eFile, iter, iterL, flatMap_single, Function.comp_def]
theorem iter_eDoc_hist (f : String → Option String) (env : Env) (db : Database) :
    iter "historyNodes" (eDoc f env db) = eHistory env db.hist := by
  have h : Outer2 "historyNodes" := by unfold Outer2 Outer; decide
  simp only [eDoc, iter, iterL_append, iterL_map, iter_eInst_outer f h (by decide) (by decide) (by decide), iterL_eHistory, flatMap_empty]
  simp [eFile, iter, iterL]

/-! ## Parsing -/

theorem getInt_contents (z : Int) : (eContents z).getInt "coverageCount" = .ok z := by
  unfold Elem.getInt Elem.getE eContents Dict.getE
  exact parseInt_strInt z

theorem readKind_kindText {k : Nat} (h : IsKind k) : readKind (kindText k) = .ok k := by
  rcases h with rfl | rfl | rfl <;> rfl

theorem readBin_eBin {i : Item} (h : IsKind i.kind) : readBin (eBin i) = .ok (mkBin i.name i.kind 1 i.count) := by
  have h1 : next? (eBin i) "sequence" = none := by
    simp [next?, eBin, eContents, iter, iterL]
  have h2 : next? (eBin i) "range" = some ⟨"range", [("from", "-1"), ("to", "-1")], none, [eContents i.count]⟩ := by
    simp [next?, eBin, eContents, iter, iterL]
  have h3 : nextE ⟨"range", [("from", "-1"), ("to", "-1")], none, [eContents i.count]⟩ "contents" = .ok (eContents i.count) := by
    simp [nextE, eContents, iter, iterL]
  have h4 : (eBin i).getD "type" "default" = kindText i.kind := rfl
  have h5 : (eBin i).getD "name" "<unknown>" = i.name := rfl
  unfold readBin contentsE
  rw [h1, h2]
  simp only [h3, h4, h5]
  show (do
    let kind ← readKind (kindText i.kind)
    let count ← (eContents i.count).getInt "coverageCount"
    pure (mkBin i.name kind 1 count)) = _
  rw [readKind_kindText h, getInt_contents]
  rfl

theorem readCrossBin_eCrossBin (i : Item) : readCrossBin (eCrossBin i) = .ok (mkBin i.name CT.CVGBIN 1 i.count) := by
  have h3 : nextE (eCrossBin i) "contents" = .ok (eContents i.count) := by
    simp [nextE, eCrossBin, eContents, iter, iterL]
  have h5 : (eCrossBin i).getD "name" "default" = i.name := rfl
  unfold readCrossBin
  rw [h3, h5]
  show (do
    let count ← (eContents i.count).getInt "coverageCount"
    pure (mkBin i.name CT.CVGBIN 1 count)) = _
  rw [getInt_contents]
  rfl

theorem parseCp_eCp {c : Scope} (h : WritableCp c) : parseCp (eCp c) = .ok (pCp c) := by
  unfold parseCp
  rw [iter_eCp_bins, Ex.mapM_map', Ex.mapM_of_ok (g := fun i => mkBin i.name i.kind 1 i.count)
    (fun i hi => readBin_eBin (h.2 i hi).2)]
  rfl

theorem resolve_eCross (K : List String) (c : Scope) (r : List String) :
    resolve K (eCross textOf c) = .ok r ↔ (∀ n ∈ c.cps.getD [], n ≠ "" ∧ stripS n ∈ K) ∧ r = (c.cps.getD []).map stripS := by
  unfold resolve
  rw [iter_eCross_exprs, Ex.mapM_map']
  refine Ex.mapM_iff (fun n _ y => ?_) r
  simp only [exprName, show (eExpr textOf n).text = textOf n from rfl, textOf]
  by_cases hn : n = ""
  · simp [hn, Ex.bind_ok]
  · simp only [hn, if_false, Ex.bind_ok]
    constructor
    · rintro ⟨m, hm, h⟩
      cases hm
      split at h
      · rename_i hk; exact ⟨⟨hn, hk⟩, (Ex.pure_ok.1 h).symm⟩
      · cases h
    · rintro ⟨⟨_, hk⟩, rfl⟩
      exact ⟨_, rfl, by rw [if_pos (show String.ofList (stripL n.toList) ∈ K from hk)]; rfl⟩

theorem parseCr_eCross (K : List String) (c : Scope) (p : PCr) :
    parseCr K (eCross textOf c) = .ok p ↔ (∀ n ∈ c.cps.getD [], n ≠ "" ∧ stripS n ∈ K) ∧ p = pCr c := by
  unfold parseCr
  simp only [Ex.bind_ok, Ex.pure_ok, resolve_eCross]
  rw [iter_eCross_bins, Ex.mapM_map', Ex.mapM_of_ok (g := fun i => mkBin i.name CT.CVGBIN 1 i.count)
    (fun i _ => readCrossBin_eCrossBin i)]
  constructor
  · rintro ⟨_, ⟨h, rfl⟩, _, hb, rfl⟩; cases hb; exact ⟨h, rfl⟩
  · rintro ⟨h, rfl⟩; exact ⟨_, ⟨h, rfl⟩, _, rfl, rfl⟩

theorem parseInst_eGroup {g : Scope} (hw : WritableGroup g) (n : String) (p : PInst) :
    parseInst (eGroup textOf n g) = .ok p ↔ Resolvable g ∧ p = pInst g := by
  unfold parseInst Resolvable
  simp only [Ex.bind_ok, Ex.pure_ok]
  simp only [iter_eGroup_cps, iter_eGroup_crs, Ex.mapM_map']
  rw [Ex.mapM_of_ok (g := pCp) (fun c hc => parseCp_eCp (hw.2.1 c hc))]
  have hn : (((kids ST.COVERPOINT g).map pCp).map (·.name)) = (kids ST.COVERPOINT g).map (·.name) := by
    simp [Function.comp_def, pCp]
  constructor
  · rintro ⟨cps, hcps, crs, hcrs, rfl⟩
    cases hcps
    rw [hn] at hcrs
    obtain ⟨h1, rfl⟩ := (Ex.mapM_iff (fun c _ y => parseCr_eCross _ c y) crs).1 hcrs
    exact ⟨h1, rfl⟩
  · rintro ⟨h, rfl⟩
    refine ⟨_, rfl, _, ?_, rfl⟩
    rw [hn]
    exact (Ex.mapM_iff (fun c _ y => parseCr_eCross _ c y) _).2 ⟨h, rfl⟩

theorem typeName_eGroup (f : String → Option String) (n : String) (g : Scope) : typeName (eGroup f n g) = n := by
  unfold typeName next?
  rw [iter_eGroup_cgId]
  rfl

/-- The covergroup read back. -/
def rCg (g : Scope) : Scope := buildGroup g.name ((writtenGroups g).map pInst)

theorem firstSeen_const {n : String} : ∀ {l : List String}, l ≠ [] → (∀ x ∈ l, x = n) → firstSeen l = [n] := by
  intro l
  induction l using List.reverseRecOn with
  | nil => intro h; exact absurd rfl h
  | append_singleton t a ih =>
    intro _ h
    have ha := h a (by simp)
    subst ha
    rw [firstSeen_concat]
    by_cases ht : t = []
    · subst ht; simp
    · rw [ih ht (fun x hx => h x (by simp [hx]))]
      obtain ⟨b, hb⟩ := List.exists_mem_of_ne_nil t ht
      have := h b (by simp [hb])
      subst this
      simp [hb]

theorem readCovergroups_eCg {g : Scope} (hw : WritableCg g) (r : List Scope) :
    readCovergroups (eCg textOf g) = .ok r ↔ (∀ c ∈ writtenGroups g, Resolvable c) ∧ r = [rCg g] := by
  unfold readCovergroups
  have ht : ((writtenGroups g).map (eGroup textOf g.name)).map typeName = (writtenGroups g).map (fun _ => g.name) := by
    rw [List.map_map]
    exact List.map_congr_left (fun c _ => typeName_eGroup _ _ _)
  have hf : firstSeen ((writtenGroups g).map (fun _ => g.name)) = [g.name] := by
    apply firstSeen_const
    · simpa using writtenGroups_ne_nil g
    · intro x hx; simp at hx; exact hx.2
  rw [iter_eCg_insts, groupTypes_closed, ht, hf]
  have hfil : ((writtenGroups g).map (eGroup textOf g.name)).filter (fun e => typeName e = g.name)
      = (writtenGroups g).map (eGroup textOf g.name) := by
    rw [List.filter_eq_self]
    intro e he
    obtain ⟨c, _, rfl⟩ := List.mem_map.1 he
    simp [typeName_eGroup]
  simp only [List.map_cons, List.map_nil, hfil]
  rw [Ex.mapM_cons_ok]
  simp only [readCovergroup_ok, Ex.mapM_map']
  have hps := fun ps => Ex.mapM_iff (l := writtenGroups g) (fun c hc y => parseInst_eGroup (hw.2 c hc) g.name y) ps
  constructor
  · rintro ⟨b, bs, ⟨ps, h1, rfl⟩, h2, rfl⟩
    obtain ⟨k1, rfl⟩ := (hps ps).1 h1
    rw [Ex.mapM_nil] at h2
    cases h2
    exact ⟨k1, rfl⟩
  · rintro ⟨h, rfl⟩
    exact ⟨_, [], ⟨_, (hps _).2 ⟨h, rfl⟩, rfl⟩, rfl, rfl⟩

theorem readStatementId_id {files : List Int} (h : (1 : Int) ∈ files) : readStatementId files idElem = .ok () := by
  have h1 : parseInt "1" = .ok 1 := parseInt_strInt 1
  unfold readStatementId Elem.getInt Elem.getE idElem Dict.getE
  simp only [Dict.get?, if_true]
  show (do
    let f ← parseInt "1"
    let _ ← parseInt "1"
    let _ ← parseInt "1"
    if f ∈ files then pure () else Except.error Err.keyError) = _
  rw [h1]
  show (if (1 : Int) ∈ files then pure () else Except.error Err.keyError) = _
  rw [if_pos h]; rfl

theorem readInstance_eInst {files : List Int} (hf : (1 : Int) ∈ files) {i : Scope} (hw : WritableInst i) (tops r : List Scope) :
    readInstance files tops (eInst textOf i) = .ok r ↔ (∀ g ∈ kids ST.COVERGROUP i, ∀ c ∈ writtenGroups g, Resolvable c) ∧
      r = addInst i.name "default" ((kids ST.COVERGROUP i).map rCg) (addModule "default" tops) := by
  unfold readInstance
  rw [iter_eInst_id, iter_eInst_cgs]
  have hm : (eInst textOf i).getD "moduleName" "default" = "default" := rfl
  have hn : (eInst textOf i).getE "name" = .ok i.name := rfl
  have hid : [idElem].mapM (readStatementId files) = .ok [()] :=
    Ex.mapM_cons_ok.2 ⟨(), [], readStatementId_id hf, rfl, rfl⟩
  rw [hm, hn, hid, Ex.mapM_map']
  simp only [Ex.bind_ok, Ex.pure_ok, Except.ok.injEq, exists_eq_left']
  have hcg := fun r => Ex.mapM_iff (l := kids ST.COVERGROUP i) (fun c hc y => readCovergroups_eCg (hw.2 c hc) y) r
  have hfl : ∀ l : List Scope, (l.map (fun g => [rCg g])).flatten = l.map rCg := by
    intro l; induction l with
    | nil => rfl
    | cons a t ih => simp [ih]
  constructor
  · rintro ⟨cgs, h1, rfl⟩
    obtain ⟨k1, rfl⟩ := (hcg cgs).1 h1
    exact ⟨k1, by rw [hfl]⟩
  · rintro ⟨h, rfl⟩
    exact ⟨_, (hcg _).2 ⟨h, rfl⟩, by rw [hfl]⟩

/-- The children of the root read back. -/
def rTops (l : List Scope) : List Scope :=
  l.foldl (fun t i => addInst i.name "default" ((kids ST.COVERGROUP i).map rCg) (addModule "default" t)) []

theorem readInsts {files : List Int} (hf : (1 : Int) ∈ files) {l : List Scope} (hw : ∀ i ∈ l, WritableInst i) (tops r : List Scope) :
    (l.map (eInst textOf)).foldlM (readInstance files) tops = .ok r ↔
      (∀ i ∈ l, ∀ g ∈ kids ST.COVERGROUP i, ∀ c ∈ writtenGroups g, Resolvable c) ∧
      r = l.foldl (fun t i => addInst i.name "default" ((kids ST.COVERGROUP i).map rCg) (addModule "default" t)) tops := by
  induction l generalizing tops with
  | nil => simp [pure, Except.pure, eq_comm]
  | cons a t ih =>
    rw [List.map_cons, List.foldlM_cons, Ex.bind_ok]
    simp only [readInstance_eInst hf (hw a (by simp)), List.forall_mem_cons, List.foldl_cons]
    constructor
    · rintro ⟨_, ⟨h1, rfl⟩, h2⟩
      obtain ⟨k2, rfl⟩ := (ih (fun i hi => hw i (by simp [hi])) _).1 h2
      exact ⟨⟨h1, k2⟩, rfl⟩
    · rintro ⟨⟨h1, h2⟩, rfl⟩
      exact ⟨_, ⟨h1, rfl⟩, (ih (fun i hi => hw i (by simp [hi])) _).2 ⟨h2, rfl⟩⟩

/-! ## History -/

/-- What the library assumes of number formatting: `float(str(x)) == x`. -/
structure FloatOk (flt : FloatText) : Prop where
  round : ∀ x, flt.read (flt.show_ x) = some x
  zero : flt.read "0" = some 0

theorem get?_append {α : Type} (l m : Dict α) (k : String) : Dict.get? (l ++ m) k = (Dict.get? l k).or (Dict.get? m k) := by
  induction l with
  | nil => simp
  | cons a t ih =>
    obtain ⟨k', v⟩ := a
    simp only [List.cons_append, Dict.get?]
    split
    · simp
    · exact ih

theorem get?_eOpt (n : String) (o : Option String) (k : String) : Dict.get? (eOpt n o) k = if n = k then o else none := by
  cases o <;> simp [eOpt, Dict.get?]

theorem get?_eNum (flt : FloatText) (n : String) (x : Rat) (k : String) :
    Dict.get? (eNum flt n x) k = if n = k then (if 0 ≤ x then some (flt.show_ x) else none) else none := by
  unfold eNum
  split <;> simp [Dict.get?]

theorem get?_eInt (n : String) (z : Int) (k : String) :
    Dict.get? (eInt n z) k = if n = k then (if 0 ≤ z then some (strInt z) else none) else none := by
  unfold eInt
  split <;> simp [Dict.get?]

/-- The date read back. -/
def rDate : DateVal → DateVal
  | .stamp t => .stamp t
  | .text s =>
    match DateTime.strptime DateTime.compactFmt s.toList with
    | .ok d => .text (String.ofList (DateTime.compact d))
    | .error _ => .text s

/-- The history node read back. -/
def rHist (h : Hist) : Hist :=
  { h with
    status := if h.status ≠ 0 then 1 else 0
    simTime := if 0 ≤ h.simTime then h.simTime else -1
    cpuTime := if 0 ≤ h.cpuTime then h.cpuTime else -1
    cost := if 0 ≤ h.cost then h.cost else -1
    date := rDate h.date
    ucisVersion := "1.0"
    sameTests := if 0 ≤ h.sameTests then h.sameTests else -1 }

theorem fromIso_isoOf {d : DateVal} (h : DateOk d) : ∃ s, DateTime.fromIso (isoOf d) = .ok s ∧ rDate d = .text s := by
  obtain ⟨s, t, rfl, ht⟩ := h
  unfold isoOf rDate DateTime.fromIso
  simp only [ht, String.toList_ofList]
  rw [DateTime.strptime_iso (DateTime.strptime_ok ht)]
  exact ⟨_, rfl, rfl⟩

theorem readHist_eHist {flt : FloatText} (hflt : FloatOk flt) {h : Hist} (hw : WritableHist flt h) (i : Nat) :
    readHist flt (eHist flt i h) = .ok (rHist h) := by
  obtain ⟨⟨ln, hln, _⟩, _, _, _, _, _, _, _, _, _, _, hd, _⟩ := hw
  obtain ⟨ds, hds, hrd⟩ := fromIso_isoOf hd
  have g : ∀ k, (eHist flt i h).get k = Dict.get? (eHist flt i h).attrs k := fun _ => rfl
  have f1 : floatIf flt (eHist flt i h) "simtime" (-1) = .ok (if 0 ≤ h.simTime then h.simTime else -1) := by
    have : (eHist flt i h).get "simtime" = if 0 ≤ h.simTime then some (flt.show_ h.simTime) else none := by
      rw [g]; simp [eHist, Dict.get?, get?_append, get?_eOpt, get?_eNum, get?_eInt]
    unfold floatIf; rw [this]
    by_cases h0 : 0 ≤ h.simTime <;> simp [h0, hflt.round]
  have f2 : floatIf flt (eHist flt i h) "cpuTime" (-1) = .ok (if 0 ≤ h.cpuTime then h.cpuTime else -1) := by
    have : (eHist flt i h).get "cpuTime" = if 0 ≤ h.cpuTime then some (flt.show_ h.cpuTime) else none := by
      rw [g]; simp [eHist, Dict.get?, get?_append, get?_eOpt, get?_eNum, get?_eInt]
    unfold floatIf; rw [this]
    by_cases h0 : 0 ≤ h.cpuTime <;> simp [h0, hflt.round]
  have f3 : floatIf flt (eHist flt i h) "cost" (-1) = .ok (if 0 ≤ h.cost then h.cost else -1) := by
    have : (eHist flt i h).get "cost" = if 0 ≤ h.cost then some (flt.show_ h.cost) else none := by
      rw [g]; simp [eHist, Dict.get?, get?_append, get?_eOpt, get?_eNum, get?_eInt]
    unfold floatIf; rw [this]
    by_cases h0 : 0 ≤ h.cost <;> simp [h0, hflt.round]
  have f4 : intIf (eHist flt i h) "sameTests" (-1) = .ok (if 0 ≤ h.sameTests then h.sameTests else -1) := by
    have : (eHist flt i h).get "sameTests" = if 0 ≤ h.sameTests then some (strInt h.sameTests) else none := by
      rw [g]; simp [eHist, Dict.get?, get?_append, get?_eOpt, get?_eNum, get?_eInt]
    unfold intIf; rw [this]
    by_cases h0 : 0 ≤ h.sameTests
    · simp [h0, parseInt_strInt]
    · simp [h0]
  have f5 : dateOf (eHist flt i h) "date" = .ok ds := by
    have : (eHist flt i h).get "date" = some (isoOf h.date) := by
      rw [g]; simp [eHist, Dict.get?, get?_append, get?_eOpt, get?_eNum]
    unfold dateOf; rw [this]; exact hds
  have ge : ∀ k v, (eHist flt i h).get k = some v → (eHist flt i h).getE k = .ok v := by
    intro k v hk
    unfold Elem.getE Dict.getE
    unfold Elem.get at hk
    rw [hk]
  have e1 : (eHist flt i h).getE "testStatus" = .ok (if h.status ≠ 0 then "true" else "false") := by
    apply ge; rw [g]; simp [eHist, Dict.get?, get?_append, get?_eOpt]
  have e2 : (eHist flt i h).getE "toolCategory" = .ok h.toolCategory := by
    apply ge; rw [g]; simp [eHist, Dict.get?, get?_append, get?_eOpt, get?_eNum]
  have e3 : (eHist flt i h).getE "vendorId" = .ok h.vendorId := by
    apply ge; rw [g]; simp [eHist, Dict.get?, get?_append, get?_eOpt, get?_eNum]
  have e4 : (eHist flt i h).getE "vendorTool" = .ok h.vendorTool := by
    apply ge; rw [g]; simp [eHist, Dict.get?, get?_append, get?_eOpt, get?_eNum]
  have e5 : (eHist flt i h).getE "vendorToolVersion" = .ok h.vendorToolVersion := by
    apply ge; rw [g]; simp [eHist, Dict.get?, get?_append, get?_eOpt, get?_eNum]
  have s1 : (eHist flt i h).get "logicalName" = h.logicalName := by
    rw [g, hln]; simp [eHist, Dict.get?, hln]
  have s2 : (eHist flt i h).get "physicalName" = h.physicalName := by
    rw [g]; simp [eHist, Dict.get?, get?_append, get?_eOpt, get?_eNum, get?_eInt]
  have s3 : (eHist flt i h).get "kind" = h.kind := by
    rw [g]; simp [eHist, Dict.get?, get?_append, get?_eOpt, get?_eNum, get?_eInt]
  have s4 : (eHist flt i h).get "timeunit" = h.timeUnit := by
    rw [g]; simp [eHist, Dict.get?, get?_append, get?_eOpt, get?_eNum, get?_eInt]
  have s5 : (eHist flt i h).get "runCwd" = h.runCwd := by
    rw [g]; simp [eHist, Dict.get?, get?_append, get?_eOpt, get?_eNum, get?_eInt]
  have s6 : (eHist flt i h).get "seed" = h.seed := by
    rw [g]; simp [eHist, Dict.get?, get?_append, get?_eOpt, get?_eNum, get?_eInt]
  have s7 : (eHist flt i h).get "cmd" = h.cmd := by
    rw [g]; simp [eHist, Dict.get?, get?_append, get?_eOpt, get?_eNum, get?_eInt]
  have s8 : (eHist flt i h).get "args" = h.args := by
    rw [g]; simp [eHist, Dict.get?, get?_append, get?_eOpt, get?_eNum, get?_eInt]
  have s9 : (eHist flt i h).get "compulsory" = h.compulsory := by
    rw [g]; simp [eHist, Dict.get?, get?_append, get?_eOpt, get?_eNum, get?_eInt]
  have s10 : (eHist flt i h).get "userName" = h.userName := by
    rw [g]; simp [eHist, Dict.get?, get?_append, get?_eOpt, get?_eNum, get?_eInt]
  have s11 : (eHist flt i h).get "comment" = h.comment := by
    rw [g]; simp [eHist, Dict.get?, get?_append, get?_eOpt, get?_eNum, get?_eInt]
  unfold readHist
  rw [e1, f1, f2, f5, f3, e2, e3, e4, e5, f4, s1, s2, s3, s4, s5, s6, s7, s8, s9, s10, s11]
  unfold rHist
  rw [hrd]
  by_cases h0 : h.status = 0 <;> simp [h0] <;> rfl

/-- The dummy history node read back. -/
def rDummy (now : String) : Hist :=
  { logicalName := some "dummy", physicalName := some "dummy", kind := some "dummy", status := 1, simTime := 0, timeUnit := some "0",
    runCwd := some "", cpuTime := 0, seed := some "0", cmd := some "", args := some "", compulsory := none, date := .text now,
    userName := some "dummy", cost := -1, toolCategory := "unknown", ucisVersion := "1.0", vendorId := "unknown",
    vendorTool := "PyUCIS", vendorToolVersion := "unknown", sameTests := -1, comment := none }

theorem readHist_eDummy {flt : FloatText} (hflt : FloatOk flt) {now s : String} (hs : DateTime.fromIso now = .ok s) :
    readHist flt (eDummy now) = .ok (rDummy s) := by
  have f1 : floatIf flt (eDummy now) "simtime" (-1) = .ok 0 := by
    show (match flt.read "0" with | none => Except.error Err.valueError | some x => .ok x) = _
    rw [hflt.zero]
  have f2 : floatIf flt (eDummy now) "cpuTime" (-1) = .ok 0 := by
    show (match flt.read "0" with | none => Except.error Err.valueError | some x => .ok x) = _
    rw [hflt.zero]
  have f5 : dateOf (eDummy now) "date" = .ok s := hs
  unfold readHist
  rw [f1, f2, f5]
  rfl

theorem readHists {flt : FloatText} (hflt : FloatOk flt) {l : List Hist} (hw : ∀ h ∈ l, WritableHist flt h) (i : Nat) :
    (eHists flt i l).mapM (readHist flt) = .ok (l.map rHist) := by
  induction l generalizing i with
  | nil => rfl
  | cons a t ih =>
    exact Ex.mapM_cons_ok.2 ⟨_, _, readHist_eHist hflt (hw a (by simp)) i, ih (fun h hh => hw h (by simp [hh])) (i + 1), rfl⟩

/-- The environment's current time is a date in ISO form. -/
def NowOk (env : Env) : Prop := ∃ d : DateTime.DT, d.ok = true ∧ env.now = String.ofList (DateTime.iso d)

def nowText (env : Env) : String := match DateTime.fromIso env.now with
  | .ok s => s
  | .error _ => ""

def rHistory (env : Env) : List Hist → List Hist
  | [] => [rDummy (nowText env)]
  | h :: t => (h :: t).map rHist

theorem readHistory {env : Env} (hflt : FloatOk env.flt) (hnow : NowOk env) {l : List Hist} (hw : ∀ h ∈ l, WritableHist env.flt h) :
    (eHistory env l).mapM (readHist env.flt) = .ok (rHistory env l) := by
  unfold eHistory rHistory
  cases l with
  | nil =>
    obtain ⟨d, hd, hn⟩ := hnow
    have : DateTime.fromIso env.now = .ok (String.ofList (DateTime.compact d)) := by
      rw [hn]; unfold DateTime.fromIso; rw [String.toList_ofList, DateTime.strptime_iso hd]; rfl
    refine Ex.mapM_cons_ok.2 ⟨_, [], readHist_eDummy hflt this, rfl, ?_⟩
    unfold nowText; rw [this]
  | cons h t => exact readHists hflt hw 0

/-! ## Whole documents -/

theorem readFile_eFile (f : String × Nat) : readFile (eFile f) = .ok ((f.2 : Int), some f.1) := by
  have h1 : (eFile f).get "id" = some (strInt f.2) := rfl
  have h2 : (eFile f).get "fileName" = some f.1 := rfl
  unfold readFile
  rw [h1, h2]
  show (do
    let z ← parseInt (strInt f.2)
    pure (z, some f.1)) = _
  rw [parseInt_strInt]; rfl

theorem addFile_mem {m : Dict Nat} {f : String} {e : String × Nat} (h : e ∈ m) : e ∈ addFile m f := by
  unfold addFile
  split
  · exact h
  · rename_i hc
    have : Dict.get? m f = none := by
      rw [Dict.get?_eq_none, ← Dict.contains_iff]; simpa using hc
    rw [set_new this]; simp [h]

mutual
theorem findFiles_mem (e : String × Nat) : ∀ (s : Scope) (m : Dict Nat), e ∈ m → e ∈ findFiles s m
  | ⟨ty, n, src, w, du, cps, ch, it⟩, m, h => by
    rw [findFiles]
    apply findFilesL_mem e ch
    split
    · exact h
    · exact addFile_mem h
termination_by structural s => s
theorem findFilesL_mem (e : String × Nat) : ∀ (l : List Scope) (m : Dict Nat), e ∈ m → e ∈ findFilesL l m
  | [], m, h => by rw [findFilesL]; exact h
  | s :: t, m, h => by
    rw [findFilesL]
    apply findFilesL_mem e t
    split
    · exact findFiles_mem e s m h
    · exact h
termination_by structural l => l
end

theorem null_mem_fileTable (db : Scope) : ("__null__file__", 1) ∈ fileTable db :=
  findFilesL_mem _ _ _ (by simp)

/-- The database read back. -/
def rDb (env : Env) (db : Database) : Database :=
  { root := { emptyDb with children := rTops (kids ST.INSTANCE db.root) }
    hist := rHistory env db.hist
    files := ((fileTable db.root).map (fun f => some f.1)).foldl intern [] }

/-- Everything written can be read back by the reader. -/
def ResolvableDb (db : Scope) : Prop :=
  ∀ i ∈ kids ST.INSTANCE db, ∀ g ∈ kids ST.COVERGROUP i, ∀ c ∈ writtenGroups g, Resolvable c

theorem read_written {env : Env} (he : EnvOk env) (hflt : FloatOk env.flt) (hnow : NowOk env) {db : Database} {doc : Elem}
    (hw : write env db = .ok doc) (db' : Database) :
    read env.flt (reparse doc) = .ok db' ↔ ResolvableDb db.root ∧ db' = rDb env db := by
  obtain ⟨⟨_, h2, h3⟩, rfl⟩ := (write_ok he db doc).1 hw
  rw [reparse_eDoc]
  unfold read
  rw [iter_eDoc_insts, iter_eDoc_files, iter_eDoc_hist, readHistory hflt hnow h2, Ex.mapM_map',
    Ex.mapM_of_ok (g := fun f => ((f.2 : Int), some f.1)) (fun f _ => readFile_eFile f)]
  simp only [Ex.bind_ok, Ex.pure_ok, Except.ok.injEq, exists_eq_left']
  have h1 : (1 : Int) ∈ ((fileTable db.root).map (fun f => ((f.2 : Int), some f.1))).map (·.1) := by
    simp only [List.mem_map, List.map_map, Function.comp]
    exact ⟨_, null_mem_fileTable db.root, rfl⟩
  simp only [readInsts h1 h3]
  constructor
  · rintro ⟨_, ⟨h, rfl⟩, rfl⟩
    refine ⟨h, ?_⟩
    unfold rDb rTops; simp [Function.comp_def]
  · rintro ⟨h, rfl⟩
    refine ⟨_, ⟨h, rfl⟩, ?_⟩
    unfold rDb rTops; simp [Function.comp_def]

end Xml
end Verif
