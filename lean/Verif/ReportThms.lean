import Verif.ReportClosed
import Mathlib.Algebra.Order.Field.Rat
import Mathlib.Algebra.BigOperators.Group.List.Basic
import Mathlib.Algebra.Order.BigOperators.Group.List
import Mathlib.Data.List.Forall2
import Mathlib.Tactic.Linarith
import Mathlib.Tactic.FieldSimp
import Mathlib.Tactic.Positivity
/-!
# Properties C16 - C18, C21 - C25, C27: the coverage report
-/

namespace Verif
open Spec Report

/-! ## Sample database -/

namespace Ex

/-- A coverpoint with a hit bin, an unhit bin, an ignore and an illegal bin. -/
def rcp : Scope := mkCoverpoint "cp" SrcInfo.none 3
  [mkBin "a" CT.CVGBIN 1 4, mkBin "b" CT.CVGBIN 2 1, mkBin "i" CT.IGNOREBIN 1 7, mkBin "x" CT.ILLEGALBIN 1 0]
def rcq : Scope := mkCoverpoint "cq" SrcInfo.none 1 [mkBin "a" CT.CVGBIN 1 1]
def rcr : Scope := mkCross "cr" SrcInfo.none 1 ["cp", "cq"] [mkBin "ab" CT.CVGBIN 1 0, mkBin "bb" CT.CVGBIN 1 2]
def rci : Scope := mkCoverInst "ci" SrcInfo.none 1 [rcp, rcq, rcr]
def rcg : Scope := mkCovergroup "cg" SrcInfo.none 2 [rcp, rcq, rcr, rci]
def rcg2 : Scope := mkCovergroup "cg2" SrcInfo.none 1 [rcq]
def rinst : Scope := mkInstance "i" SrcInfo.none 1 (some ⟨"du", SrcInfo.none, 1⟩) [rcg, rcg2]
def rdb : Scope := { emptyDb with children := [mkDu "du" SrcInfo.none 1, rinst] }
/-- Its report. -/
def rrpt : Rpt := pRpt id rdb

theorem instOk_rinst : InstOk rinst := by
  refine ⟨?_, by decide⟩
  have h : ∀ s ∈ kids ST.COVERGROUP rinst, ∀ g ∈ groupTree s,
    (∀ c ∈ kids ST.COVERPOINT g, ∀ k ∈ [CT.CVGBIN, CT.IGNOREBIN, CT.ILLEGALBIN], ∀ i ∈ itemsOfKind k c, i.atLeast ≠ none)
      ∧ (∀ c ∈ kids ST.CROSS g, ∀ i ∈ itemsOfKind CT.CVGBIN c, i.atLeast ≠ none) := by decide
  exact h

theorem build_rdb : build id rdb = .ok rrpt := by
  rw [build_ok]
  refine ⟨?_, rfl⟩
  intro i hi
  have : i = rinst := by simpa [kids, rdb, emptyDb, mkDu, rinst, mkInstance, maskHit, ST.INSTANCE, ST.DU_MODULE] using hi
  rw [this]
  exact instOk_rinst

theorem nonneg_rdb : NonNegWeights rdb := by
  refine ⟨?_, ?_⟩ <;> decide

end Ex

/-! ## Positions -/

theorem nodeAt_map (rd : Rat → Rat) (p : List Nat) (l : List Scope) :
    nodeAt p (l.map (pCg rd)) = (groupAt p l).map (pCg rd) := by
  induction p generalizing l with
  | nil => rfl
  | cons i p ih =>
    cases p with
    | nil => simp [nodeAt, groupAt]
    | cons j p =>
      rw [nodeAt, groupAt, List.getElem?_map]
      cases l[i]? with
      | none => rfl
      | some s =>
        have e : (pCg rd s).covergroups = (kids ST.COVERINSTANCE s).map (pCg rd) := by rw [pCg_eq]
        simp only [Option.map_some, Option.bind_some, e, ih]

theorem groupTree_eq (s : Scope) : groupTree s = s :: (kids ST.COVERINSTANCE s).flatMap groupTree := by
  have h : ∀ l : List Scope, groupForest l
      = (l.filter (fun c => maskHit c.stype ST.COVERINSTANCE)).flatMap groupTree := by
    intro l
    induction l with
    | nil => rfl
    | cons c t ih =>
      rw [groupForest, List.filter_cons]
      split <;> simp [ih]
  cases s
  rw [groupTree, h]
  rfl

theorem groupAt_mem {p : List Nat} {l : List Scope} {s : Scope} (h : groupAt p l = some s) :
    s ∈ l.flatMap groupTree := by
  induction p generalizing l with
  | nil => simp [groupAt] at h
  | cons i p ih =>
    cases p with
    | nil =>
      rw [groupAt] at h
      have hm := List.mem_of_getElem? h
      exact List.mem_flatMap.2 ⟨s, hm, by rw [groupTree_eq]; simp⟩
    | cons j p =>
      rw [groupAt] at h
      cases hi : l[i]? with
      | none => simp [hi] at h
      | some a =>
        rw [hi, Option.bind_some] at h
        exact List.mem_flatMap.2 ⟨a, List.mem_of_getElem? hi, by rw [groupTree_eq]; simp [ih h]⟩

/-- In a built report every node is the closed form of the scope at its position. -/
theorem nodeAt_build {rd : Rat → Rat} {db : Scope} {r : Rpt} (h : build rd db = .ok r) (p : List Nat) :
    nodeAt p r.covergroups = (groupAt p (allCovergroups db)).map (pCg rd) := by
  obtain ⟨_, rfl⟩ := (build_ok rd db r).1 h
  exact nodeAt_map rd p _

theorem at_build {rd : Rat → Rat} {db : Scope} {r : Rpt} (h : build rd db = .ok r) {p : List Nat} {s : Scope}
    {n : RCg} (ha : At db r p s n) : n = pCg rd s ∧ s ∈ reportedGroups db := by
  obtain ⟨h1, h2⟩ := ha
  rw [nodeAt_build h, h1] at h2
  exact ⟨by simpa using h2.symm, groupAt_mem h1⟩

theorem node_build {rd : Rat → Rat} {db : Scope} {r : Rpt} (h : build rd db = .ok r) {p : List Nat}
    {n : RCg} (ha : nodeAt p r.covergroups = some n) : ∃ s, At db r p s n ∧ n = pCg rd s ∧ s ∈ reportedGroups db := by
  have h2 := ha
  rw [nodeAt_build h, Option.map_eq_some_iff] at h2
  obtain ⟨s, hs, rfl⟩ := h2
  exact ⟨s, ⟨hs, ha⟩, rfl, groupAt_mem hs⟩

theorem thresholdsSet_iff (db : Scope) : ThresholdsSet db ↔
    ∀ i ∈ kids ST.INSTANCE db, ∀ s ∈ kids ST.COVERGROUP i, ∀ g ∈ groupTree s, HereOk g := by
  unfold ThresholdsSet reportedGroups allCovergroups HereOk CpOk CrossOk
  simp only [List.mem_flatMap]
  constructor
  · intro h i hi s hs g hg; exact h g ⟨s, ⟨i, hi, hs⟩, hg⟩
  · rintro h g ⟨s, ⟨i, hi, hs⟩, hg⟩; exact h i hi s hs g hg

/-- A built report read only bins with thresholds. -/
theorem thresholds_of_build {rd : Rat → Rat} {db : Scope} {r : Rpt} (h : build rd db = .ok r) : ThresholdsSet db := by
  rw [thresholdsSet_iff]
  intro i hi
  exact (((build_ok rd db r).1 h).1 i hi).1

/-! ## C23 -/

/-- **C23.** The report has a node at exactly the positions at which the database has a covergroup
or cover-instance; the node carries its name and weight, lists its coverpoints in order with name,
weight and the bins of each kind (name and count) in order, and its crosses in order with name and
ordinary bins. -/
theorem C23_report_mirrors_database {rd : Rat → Rat} {db : Scope} {r : Rpt} (h : build rd db = .ok r) :
    r.covergroups.length = (allCovergroups db).length ∧
    (∀ p, (nodeAt p r.covergroups).isSome = (groupAt p (allCovergroups db)).isSome) ∧
    ∀ p s n, At db r p s n →
      n.name = s.name ∧ n.instname = s.name ∧ n.weight = s.weight ∧
      n.coverpoints.map (fun c => (c.name, c.weight, c.bins.map (fun b => (b.name, b.count)),
          c.ignoreBins.map (fun b => (b.name, b.count)), c.illegalBins.map (fun b => (b.name, b.count))))
        = (kids ST.COVERPOINT s).map (fun c => (c.name, c.weight,
            (itemsOfKind CT.CVGBIN c).map (fun i => (i.name, i.count)),
            (itemsOfKind CT.IGNOREBIN c).map (fun i => (i.name, i.count)),
            (itemsOfKind CT.ILLEGALBIN c).map (fun i => (i.name, i.count)))) ∧
      n.crosses.map (fun c => (c.name, c.bins.map (fun b => (b.name, b.count))))
        = (kids ST.CROSS s).map (fun c => (c.name, (itemsOfKind CT.CVGBIN c).map (fun i => (i.name, i.count)))) ∧
      n.covergroups.map (·.name) = (kids ST.COVERINSTANCE s).map (·.name) := by
  refine ⟨?_, fun p => ?_, fun p s n ha => ?_⟩
  · obtain ⟨_, rfl⟩ := (build_ok rd db r).1 h
    simp [pRpt]
  · rw [nodeAt_build h]; simp
  · obtain ⟨rfl, _⟩ := at_build h ha
    rw [pCg_eq]
    refine ⟨rfl, rfl, rfl, ?_, ?_, ?_⟩
    · simp [pCp, thrBin, Function.comp_def]
    · simp [pCross, goalBin, Function.comp_def]
    · rw [List.map_map]; apply List.map_congr_left; intro x _; simp [pCg_eq]

example : At Ex.rdb Ex.rrpt [0, 0] Ex.rci (pCg id Ex.rci) ∧ (kids ST.COVERPOINT Ex.rci).length = 2 :=
  ⟨⟨rfl, rfl⟩, by decide⟩

/-! ## C27 -/

theorem get?_foldl_set (rd : Rat → Rat) (l : List Scope) (m : Dict RCg) (k : String) :
    (l.foldl (fun m s => m.set s.name (pCg rd s)) m).get? k
      = match ((l.map (pCg rd)).filter (fun c => c.name = k)).getLast? with
        | some c => some c
        | none => m.get? k := by
  induction l using List.reverseRecOn with
  | nil => rfl
  | append_singleton t a ih =>
    rw [List.foldl_append, List.foldl_cons, List.foldl_nil, Dict.get?_set, ih, List.map_append, List.filter_append]
    have e : (pCg rd a).name = a.name := by rw [pCg_eq]
    by_cases hk : a.name = k
    · simp [hk, e]
    · simp [hk, e]

/-- **C27.** Looking a covergroup up by name gives the last covergroup of that name in the list. -/
theorem C27_lookup_by_name {rd : Rat → Rat} {db : Scope} {r : Rpt} (h : build rd db = .ok r) (k : String) :
    r.covergroupM.get? k = (r.covergroups.filter (fun c => c.name = k)).getLast? ∧
    (k ∈ r.covergroupM.keys ↔ k ∈ r.covergroups.map (·.name)) := by
  obtain ⟨_, rfl⟩ := (build_ok rd db r).1 h
  have h1 : (pRpt rd db).covergroupM.get? k
      = ((pRpt rd db).covergroups.filter (fun c => c.name = k)).getLast? := by
    simp only [pRpt, get?_foldl_set]
    cases (((allCovergroups db).map (pCg rd)).filter (fun c => decide (c.name = k))).getLast? <;> rfl
  refine ⟨h1, ?_⟩
  rw [← Dict.contains_iff, Dict.contains, h1, ← Option.ne_none_iff_isSome, Ne, List.getLast?_eq_none_iff,
    List.filter_eq_nil_iff]
  simp

example : "cg2" ∈ Ex.rrpt.covergroupM.keys := by
  rw [(C27_lookup_by_name Ex.build_rdb "cg2").2]; decide

/-! ## C22 -/

theorem mapM_isOk {α β ε : Type} {f : α → Except ε β} {p : α → Prop} {g : α → β}
    (h : ∀ x b, f x = .ok b ↔ p x ∧ b = g x) {l : List α} (hl : ∀ x ∈ l, p x) : l.mapM f = .ok (l.map g) :=
  (mapM_eq_ok h l _).2 ⟨hl, rfl⟩

theorem buildCovergroups_error {rd : Rat → Rat} (r : Rpt) {i : Scope}
    (h : ∀ s ∈ kids ST.COVERGROUP i, ∀ g ∈ groupTree s, HereOk g)
    (hz : weightSum (kids ST.COVERGROUP i) = 0) : buildCovergroups rd r i = .error .zeroDivision := by
  unfold buildCovergroups
  have := (foldlM_covergroup rd (kids ST.COVERGROUP i) ⟨r, ⟨0, 0⟩⟩ _).2 ⟨h, rfl⟩
  change (List.foldlM (covergroupStep rd) _ (kids ST.COVERGROUP i) >>= _) = _
  rw [this]
  have hdiv := accOf_div rd (kids ST.COVERGROUP i)
  change (if (accOf rd (kids ST.COVERGROUP i)).div = 0 then _ else _) = _
  rw [hdiv, if_pos hz]
  rfl

/-- **C22.** If all bins carry thresholds, building the report raises a division error exactly when
the weights of the covergroups of some instance add up to zero; otherwise a report is built. -/
theorem C22_report_error_iff (rd : Rat → Rat) (db : Scope) (ht : ThresholdsSet db) :
    (build rd db = .error .zeroDivision ↔
      ∃ i ∈ kids ST.INSTANCE db, weightSum (kids ST.COVERGROUP i) = 0) ∧
    ((∃ r, build rd db = .ok r) ↔
      ∀ i ∈ kids ST.INSTANCE db, weightSum (kids ST.COVERGROUP i) ≠ 0) := by
  rw [thresholdsSet_iff] at ht
  have hok : (∃ r, build rd db = .ok r) ↔
      ∀ i ∈ kids ST.INSTANCE db, weightSum (kids ST.COVERGROUP i) ≠ 0 := by
    simp only [build_ok, exists_and_left, exists_eq, and_true]
    exact ⟨fun h i hi => (h i hi).2, fun h i hi => ⟨ht i hi, h i hi⟩⟩
  refine ⟨⟨fun h => ?_, fun h => ?_⟩, hok⟩
  · by_contra hne
    have : ∃ r, build rd db = .ok r := hok.2 (fun i hi hz => hne ⟨i, hi, hz⟩)
    obtain ⟨r, hr⟩ := this
    rw [hr] at h; cases h
  · unfold build
    have key : ∀ (l : List Scope) (r : Rpt), (∀ i ∈ l, ∀ s ∈ kids ST.COVERGROUP i, ∀ g ∈ groupTree s, HereOk g) →
        (∃ i ∈ l, weightSum (kids ST.COVERGROUP i) = 0) →
        l.foldlM (buildCovergroups rd) r = .error .zeroDivision := by
      intro l
      induction l with
      | nil => intro r _ h; simp at h
      | cons a t ih =>
        intro r hl hex
        rw [List.foldlM_cons]
        by_cases hz : weightSum (kids ST.COVERGROUP a) = 0
        · rw [buildCovergroups_error r (hl a (by simp)) hz]; rfl
        · rw [(buildCovergroups_ok rd r _ a).2 ⟨⟨hl a (by simp), hz⟩, rfl⟩]
          change t.foldlM _ _ = _
          refine ih _ (fun i hi => hl i (by simp [hi])) ?_
          obtain ⟨i, hi, hiz⟩ := hex
          rcases List.mem_cons.1 hi with rfl | hi
          · exact absurd hiz hz
          · exact ⟨i, hi, hiz⟩
    exact key _ _ ht h

/-- An instance without covergroups makes the report fail. -/
example : ThresholdsSet { emptyDb with children := [mkInstance "i" SrcInfo.none 1 none []] } ∧
    ∃ i ∈ kids ST.INSTANCE { emptyDb with children := [mkInstance "i" SrcInfo.none 1 none []] },
      weightSum (kids ST.COVERGROUP i) = 0 := by
  refine ⟨by unfold ThresholdsSet; decide, by decide⟩
example : ThresholdsSet Ex.rdb := thresholds_of_build Ex.build_rdb

/-! ## C16: ranges, for any monotone rounding -/

/-- A rounding function: monotone, and exact on the integers up to a bound `N` (binary64:
`N = 2^53`; exact arithmetic: any `N`). -/
structure Spec.Rounding (rd : Rat → Rat) (N : Int) : Prop where
  mono : ∀ a b, a ≤ b → rd a ≤ rd b
  fix : ∀ n : Int, -N ≤ n → n ≤ N → rd (n : Rat) = n

theorem rounding_id (N : Int) : Rounding id N := ⟨fun _ _ h => h, fun _ _ _ => rfl⟩

/-- `0 ≤ x ≤ 100` -/
def Spec.InRange (x : Rat) : Prop := 0 ≤ x ∧ x ≤ 100

theorem Spec.Rounding.inRange {rd : Rat → Rat} {N : Int} (hr : Rounding rd N) (hN : 100 ≤ N) {x : Rat}
    (hx : InRange x) : InRange (rd x) := by
  have h0 := hr.mono _ _ hx.1
  have h1 := hr.mono _ _ hx.2
  have e0 := hr.fix 0 (by omega) (by omega)
  have e1 := hr.fix 100 (by omega) (by omega)
  simp only [Int.cast_zero, Int.cast_ofNat] at e0 e1
  rw [e0] at h0; rw [e1] at h1
  exact ⟨h0, h1⟩

theorem numReached_le (s : Scope) : numReached s ≤ numBins s := List.countP_le_length

theorem leafCov_inRange {rd : Rat → Rat} {N : Int} (hr : Rounding rd N) (hN : 100 ≤ N) (s : Scope) :
    InRange (leafCov rd s) := by
  unfold leafCov
  split
  · rename_i h
    apply hr.inRange hN
    have hle : (numReached s : Rat) ≤ (numBins s : Rat) := by exact_mod_cast numReached_le s
    have hpos : (0 : Rat) < (numBins s : Rat) := by exact_mod_cast h
    have hnn : (0 : Rat) ≤ (numReached s : Rat) := by exact_mod_cast Nat.zero_le _
    refine ⟨?_, ?_⟩
    · push_cast; positivity
    · rw [div_le_iff₀ hpos]; push_cast; linarith
  · exact ⟨le_refl _, by norm_num⟩

/-- Bounds of a weighted sum, with the loop body of covergroups and coverpoints. -/
theorem acc_bounds {rd : Rat → Rat} {N : Int} (hr : Rounding rd N) (step : Acc → Rat × Int → Acc)
    (hstep : ∀ st cw, step st cw = ⟨addTerm rd st.coverage cw.1 cw.2, st.div + cw.2⟩ ∨
      (cw.2 ≤ 0 ∧ step st cw = ⟨st.coverage, st.div + cw.2⟩))
    (l : List (Rat × Int)) (hl : ∀ cw ∈ l, InRange cw.1 ∧ 0 ≤ cw.2) (st : Acc)
    (h0 : 0 ≤ st.coverage) (h1 : st.coverage ≤ 100 * (st.div : Rat)) (hd : 0 ≤ st.div)
    (hN : 100 * (st.div + (l.map (·.2)).sum) ≤ N) :
    0 ≤ (l.foldl step st).coverage ∧ (l.foldl step st).coverage ≤ 100 * ((l.foldl step st).div : Rat) ∧
      (l.foldl step st).div = st.div + (l.map (·.2)).sum := by
  induction l generalizing st with
  | nil => simp [h0, h1]
  | cons a t ih =>
    have ha := hl a (by simp)
    have hsum : 0 ≤ (t.map (·.2)).sum := by
      apply List.sum_nonneg
      intro x hx
      obtain ⟨y, hy, rfl⟩ := List.mem_map.1 hx
      exact (hl y (by simp [hy])).2
    simp only [List.map_cons, List.sum_cons] at hN ⊢
    have hdiv : (step st a).div = st.div + a.2 := by rcases hstep st a with h | ⟨_, h⟩ <;> rw [h]
    have hcov : 0 ≤ (step st a).coverage ∧ (step st a).coverage ≤ 100 * ((st.div + a.2 : Int) : Rat) := by
      have e0 := hr.fix 0 (by omega) (by omega)
      simp only [Int.cast_zero] at e0
      rcases hstep st a with h | ⟨hle, h⟩
      · rw [h]
        simp only [addTerm]
        have ew : rd (a.2 : Rat) = a.2 := hr.fix a.2 (by omega) (by omega)
        have hw : (0 : Rat) ≤ (a.2 : Rat) := by exact_mod_cast ha.2
        rw [ew]
        have hc0 : 0 ≤ a.1 * (a.2 : Rat) := mul_nonneg ha.1.1 hw
        have hc1 : a.1 * (a.2 : Rat) ≤ ((100 * a.2 : Int) : Rat) := by
          push_cast; exact mul_le_mul_of_nonneg_right ha.1.2 hw
        have hr0 := hr.mono _ _ hc0
        have hr1 := hr.mono _ _ hc1
        rw [e0] at hr0
        rw [hr.fix (100 * a.2) (by omega) (by omega)] at hr1
        have hs0 : 0 ≤ st.coverage + rd (a.1 * (a.2 : Rat)) := add_nonneg h0 hr0
        have hs1 : st.coverage + rd (a.1 * (a.2 : Rat)) ≤ ((100 * (st.div + a.2) : Int) : Rat) := by
          push_cast at hr1 ⊢; linarith
        have ht0 := hr.mono _ _ hs0
        have ht1 := hr.mono _ _ hs1
        rw [e0] at ht0
        rw [hr.fix (100 * (st.div + a.2)) (by omega) (by omega)] at ht1
        exact ⟨ht0, by push_cast at ht1 ⊢; exact ht1⟩
      · rw [h]
        refine ⟨h0, ?_⟩
        have : a.2 = 0 := by have := ha.2; omega
        rw [this]; simpa using h1
    have := ih (fun cw hcw => hl cw (by simp [hcw])) (step st a) hcov.1 (by rw [hdiv]; exact hcov.2)
      (by rw [hdiv]; have := ha.2; omega) (by rw [hdiv]; omega)
    refine ⟨this.1, this.2.1, ?_⟩
    rw [List.foldl_cons, this.2.2, hdiv]; omega

theorem accStep_cases (rd : Rat → Rat) (st : Acc) (cw : Rat × Int) :
    accStep rd st cw = ⟨addTerm rd st.coverage cw.1 cw.2, st.div + cw.2⟩ ∨
      (cw.2 ≤ 0 ∧ accStep rd st cw = ⟨st.coverage, st.div + cw.2⟩) := by
  unfold accStep
  by_cases h : cw.2 > 0
  · left; simp [h]
  · right; exact ⟨by omega, by simp [h]⟩

theorem quot_inRange {rd : Rat → Rat} {N : Int} (hr : Rounding rd N) (hN : 100 ≤ N) {c : Rat} {d : Int} (hd : 0 < d)
    (hdN : d ≤ N) (h0 : 0 ≤ c) (h1 : c ≤ 100 * (d : Rat)) : InRange (rd (c / rd (d : Rat))) := by
  rw [hr.fix d (by omega) hdN]
  have hpos : (0 : Rat) < (d : Rat) := by exact_mod_cast hd
  apply hr.inRange hN
  exact ⟨div_nonneg h0 hpos.le, by rw [div_le_iff₀ hpos]; exact h1⟩

/-- Total weight with which the items of a group are counted: stored weights of coverpoints, one per
cross. -/
def Spec.groupWeight (g : Scope) : Int := weightSum (kids ST.COVERPOINT g) + (kids ST.CROSS g).length

theorem groupCov_inRange {rd : Rat → Rat} {N : Int} (hr : Rounding rd N) (hN : 100 ≤ N) (s : Scope)
    (hw : ∀ c ∈ kids ST.COVERPOINT s, 0 ≤ c.weight) (hb : 100 * groupWeight s ≤ N) : InRange (groupCov rd s) := by
  unfold groupCov groupCoverage
  simp only [List.map_map]
  have ew : ∀ l : List Scope, ((l.map ((fun c : RCp => (c.coverage, c.weight)) ∘ pCp rd)).map (·.2)).sum = weightSum l := by
    intro l; rw [List.map_map]; rfl
  have ec : ∀ l : List Scope, ((l.map ((fun c : RCross => (c.coverage, c.weight)) ∘ pCross rd)).map (·.2)).sum
      = (l.length : Int) := by
    intro l
    rw [List.map_map]
    induction l with
    | nil => rfl
    | cons a t ih => simp only [List.map_cons, List.sum_cons, ih, List.length_cons]; simp [pCross]; omega
  have hwn : 0 ≤ weightSum (kids ST.COVERPOINT s) := by
    apply List.sum_nonneg
    intro x hx
    obtain ⟨y, hy, rfl⟩ := List.mem_map.1 hx
    exact hw y hy
  unfold groupWeight at hb
  have h1 := acc_bounds hr (accStep rd) (accStep_cases rd)
    ((kids ST.COVERPOINT s).map ((fun c : RCp => (c.coverage, c.weight)) ∘ pCp rd))
    (by
      intro cw hcw
      obtain ⟨y, hy, rfl⟩ := List.mem_map.1 hcw
      exact ⟨leafCov_inRange hr hN y, hw y hy⟩)
    ⟨0, 0⟩ (le_refl _) (by simp) (le_refl _) (by rw [ew]; simp only; omega)
  have h2 := acc_bounds hr (accStepCross rd) (fun st cw => .inl rfl)
    ((kids ST.CROSS s).map ((fun c : RCross => (c.coverage, c.weight)) ∘ pCross rd))
    (by
      intro cw hcw
      obtain ⟨y, hy, rfl⟩ := List.mem_map.1 hcw
      exact ⟨leafCov_inRange hr hN y, by simp [pCross]⟩)
    _ h1.1 h1.2.1 (by rw [h1.2.2, ew]; simp only; omega) (by rw [h1.2.2, ew, ec]; simp only; omega)
  have hd := h2.2.2
  rw [h1.2.2, ew, ec] at hd
  simp only at hd
  split
  · rename_i hpos
    exact quot_inRange hr hN hpos (by rw [hd]; omega) h2.1 h2.2.1
  · rename_i hpos
    have : ((kids ST.CROSS s).map ((fun c : RCross => (c.coverage, c.weight)) ∘ pCross rd)).foldl (accStepCross rd)
      (((kids ST.COVERPOINT s).map ((fun c : RCp => (c.coverage, c.weight)) ∘ pCp rd)).foldl (accStep rd) ⟨0, 0⟩) = _ := rfl
    have hz := h2.2.1
    have hz0 := h2.1
    rw [hd] at hz hpos
    have : (0 : Int) + weightSum (kids ST.COVERPOINT s) + (kids ST.CROSS s).length = 0 := by omega
    rw [this] at hz
    simp only [Int.cast_zero, mul_zero] at hz
    exact ⟨hz0, by linarith⟩

theorem instCov_inRange {rd : Rat → Rat} {N : Int} (hr : Rounding rd N) (hN : 100 ≤ N) (i : Scope)
    (hw : ∀ g ∈ kids ST.COVERGROUP i, 0 ≤ g.weight) (hg : ∀ g ∈ kids ST.COVERGROUP i, InRange (groupCov rd g))
    (hz : weightSum (kids ST.COVERGROUP i) ≠ 0)
    (hb : 100 * weightSum (kids ST.COVERGROUP i) ≤ N) : InRange (instCov rd i) := by
  have hwn : 0 ≤ weightSum (kids ST.COVERGROUP i) := by
    apply List.sum_nonneg
    intro x hx
    obtain ⟨y, hy, rfl⟩ := List.mem_map.1 hx
    exact hw y hy
  have ew : (((kids ST.COVERGROUP i).map (fun s => (groupCov rd s, s.weight))).map (·.2)).sum
      = weightSum (kids ST.COVERGROUP i) := by rw [List.map_map]; rfl
  have h1 := acc_bounds hr (accStep rd) (accStep_cases rd)
    ((kids ST.COVERGROUP i).map (fun s => (groupCov rd s, s.weight)))
    (by
      intro cw hcw
      obtain ⟨y, hy, rfl⟩ := List.mem_map.1 hcw
      exact ⟨hg y hy, hw y hy⟩)
    ⟨0, 0⟩ (le_refl _) (by simp) (le_refl _) (by rw [ew]; simp only; omega)
  have hd := h1.2.2
  rw [ew] at hd
  simp only [Int.zero_add] at hd
  have h2 := h1.2.1
  rw [hd] at h2
  exact quot_inRange hr hN (by omega) (by omega) h1.1 h2

theorem mem_reported_of_kid {db i g : Scope} (hi : i ∈ kids ST.INSTANCE db) (hg : g ∈ kids ST.COVERGROUP i) :
    g ∈ allCovergroups db ∧ g ∈ reportedGroups db := by
  have : g ∈ allCovergroups db := List.mem_flatMap.2 ⟨i, hi, hg⟩
  exact ⟨this, List.mem_flatMap.2 ⟨g, this, by rw [groupTree_eq]; simp⟩⟩

/-- **C16.** With non-negative weights every figure of a report lies in [0,100]; for any rounding of
the floating point operations that is monotone and exact on integers up to `N`, as long as no total
weight exceeds `N/100`. -/
theorem C16_coverage_in_range_rounded {rd : Rat → Rat} {N : Int} (hr : Rounding rd N) (hN : 100 ≤ N)
    {db : Scope} {r : Rpt} (h : build rd db = .ok r) (hw : NonNegWeights db)
    (hb1 : ∀ i ∈ kids ST.INSTANCE db, 100 * weightSum (kids ST.COVERGROUP i) ≤ N)
    (hb2 : ∀ g ∈ reportedGroups db, 100 * groupWeight g ≤ N) :
    InRange r.coverage ∧ ∀ p n, nodeAt p r.covergroups = some n →
      InRange n.coverage ∧ (∀ c ∈ n.coverpoints, InRange c.coverage) ∧ (∀ c ∈ n.crosses, InRange c.coverage) := by
  have hg : ∀ g ∈ reportedGroups db, InRange (groupCov rd g) := fun g hg =>
    groupCov_inRange hr hN g (hw.2 g hg) (hb2 g hg)
  refine ⟨?_, fun p n hn => ?_⟩
  · obtain ⟨hok, rfl⟩ := (build_ok rd db r).1 h
    simp only [pRpt]
    cases hl : (kids ST.INSTANCE db).getLast? with
    | none => exact ⟨le_refl _, by norm_num⟩
    | some i =>
      have hi := List.mem_of_getLast? hl
      exact instCov_inRange hr hN i (fun g hg' => hw.1 g (mem_reported_of_kid hi hg').1)
        (fun g hg' => hg g (mem_reported_of_kid hi hg').2) (hok i hi).2 (hb1 i hi)
  · obtain ⟨s, _, rfl, hs⟩ := node_build h hn
    rw [pCg_eq]
    refine ⟨hg s hs, ?_, ?_⟩
    · intro c hc
      obtain ⟨y, _, rfl⟩ := List.mem_map.1 hc
      exact leafCov_inRange hr hN y
    · intro c hc
      obtain ⟨y, _, rfl⟩ := List.mem_map.1 hc
      exact leafCov_inRange hr hN y

/-- **C16** in exact arithmetic: no bound on the weights is needed. -/
theorem C16_coverage_in_range {db : Scope} {r : Rpt} (h : build id db = .ok r) (hw : NonNegWeights db) :
    InRange r.coverage ∧ ∀ p n, nodeAt p r.covergroups = some n →
      InRange n.coverage ∧ (∀ c ∈ n.coverpoints, InRange c.coverage) ∧ (∀ c ∈ n.crosses, InRange c.coverage) := by
  have bound : ∀ (l : List Int), ∃ N : Int, 100 ≤ N ∧ ∀ x ∈ l, x ≤ N := by
    intro l
    induction l with
    | nil => exact ⟨100, le_refl _, by simp⟩
    | cons a t ih =>
      obtain ⟨N, h1, h2⟩ := ih
      refine ⟨max N a, le_trans h1 (le_max_left _ _), ?_⟩
      intro x hx
      rcases List.mem_cons.1 hx with rfl | hx
      · exact le_max_right _ _
      · exact le_trans (h2 x hx) (le_max_left _ _)
  obtain ⟨N, h1, h2⟩ := bound ((kids ST.INSTANCE db).map (fun i => 100 * weightSum (kids ST.COVERGROUP i))
    ++ (reportedGroups db).map (fun g => 100 * groupWeight g))
  exact C16_coverage_in_range_rounded (rounding_id N) h1 h hw
    (fun i hi => h2 _ (List.mem_append.2 (.inl (List.mem_map.2 ⟨i, hi, rfl⟩))))
    (fun g hg => h2 _ (List.mem_append.2 (.inr (List.mem_map.2 ⟨g, hg, rfl⟩))))

example : build id Ex.rdb = .ok Ex.rrpt ∧ NonNegWeights Ex.rdb := ⟨Ex.build_rdb, Ex.nonneg_rdb⟩

end Verif
