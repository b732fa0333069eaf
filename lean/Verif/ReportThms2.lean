import Verif.ReportThms
import Mathlib.Tactic.Ring
/-!
# Properties C17, C18, C21, C24, C25: meaning of the figures (exact arithmetic)
-/

namespace Verif
open Spec Report

/-! ## Exact closed forms -/

theorem leafCov_id (s : Scope) : leafCov id s = hitShare s := by
  unfold leafCov hitShare percent
  by_cases h : numBins s = 0
  · simp [h]
  · have : numBins s > 0 := Nat.pos_of_ne_zero h
    simp [h, this]

/-- Sum of the positively weighted terms. -/
def wsum (l : List (Rat × Int)) : Rat := (l.map (fun cw => if 0 < cw.2 then cw.1 * (cw.2 : Rat) else 0)).sum

theorem acc_id (l : List (Rat × Int)) (st : Acc) :
    l.foldl (accStep id) st = ⟨st.coverage + wsum l, st.div + (l.map (·.2)).sum⟩ := by
  induction l generalizing st with
  | nil => cases st; simp [wsum]
  | cons a t ih =>
    rw [List.foldl_cons, ih]
    simp only [accStep, addTerm, id, wsum, List.map_cons, List.sum_cons, Acc.mk.injEq]
    refine ⟨?_, by omega⟩
    split <;> ring

theorem accCross_id (l : List (Rat × Int)) (st : Acc) :
    l.foldl (accStepCross id) st
      = ⟨st.coverage + (l.map (fun cw => cw.1 * (cw.2 : Rat))).sum, st.div + (l.map (·.2)).sum⟩ := by
  induction l generalizing st with
  | nil => cases st; simp
  | cons a t ih =>
    rw [List.foldl_cons, ih]
    simp only [accStepCross, addTerm, id, List.map_cons, List.sum_cons, Acc.mk.injEq]
    refine ⟨by ring, by omega⟩

/-- Weighted sum over the items of a group. -/
def itemSum (s : Scope) : Rat :=
  ((kids ST.COVERPOINT s).map (fun c => if 0 < c.weight then hitShare c * (c.weight : Rat) else 0)).sum
    + ((kids ST.CROSS s).map hitShare).sum

theorem groupCov_id (s : Scope) :
    groupCov id s = if 0 < groupWeight s then itemSum s / (groupWeight s : Rat) else itemSum s := by
  unfold groupCov groupCoverage
  simp only [List.map_map, acc_id, accCross_id, id]
  have e1 : wsum ((kids ST.COVERPOINT s).map ((fun c : RCp => (c.coverage, c.weight)) ∘ pCp id))
      = ((kids ST.COVERPOINT s).map (fun c => if 0 < c.weight then hitShare c * (c.weight : Rat) else 0)).sum := by
    unfold wsum
    rw [List.map_map]
    congr 1
    apply List.map_congr_left
    intro c _
    simp [pCp, leafCov_id]
  have e2 : ((kids ST.CROSS s).map ((fun cw : Rat × Int => cw.1 * (cw.2 : Rat)) ∘ (fun c : RCross => (c.coverage, c.weight)) ∘ pCross id)).sum
      = ((kids ST.CROSS s).map hitShare).sum := by
    congr 1
    apply List.map_congr_left
    intro c _
    simp [pCross, leafCov_id]
  have e3 : ((kids ST.COVERPOINT s).map ((fun x : Rat × Int => x.2) ∘ (fun c : RCp => (c.coverage, c.weight)) ∘ pCp id)).sum
      = weightSum (kids ST.COVERPOINT s) := rfl
  have e4 : ∀ l : List Scope, (l.map ((fun x : Rat × Int => x.2) ∘ (fun c : RCross => (c.coverage, c.weight)) ∘ pCross id)).sum
      = (l.length : Int) := by
    intro l
    induction l with
    | nil => rfl
    | cons a t ih => simp only [List.map_cons, List.sum_cons, ih, List.length_cons]; simp [pCross]; omega
  simp only [e1, e2, e3, e4, zero_add, groupWeight, itemSum, gt_iff_lt]
  rfl

theorem weightSum_nonneg {l : List Scope} (h : ∀ c ∈ l, 0 ≤ c.weight) : 0 ≤ weightSum l := by
  apply List.sum_nonneg
  intro x hx
  obtain ⟨y, hy, rfl⟩ := List.mem_map.1 hx
  exact h y hy

theorem weight_le_weightSum {l : List Scope} (h : ∀ c ∈ l, 0 ≤ c.weight) {c : Scope} (hc : c ∈ l) : c.weight ≤ weightSum l := by
  apply List.single_le_sum
  · intro x hx
    obtain ⟨y, hy, rfl⟩ := List.mem_map.1 hx
    exact h y hy
  · exact List.mem_map.2 ⟨c, hc, rfl⟩

theorem posTerm {c : Scope} (x : Rat) (h : 0 ≤ c.weight) : (if 0 < c.weight then x * (c.weight : Rat) else 0) = x * (c.weight : Rat) := by
  split
  · rfl
  · have : c.weight = 0 := by omega
    simp [this]

/-! ## C18 -/

/-- Mean of the coverages of the items of a group: coverpoints with their stored weights, crosses
with weight 1; 0 if the total weight is not positive. -/
def Spec.meanCoverage (s : Scope) : Rat :=
  if 0 < groupWeight s then
    (((kids ST.COVERPOINT s).map (fun c => hitShare c * (c.weight : Rat))).sum + ((kids ST.CROSS s).map hitShare).sum)
      / (groupWeight s : Rat)
  else 0

theorem groupCov_mean {s : Scope} (hw : ∀ c ∈ kids ST.COVERPOINT s, 0 ≤ c.weight) : groupCov id s = meanCoverage s := by
  rw [groupCov_id]
  have e : ((kids ST.COVERPOINT s).map (fun c => if 0 < c.weight then hitShare c * (c.weight : Rat) else 0)).sum
      = ((kids ST.COVERPOINT s).map (fun c => hitShare c * (c.weight : Rat))).sum := by
    congr 1
    apply List.map_congr_left
    intro c hc
    exact posTerm _ (hw c hc)
  unfold meanCoverage
  split
  · rw [itemSum, e]
  · rename_i hn
    have h0 := weightSum_nonneg hw
    unfold groupWeight at hn
    have hl : (kids ST.CROSS s).length = 0 := by omega
    have hz : weightSum (kids ST.COVERPOINT s) = 0 := by omega
    rw [itemSum, List.length_eq_zero_iff.1 hl]
    simp only [List.map_nil, List.sum_nil, add_zero]
    apply List.sum_eq_zero
    intro x hx
    obtain ⟨c, hc, rfl⟩ := List.mem_map.1 hx
    have := weight_le_weightSum hw hc
    rw [if_neg (by omega)]

/-- **C18.** The coverage of a covergroup is the weighted mean of the coverages of its items. -/
theorem C18_weighted_mean {db : Scope} {r : Rpt} (h : build id db = .ok r) (hw : NonNegWeights db)
    {p : List Nat} {s : Scope} {n : RCg} (ha : At db r p s n) :
    n.coverage = meanCoverage s ∧
    n.coverpoints.map (·.coverage) = (kids ST.COVERPOINT s).map hitShare ∧
    n.crosses.map (·.coverage) = (kids ST.CROSS s).map hitShare := by
  obtain ⟨rfl, hs⟩ := at_build h ha
  rw [pCg_eq]
  refine ⟨groupCov_mean (hw.2 s hs), ?_, ?_⟩
  · simp [pCp, leafCov_id, Function.comp_def]
  · simp [pCross, leafCov_id, Function.comp_def]

example : At Ex.rdb Ex.rrpt [0] Ex.rcg (pCg id Ex.rcg) ∧ meanCoverage Ex.rcg = 60 := ⟨⟨rfl, rfl⟩, by decide +kernel⟩

/-! ## C17 -/

theorem hitShare_eq_hundred (s : Scope) : hitShare s = 100 ↔
    itemsOfKind CT.CVGBIN s ≠ [] ∧ ∀ i ∈ itemsOfKind CT.CVGBIN s, reached i := by
  unfold hitShare
  by_cases h : numBins s = 0
  · have : itemsOfKind CT.CVGBIN s = [] := List.length_eq_zero_iff.1 h
    simp [h, this]
  · rw [if_neg h]
    have hpos : (0 : Rat) < (numBins s : Rat) := by exact_mod_cast Nat.pos_of_ne_zero h
    have hne : itemsOfKind CT.CVGBIN s ≠ [] := fun hc => h (by simp [numBins, hc])
    rw [div_eq_iff hpos.ne']
    constructor
    · intro he
      have : (numReached s : Rat) = numBins s := by linarith
      have hn : numReached s = numBins s := by exact_mod_cast this
      exact ⟨hne, by simpa using List.countP_eq_length.1 hn⟩
    · rintro ⟨_, hall⟩
      have : numReached s = numBins s := List.countP_eq_length.2 (by simpa using hall)
      rw [this]

theorem hitShare_eq_zero (s : Scope) : hitShare s = 0 ↔ ∀ i ∈ itemsOfKind CT.CVGBIN s, ¬ reached i := by
  unfold hitShare
  by_cases h : numBins s = 0
  · have : itemsOfKind CT.CVGBIN s = [] := List.length_eq_zero_iff.1 h
    simp [h, this]
  · rw [if_neg h]
    have hpos : (numBins s : Rat) ≠ 0 := by exact_mod_cast h
    rw [div_eq_zero_iff]
    constructor
    · intro he
      have hn : numReached s = 0 := by
        rcases he with he | he
        · have : (numReached s : Rat) = 0 := by linarith
          exact_mod_cast this
        · exact absurd he hpos
      simpa [numReached, List.countP_eq_zero] using hn
    · intro hall
      left
      have : numReached s = 0 := List.countP_eq_zero.2 (by simpa using hall)
      rw [this]; simp

/-- **C17** for coverpoints and crosses: 100% exactly when there is an ordinary bin and all have
reached their threshold, 0% exactly when none has. -/
theorem C17_full_and_zero {db : Scope} {r : Rpt} (h : build id db = .ok r)
    {p : List Nat} {s : Scope} {n : RCg} (ha : At db r p s n) :
    List.Forall₂ (fun c (rc : RCp) =>
        (rc.coverage = 100 ↔ itemsOfKind CT.CVGBIN c ≠ [] ∧ ∀ i ∈ itemsOfKind CT.CVGBIN c, reached i) ∧
        (rc.coverage = 0 ↔ ∀ i ∈ itemsOfKind CT.CVGBIN c, ¬ reached i))
      (kids ST.COVERPOINT s) n.coverpoints ∧
    List.Forall₂ (fun c (rc : RCross) =>
        (rc.coverage = 100 ↔ itemsOfKind CT.CVGBIN c ≠ [] ∧ ∀ i ∈ itemsOfKind CT.CVGBIN c, reached i) ∧
        (rc.coverage = 0 ↔ ∀ i ∈ itemsOfKind CT.CVGBIN c, ¬ reached i))
      (kids ST.CROSS s) n.crosses := by
  obtain ⟨rfl, _⟩ := at_build h ha
  rw [pCg_eq]
  simp only [List.forall₂_map_right_iff, List.forall₂_same]
  refine ⟨fun c _ => ?_, fun c _ => ?_⟩
  · simp only [pCp, leafCov_id]; exact ⟨hitShare_eq_hundred c, hitShare_eq_zero c⟩
  · simp only [pCross, leafCov_id]; exact ⟨hitShare_eq_hundred c, hitShare_eq_zero c⟩

theorem hitShare_le (s : Scope) : hitShare s ≤ 100 := by
  rw [← leafCov_id]; exact (leafCov_inRange (rounding_id 100) (le_refl _) s).2

theorem hitShare_nonneg (s : Scope) : 0 ≤ hitShare s := by
  rw [← leafCov_id]; exact (leafCov_inRange (rounding_id 100) (le_refl _) s).1

theorem sum_defect {α : Type} (l : List α) (w c : α → Rat) (hw : ∀ x ∈ l, 0 ≤ w x) (hc : ∀ x ∈ l, c x ≤ 100) :
    (l.map (fun x => c x * w x)).sum ≤ 100 * (l.map w).sum ∧
    ((l.map (fun x => c x * w x)).sum = 100 * (l.map w).sum ↔ ∀ x ∈ l, 0 < w x → c x = 100) := by
  induction l with
  | nil => simp
  | cons a t ih =>
    obtain ⟨ih1, ih2⟩ := ih (fun x hx => hw x (by simp [hx])) (fun x hx => hc x (by simp [hx]))
    have ha : c a * w a ≤ 100 * w a := mul_le_mul_of_nonneg_right (hc a (by simp)) (hw a (by simp))
    simp only [List.map_cons, List.sum_cons, List.mem_cons, forall_eq_or_imp]
    refine ⟨by linarith, ⟨fun he => ⟨fun hp => ?_, ih2.1 (by linarith)⟩, fun ⟨h1, h2⟩ => ?_⟩⟩
    · have : c a * w a = 100 * w a := by linarith
      exact mul_right_cancel₀ hp.ne' this
    · have := ih2.2 h2
      rcases (hw a (by simp)).lt_or_eq with hp | hz
      · rw [h1 hp]; linarith
      · rw [← hz]; simp; linarith

theorem cast_weightSum (l : List Scope) : ((weightSum l : Int) : Rat) = (l.map (fun c => (c.weight : Rat))).sum := by
  induction l with
  | nil => simp [weightSum]
  | cons a t ih => simp only [weightSum, List.map_cons, List.sum_cons] at ih ⊢; push_cast; rw [ih]

/-- **C17** for groups: with non-negative weights and positive total weight, 100% exactly when each
cross and each positively weighted coverpoint is at 100%. -/
theorem C17_group_full {db : Scope} {r : Rpt} (h : build id db = .ok r) (hw : NonNegWeights db)
    {p : List Nat} {s : Scope} {n : RCg} (ha : At db r p s n) (hpos : 0 < groupWeight s) :
    n.coverage = 100 ↔
      (∀ c ∈ n.coverpoints, 0 < c.weight → c.coverage = 100) ∧ (∀ c ∈ n.crosses, c.coverage = 100) := by
  obtain ⟨rfl, hs⟩ := at_build h ha
  rw [pCg_eq]
  simp only [groupCov_mean (hw.2 s hs), meanCoverage, if_pos hpos, List.mem_map, forall_exists_index, and_imp,
    forall_apply_eq_imp_iff₂]
  have hp : (0 : Rat) < (groupWeight s : Rat) := by exact_mod_cast hpos
  rw [div_eq_iff hp.ne']
  have d1 := sum_defect (kids ST.COVERPOINT s) (fun c => (c.weight : Rat)) hitShare
    (fun c hc => by exact_mod_cast hw.2 s hs c hc) (fun c _ => hitShare_le c)
  have d2 := sum_defect (kids ST.CROSS s) (fun _ => 1) hitShare (fun c _ => by norm_num) (fun c _ => hitShare_le c)
  simp only [mul_one, List.map_const', List.sum_replicate, nsmul_eq_mul] at d2
  have e : (groupWeight s : Rat) = ((kids ST.COVERPOINT s).map (fun c => (c.weight : Rat))).sum + ((kids ST.CROSS s).length : Rat) := by
    rw [← cast_weightSum, groupWeight]; push_cast; rfl
  rw [e]
  constructor
  · intro he
    have h1 : ((kids ST.COVERPOINT s).map (fun c => hitShare c * (c.weight : Rat))).sum
        = 100 * ((kids ST.COVERPOINT s).map (fun c => (c.weight : Rat))).sum := by linarith [d1.1, d2.1]
    have h2 : ((kids ST.CROSS s).map hitShare).sum = 100 * ((kids ST.CROSS s).length : Rat) := by linarith [d1.1, d2.1]
    refine ⟨fun c hc hcw => ?_, fun c hc => ?_⟩
    · simp only [pCp, leafCov_id]
      exact (d1.2.1 h1) c hc (by exact_mod_cast hcw)
    · simp only [pCross, leafCov_id]
      exact (d2.2.1 h2) c hc (by norm_num)
  · rintro ⟨h1, h2⟩
    have e1 := d1.2.2 (fun c hc hcw => by
      have := h1 c hc (by exact_mod_cast hcw)
      simpa [pCp, leafCov_id] using this)
    have e2 := d2.2.2 (fun c hc _ => by
      have := h2 c hc
      simpa [pCross, leafCov_id] using this)
    rw [e1, e2]; ring

example : At Ex.rdb Ex.rrpt [1] Ex.rcg2 (pCg id Ex.rcg2) ∧ 0 < groupWeight Ex.rcg2 ∧ hitShare Ex.rcq = 100 :=
  ⟨⟨rfl, rfl⟩, by decide, by decide +kernel⟩

/-! ## C21 -/

/-- C21 as stated: with non-negative weights, the overall figure is the weighted mean over all
covergroups of all instances. -/
def Spec.OverallIsMean (db : Scope) (r : Rpt) : Prop :=
  0 < weightSum (allCovergroups db) →
    r.coverage = (r.covergroups.map (fun c => c.coverage * (c.weight : Rat))).sum / (weightSum (allCovergroups db) : Rat)

namespace Ex
def full : Scope := mkCovergroup "full" SrcInfo.none 1 [mkCoverpoint "cp" SrcInfo.none 1 [mkBin "a" CT.CVGBIN 1 1]]
def none' : Scope := mkCovergroup "none" SrcInfo.none 1 [mkCoverpoint "cp" SrcInfo.none 1 [mkBin "a" CT.CVGBIN 1 0]]
/-- Two instances, the first without coverage, the second with full coverage. -/
def twoInst : Scope := { emptyDb with children :=
  [mkInstance "i1" SrcInfo.none 1 (some ⟨"du", SrcInfo.none, 1⟩) [none'],
   mkInstance "i2" SrcInfo.none 1 (some ⟨"du", SrcInfo.none, 1⟩) [full]] }

theorem build_twoInst : build id twoInst = .ok (pRpt id twoInst) := by
  rw [build_ok]
  refine ⟨?_, rfl⟩
  have h : ∀ i ∈ kids ST.INSTANCE twoInst, (∀ s ∈ kids ST.COVERGROUP i, ∀ g ∈ groupTree s,
    (∀ c ∈ kids ST.COVERPOINT g, ∀ k ∈ [CT.CVGBIN, CT.IGNOREBIN, CT.ILLEGALBIN], ∀ i ∈ itemsOfKind k c, i.atLeast ≠ none)
      ∧ (∀ c ∈ kids ST.CROSS g, ∀ i ∈ itemsOfKind CT.CVGBIN c, i.atLeast ≠ none)) ∧
    weightSum (kids ST.COVERGROUP i) ≠ 0 := by decide
  exact h
end Ex

/-- **C21 is false**: each instance overwrites the overall figure. -/
theorem C21_overall_all_instances_refuted :
    ¬ ∀ db r, build id db = .ok r → NonNegWeights db → OverallIsMean db r := by
  intro h
  have h1 := h Ex.twoInst _ Ex.build_twoInst (by refine ⟨?_, ?_⟩ <;> decide)
  have h2 := h1 (by decide)
  have e : ((pRpt id Ex.twoInst).covergroups.map (fun c => c.coverage * (c.weight : Rat))).sum
      / (weightSum (allCovergroups Ex.twoInst) : Rat) = 50 := by decide +kernel
  have e' : (pRpt id Ex.twoInst).coverage = 100 := by decide +kernel
  rw [e, e'] at h2
  exact absurd h2 (by decide)

theorem instCov_id (i : Scope) (hw : ∀ g ∈ kids ST.COVERGROUP i, 0 ≤ g.weight) :
    instCov id i = ((kids ST.COVERGROUP i).map (fun g => groupCov id g * (g.weight : Rat))).sum
      / (weightSum (kids ST.COVERGROUP i) : Rat) := by
  unfold instCov accOf
  rw [acc_id]
  simp only [id, zero_add, wsum, List.map_map]
  congr 2
  apply List.map_congr_left
  intro g hg
  exact posTerm _ (hw g hg)

/-- **C21**, what holds: the overall figure is the weighted mean over the covergroups of the *last*
instance.  (Missing for the full statement: the covergroups of the other instances.) -/
theorem C21_overall_last_instance_partial {db : Scope} {r : Rpt} (h : build id db = .ok r) (hw : NonNegWeights db)
    {i : Scope} (hi : (kids ST.INSTANCE db).getLast? = some i) :
    r.coverage = ((r.covergroups.drop ((allCovergroups db).length - (kids ST.COVERGROUP i).length)).map
        (fun c => c.coverage * (c.weight : Rat))).sum / (weightSum (kids ST.COVERGROUP i) : Rat) := by
  obtain ⟨_, rfl⟩ := (build_ok id db r).1 h
  simp only [pRpt, hi, Option.map_some, Option.getD_some]
  rw [instCov_id i (fun g hg => hw.1 g (mem_reported_of_kid (List.mem_of_getLast? hi) hg).1)]
  congr 2
  obtain ⟨l, hl⟩ := List.getLast?_eq_some_iff.1 hi
  have e : allCovergroups db = l.flatMap (kids ST.COVERGROUP) ++ kids ST.COVERGROUP i := by
    unfold allCovergroups; rw [hl]; simp
  rw [e]
  simp only [List.map_append, List.length_append, Nat.add_sub_cancel]
  rw [List.drop_append, List.drop_eq_nil_of_le (by simp), List.length_map, Nat.sub_self, List.drop_zero, List.nil_append,
    List.map_map]
  apply List.map_congr_left
  intro g _
  simp [pCg_eq]

/-- **C21** holds for databases with a single instance. -/
theorem C21_overall_single_instance_partial {db : Scope} {r : Rpt} (h : build id db = .ok r) (hw : NonNegWeights db)
    {i : Scope} (hi : kids ST.INSTANCE db = [i]) : OverallIsMean db r := by
  intro _
  have h1 := C21_overall_last_instance_partial h hw (i := i) (by rw [hi]; rfl)
  have e : allCovergroups db = kids ST.COVERGROUP i := by unfold allCovergroups; rw [hi]; simp
  rw [e, Nat.sub_self, List.drop_zero] at h1
  rw [e]; exact h1

example : kids ST.INSTANCE Ex.rdb = [Ex.rinst] ∧ Ex.rrpt.coverage = 220 / 3 := ⟨rfl, by decide +kernel⟩

/-! ## C24 -/

/-- C24 as stated, for the crosses of one reported group. -/
def Spec.CrossWeightsHonoured (s : Scope) (n : RCg) : Prop :=
  n.crosses.map (·.weight) = (kids ST.CROSS s).map (·.weight) ∧
  (0 < weightSum (kids ST.COVERPOINT s) + weightSum (kids ST.CROSS s) →
    n.coverage = (((kids ST.COVERPOINT s).map (fun c => hitShare c * (c.weight : Rat))).sum
        + ((kids ST.CROSS s).map (fun c => hitShare c * (c.weight : Rat))).sum)
      / ((weightSum (kids ST.COVERPOINT s) + weightSum (kids ST.CROSS s) : Int) : Rat))

namespace Ex
def wcross : Scope := mkCovergroup "cg" SrcInfo.none 1
  [mkCoverpoint "cp" SrcInfo.none 1 [mkBin "a" CT.CVGBIN 1 1],
   mkCross "cr" SrcInfo.none 3 ["cp"] [mkBin "a" CT.CVGBIN 2 1]]
def wdb : Scope := { emptyDb with children := [mkInstance "i" SrcInfo.none 1 (some ⟨"du", SrcInfo.none, 1⟩) [wcross]] }
theorem build_wdb : build id wdb = .ok (pRpt id wdb) := by
  rw [build_ok]
  refine ⟨?_, rfl⟩
  have h : ∀ i ∈ kids ST.INSTANCE wdb, (∀ s ∈ kids ST.COVERGROUP i, ∀ g ∈ groupTree s,
    (∀ c ∈ kids ST.COVERPOINT g, ∀ k ∈ [CT.CVGBIN, CT.IGNOREBIN, CT.ILLEGALBIN], ∀ i ∈ itemsOfKind k c, i.atLeast ≠ none)
      ∧ (∀ c ∈ kids ST.CROSS g, ∀ i ∈ itemsOfKind CT.CVGBIN c, i.atLeast ≠ none)) ∧
    weightSum (kids ST.COVERGROUP i) ≠ 0 := by decide
  exact h
theorem at_wdb : At wdb (pRpt id wdb) [0] wcross (pCg id wcross) := ⟨rfl, rfl⟩
end Ex

/-- **C24 is false**: the weight of a cross is not read; it is reported and counted with weight 1. -/
theorem C24_cross_weights_refuted :
    ¬ ∀ db r p s n, build id db = .ok r → NonNegWeights db → At db r p s n → CrossWeightsHonoured s n := by
  intro h
  have h1 := (h _ _ _ _ _ Ex.build_wdb (by refine ⟨?_, ?_⟩ <;> decide) Ex.at_wdb).1
  revert h1; decide +kernel

/-- **C24**, what holds: every cross is reported and counted with weight 1, so the statement is true
exactly for groups whose crosses have weight 1 (as far as the reported weights go). -/
theorem C24_cross_weights_partial {db : Scope} {r : Rpt} (h : build id db = .ok r) (hw : NonNegWeights db)
    {p : List Nat} {s : Scope} {n : RCg} (ha : At db r p s n) :
    (∀ c ∈ n.crosses, c.weight = 1) ∧
    ((∀ c ∈ kids ST.CROSS s, c.weight = 1) → CrossWeightsHonoured s n) := by
  obtain ⟨rfl, hs⟩ := at_build h ha
  rw [pCg_eq]
  refine ⟨?_, fun h1 => ⟨?_, fun hpos => ?_⟩⟩
  · intro c hc
    obtain ⟨y, _, rfl⟩ := List.mem_map.1 hc
    rfl
  · simp only [List.map_map]
    apply List.map_congr_left
    intro c hc
    simp [pCross, h1 c hc]
  · have e : weightSum (kids ST.CROSS s) = ((kids ST.CROSS s).length : Int) := by
      unfold weightSum
      rw [List.map_congr_left (g := fun _ => (1 : Int)) h1]
      simp
    have e2 : (kids ST.CROSS s).map (fun c => hitShare c * (c.weight : Rat)) = (kids ST.CROSS s).map hitShare := by
      apply List.map_congr_left
      intro c hc
      rw [h1 c hc]; simp
    simp only [groupCov_mean (hw.2 s hs)]
    rw [e] at hpos ⊢
    rw [e2, meanCoverage, if_pos (by unfold groupWeight; exact hpos)]
    rfl

example : At Ex.rdb Ex.rrpt [0, 0] Ex.rci (pCg id Ex.rci) ∧ (∀ c ∈ kids ST.CROSS Ex.rci, c.weight = 1) ∧
    kids ST.CROSS Ex.rci ≠ [] := ⟨⟨rfl, rfl⟩, by decide, by decide⟩

/-! ## C25 -/

theorem hit_thrBin {i : Item} (h : i.atLeast ≠ none) : (thrBin i).hit = decide (reached i) := by
  unfold RBin.hit thrBin
  simp only [decide_eq_decide]
  exact (reached_iff h).symm

theorem countP_map_bins {l : List Item} {f : Item → RBin} (h : ∀ i ∈ l, (f i).hit = decide (reached i)) :
    (l.map f).countP RBin.hit = l.countP (fun i => decide (reached i)) := by
  rw [List.countP_map]
  apply List.countP_congr
  intro i hi
  simp [h i hi]

/-- Coverage of a list of bins by their hit flags. -/
def Spec.flagShare (rd : Rat → Rat) (bins : List RBin) : Rat :=
  rd (((100 * bins.countP RBin.hit : Nat) : Rat) / (bins.length : Rat))

/-- **C25** for coverpoints: the percentage is the share of listed bins whose hit flag is set. -/
theorem C25_hit_flags_agree {rd : Rat → Rat} {db : Scope} {r : Rpt} (h : build rd db = .ok r)
    {p : List Nat} {n : RCg} (hn : nodeAt p r.covergroups = some n) :
    ∀ c ∈ n.coverpoints, c.bins ≠ [] → c.coverage = flagShare rd c.bins := by
  obtain ⟨s, _, rfl, hs⟩ := node_build h hn
  rw [pCg_eq]
  intro c hc hne
  obtain ⟨y, hy, rfl⟩ := List.mem_map.1 hc
  have ht := (thresholds_of_build h s hs).1 y hy CT.CVGBIN (by simp)
  have hl : numBins y > 0 := by
    unfold numBins
    rcases Nat.eq_zero_or_pos (itemsOfKind CT.CVGBIN y).length with h0 | h0
    · simp [pCp, List.length_eq_zero_iff.1 h0] at hne
    · exact h0
  simp only [pCp, leafCov, if_pos hl, percent, flagShare]
  rw [countP_map_bins (fun i hi => hit_thrBin (ht i hi)), List.length_map]
  rfl

/-- **C25 is false for crosses**: cross bins are listed with their goal (1) instead of their
threshold. -/
theorem C25_cross_hit_flags_refuted :
    ¬ ∀ db r p n, build id db = .ok r → nodeAt p r.covergroups = some n →
      ∀ c ∈ n.crosses, c.bins ≠ [] → c.coverage = flagShare id c.bins := by
  intro h
  have h1 := h _ _ [0] _ Ex.build_wdb Ex.at_wdb.2
  revert h1; decide +kernel

/-- **C25** for crosses, what holds: flags and percentage agree when the goal of every ordinary bin
equals its threshold.  (Missing: thresholds other than the goal, which `createBin` fixes to 1.) -/
theorem C25_cross_hit_flags_partial {rd : Rat → Rat} {db : Scope} {r : Rpt} (h : build rd db = .ok r)
    {p : List Nat} {s : Scope} {n : RCg} (ha : At db r p s n)
    (hg : ∀ c ∈ kids ST.CROSS s, ∀ i ∈ itemsOfKind CT.CVGBIN c, i.atLeast = some i.goal) :
    ∀ c ∈ n.crosses, c.bins ≠ [] → c.coverage = flagShare rd c.bins := by
  obtain ⟨rfl, hs⟩ := at_build h ha
  rw [pCg_eq]
  intro c hc hne
  obtain ⟨y, hy, rfl⟩ := List.mem_map.1 hc
  have hl : numBins y > 0 := by
    unfold numBins
    rcases Nat.eq_zero_or_pos (itemsOfKind CT.CVGBIN y).length with h0 | h0
    · simp [pCross, List.length_eq_zero_iff.1 h0] at hne
    · exact h0
  simp only [pCross, leafCov, if_pos hl, percent, flagShare]
  rw [countP_map_bins, List.length_map]
  · rfl
  · intro i hi
    have := hg y hy i hi
    rw [Bool.eq_iff_iff]
    simp [goalBin, RBin.hit, reached, this]
    exact decide_eq_true_iff

example : (∀ c ∈ kids ST.CROSS Ex.rcg, ∀ i ∈ itemsOfKind CT.CVGBIN c, i.atLeast = some i.goal) ∧
    (pCg id Ex.rcg).crosses.map (·.coverage) = [50] := ⟨by decide, by decide +kernel⟩

end Verif
