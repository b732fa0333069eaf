import Verif.Binary64
import Mathlib.Algebra.Order.Ring.Pow
/-!
# Accuracy of the reported figures (C86)

The report is computed in floating point.  Every operation has a relative error of at most `u`; the operands are never negative, so the
errors do not amplify: after `m` operations the result lies within the factors `(1 - u)^m` and `(1 + u)^m` of the exact one.
-/

namespace Verif
open Spec Report

/-- Every rounding has a relative error of at most `u`. -/
def Spec.Accurate (rd : Rat → Rat) (u : Rat) : Prop := 0 ≤ u ∧ u ≤ 1 ∧ ∀ x, |rd x - x| ≤ u * |x|

theorem round64_accurate : Accurate round64 unit64 :=
  ⟨by unfold unit64; norm_num, by unfold unit64; norm_num, round64_error⟩

/-- `a` is `b` up to the errors of `m` operations. -/
def Near (u : Rat) (m : Nat) (a b : Rat) : Prop := 0 ≤ b ∧ (1 - u) ^ m * b ≤ a ∧ a ≤ (1 + u) ^ m * b

namespace Near

variable {u : Rat} {m n : Nat} {a b c d : Rat}

theorem refl (h : 0 ≤ b) : Near u 0 b b := ⟨h, by simp, by simp⟩

theorem nonneg (hu : u ≤ 1) (h : Near u m a b) : 0 ≤ a :=
  le_trans (mul_nonneg (pow_nonneg (by linarith) _) h.1) h.2.1

theorem weaken (h0 : 0 ≤ u) (h1 : u ≤ 1) (hmn : m ≤ n) (h : Near u m a b) : Near u n a b := by
  refine ⟨h.1, le_trans (mul_le_mul_of_nonneg_right ?_ h.1) h.2.1, le_trans h.2.2 (mul_le_mul_of_nonneg_right ?_ h.1)⟩
  · exact pow_le_pow_of_le_one (by linarith) (by linarith) hmn
  · exact pow_le_pow_right₀ (by linarith) hmn

theorem round {rd : Rat → Rat} (hr : Accurate rd u) (h : Near u m a b) : Near u (m + 1) (rd a) b := by
  obtain ⟨h0, h1, he⟩ := hr
  have ha := h.nonneg h1
  have := abs_le.1 (he a)
  rw [abs_of_nonneg ha] at this
  refine ⟨h.1, ?_, ?_⟩
  · have h2 : (1 - u) * ((1 - u) ^ m * b) ≤ (1 - u) * a := mul_le_mul_of_nonneg_left h.2.1 (by linarith)
    rw [pow_succ']
    linarith
  · have h2 : (1 + u) * a ≤ (1 + u) * ((1 + u) ^ m * b) := mul_le_mul_of_nonneg_left h.2.2 (by linarith)
    rw [pow_succ']
    linarith

theorem add (h : Near u m a b) (h' : Near u m c d) : Near u m (a + c) (b + d) :=
  ⟨add_nonneg h.1 h'.1, by rw [mul_add]; exact add_le_add h.2.1 h'.2.1, by rw [mul_add]; exact add_le_add h.2.2 h'.2.2⟩

theorem mul (hc : 0 ≤ c) (h : Near u m a b) : Near u m (a * c) (b * c) :=
  ⟨mul_nonneg h.1 hc, by rw [← mul_assoc]; exact mul_le_mul_of_nonneg_right h.2.1 hc,
    by rw [← mul_assoc]; exact mul_le_mul_of_nonneg_right h.2.2 hc⟩

theorem div (hc : 0 ≤ c) (h : Near u m a b) : Near u m (a / c) (b / c) := by
  rw [div_eq_mul_inv, div_eq_mul_inv]
  exact h.mul (inv_nonneg.2 hc)

theorem zero : Near u m 0 0 := ⟨le_refl _, by simp, by simp⟩

end Near

/-- One term of a sum. -/
theorem near_addTerm {rd : Rat → Rat} {u : Rat} {N : Int} (hr : Accurate rd u) (hx : Rounding rd N) {m j : Nat} {s s0 c c0 : Rat} {w : Int}
    (hw0 : 0 ≤ w) (hw : w ≤ N) (hs : Near u (m + 1 + j) s s0) (hc : Near u m c c0) :
    Near u (m + 1 + (j + 1)) (addTerm rd s c w) (addTerm id s0 c0 w) := by
  have hwq : (0 : Rat) ≤ (w : Rat) := by exact_mod_cast hw0
  unfold addTerm
  rw [hx.fix w (by omega) hw]
  simp only [id]
  have h1 := (hc.mul hwq).round hr
  exact (hs.add (h1.weaken hr.1 hr.2.1 (by omega))).round hr

/-- A sum with weights, computed by a loop. -/
theorem near_acc {rd : Rat → Rat} {u : Rat} {N : Int} (hr : Accurate rd u) (hx : Rounding rd N) {m : Nat}
    {stp stp0 : Acc → Rat × Int → Acc}
    (hstep : ∀ st st0 c c0 w, 0 ≤ w →
      (stp st (c, w) = ⟨addTerm rd st.coverage c w, st.div + w⟩ ∧ stp0 st0 (c0, w) = ⟨addTerm id st0.coverage c0 w, st0.div + w⟩) ∨
      (stp st (c, w) = ⟨st.coverage, st.div + w⟩ ∧ stp0 st0 (c0, w) = ⟨st0.coverage, st0.div + w⟩))
    {α : Type} (l : List α) (f f0 : α → Rat) (w : α → Int) (hw : ∀ x ∈ l, 0 ≤ w x ∧ w x ≤ N) (hf : ∀ x ∈ l, Near u m (f x) (f0 x)) :
    ∀ {j : Nat} {st st0 : Acc}, Near u (m + 1 + j) st.coverage st0.coverage → st.div = st0.div →
      Near u (m + 1 + (j + l.length)) (((l.map (fun x => (f x, w x))).foldl stp st).coverage) (((l.map (fun x => (f0 x, w x))).foldl stp0 st0).coverage) ∧
      ((l.map (fun x => (f x, w x))).foldl stp st).div = ((l.map (fun x => (f0 x, w x))).foldl stp0 st0).div := by
  induction l with
  | nil => exact fun h1 h2 => ⟨h1, h2⟩
  | cons a t ih =>
    intro j st st0 h1 h2
    simp only [List.map_cons, List.foldl_cons, List.length_cons]
    have hwa := hw a (by simp)
    rw [show j + (t.length + 1) = j + 1 + t.length by omega]
    rcases hstep st st0 (f a) (f0 a) (w a) hwa.1 with ⟨e1, e2⟩ | ⟨e1, e2⟩
    · rw [e1, e2]
      exact ih (fun x hx => hw x (by simp [hx])) (fun x hx => hf x (by simp [hx])) (near_addTerm hr hx hwa.1 hwa.2 h1 (hf a (by simp))) (by simp only; rw [h2])
    · rw [e1, e2]
      exact ih (fun x hx => hw x (by simp [hx])) (fun x hx => hf x (by simp [hx])) (h1.weaken hr.1 hr.2.1 (by omega)) (by simp only; rw [h2])

theorem near_leaf {rd : Rat → Rat} {u : Rat} (hr : Accurate rd u) (s : Scope) : Near u 1 (leafCov rd s) (leafCov id s) := by
  unfold leafCov percent
  split
  · exact (Near.refl (by positivity)).round hr
  · exact .zero

/-- Number of coverpoints and crosses of a group. -/
def Spec.numParts (g : Scope) : Nat := (kids ST.COVERPOINT g).length + (kids ST.CROSS g).length

theorem near_group {rd : Rat → Rat} {u : Rat} {N : Int} (hr : Accurate rd u) (hx : Rounding rd N) {g : Scope}
    (hw : ∀ c ∈ kids ST.COVERPOINT g, 0 ≤ c.weight) (hN : groupWeight g ≤ N) (h1N : 1 ≤ N) :
    Near u (numParts g + 3) (groupCov rd g) (groupCov id g) := by
  have hle : ∀ c ∈ kids ST.COVERPOINT g, c.weight ≤ N := fun c hc => by
    have := weight_le_weightSum hw hc
    unfold groupWeight at hN
    omega
  unfold groupCov groupCoverage
  simp only [List.map_map]
  have a1 := near_acc hr hx (m := 1) (stp := accStep rd) (stp0 := accStep id)
    (fun st st0 c c0 w _ => by
      unfold accStep
      by_cases h : w > 0
      · simp [h]
      · simp [h])
    (kids ST.COVERPOINT g) (leafCov rd) (leafCov id) (·.weight) (fun c hc => ⟨hw c hc, hle c hc⟩) (fun c _ => near_leaf hr c)
    (j := 0) (st := ⟨0, 0⟩) (st0 := ⟨0, 0⟩) .zero rfl
  have a2 := near_acc hr hx (m := 1) (stp := accStepCross rd) (stp0 := accStepCross id) (fun st st0 c c0 w _ => .inl ⟨rfl, rfl⟩)
    (kids ST.CROSS g) (leafCov rd) (leafCov id) (fun _ => 1) (fun c hc => ⟨by norm_num, h1N⟩) (fun c _ => near_leaf hr c) a1.1 a1.2
  have e1 : ∀ rd' : Rat → Rat, (fun c : RCp => (c.coverage, c.weight)) ∘ pCp rd' = fun x => (leafCov rd' x, x.weight) := fun _ => rfl
  have e2 : ∀ rd' : Rat → Rat, (fun c : RCross => (c.coverage, c.weight)) ∘ pCross rd' = fun x => (leafCov rd' x, (1 : Int)) := fun _ => rfl
  rw [e1, e2, e1, e2]
  revert a2
  generalize ((kids ST.CROSS g).map (fun x => (leafCov rd x, (1 : Int)))).foldl (accStepCross rd) _ = A
  intro a2
  have hdiv : (((kids ST.CROSS g).map (fun x => (leafCov id x, (1 : Int)))).foldl (accStepCross id)
      (((kids ST.COVERPOINT g).map (fun x => (leafCov id x, x.weight))).foldl (accStep id) ⟨0, 0⟩)).div = groupWeight g := by
    rw [accCross_id, acc_id]
    simp only [List.map_map, Function.comp_def, List.map_const', List.sum_replicate, groupWeight, weightSum]
    simp
  obtain ⟨h3, h4⟩ := a2
  rw [h4, hdiv]
  split
  · rename_i hpos
    rw [hx.fix _ (by omega) hN]
    simp only [id]
    refine ((h3.div (by exact_mod_cast hpos.le)).round hr).weaken hr.1 hr.2.1 ?_
    unfold numParts
    omega
  · refine h3.weaken hr.1 hr.2.1 ?_
    unfold numParts
    omega

theorem near_inst {rd : Rat → Rat} {u : Rat} {N : Int} (hr : Accurate rd u) (hx : Rounding rd N) {i : Scope} {m : Nat}
    (hw : ∀ g ∈ kids ST.COVERGROUP i, 0 ≤ g.weight) (hN : weightSum (kids ST.COVERGROUP i) ≤ N)
    (hg : ∀ g ∈ kids ST.COVERGROUP i, Near u m (groupCov rd g) (groupCov id g)) :
    Near u (m + (kids ST.COVERGROUP i).length + 2) (instCov rd i) (instCov id i) := by
  have hle : ∀ c ∈ kids ST.COVERGROUP i, c.weight ≤ N := fun c hc => le_trans (weight_le_weightSum hw hc) hN
  have a1 := near_acc hr hx (m := m) (stp := accStep rd) (stp0 := accStep id)
    (fun st st0 c c0 w _ => by
      unfold accStep
      by_cases h : w > 0
      · simp [h]
      · simp [h])
    (kids ST.COVERGROUP i) (groupCov rd) (groupCov id) (·.weight) (fun c hc => ⟨hw c hc, hle c hc⟩) hg
    (j := 0) (st := ⟨0, 0⟩) (st0 := ⟨0, 0⟩) .zero rfl
  have hdiv : (((kids ST.COVERGROUP i).map (fun x => (groupCov id x, x.weight))).foldl (accStep id) ⟨0, 0⟩).div = weightSum (kids ST.COVERGROUP i) := by
    rw [acc_id]
    simp only [List.map_map, Function.comp_def, weightSum]
    simp
  have h0 := weightSum_nonneg hw
  unfold instCov
  unfold accOf
  rw [hx.fix _ (by omega) hN]
  simp only [id]
  exact ((a1.1.div (by exact_mod_cast h0)).round hr).weaken hr.1 hr.2.1 (by omega)

/-- Bernoulli's inequality from above. -/
theorem pow_le_linear {u : Rat} (h0 : 0 ≤ u) {m : Nat} (hm : (m : Rat) * u ≤ 1 / 2) : (1 + u) ^ m ≤ 1 + 2 * (m : Rat) * u := by
  induction m with
  | zero => simp
  | succ m ih =>
    push_cast at hm
    have h1 : (m : Rat) * u ≤ 1 / 2 := by linarith
    have h2 := mul_le_mul_of_nonneg_right (ih h1) (show 0 ≤ 1 + u by linarith)
    rw [pow_succ]
    push_cast
    have h3 : (m : Rat) * u * u ≤ 1 / 2 * u := mul_le_mul_of_nonneg_right h1 h0
    linarith

theorem pow_ge_linear {u : Rat} (h0 : 0 ≤ u) (h1 : u ≤ 1) (m : Nat) : 1 - (m : Rat) * u ≤ (1 - u) ^ m := by
  have := one_add_mul_le_pow (a := -u) (by linarith) m
  rw [← sub_eq_add_neg] at this
  linarith

theorem Near.abs_le {u : Rat} (h0 : 0 ≤ u) (h1 : u ≤ 1) {m : Nat} (hm : (m : Rat) * u ≤ 1 / 2) {a b : Rat} (h : Near u m a b) :
    |a - b| ≤ 2 * (m : Rat) * u * b := by
  have h2 := mul_le_mul_of_nonneg_right (pow_le_linear h0 hm) h.1
  have h3 := mul_le_mul_of_nonneg_right (pow_ge_linear h0 h1 m) h.1
  have h4 : 0 ≤ (m : Rat) * u * b := mul_nonneg (mul_nonneg (by positivity) h0) h.1
  rw [_root_.abs_le]
  constructor
  · linarith [h.2.1]
  · linarith [h.2.2]

/-! ## C86: error bounds -/

/-- Two lists of figures of coverpoints or crosses, compared one by one. -/
def Spec.CloseLists (e : Rat) (l l' : List Rat) : Prop := List.Forall₂ (fun a b => |a - b| ≤ e) l l'

/-- Two reports with the same entries in the same places whose figures differ by at most `e`. -/
def Spec.CloseReports (e : Rat) (r r' : Rpt) : Prop :=
  |r.coverage - r'.coverage| ≤ e ∧
  ∀ p, (nodeAt p r.covergroups = none ↔ nodeAt p r'.covergroups = none) ∧
    ∀ n n', nodeAt p r.covergroups = some n → nodeAt p r'.covergroups = some n' →
      n.name = n'.name ∧ |n.coverage - n'.coverage| ≤ e ∧
      CloseLists e (n.coverpoints.map (·.coverage)) (n'.coverpoints.map (·.coverage)) ∧
      CloseLists e (n.crosses.map (·.coverage)) (n'.crosses.map (·.coverage))

/-- The numbers of items of the groups and of groups of the instances are at most `K`, and the total weights are at most `N`. -/
structure Spec.SizeLimit (K : Nat) (N : Int) (db : Scope) : Prop where
  parts : ∀ g ∈ reportedGroups db, numParts g ≤ K
  groups : ∀ i ∈ kids ST.INSTANCE db, (kids ST.COVERGROUP i).length ≤ K
  partWeight : ∀ g ∈ reportedGroups db, groupWeight g ≤ N
  groupWeight : ∀ i ∈ kids ST.INSTANCE db, weightSum (kids ST.COVERGROUP i) ≤ N

theorem closeLists_map {α : Type} {e : Rat} {f g : α → Rat} {l : List α} (h : ∀ x ∈ l, |f x - g x| ≤ e) :
    CloseLists e (l.map f) (l.map g) := by
  induction l with
  | nil => exact .nil
  | cons a t ih => exact .cons (h a (by simp)) (ih (fun x hx => h x (by simp [hx])))

theorem Near.abs_le_hundred {u : Rat} (h0 : 0 ≤ u) (h1 : u ≤ 1) {m M : Nat} (hm : m ≤ M) (hM : (M : Rat) * u ≤ 1 / 2) {a b : Rat}
    (h : Near u m a b) (hb : b ≤ 100) : |a - b| ≤ 200 * (M : Rat) * u := by
  have := (h.weaken h0 h1 hm).abs_le h0 h1 hM
  have h2 : 2 * (M : Rat) * u * b ≤ 2 * (M : Rat) * u * 100 := mul_le_mul_of_nonneg_left hb (by positivity)
  linarith

/-- Whether a report can be made does not depend on the arithmetic. -/
theorem build_any (rd rd' : Rat → Rat) {db : Scope} {r : Rpt} (h : build rd db = .ok r) : ∃ r', build rd' db = .ok r' :=
  ⟨pRpt rd' db, (build_ok _ _ _).2 ⟨((build_ok _ _ _).1 h).1, rfl⟩⟩

theorem leafCov_le (s : Scope) : leafCov id s ≤ 100 := by rw [leafCov_id]; exact hitShare_le s

theorem groupCov_range {db g : Scope} (hw : NonNegWeights db) (hg : g ∈ reportedGroups db) : InRange (groupCov id g) :=
  groupCov_inRange (rounding_id (max 100 (100 * groupWeight g))) (le_max_left _ _) g (hw.2 g hg) (le_max_right _ _)

/-- Error of a report for any arithmetic with relative error `u` that is exact on the integers up to `N`. -/
theorem close_build {rd : Rat → Rat} {u : Rat} {N : Int} (hr : Accurate rd u) (hx : Rounding rd N) (h1N : 1 ≤ N) {K : Nat}
    (hK : ((2 * K + 5 : Nat) : Rat) * u ≤ 1 / 2) {db : Scope} {r r0 : Rpt} (hw : NonNegWeights db) (hs : SizeLimit K N db)
    (h : build rd db = .ok r) (h0 : build id db = .ok r0) : CloseReports (200 * ((2 * K + 5 : Nat) : Rat) * u) r r0 := by
  have hgrp : ∀ g ∈ reportedGroups db, Near u (K + 3) (groupCov rd g) (groupCov id g) := fun g hg =>
    (near_group hr hx (hw.2 g hg) (hs.partWeight g hg) h1N).weaken hr.1 hr.2.1 (by have := hs.parts g hg; omega)
  have hcl : ∀ m a b, m ≤ 2 * K + 5 → Near u m a b → b ≤ 100 → |a - b| ≤ 200 * ((2 * K + 5 : Nat) : Rat) * u :=
    fun m a b hm hn hb => hn.abs_le_hundred hr.1 hr.2.1 hm hK hb
  refine ⟨?_, fun p => ⟨?_, fun n n' hn hn' => ?_⟩⟩
  · obtain ⟨hok, rfl⟩ := (build_ok _ _ _).1 h
    obtain ⟨_, rfl⟩ := (build_ok _ _ _).1 h0
    simp only [pRpt]
    cases hl : (kids ST.INSTANCE db).getLast? with
    | none =>
      refine hcl 0 _ _ (by omega) .zero (by norm_num)
    | some i =>
      have hi := List.mem_of_getLast? hl
      refine hcl (K + 3 + (kids ST.COVERGROUP i).length + 2) _ _ ?_ (near_inst hr hx (fun g hg' => hw.1 g (mem_reported_of_kid hi hg').1)
        (hs.groupWeight i hi) (fun g hg' => hgrp g (mem_reported_of_kid hi hg').2)) ?_
      · have := hs.groups i hi
        omega
      · exact (instCov_inRange (rounding_id (max 100 (100 * weightSum (kids ST.COVERGROUP i)))) (le_max_left _ _) i
          (fun g hg' => hw.1 g (mem_reported_of_kid hi hg').1) (fun g hg' => groupCov_range hw (mem_reported_of_kid hi hg').2)
          (hok i hi).2 (le_max_right _ _)).2
  · rw [nodeAt_build h, nodeAt_build h0]
    simp
  · rw [nodeAt_build h, Option.map_eq_some_iff] at hn
    obtain ⟨s, hs', rfl⟩ := hn
    rw [nodeAt_build h0, hs'] at hn'
    cases hn'
    have hg := groupAt_mem hs'
    rw [pCg_eq, pCg_eq]
    refine ⟨rfl, hcl _ _ _ (by omega) (hgrp s hg) (groupCov_range hw hg).2, ?_, ?_⟩
    · simp only [List.map_map]
      exact closeLists_map (fun c _ => hcl 1 _ _ (by omega) (near_leaf hr c) (leafCov_le c))
    · simp only [List.map_map]
      exact closeLists_map (fun c _ => hcl 1 _ _ (by omega) (near_leaf hr c) (leafCov_le c))

/-- **C86.** The figures of a report, computed in binary64 arithmetic, differ from the figures in exact arithmetic by at most
`200 (2K + 5) / 2^53` percent, where `K` bounds the numbers of items of a group and of groups of an instance, as long as no weights
are negative and no total weight exceeds `2^53`.  The report exists in one arithmetic exactly if it exists in the other. -/
theorem C86_accuracy {K : Nat} (hK : K ≤ 2 ^ 50) {db : Scope} (hw : NonNegWeights db) (hs : SizeLimit K (2 ^ 53) db) :
    (∀ r0, build id db = .ok r0 → ∃ r, build round64 db = .ok r ∧ CloseReports (200 * (2 * (K : Rat) + 5) / 2 ^ 53) r r0) ∧
    (∀ r, build round64 db = .ok r → ∃ r0, build id db = .ok r0 ∧ CloseReports (200 * (2 * (K : Rat) + 5) / 2 ^ 53) r r0) := by
  have hk : ((2 * K + 5 : Nat) : Rat) * unit64 ≤ 1 / 2 := by
    have : (K : Rat) ≤ 1125899906842624 := by exact_mod_cast hK
    push_cast
    unfold unit64
    norm_num only
    linarith
  have e : 200 * ((2 * K + 5 : Nat) : Rat) * unit64 = 200 * (2 * (K : Rat) + 5) / 2 ^ 53 := by
    push_cast
    unfold unit64
    ring
  constructor
  · intro r0 h0
    obtain ⟨r, h⟩ := build_any id round64 h0
    exact ⟨r, h, e ▸ close_build round64_accurate round64_rounding (by norm_num) hk hw hs h h0⟩
  · intro r h
    obtain ⟨r0, h0⟩ := build_any round64 id h
    exact ⟨r0, h0, e ▸ close_build round64_accurate round64_rounding (by norm_num) hk hw hs h h0⟩

theorem CloseReports.mono {e e' : Rat} (he : e ≤ e') {r r' : Rpt} (h : CloseReports e r r') : CloseReports e' r r' := by
  refine ⟨h.1.trans he, fun p => ⟨(h.2 p).1, fun n n' hn hn' => ?_⟩⟩
  obtain ⟨h1, h2, h3, h4⟩ := (h.2 p).2 n n' hn hn'
  exact ⟨h1, h2.trans he, h3.imp (fun _ _ h => h.trans he), h4.imp (fun _ _ h => h.trans he)⟩

/-- **C86** in figures: with at most a million items per group and groups per instance the error is less than `10^-7` percent. -/
theorem C86_accuracy_million {db : Scope} (hw : NonNegWeights db) (hs : SizeLimit 1000000 (2 ^ 53) db) {r r0 : Rpt}
    (h : build round64 db = .ok r) (h0 : build id db = .ok r0) : CloseReports (1 / 10 ^ 7) r r0 := by
  obtain ⟨r1, h1, hc⟩ := (C86_accuracy (K := 1000000) (by norm_num) hw hs).2 r h
  rw [h0] at h1
  cases h1
  exact CloseReports.mono (by norm_num) hc

theorem Ex.size_rdb : SizeLimit 1000000 (2 ^ 53) Ex.rdb := by
  constructor <;> decide +kernel

example : NonNegWeights Ex.rdb ∧ SizeLimit 1000000 (2 ^ 53) Ex.rdb ∧ build id Ex.rdb = .ok Ex.rrpt ∧ ∃ r, build round64 Ex.rdb = .ok r :=
  ⟨Ex.nonneg_rdb, Ex.size_rdb, Ex.build_rdb, build_any id round64 Ex.build_rdb⟩

/-- **C16** in binary64: every figure lies in [0,100], if no total weight exceeds `2^53 / 100`. -/
theorem C16_binary64 {db : Scope} {r : Rpt} (h : build round64 db = .ok r) (hw : NonNegWeights db)
    (hb1 : ∀ i ∈ kids ST.INSTANCE db, 100 * weightSum (kids ST.COVERGROUP i) ≤ 2 ^ 53)
    (hb2 : ∀ g ∈ reportedGroups db, 100 * groupWeight g ≤ 2 ^ 53) :
    InRange r.coverage ∧ ∀ p n, nodeAt p r.covergroups = some n →
      InRange n.coverage ∧ (∀ c ∈ n.coverpoints, InRange c.coverage) ∧ (∀ c ∈ n.crosses, InRange c.coverage) :=
  C16_coverage_in_range_rounded round64_rounding (by norm_num) h hw hb1 hb2

example : (∀ i ∈ kids ST.INSTANCE Ex.rdb, 100 * weightSum (kids ST.COVERGROUP i) ≤ 2 ^ 53) ∧
    (∀ g ∈ reportedGroups Ex.rdb, 100 * groupWeight g ≤ 2 ^ 53) := by constructor <;> decide +kernel

/-- **C18** in binary64: the coverage of a group with `k` coverpoints and crosses is the weighted mean of the shares of its items, with
an error of at most `200 (k + 3) / 2^53` percent; the figure of an item is the rounded share. -/
theorem C18_binary64 {db : Scope} {r : Rpt} (h : build round64 db = .ok r) (hw : NonNegWeights db)
    {p : List Nat} {s : Scope} {n : RCg} (ha : At db r p s n) (hk : numParts s ≤ 2 ^ 50) (hN : groupWeight s ≤ 2 ^ 53) :
    |n.coverage - meanCoverage s| ≤ 200 * ((numParts s : Rat) + 3) / 2 ^ 53 ∧
    n.coverpoints.map (·.coverage) = (kids ST.COVERPOINT s).map (fun c => round64 (hitShare c)) ∧
    n.crosses.map (·.coverage) = (kids ST.CROSS s).map (fun c => round64 (hitShare c)) := by
  obtain ⟨rfl, hs⟩ := at_build h ha
  rw [pCg_eq]
  have hleaf : ∀ c, leafCov round64 c = round64 (hitShare c) := by
    intro c
    unfold leafCov hitShare percent
    by_cases h : numBins c = 0
    · simp [h, round64_zero]
    · simp [h, Nat.pos_of_ne_zero h]
  refine ⟨?_, ?_, ?_⟩
  · rw [← groupCov_mean (hw.2 s hs)]
    have hn := near_group round64_accurate round64_rounding (hw.2 s hs) hN (by norm_num)
    have hm : ((numParts s + 3 : Nat) : Rat) * unit64 ≤ 1 / 2 := by
      have : (numParts s : Rat) ≤ 1125899906842624 := by exact_mod_cast hk
      push_cast
      unfold unit64
      norm_num only
      linarith
    have := hn.abs_le_hundred round64_accurate.1 round64_accurate.2.1 (le_refl _) hm (groupCov_range hw hs).2
    refine this.trans (le_of_eq ?_)
    push_cast
    unfold unit64
    ring
  · simp [pCp, hleaf, Function.comp_def]
  · simp [pCross, hleaf, Function.comp_def]

example : At Ex.rdb (pRpt round64 Ex.rdb) [0] Ex.rcg (pCg round64 Ex.rcg) ∧ numParts Ex.rcg = 3 ∧ groupWeight Ex.rcg ≤ 2 ^ 53 :=
  ⟨⟨rfl, rfl⟩, by decide +kernel, by decide +kernel⟩

/-! ## C17 in binary64 -/

/-- A share that is not full misses at least one bin. -/
theorem hitShare_gap {s : Scope} {B : Nat} (hB : numBins s ≤ B) (h : hitShare s ≠ 100) : hitShare s * (B : Rat) ≤ 100 * ((B : Rat) - 1) ∨ (numBins s = 0 ∧ hitShare s = 0) := by
  by_cases h0 : numBins s = 0
  · exact .inr ⟨h0, by unfold hitShare; rw [if_pos h0]⟩
  left
  have hp : (0 : Rat) < numBins s := by exact_mod_cast Nat.pos_of_ne_zero h0
  have hb : (numBins s : Rat) ≤ B := by exact_mod_cast hB
  have hlt : numReached s < numBins s := by
    refine lt_of_le_of_ne (numReached_le s) (fun e => h ?_)
    unfold hitShare
    rw [if_neg h0, e]
    field_simp
  have hr : (numReached s : Rat) + 1 ≤ numBins s := by exact_mod_cast hlt
  have e : hitShare s * (numBins s : Rat) = 100 * (numReached s : Rat) := by
    unfold hitShare
    rw [if_neg h0]
    field_simp
  have h1 : hitShare s * (B : Rat) = hitShare s * (numBins s : Rat) + hitShare s * ((B : Rat) - numBins s) := by ring
  have h2 : hitShare s * ((B : Rat) - numBins s) ≤ 100 * ((B : Rat) - numBins s) := mul_le_mul_of_nonneg_right (hitShare_le s) (by linarith)
  rw [h1, e]
  linarith

theorem leafCov_round64 (c : Scope) : leafCov round64 c = round64 (hitShare c) := by
  unfold leafCov hitShare percent
  by_cases h : numBins c = 0
  · simp [h, round64_zero]
  · simp [h, Nat.pos_of_ne_zero h]

theorem round64_hundred : round64 100 = 100 := by
  have := round64_int (n := 100) (by norm_num) (by norm_num)
  exact_mod_cast this

theorem leaf64_hundred {c : Scope} (hB : numBins c < 2 ^ 53) : leafCov round64 c = 100 ↔ hitShare c = 100 := by
  rw [leafCov_round64]
  constructor
  · intro h
    by_contra hne
    have he := round64_error (hitShare c)
    rw [h, abs_of_nonneg (hitShare_nonneg c), abs_of_nonneg (by linarith [hitShare_le c])] at he
    rcases hitShare_gap (B := 2 ^ 53 - 1) (by omega) hne with h1 | ⟨_, h1⟩
    · unfold unit64 at he
      norm_num at h1 he
      linarith
    · rw [h1] at he
      norm_num at he
  · intro h
    rw [h, round64_hundred]

theorem round64_eq_zero (x : Rat) : round64 x = 0 ↔ x = 0 := by
  constructor
  · intro h
    have he := round64_error x
    rw [h, zero_sub, abs_neg] at he
    by_contra hne
    have : 0 < |x| := abs_pos.2 hne
    unfold unit64 at he
    norm_num at he
    linarith
  · rintro rfl
    exact round64_zero

/-- **C17** in binary64 for coverpoints and crosses with fewer than `2^53` bins: 100% exactly when there is an ordinary bin and all have
reached their threshold, 0% exactly when none has. -/
theorem C17_binary64 {db : Scope} {r : Rpt} (h : build round64 db = .ok r)
    {p : List Nat} {s : Scope} {n : RCg} (ha : At db r p s n)
    (hB : ∀ c ∈ kids ST.COVERPOINT s ++ kids ST.CROSS s, (itemsOfKind CT.CVGBIN c).length < 2 ^ 53) :
    List.Forall₂ (fun c (rc : RCp) =>
        (rc.coverage = 100 ↔ itemsOfKind CT.CVGBIN c ≠ [] ∧ ∀ i ∈ itemsOfKind CT.CVGBIN c, reached i) ∧
        (rc.coverage = 0 ↔ ∀ i ∈ itemsOfKind CT.CVGBIN c, ¬ reached i))
      (kids ST.COVERPOINT s) n.coverpoints ∧
    List.Forall₂ (fun c (rc : RCross) =>
        (rc.coverage = 100 ↔ itemsOfKind CT.CVGBIN c ≠ [] ∧ ∀ i ∈ itemsOfKind CT.CVGBIN c, reached i) ∧
        (rc.coverage = 0 ↔ ∀ i ∈ itemsOfKind CT.CVGBIN c, ¬ reached i))
      (kids ST.CROSS s) n.crosses := by
  obtain ⟨rfl, _⟩ := at_build h ha
  rw [pCg_eq]
  simp only [List.forall₂_map_right_iff, List.forall₂_same]
  have key : ∀ c ∈ kids ST.COVERPOINT s ++ kids ST.CROSS s,
      (leafCov round64 c = 100 ↔ itemsOfKind CT.CVGBIN c ≠ [] ∧ ∀ i ∈ itemsOfKind CT.CVGBIN c, reached i) ∧
      (leafCov round64 c = 0 ↔ ∀ i ∈ itemsOfKind CT.CVGBIN c, ¬ reached i) := fun c hc =>
    ⟨(leaf64_hundred (hB c hc)).trans (hitShare_eq_hundred c), by rw [leafCov_round64, round64_eq_zero]; exact hitShare_eq_zero c⟩
  exact ⟨fun c hc => key c (List.mem_append_left _ hc), fun c hc => key c (List.mem_append_right _ hc)⟩

example : build round64 Ex.rdb = .ok (pRpt round64 Ex.rdb) ∧ At Ex.rdb (pRpt round64 Ex.rdb) [0] Ex.rcg (pCg round64 Ex.rcg) ∧
    ∀ c ∈ kids ST.COVERPOINT Ex.rcg ++ kids ST.CROSS Ex.rcg, (itemsOfKind CT.CVGBIN c).length < 2 ^ 53 :=
  ⟨(build_ok _ _ _).2 ⟨((build_ok _ _ _).1 Ex.build_rdb).1, rfl⟩, ⟨rfl, rfl⟩, by decide +kernel⟩

/-- If the items with positive weight are at 100, so is the sum, without rounding error. -/
theorem acc_full {rd : Rat → Rat} {N : Int} (hx : Rounding rd N) {stp : Acc → Rat × Int → Acc}
    (hstep : ∀ st c w, (stp st (c, w) = ⟨addTerm rd st.coverage c w, st.div + w⟩ ∧ 0 < w) ∨ (stp st (c, w) = ⟨st.coverage, st.div + w⟩ ∧ w ≤ 0) ∨
      (stp st (c, w) = ⟨addTerm rd st.coverage c w, st.div + w⟩ ∧ c = 100))
    {α : Type} (l : List α) (f : α → Rat) (w : α → Int) (hw : ∀ x ∈ l, 0 ≤ w x) (hf : ∀ x ∈ l, 0 < w x → f x = 100) :
    ∀ {st : Acc}, 0 ≤ st.div → 100 * (st.div + (l.map w).sum) ≤ N → st.coverage = 100 * (st.div : Rat) →
      ((l.map (fun x => (f x, w x))).foldl stp st).coverage = 100 * (((l.map (fun x => (f x, w x))).foldl stp st).div : Rat) ∧
      ((l.map (fun x => (f x, w x))).foldl stp st).div = st.div + (l.map w).sum := by
  induction l with
  | nil => intro st _ _ h; exact ⟨h, by simp⟩
  | cons a t ih =>
    intro st h0 hN h
    simp only [List.map_cons, List.foldl_cons, List.sum_cons] at hN ⊢
    have hwa := hw a (by simp)
    have hts : 0 ≤ (t.map w).sum := by
      apply List.sum_nonneg
      intro x hx
      obtain ⟨y, hy, rfl⟩ := List.mem_map.1 hx
      exact hw y (by simp [hy])
    have hadd : f a = 100 → addTerm rd st.coverage (f a) (w a) = 100 * ((st.div + w a : Int) : Rat) := by
      intro hfa
      unfold addTerm
      rw [hfa, hx.fix (w a) (by omega) (by omega), h]
      have e1 := hx.fix (100 * w a) (by omega) (by omega)
      push_cast at e1
      rw [e1]
      have e2 := hx.fix (100 * (st.div + w a)) (by omega) (by omega)
      push_cast at e2 ⊢
      rw [← mul_add, e2]
    have hst : (stp st (f a, w a)).coverage = 100 * ((stp st (f a, w a)).div : Rat) ∧ (stp st (f a, w a)).div = st.div + w a := by
      rcases hstep st (f a) (w a) with ⟨e, hp⟩ | ⟨e, hp⟩ | ⟨e, hp⟩
      · rw [e]; exact ⟨hadd (hf a (by simp) hp), rfl⟩
      · rw [e]
        have : w a = 0 := by omega
        exact ⟨by rw [this]; simpa using h, rfl⟩
      · rw [e]; exact ⟨hadd hp, rfl⟩
    have := ih (fun x hx => hw x (by simp [hx])) (fun x hx => hf x (by simp [hx])) (st := stp st (f a, w a)) (by rw [hst.2]; omega)
      (by rw [hst.2]; omega) hst.1
    refine ⟨this.1, ?_⟩
    rw [this.2, hst.2]
    omega

theorem share_le_of_gap {c : Scope} {B : Nat} (h1 : 1 ≤ B) (hB : numBins c ≤ B) (h : hitShare c ≠ 100) : hitShare c ≤ 100 - 100 / (B : Rat) := by
  have hb : (1 : Rat) ≤ B := by exact_mod_cast h1
  have hp : (0 : Rat) < B := by linarith
  rcases hitShare_gap hB h with h2 | ⟨_, h2⟩
  · rw [le_sub_iff_add_le, ← le_sub_iff_add_le', div_le_iff₀ hp]
    linarith
  · rw [h2, le_sub_iff_add_le, zero_add, div_le_iff₀ hp]
    linarith

theorem sum_gap {α : Type} {l : List α} {w c : α → Rat} {e : Rat} (hw : ∀ x ∈ l, 0 ≤ w x) (hc : ∀ x ∈ l, c x ≤ 100) (he : 0 ≤ e)
    {y : α} (hy : y ∈ l) (hwy : 1 ≤ w y) (hcy : c y ≤ 100 - e) : (l.map (fun x => c x * w x)).sum ≤ 100 * (l.map w).sum - e := by
  induction l with
  | nil => cases hy
  | cons a t ih =>
    simp only [List.map_cons, List.sum_cons]
    have d := (sum_defect t w c (fun x hx => hw x (by simp [hx])) (fun x hx => hc x (by simp [hx]))).1
    have ha : c a * w a ≤ 100 * w a := mul_le_mul_of_nonneg_right (hc a (by simp)) (hw a (by simp))
    rcases List.mem_cons.1 hy with rfl | hy
    · have h1 : c y * w y ≤ (100 - e) * w y := mul_le_mul_of_nonneg_right hcy (by linarith)
      have h2 : e * 1 ≤ e * w y := mul_le_mul_of_nonneg_left hwy he
      linarith
    · have := ih (fun x hx => hw x (by simp [hx])) (fun x hx => hc x (by simp [hx])) hy
      linarith

/-- A group that is not full misses at least one bin. -/
theorem mean_gap {s : Scope} (hw : ∀ c ∈ kids ST.COVERPOINT s, 0 ≤ c.weight) (hpos : 0 < groupWeight s) {B : Nat} (h1 : 1 ≤ B)
    (hB : ∀ c ∈ kids ST.COVERPOINT s ++ kids ST.CROSS s, numBins c ≤ B)
    (h : ¬ ((∀ c ∈ kids ST.COVERPOINT s, 0 < c.weight → hitShare c = 100) ∧ ∀ c ∈ kids ST.CROSS s, hitShare c = 100)) :
    meanCoverage s * ((B : Rat) * groupWeight s) ≤ 100 * ((B : Rat) * groupWeight s) - 100 := by
  have hb : (1 : Rat) ≤ B := by exact_mod_cast h1
  have hbp : (0 : Rat) < B := by linarith
  have hp : (0 : Rat) < (groupWeight s : Rat) := by exact_mod_cast hpos
  have he : (0 : Rat) ≤ 100 / B := by positivity
  have w1 : ∀ c ∈ kids ST.COVERPOINT s, (0 : Rat) ≤ (c.weight : Rat) := fun c hc => by exact_mod_cast hw c hc
  have d1 := sum_defect (kids ST.COVERPOINT s) (fun c => (c.weight : Rat)) hitShare w1 (fun c _ => hitShare_le c)
  have d2 := sum_defect (kids ST.CROSS s) (fun _ => 1) hitShare (fun c _ => by norm_num) (fun c _ => hitShare_le c)
  have e : (groupWeight s : Rat) = ((kids ST.COVERPOINT s).map (fun c => (c.weight : Rat))).sum + ((kids ST.CROSS s).map (fun _ => (1 : Rat))).sum := by
    rw [← cast_weightSum, groupWeight]
    push_cast
    simp
  have key : ((kids ST.COVERPOINT s).map (fun c => hitShare c * (c.weight : Rat))).sum + ((kids ST.CROSS s).map (fun c => hitShare c * 1)).sum
      ≤ 100 * (groupWeight s : Rat) - 100 / B := by
    rw [not_and_or] at h
    rcases h with h | h
    · push Not at h
      obtain ⟨c, hc, hcw, hne⟩ := h
      have := sum_gap (c := hitShare) w1 (fun c _ => hitShare_le c) he hc (by exact_mod_cast hcw)
        (share_le_of_gap h1 (hB c (List.mem_append_left _ hc)) hne)
      rw [e]
      linarith [d2.1]
    · push Not at h
      obtain ⟨c, hc, hne⟩ := h
      have := sum_gap (c := hitShare) (w := fun _ => 1) (fun c _ => by norm_num) (fun c _ => hitShare_le c) he hc (le_refl _)
        (share_le_of_gap h1 (hB c (List.mem_append_right _ hc)) hne)
      rw [e]
      linarith [d1.1]
  simp only [mul_one] at key
  have em : meanCoverage s * (groupWeight s : Rat) = ((kids ST.COVERPOINT s).map (fun c => hitShare c * (c.weight : Rat))).sum + ((kids ST.CROSS s).map hitShare).sum := by
    unfold meanCoverage
    rw [if_pos hpos, div_mul_cancel₀ _ hp.ne']
  rw [← em] at key
  have := mul_le_mul_of_nonneg_right key hbp.le
  rw [sub_mul, div_mul_cancel₀ _ hbp.ne'] at this
  linarith

/-- **C17** in binary64 for groups: with non-negative weights and positive total weight, 100% exactly when each cross and each
positively weighted coverpoint is at 100%, as long as `2 (k + 3) B W < 2^53` and `100 W ≤ 2^53` for a group of `k` items with at most
`B` bins each and total weight `W`. -/
theorem C17_group_binary64 {db : Scope} {r : Rpt} (h : build round64 db = .ok r) (hw : NonNegWeights db)
    {p : List Nat} {s : Scope} {n : RCg} (ha : At db r p s n) (hpos : 0 < groupWeight s) {B : Nat} (hB1 : 1 ≤ B)
    (hB : ∀ c ∈ kids ST.COVERPOINT s ++ kids ST.CROSS s, (itemsOfKind CT.CVGBIN c).length ≤ B)
    (hW : 100 * groupWeight s ≤ 2 ^ 53) (hlim : 2 * ((numParts s : Int) + 3) * ((B : Int) * groupWeight s) < 2 ^ 53) :
    n.coverage = 100 ↔
      (∀ c ∈ n.coverpoints, 0 < c.weight → c.coverage = 100) ∧ (∀ c ∈ n.crosses, c.coverage = 100) := by
  obtain ⟨rfl, hs⟩ := at_build h ha
  have hw' := hw.2 s hs
  rw [pCg_eq]
  simp only [List.mem_map, forall_exists_index, and_imp, forall_apply_eq_imp_iff₂]
  show groupCov round64 s = 100 ↔ (∀ c ∈ kids ST.COVERPOINT s, 0 < c.weight → leafCov round64 c = 100) ∧ ∀ c ∈ kids ST.CROSS s, leafCov round64 c = 100
  have hWp : (0 : Rat) < (groupWeight s : Rat) := by exact_mod_cast hpos
  have hBp : (1 : Rat) ≤ B := by exact_mod_cast hB1
  have hBW : (0 : Rat) < (B : Rat) * groupWeight s := by positivity
  have hBW1 : (1 : Rat) ≤ (B : Rat) * groupWeight s := by
    have : (1 : Int) ≤ (B : Int) * groupWeight s := by
      have h1 : (0 : Int) < B := by omega
      have := Int.mul_pos h1 hpos
      omega
    exact_mod_cast this
  have hlimq : 2 * ((numParts s : Rat) + 3) * ((B : Rat) * groupWeight s) < 2 ^ 53 := by exact_mod_cast hlim
  constructor
  · intro hc
    have hfull : (∀ c ∈ kids ST.COVERPOINT s, 0 < c.weight → hitShare c = 100) ∧ ∀ c ∈ kids ST.CROSS s, hitShare c = 100 := by
      by_contra hne
      have hgap := mean_gap hw' hpos hB1 hB hne
      have hn := near_group round64_accurate round64_rounding hw' (by omega) (by norm_num)
      rw [hc, groupCov_mean hw'] at hn
      have hu : (0 : Rat) ≤ unit64 := round64_accurate.1
      have hx : 2 * ((numParts s + 3 : Nat) : Rat) * unit64 * ((B : Rat) * groupWeight s) < 1 := by
        push_cast
        unfold unit64
        rw [show 2 * ((numParts s : Rat) + 3) * (1 / 2 ^ 53) * ((B : Rat) * groupWeight s) = 2 * ((numParts s : Rat) + 3) * ((B : Rat) * groupWeight s) / 2 ^ 53 by ring,
          div_lt_one (by norm_num)]
        exact hlimq
      have hm : ((numParts s + 3 : Nat) : Rat) * unit64 ≤ 1 / 2 := by
        have h0 : 0 ≤ ((numParts s + 3 : Nat) : Rat) * unit64 := mul_nonneg (by positivity) hu
        have := mul_le_mul_of_nonneg_left hBW1 h0
        linarith
      have hle := hn.2.2.trans (mul_le_mul_of_nonneg_right (pow_le_linear hu hm) hn.1)
      have h2 := mul_le_mul_of_nonneg_right hle hBW.le
      set x := 2 * ((numParts s + 3 : Nat) : Rat) * unit64 with hxd
      have hx0 : 0 ≤ x := by rw [hxd]; positivity
      set y := (B : Rat) * groupWeight s
      have h3 : (1 + x) * meanCoverage s * y = meanCoverage s * y + x * (meanCoverage s * y) := by ring
      rw [h3] at h2
      have h4 : x * (meanCoverage s * y) ≤ x * (100 * y - 100) := mul_le_mul_of_nonneg_left hgap hx0
      nlinarith
    have hrd : ∀ c, hitShare c = 100 → leafCov round64 c = 100 := fun c hc => by rw [leafCov_round64, hc, round64_hundred]
    exact ⟨fun c hc hcw => hrd c (hfull.1 c hc hcw), fun c hc => hrd c (hfull.2 c hc)⟩
  · rintro ⟨h1, h2⟩
    have hgw : 0 + weightSum (kids ST.COVERPOINT s) + ((kids ST.CROSS s).map (fun _ => (1 : Int))).sum = groupWeight s := by
      unfold groupWeight
      simp
    have hcr : 0 ≤ ((kids ST.CROSS s).map (fun _ => (1 : Int))).sum := by simp
    have a1 := acc_full round64_rounding (stp := accStep round64)
      (fun st c w => by
        rcases accStep_cases round64 st (c, w) with e | ⟨hle, e⟩
        · by_cases hp : 0 < w
          · exact .inl ⟨e, hp⟩
          · refine .inr (.inl ⟨?_, by omega⟩)
            unfold accStep
            simp [hp]
        · exact .inr (.inl ⟨e, hle⟩))
      (kids ST.COVERPOINT s) (leafCov round64) (·.weight) hw' h1 (st := ⟨0, 0⟩) (le_refl _)
      (by have : ((kids ST.COVERPOINT s).map (·.weight)).sum = weightSum (kids ST.COVERPOINT s) := rfl
          rw [this]; simp only; omega) (by simp)
    have a1d := a1.2
    have ew : ((kids ST.COVERPOINT s).map (·.weight)).sum = weightSum (kids ST.COVERPOINT s) := rfl
    rw [ew] at a1d
    have hw0 := weightSum_nonneg hw'
    have hsteps : ∀ (st : Acc) (c : Rat) (w : Int), accStepCross round64 st (c, w) = ⟨addTerm round64 st.coverage c w, st.div + w⟩ := fun _ _ _ => rfl
    have a2 := acc_full round64_rounding (stp := fun st cw => if 0 < cw.2 then accStepCross round64 st cw else ⟨st.coverage, st.div + cw.2⟩)
      (fun st c w => by
        by_cases hp : 0 < w
        · exact .inl ⟨by simp [hp, hsteps], hp⟩
        · exact .inr (.inl ⟨by simp [hp], by omega⟩))
      (kids ST.CROSS s) (leafCov round64) (fun _ => 1) (fun _ _ => by norm_num) (fun c hc _ => h2 c hc)
      (st := ((kids ST.COVERPOINT s).map (fun x => (leafCov round64 x, x.weight))).foldl (accStep round64) ⟨0, 0⟩)
      (by rw [a1d]; simp only; omega) (by rw [a1d]; simp only; omega) a1.1
    have efold : ∀ (l : List Scope) (st : Acc), (l.map (fun x => (leafCov round64 x, (1 : Int)))).foldl
        (fun st cw => if 0 < cw.2 then accStepCross round64 st cw else ⟨st.coverage, st.div + cw.2⟩) st
        = (l.map (fun x => (leafCov round64 x, (1 : Int)))).foldl (accStepCross round64) st := by
      intro l
      induction l with
      | nil => intro st; rfl
      | cons a t ih => intro st; simp only [List.map_cons, List.foldl_cons]; rw [ih]; rfl
    rw [efold, a1d] at a2
    unfold groupCov groupCoverage
    simp only [List.map_map]
    have e1 : (fun c : RCp => (c.coverage, c.weight)) ∘ pCp round64 = fun x => (leafCov round64 x, x.weight) := rfl
    have e2 : (fun c : RCross => (c.coverage, c.weight)) ∘ pCross round64 = fun x => (leafCov round64 x, (1 : Int)) := rfl
    rw [e1, e2, a2.1, a2.2]
    simp only
    rw [hgw, if_pos hpos, round64_rounding.fix _ (by omega) (by omega), mul_div_assoc, div_self hWp.ne', mul_one, round64_hundred]

example : At Ex.rdb (pRpt round64 Ex.rdb) [0] Ex.rcg (pCg round64 Ex.rcg) ∧ 0 < groupWeight Ex.rcg ∧
    (∀ c ∈ kids ST.COVERPOINT Ex.rcg ++ kids ST.CROSS Ex.rcg, (itemsOfKind CT.CVGBIN c).length ≤ 1000) ∧
    100 * groupWeight Ex.rcg ≤ 2 ^ 53 ∧ 2 * ((numParts Ex.rcg : Int) + 3) * (((1000 : Nat) : Int) * groupWeight Ex.rcg) < 2 ^ 53 :=
  ⟨⟨rfl, rfl⟩, by decide +kernel, by decide +kernel, by decide +kernel, by decide +kernel⟩

/-- A bin without hits, and a coverpoint with it. -/
def Ex.miss : Scope := mkCoverpoint "miss" SrcInfo.none 1 [⟨"m", CT.CVGBIN, 0, some 1, 1, 1⟩]
def Ex.heavy : Scope := { Ex.rcq with weight := 2 ^ 53 }
def Ex.hcg : Scope := mkCovergroup "cg" SrcInfo.none 1 [Ex.heavy, Ex.miss]
def Ex.hdb : Scope := { emptyDb with children := [mkInstance "i" SrcInfo.none 1 none [Ex.hcg]] }

theorem Ex.build_hdb (rd : Rat → Rat) : build rd Ex.hdb = .ok (pRpt rd Ex.hdb) := by
  rw [build_ok]
  refine ⟨?_, rfl⟩
  have h : ∀ i ∈ kids ST.INSTANCE Ex.hdb, (∀ s ∈ kids ST.COVERGROUP i, ∀ g ∈ groupTree s,
      (∀ c ∈ kids ST.COVERPOINT g, ∀ k ∈ [CT.CVGBIN, CT.IGNOREBIN, CT.ILLEGALBIN], ∀ i ∈ itemsOfKind k c, i.atLeast ≠ none)
        ∧ (∀ c ∈ kids ST.CROSS g, ∀ i ∈ itemsOfKind CT.CVGBIN c, i.atLeast ≠ none)) ∧ weightSum (kids ST.COVERGROUP i) ≠ 0 := by
    decide +kernel
  exact h

/-- C17 for groups fails in binary64 beyond the limits: a coverpoint of weight 1 without any hit does not show beside a fully covered
one of weight `2^53`, and the group is reported at 100%. -/
theorem C17_group_binary64_refuted : ∃ (db s : Scope) (r : Rpt) (p : List Nat) (n : RCg), build round64 db = .ok r ∧ NonNegWeights db ∧
    At db r p s n ∧ 0 < groupWeight s ∧ n.coverage = 100 ∧ ∃ c ∈ n.coverpoints, 0 < c.weight ∧ c.coverage = 0 := by
  refine ⟨Ex.hdb, Ex.hcg, _, [0], pCg round64 Ex.hcg, Ex.build_hdb _, ?_, ⟨rfl, rfl⟩, by decide +kernel, ?_, ?_⟩
  · constructor <;> decide +kernel
  · rw [pCg_eq]
    show groupCov round64 Ex.hcg = 100
    decide +kernel
  · rw [pCg_eq]
    refine ⟨pCp round64 Ex.miss, List.mem_map.2 ⟨Ex.miss, List.mem_filter.2 ⟨by simp [Ex.hcg, mkCovergroup], by decide⟩, rfl⟩, by decide, ?_⟩
    show leafCov round64 Ex.miss = 0
    decide +kernel

/-! ## C26 in binary64 -/

theorem close_two {e a a0 b b0 : Rat} (ha : |a - a0| ≤ e) (hb : |b - b0| ≤ e) (h : a0 = b0) : |a - b| ≤ 2 * e := by
  subst h
  rw [abs_le] at ha hb ⊢
  constructor <;> linarith [ha.1, ha.2, hb.1, hb.2]

/-- **C26** in binary64: scaling the weights changes the figures of groups and the overall figure by rounding errors only, and the
figures of coverpoints not at all. -/
theorem C26_binary64 {K : Nat} (hK : K ≤ 2 ^ 50) {db db' : Scope} {r r' : Rpt} (h : build round64 db = .ok r) (h' : build round64 db' = .ok r')
    (hs : Scaled db db') (hw : NonNegWeights db) (hw' : NonNegWeights db') (hl : SizeLimit K (2 ^ 53) db) (hl' : SizeLimit K (2 ^ 53) db')
    (hx : ∀ g ∈ reportedGroups db, kids ST.CROSS g = []) (hsep : ∀ g ∈ allCovergroups db, maskHit g.stype ST.COVERPOINT = false) :
    |r.coverage - r'.coverage| ≤ 400 * (2 * (K : Rat) + 5) / 2 ^ 53 ∧
    ∀ p n n', nodeAt p r.covergroups = some n → nodeAt p r'.covergroups = some n' →
      |n.coverage - n'.coverage| ≤ 400 * (2 * (K : Rat) + 5) / 2 ^ 53 ∧ n.coverpoints.map (·.coverage) = n'.coverpoints.map (·.coverage) := by
  obtain ⟨r0, h0, c0, c1⟩ := (C86_accuracy hK hw hl).2 r h
  obtain ⟨r0', h0', c0', c1'⟩ := (C86_accuracy hK hw' hl').2 r' h'
  obtain ⟨t1, t2⟩ := C26_weight_scaling h0 h0' hs hw hx hsep
  have e : 400 * (2 * (K : Rat) + 5) / 2 ^ 53 = 2 * (200 * (2 * (K : Rat) + 5) / 2 ^ 53) := by ring
  rw [e]
  refine ⟨close_two c0 c0' t1, fun p n n' hn hn' => ?_⟩
  obtain ⟨s, ha, en, _⟩ := node_build h hn
  obtain ⟨s', ha', en', _⟩ := node_build h' hn'
  have hn0 : nodeAt p r0.covergroups = some (pCg id s) := by rw [nodeAt_build h0, ha.1]; rfl
  have hn0' : nodeAt p r0'.covergroups = some (pCg id s') := by rw [nodeAt_build h0', ha'.1]; rfl
  obtain ⟨q1, q2⟩ := t2 p _ _ hn0 hn0'
  refine ⟨close_two ((c1 p).2 n _ hn hn0).2.1 ((c1' p).2 n' _ hn' hn0').2.1 q1, ?_⟩
  subst en en'
  rw [pCg_eq, pCg_eq] at q2 ⊢
  simp only [List.map_map] at q2 ⊢
  have q3 := congrArg (List.map round64) q2
  simp only [List.map_map] at q3
  have e1 : round64 ∘ (fun c : RCp => c.coverage) ∘ pCp id = (fun c : RCp => c.coverage) ∘ pCp round64 := by
    funext c
    simp only [Function.comp, pCp]
    rw [leafCov_round64, leafCov_id]
  rw [e1] at q3
  exact q3

/-- A database with one covergroup of two coverpoints with weights `k` and `2k`. -/
def Ex.scdb (k : Int) : Scope := { emptyDb with children := [mkInstance "i" SrcInfo.none 1 none
  [mkCovergroup "g" SrcInfo.none 1 [{ Ex.rcq with weight := k }, { Ex.miss with weight := 2 * k }]]] }

example : Scaled (Ex.scdb 1) (Ex.scdb 3) ∧ NonNegWeights (Ex.scdb 1) ∧ NonNegWeights (Ex.scdb 3) ∧ SizeLimit 2 (2 ^ 53) (Ex.scdb 1) ∧
    SizeLimit 2 (2 ^ 53) (Ex.scdb 3) ∧ (∀ g ∈ reportedGroups (Ex.scdb 1), (kids ST.CROSS g).length = 0) ∧
    (∀ g ∈ allCovergroups (Ex.scdb 1), maskHit g.stype ST.COVERPOINT = false) ∧
    (build round64 (Ex.scdb 1)).isOk = true ∧ (build round64 (Ex.scdb 3)).isOk = true := by
  refine ⟨?_, ?_, ?_, ?_, ?_, by decide +kernel, by decide +kernel, by decide +kernel, by decide +kernel⟩
  · refine ⟨rfl, rfl, rfl, rfl, rfl, rfl, 1, 1, by decide, by decide, _, _, rfl, by decide, ?_, rfl⟩
    refine ⟨rfl, rfl, rfl, rfl, rfl, rfl, 1, 1, by decide, by decide, _, _, rfl, by decide, ?_, rfl⟩
    refine ⟨rfl, rfl, rfl, rfl, rfl, rfl, 3, 1, by decide, by decide, _, _, rfl, by decide, ?_, _, _, rfl, by decide, ?_, rfl⟩
    · exact ⟨rfl, rfl, rfl, rfl, rfl, rfl, 1, 1, by decide, by decide, rfl⟩
    · exact ⟨rfl, rfl, rfl, rfl, rfl, rfl, 1, 1, by decide, by decide, rfl⟩
  · constructor <;> decide +kernel
  · constructor <;> decide +kernel
  · constructor <;> decide +kernel
  · constructor <;> decide +kernel

end Verif
