import Verif.ReportThms2
import Verif.MergeThms2
import Mathlib.Algebra.BigOperators.Ring.List
/-!
# Properties C09, C19, C20, C26: how figures react to changes of the database
-/

namespace Verif
open Spec Report
open Merge (merge)

/-- The figures shown for a group: its own, those of its coverpoints and those of its crosses. -/
def Spec.figures (n : RCg) : Rat × List Rat × List Rat :=
  (n.coverage, n.coverpoints.map (·.coverage), n.crosses.map (·.coverage))

theorem figures_pCg (rd : Rat → Rat) (s : Scope) : figures (pCg rd s)
    = (groupCov rd s, (kids ST.COVERPOINT s).map (leafCov rd), (kids ST.CROSS s).map (leafCov rd)) := by
  rw [pCg_eq]; simp [figures, pCp, pCross, Function.comp_def]

/-- The inputs of the figure of a group. -/
theorem groupCov_congr {rd : Rat → Rat} {s s' : Scope}
    (h1 : (kids ST.COVERPOINT s).map (fun c => (leafCov rd c, c.weight)) = (kids ST.COVERPOINT s').map (fun c => (leafCov rd c, c.weight)))
    (h2 : (kids ST.CROSS s).map (leafCov rd) = (kids ST.CROSS s').map (leafCov rd)) :
    groupCov rd s = groupCov rd s' := by
  unfold groupCov groupCoverage
  simp only [List.map_map]
  have e1 : ∀ l : List Scope, l.map ((fun c : RCp => (c.coverage, c.weight)) ∘ pCp rd) = l.map (fun c => (leafCov rd c, c.weight)) :=
    fun l => rfl
  have e2 : ∀ l : List Scope, l.map ((fun c : RCross => (c.coverage, c.weight)) ∘ pCross rd)
      = (l.map (leafCov rd)).map (fun x => (x, (1 : Int))) := by intro l; simp [pCross, Function.comp_def]
  rw [e1, e1, e2, e2, h1, h2]

theorem instCov_congr {rd : Rat → Rat} {i i' : Scope}
    (h : (kids ST.COVERGROUP i).map (fun g => (groupCov rd g, g.weight)) = (kids ST.COVERGROUP i').map (fun g => (groupCov rd g, g.weight))) :
    instCov rd i = instCov rd i' := by
  have hw : weightSum (kids ST.COVERGROUP i) = weightSum (kids ST.COVERGROUP i') := by
    have := congrArg (List.map (·.2)) h
    simp only [List.map_map] at this
    unfold weightSum
    exact congrArg List.sum this
  unfold instCov accOf
  rw [h, hw]

/-! ## C19 -/

/-- Ordinary bins. -/
def Spec.ordinary (i : Item) : Bool := maskHit i.kind CT.CVGBIN

theorem kids_keep (q : Item → Bool) (m : Nat) (s : Scope) : kids m (keepItems q s) = (kids m s).map (keepItems q) := by
  unfold kids
  rw [keepItems_children, List.filter_map]
  congr 1
  apply List.filter_congr
  intro x _
  simp [keepItems_stype]

theorem itemsOfKind_keep (s : Scope) : itemsOfKind CT.CVGBIN (keepItems ordinary s) = itemsOfKind CT.CVGBIN s := by
  unfold itemsOfKind
  rw [keepItems_items, List.filter_filter]
  apply List.filter_congr
  intro x _
  simp [ordinary]

theorem keepItems_weight (q : Item → Bool) (s : Scope) : (keepItems q s).weight = s.weight := by cases s; rfl

theorem leafCov_keep (rd : Rat → Rat) (s : Scope) : leafCov rd (keepItems ordinary s) = leafCov rd s := by
  unfold leafCov numBins numReached
  rw [itemsOfKind_keep]

theorem groupCov_keep (rd : Rat → Rat) (s : Scope) : groupCov rd (keepItems ordinary s) = groupCov rd s := by
  apply groupCov_congr
  · rw [kids_keep, List.map_map]
    apply List.map_congr_left
    intro c _
    simp [leafCov_keep, keepItems_weight]
  · rw [kids_keep, List.map_map]
    apply List.map_congr_left
    intro c _
    simp [leafCov_keep]

theorem instCov_keep (rd : Rat → Rat) (s : Scope) : instCov rd (keepItems ordinary s) = instCov rd s := by
  apply instCov_congr
  rw [kids_keep, List.map_map]
  apply List.map_congr_left
  intro c _
  simp [groupCov_keep, keepItems_weight]

theorem figures_keep (rd : Rat → Rat) (s : Scope) : figures (pCg rd (keepItems ordinary s)) = figures (pCg rd s) := by
  rw [figures_pCg, figures_pCg, groupCov_keep, kids_keep, kids_keep, List.map_map, List.map_map]
  simp only [Function.comp_def, leafCov_keep]

theorem groupAt_keep (q : Item → Bool) (p : List Nat) (l : List Scope) :
    groupAt p (l.map (keepItems q)) = (groupAt p l).map (keepItems q) := by
  induction p generalizing l with
  | nil => rfl
  | cons i p ih =>
    cases p with
    | nil => simp [groupAt]
    | cons j p =>
      rw [groupAt, groupAt, List.getElem?_map]
      cases l[i]? with
      | none => rfl
      | some s => simp only [Option.map_some, Option.bind_some, kids_keep, ih]

theorem allCovergroups_keep (q : Item → Bool) (db : Scope) :
    allCovergroups (keepItems q db) = (allCovergroups db).map (keepItems q) := by
  unfold allCovergroups
  rw [kids_keep, List.flatMap_map, List.map_flatMap]
  simp only [kids_keep]

/-- **C19.** If two databases agree after removal of all bins that are not ordinary, their reports
show the same figures at every position and the same overall figure. -/
theorem C19_other_bins_no_influence {rd : Rat → Rat} {db db' : Scope} {r r' : Rpt}
    (h : build rd db = .ok r) (h' : build rd db' = .ok r')
    (heq : keepItems ordinary db = keepItems ordinary db') :
    r.coverage = r'.coverage ∧
    ∀ p, (nodeAt p r.covergroups).map figures = (nodeAt p r'.covergroups).map figures := by
  refine ⟨?_, fun p => ?_⟩
  · obtain ⟨_, rfl⟩ := (build_ok rd db r).1 h
    obtain ⟨_, rfl⟩ := (build_ok rd db' r').1 h'
    simp only [pRpt]
    have key : ∀ d : Scope, (((kids ST.INSTANCE d).getLast?).map (instCov rd)).getD 0
        = (((kids ST.INSTANCE (keepItems ordinary d)).getLast?).map (instCov rd)).getD 0 := by
      intro d
      rw [kids_keep, List.getLast?_map]
      cases (kids ST.INSTANCE d).getLast? <;> simp [instCov_keep]
    rw [key db, key db', heq]
  · rw [nodeAt_build h, nodeAt_build h']
    have key : ∀ d : Scope, ((groupAt p (allCovergroups d)).map (pCg rd)).map figures
        = ((groupAt p (allCovergroups (keepItems ordinary d))).map (pCg rd)).map figures := by
      intro d
      rw [allCovergroups_keep, groupAt_keep]
      cases groupAt p (allCovergroups d) <;> simp [figures_keep]
    rw [key db, key db', heq]

namespace Ex
/-- The sample database with other ignore and illegal bins in one coverpoint. -/
def rcp' : Scope := mkCoverpoint "cp" SrcInfo.none 3
  [mkBin "z" CT.ILLEGALBIN 5 9, mkBin "a" CT.CVGBIN 1 4, mkBin "b" CT.CVGBIN 2 1]
def rdb' : Scope := { emptyDb with children := [mkDu "du" SrcInfo.none 1,
  mkInstance "i" SrcInfo.none 1 (some ⟨"du", SrcInfo.none, 1⟩) [mkCovergroup "cg" SrcInfo.none 2 [rcp', rcq, rcr, rci], rcg2]] }
end Ex

example : keepItems ordinary Ex.rdb = keepItems ordinary Ex.rdb' := rfl

/-! ## C20 -/

/-- The same item with a count at least as large. -/
def Spec.ItemLe (i j : Item) : Prop := ∃ c, i.count ≤ c ∧ j = { i with count := c }

mutual
/-- The same database with counts at least as large. -/
def Spec.CountsLe : Scope → Scope → Prop
  | ⟨ty, n, src, w, du, cps, ch, it⟩, t =>
    t.stype = ty ∧ t.name = n ∧ t.src = src ∧ t.weight = w ∧ t.du = du ∧ t.cps = cps ∧
      List.Forall₂ ItemLe it t.items ∧ CountsLeL ch t.children
termination_by structural s => s
def Spec.CountsLeL : List Scope → List Scope → Prop
  | [], l => l = []
  | a :: t, l => ∃ b t', l = b :: t' ∧ CountsLe a b ∧ CountsLeL t t'
termination_by structural l => l
end

theorem countsLeL_iff (l l' : List Scope) : CountsLeL l l' ↔ List.Forall₂ CountsLe l l' := by
  induction l generalizing l' with
  | nil => rw [CountsLeL, List.forall₂_nil_left_iff]
  | cons a t ih =>
    rw [CountsLeL, List.forall₂_cons_left_iff]
    constructor
    · rintro ⟨b, t', rfl, h1, h2⟩; exact ⟨b, t', h1, (ih t').1 h2, rfl⟩
    · rintro ⟨b, t', h1, h2, rfl⟩; exact ⟨b, t', rfl, h1, (ih t').2 h2⟩

theorem Spec.CountsLe.out {s t : Scope} (h : CountsLe s t) :
    t.stype = s.stype ∧ t.weight = s.weight ∧ List.Forall₂ ItemLe s.items t.items ∧ List.Forall₂ CountsLe s.children t.children := by
  cases s
  rw [CountsLe, countsLeL_iff] at h
  exact ⟨h.1, h.2.2.2.1, h.2.2.2.2.2.2.1, h.2.2.2.2.2.2.2⟩

theorem forall₂_filter {α β : Type} {R : α → β → Prop} {p : α → Bool} {q : β → Bool} {l : List α} {l' : List β}
    (h : List.Forall₂ R l l') (hpq : ∀ a b, R a b → p a = q b) : List.Forall₂ R (l.filter p) (l'.filter q) := by
  induction h with
  | nil => exact .nil
  | @cons a b t t' hab _ ih =>
    rw [List.filter_cons, List.filter_cons, hpq a b hab]
    split
    · exact .cons hab ih
    · exact ih

theorem Spec.CountsLe.kids {s t : Scope} (h : CountsLe s t) (m : Nat) : List.Forall₂ CountsLe (kids m s) (kids m t) := by
  apply forall₂_filter h.out.2.2.2
  intro a b hab
  rw [hab.out.1]

theorem Spec.CountsLe.leaf {s t : Scope} (h : CountsLe s t) : numBins s = numBins t ∧ numReached s ≤ numReached t := by
  have hi : List.Forall₂ ItemLe (itemsOfKind CT.CVGBIN s) (itemsOfKind CT.CVGBIN t) := by
    apply forall₂_filter h.out.2.2.1
    rintro a b ⟨c, _, rfl⟩
    rfl
  refine ⟨hi.length_eq, ?_⟩
  unfold numReached
  generalize itemsOfKind CT.CVGBIN s = l, itemsOfKind CT.CVGBIN t = l' at hi
  clear h
  induction hi with
  | nil => exact Nat.le_refl _
  | @cons a b t t' hab _ ih =>
    rw [List.countP_cons, List.countP_cons]
    obtain ⟨c, hc, rfl⟩ := hab
    have : reached a → reached { a with count := c } := by
      rintro ⟨x, hx, hle⟩; exact ⟨x, hx, le_trans hle hc⟩
    by_cases h1 : reached a
    · simp [h1, this h1]; exact ih
    · simp only [h1, decide_false, Bool.false_eq_true, if_false, Nat.add_zero]
      exact le_trans ih (Nat.le_add_right _ _)

theorem Spec.CountsLe.leafCov {rd : Rat → Rat} (hm : ∀ a b, a ≤ b → rd a ≤ rd b) {s t : Scope} (h : CountsLe s t) :
    leafCov rd s ≤ leafCov rd t := by
  obtain ⟨h1, h2⟩ := h.leaf
  unfold Report.leafCov
  rw [h1]
  split
  · rename_i hpos
    unfold percent
    apply hm
    have hp : (0 : Rat) < (numBins t : Rat) := by exact_mod_cast hpos
    have : ((100 * numReached s : Nat) : Rat) ≤ ((100 * numReached t : Nat) : Rat) := by
      exact_mod_cast Nat.mul_le_mul_left 100 h2
    exact div_le_div_of_nonneg_right this hp.le
  · exact le_refl _

theorem addTerm_mono {rd : Rat → Rat} (hm : ∀ a b, a ≤ b → rd a ≤ rd b) (h0 : rd 0 = 0) {x y c d : Rat} {w : Int}
    (hxy : x ≤ y) (hcd : c ≤ d) (hw : 0 ≤ w) : addTerm rd x c w ≤ addTerm rd y d w := by
  unfold addTerm
  apply hm
  have hrw : 0 ≤ rd (w : Rat) := by rw [← h0]; apply hm; exact_mod_cast hw
  have := hm _ _ (mul_le_mul_of_nonneg_right hcd hrw)
  linarith

/-- Weighted sums grow with their terms. -/
theorem acc_mono {rd : Rat → Rat} (hm : ∀ a b, a ≤ b → rd a ≤ rd b) (h0 : rd 0 = 0)
    (step : Acc → Rat × Int → Acc) (c : Rat × Int → Bool) (hc : ∀ a b w, c (a, w) = c (b, w))
    (hstep : ∀ st cw, step st cw = ⟨if c cw then addTerm rd st.coverage cw.1 cw.2 else st.coverage, st.div + cw.2⟩)
    {l l' : List (Rat × Int)} (hl : List.Forall₂ (fun a b => a.1 ≤ b.1 ∧ a.2 = b.2 ∧ 0 ≤ a.2) l l') {st st' : Acc}
    (hst : st.coverage ≤ st'.coverage ∧ st.div = st'.div) :
    (l.foldl step st).coverage ≤ (l'.foldl step st').coverage ∧ (l.foldl step st).div = (l'.foldl step st').div := by
  induction hl generalizing st st' with
  | nil => exact hst
  | @cons a b t t' hab _ ih =>
    rw [List.foldl_cons, List.foldl_cons]
    apply ih
    rw [hstep, hstep]
    obtain ⟨a1, a2⟩ := a
    obtain ⟨b1, b2⟩ := b
    obtain ⟨h1, h2, h3⟩ := hab
    simp only at h1 h2 h3
    subst h2
    refine ⟨?_, by simp [hst.2]⟩
    simp only
    rw [hc a1 b1 a2]
    split
    · exact addTerm_mono hm h0 hst.1 h1 h3
    · exact hst.1

theorem Spec.CountsLe.groupCov {rd : Rat → Rat} (hm : ∀ a b, a ≤ b → rd a ≤ rd b) (h0 : rd 0 = 0) {s t : Scope} (h : CountsLe s t)
    (hw : ∀ c ∈ Spec.kids ST.COVERPOINT s, 0 ≤ c.weight) : groupCov rd s ≤ groupCov rd t := by
  unfold Report.groupCov groupCoverage
  simp only [List.map_map]
  have k1 : List.Forall₂ (fun a b : Rat × Int => a.1 ≤ b.1 ∧ a.2 = b.2 ∧ 0 ≤ a.2)
      ((Spec.kids ST.COVERPOINT s).map ((fun c : RCp => (c.coverage, c.weight)) ∘ pCp rd))
      ((Spec.kids ST.COVERPOINT t).map ((fun c : RCp => (c.coverage, c.weight)) ∘ pCp rd)) := by
    rw [List.forall₂_map_left_iff, List.forall₂_map_right_iff]
    have := List.forall₂_and_left (p := fun c : Scope => 0 ≤ c.weight) (R := CountsLe) (Spec.kids ST.COVERPOINT s) (Spec.kids ST.COVERPOINT t)
    refine (this.2 ⟨hw, h.kids ST.COVERPOINT⟩).imp ?_
    rintro a b ⟨ha, hab⟩
    exact ⟨hab.leafCov hm, hab.out.2.1.symm, ha⟩
  have k2 : List.Forall₂ (fun a b : Rat × Int => a.1 ≤ b.1 ∧ a.2 = b.2 ∧ 0 ≤ a.2)
      ((Spec.kids ST.CROSS s).map ((fun c : RCross => (c.coverage, c.weight)) ∘ pCross rd))
      ((Spec.kids ST.CROSS t).map ((fun c : RCross => (c.coverage, c.weight)) ∘ pCross rd)) := by
    rw [List.forall₂_map_left_iff, List.forall₂_map_right_iff]
    refine (h.kids ST.CROSS).imp ?_
    intro a b hab
    exact ⟨hab.leafCov hm, rfl, by simp [pCross]⟩
  have a1 := acc_mono hm h0 (accStep rd) (fun cw => decide (cw.2 > 0)) (fun _ _ _ => rfl)
    (fun st cw => by simp [accStep]) k1 (st := ⟨0, 0⟩) (st' := ⟨0, 0⟩) ⟨le_refl _, rfl⟩
  have a2 := acc_mono hm h0 (accStepCross rd) (fun _ => true) (fun _ _ _ => rfl)
    (fun st cw => by simp [accStepCross]) k2 a1
  rw [a2.2]
  split
  · rename_i hpos
    apply hm
    have : 0 ≤ rd ((((Spec.kids ST.CROSS t).map ((fun c : RCross => (c.coverage, c.weight)) ∘ pCross rd)).foldl (accStepCross rd)
      (((Spec.kids ST.COVERPOINT t).map ((fun c : RCp => (c.coverage, c.weight)) ∘ pCp rd)).foldl (accStep rd) ⟨0, 0⟩)).div : Rat) := by
      refine le_trans (le_of_eq h0.symm) (hm _ _ ?_)
      exact_mod_cast hpos.le
    exact div_le_div_of_nonneg_right a2.1 this
  · exact a2.1

theorem forall₂_getElem? {α β : Type} {R : α → β → Prop} {l : List α} {l' : List β} (h : List.Forall₂ R l l') {i : Nat}
    {a : α} {b : β} (ha : l[i]? = some a) (hb : l'[i]? = some b) : R a b := by
  induction h generalizing i with
  | nil => simp at ha
  | cons hab _ ih =>
    cases i with
    | zero => simp at ha hb; subst ha hb; exact hab
    | succ i => exact ih (by simpa using ha) (by simpa using hb)

theorem Spec.CountsLe.groupAt {p : List Nat} {l l' : List Scope} (hl : List.Forall₂ CountsLe l l') {s s' : Scope}
    (h : groupAt p l = some s) (h' : Spec.groupAt p l' = some s') : CountsLe s s' := by
  induction p generalizing l l' with
  | nil => simp [Spec.groupAt] at h
  | cons i p ih =>
    cases p with
    | nil => exact forall₂_getElem? hl h h'
    | cons j p =>
      rw [Spec.groupAt] at h h'
      cases ha : l[i]? with
      | none => simp [ha] at h
      | some a =>
        cases hb : l'[i]? with
        | none => simp [hb] at h'
        | some b =>
          rw [ha, Option.bind_some] at h
          rw [hb, Option.bind_some] at h'
          exact ih ((forall₂_getElem? hl ha hb).kids _) h h'

theorem forall₂_flatMap {α β γ δ : Type} {R : α → β → Prop} {S : γ → δ → Prop} {f : α → List γ} {g : β → List δ}
    {l : List α} {l' : List β} (h : List.Forall₂ R l l') (hfg : ∀ a b, R a b → List.Forall₂ S (f a) (g b)) :
    List.Forall₂ S (l.flatMap f) (l'.flatMap g) := by
  induction h with
  | nil => exact .nil
  | cons hab _ ih => rw [List.flatMap_cons, List.flatMap_cons]; exact List.rel_append (hfg _ _ hab) ih

theorem Spec.CountsLe.allCovergroups {db db' : Scope} (h : CountsLe db db') :
    List.Forall₂ CountsLe (allCovergroups db) (Spec.allCovergroups db') :=
  forall₂_flatMap (h.kids _) (fun _ _ hab => hab.kids _)

theorem Spec.CountsLe.instCov {rd : Rat → Rat} (hm : ∀ a b, a ≤ b → rd a ≤ rd b) (h0 : rd 0 = 0) {i j : Scope} (h : CountsLe i j)
    (hw : ∀ g ∈ Spec.kids ST.COVERGROUP i, 0 ≤ g.weight ∧ ∀ c ∈ Spec.kids ST.COVERPOINT g, 0 ≤ c.weight) : instCov rd i ≤ instCov rd j := by
  have k1 : List.Forall₂ (fun a b : Rat × Int => a.1 ≤ b.1 ∧ a.2 = b.2 ∧ 0 ≤ a.2)
      ((Spec.kids ST.COVERGROUP i).map (fun g => (Report.groupCov rd g, g.weight)))
      ((Spec.kids ST.COVERGROUP j).map (fun g => (Report.groupCov rd g, g.weight))) := by
    rw [List.forall₂_map_left_iff, List.forall₂_map_right_iff]
    have := List.forall₂_and_left (p := fun g : Scope => 0 ≤ g.weight ∧ ∀ c ∈ Spec.kids ST.COVERPOINT g, 0 ≤ c.weight) (R := CountsLe)
      (Spec.kids ST.COVERGROUP i) (Spec.kids ST.COVERGROUP j)
    refine (this.2 ⟨hw, h.kids ST.COVERGROUP⟩).imp ?_
    rintro a b ⟨ha, hab⟩
    exact ⟨hab.groupCov hm h0 ha.2, hab.out.2.1.symm, ha.1⟩
  have a1 := acc_mono hm h0 (accStep rd) (fun cw => decide (cw.2 > 0)) (fun _ _ _ => rfl)
    (fun st cw => by simp [accStep]) k1 (st := ⟨0, 0⟩) (st' := ⟨0, 0⟩) ⟨le_refl _, rfl⟩
  have e1 := accOf_div rd (Spec.kids ST.COVERGROUP i)
  have e2 := accOf_div rd (Spec.kids ST.COVERGROUP j)
  have hd : weightSum (Spec.kids ST.COVERGROUP i) = weightSum (Spec.kids ST.COVERGROUP j) := by rw [← e1, ← e2]; exact a1.2
  unfold Report.instCov
  rw [hd]
  apply hm
  have hn : 0 ≤ weightSum (Spec.kids ST.COVERGROUP j) := by rw [← hd]; exact weightSum_nonneg (fun c hc => (hw c hc).1)
  have : 0 ≤ rd (weightSum (Spec.kids ST.COVERGROUP j) : Rat) := by rw [← h0]; apply hm; exact_mod_cast hn
  exact div_le_div_of_nonneg_right a1.1 this

/-- **C20.** Larger counts never lower a figure; for every monotone rounding with `rd 0 = 0`. -/
theorem C20_monotone_in_counts {rd : Rat → Rat} (hm : ∀ a b, a ≤ b → rd a ≤ rd b) (h0 : rd 0 = 0)
    {db db' : Scope} {r r' : Rpt} (h : build rd db = .ok r) (h' : build rd db' = .ok r')
    (hle : CountsLe db db') (hw : NonNegWeights db) :
    r.coverage ≤ r'.coverage ∧
    ∀ p n n', nodeAt p r.covergroups = some n → nodeAt p r'.covergroups = some n' →
      n.coverage ≤ n'.coverage ∧
      List.Forall₂ (· ≤ ·) (n.coverpoints.map (·.coverage)) (n'.coverpoints.map (·.coverage)) ∧
      List.Forall₂ (· ≤ ·) (n.crosses.map (·.coverage)) (n'.crosses.map (·.coverage)) := by
  refine ⟨?_, fun p n n' hn hn' => ?_⟩
  · obtain ⟨_, rfl⟩ := (build_ok rd db r).1 h
    obtain ⟨_, rfl⟩ := (build_ok rd db' r').1 h'
    simp only [pRpt]
    have hk := hle.kids ST.INSTANCE
    have hlast : ∀ (l l' : List Scope), List.Forall₂ CountsLe l l' →
        (l.getLast? = none ∧ l'.getLast? = none) ∨ ∃ a b, l.getLast? = some a ∧ l'.getLast? = some b ∧ CountsLe a b := by
      intro l l' hl
      induction hl with
      | nil => left; exact ⟨rfl, rfl⟩
      | @cons a b t t' hab ht ih =>
        right
        rcases ih with ⟨e1, e2⟩ | ⟨x, y, e1, e2, hxy⟩
        · rw [List.getLast?_eq_none_iff] at e1 e2
          subst e1 e2
          exact ⟨a, b, rfl, rfl, hab⟩
        · refine ⟨x, y, ?_, ?_, hxy⟩ <;> simp [List.getLast?_cons, e1, e2]
    rcases hlast _ _ hk with ⟨e1, e2⟩ | ⟨a, b, e1, e2, hab⟩
    · rw [e1, e2]
    · rw [e1, e2]
      simp only [Option.map_some, Option.getD_some]
      apply hab.instCov hm h0
      intro g hg
      have := mem_reported_of_kid (List.mem_of_getLast? e1) hg
      exact ⟨hw.1 g this.1, hw.2 g this.2⟩
  · obtain ⟨s, ha, rfl, hs⟩ := node_build h hn
    obtain ⟨s', ha', rfl, _⟩ := node_build h' hn'
    have hss := CountsLe.groupAt hle.allCovergroups ha.1 ha'.1
    rw [pCg_eq, pCg_eq]
    simp only [List.map_map]
    refine ⟨hss.groupCov hm h0 (hw.2 s hs), ?_, ?_⟩
    · rw [List.forall₂_map_left_iff, List.forall₂_map_right_iff]
      exact (hss.kids _).imp (fun a b hab => hab.leafCov hm)
    · rw [List.forall₂_map_left_iff, List.forall₂_map_right_iff]
      exact (hss.kids _).imp (fun a b hab => hab.leafCov hm)

namespace Ex
/-- The sample database after more hits. -/
def rdbMore : Scope := { emptyDb with children := [mkDu "du" SrcInfo.none 1,
  mkInstance "i" SrcInfo.none 1 (some ⟨"du", SrcInfo.none, 1⟩) [mkCovergroup "cg" SrcInfo.none 2
    [mkCoverpoint "cp" SrcInfo.none 3
      [mkBin "a" CT.CVGBIN 1 5, mkBin "b" CT.CVGBIN 2 2, mkBin "i" CT.IGNOREBIN 1 7, mkBin "x" CT.ILLEGALBIN 1 0],
     rcq, rcr, rci], rcg2]] }

end Ex

theorem Spec.ItemLe.refl (i : Item) : ItemLe i i := ⟨i.count, le_refl _, rfl⟩

mutual
theorem Spec.CountsLe.refl : ∀ s : Scope, CountsLe s s
  | ⟨ty, n, src, w, du, cps, ch, it⟩ => by
    rw [CountsLe]
    exact ⟨rfl, rfl, rfl, rfl, rfl, rfl, List.forall₂_same.2 (fun i _ => Spec.ItemLe.refl i), Spec.CountsLeL.refl ch⟩
termination_by structural s => s
theorem Spec.CountsLeL.refl : ∀ l : List Scope, CountsLeL l l
  | [] => rfl
  | a :: t => by
    rw [CountsLeL]
    exact ⟨a, t, rfl, Spec.CountsLe.refl a, Spec.CountsLeL.refl t⟩
termination_by structural l => l
end

example : CountsLe Ex.rdb Ex.rdbMore := by
  refine ⟨rfl, rfl, rfl, rfl, rfl, rfl, .nil, _, _, rfl, CountsLe.refl _, _, _, rfl, ?_, rfl⟩
  refine ⟨rfl, rfl, rfl, rfl, rfl, rfl, .nil, _, _, rfl, ?_, _, _, rfl, CountsLe.refl _, rfl⟩
  refine ⟨rfl, rfl, rfl, rfl, rfl, rfl, .nil, _, _, rfl, ?_, _, _, rfl, CountsLe.refl _, _, _, rfl, CountsLe.refl _,
    _, _, rfl, CountsLe.refl _, rfl⟩
  refine ⟨rfl, rfl, rfl, rfl, rfl, rfl, ?_, rfl⟩
  exact .cons ⟨5, by decide, rfl⟩ (.cons ⟨2, by decide, rfl⟩ (.cons ⟨7, by decide, rfl⟩ (.cons ⟨0, by decide, rfl⟩ .nil)))

example : CountsLe Ex.rcp (mkCoverpoint "cp" SrcInfo.none 3
    [mkBin "a" CT.CVGBIN 1 5, mkBin "b" CT.CVGBIN 2 2, mkBin "i" CT.IGNOREBIN 1 7, mkBin "x" CT.ILLEGALBIN 1 1]) := by
  refine ⟨rfl, rfl, rfl, rfl, rfl, rfl, ?_, rfl⟩
  exact .cons ⟨5, by decide, rfl⟩ (.cons ⟨2, by decide, rfl⟩ (.cons ⟨7, by decide, rfl⟩ (.cons ⟨1, by decide, rfl⟩ .nil)))

/-! ## C26 -/

mutual
/-- The same database, except that in every scope the weights of its coverpoints are multiplied by
one positive factor and the weights of its covergroups by another. -/
def Spec.Scaled : Scope → Scope → Prop
  | ⟨ty, n, src, _, du, cps, ch, it⟩, t =>
    t.stype = ty ∧ t.name = n ∧ t.src = src ∧ t.du = du ∧ t.cps = cps ∧ t.items = it ∧
      ∃ k m : Int, 0 < k ∧ 0 < m ∧ ScaledL k m ch t.children
termination_by structural s => s
def Spec.ScaledL (k m : Int) : List Scope → List Scope → Prop
  | [], l => l = []
  | a :: t, l => ∃ b t', l = b :: t' ∧
      b.weight = (if maskHit a.stype ST.COVERPOINT then k * a.weight
        else if maskHit a.stype ST.COVERGROUP then m * a.weight else a.weight) ∧ Scaled a b ∧ ScaledL k m t t'
termination_by structural l => l
end

/-- Relation of a child and its scaled version. -/
def ScaledKid (k m : Int) (a b : Scope) : Prop :=
  b.weight = (if maskHit a.stype ST.COVERPOINT then k * a.weight
        else if maskHit a.stype ST.COVERGROUP then m * a.weight else a.weight) ∧ Scaled a b

theorem scaledL_iff (k m : Int) (l l' : List Scope) : ScaledL k m l l' ↔ List.Forall₂ (ScaledKid k m) l l' := by
  induction l generalizing l' with
  | nil => rw [ScaledL, List.forall₂_nil_left_iff]
  | cons a t ih =>
    rw [ScaledL, List.forall₂_cons_left_iff]
    constructor
    · rintro ⟨b, t', rfl, h1, h2, h3⟩; exact ⟨b, t', ⟨h1, h2⟩, (ih t').1 h3, rfl⟩
    · rintro ⟨b, t', ⟨h1, h2⟩, h3, rfl⟩; exact ⟨b, t', rfl, h1, h2, (ih t').2 h3⟩

theorem Spec.Scaled.out {s t : Scope} (h : Scaled s t) : t.stype = s.stype ∧ t.items = s.items ∧
    ∃ k m : Int, 0 < k ∧ 0 < m ∧ List.Forall₂ (ScaledKid k m) s.children t.children := by
  cases s
  rw [Scaled] at h
  obtain ⟨h1, _, _, _, _, h6, k, m, hk, hm, h7⟩ := h
  exact ⟨h1, h6, k, m, hk, hm, (scaledL_iff _ _ _ _).1 h7⟩

theorem Spec.Scaled.kidsOf {s t : Scope} (h : Scaled s t) : ∃ k m : Int, 0 < k ∧ 0 < m ∧
    ∀ mask, List.Forall₂ (ScaledKid k m) (kids mask s) (kids mask t) := by
  obtain ⟨_, _, k, m, hk, hm, hc⟩ := h.out
  refine ⟨k, m, hk, hm, fun mask => forall₂_filter hc ?_⟩
  intro a b hab
  rw [hab.2.out.1]

theorem Spec.Scaled.leaf {s t : Scope} (h : Scaled s t) : hitShare t = hitShare s := by
  unfold hitShare numBins numReached itemsOfKind
  rw [h.out.2.1]

theorem wmean_scale {α : Type} {l : List α} (c : α → Rat) (w : α → Int) {k : Int} (hk : 0 < k) :
    (l.map (fun x => c x * ((k * w x : Int) : Rat))).sum / (((l.map (fun x => k * w x)).sum : Int) : Rat)
      = (l.map (fun x => c x * (w x : Rat))).sum / (((l.map w).sum : Int) : Rat) := by
  have e1 : (l.map (fun x => c x * ((k * w x : Int) : Rat))).sum = (k : Rat) * (l.map (fun x => c x * (w x : Rat))).sum := by
    rw [← List.sum_map_mul_left]
    congr 1
    apply List.map_congr_left
    intro x _
    push_cast; ring
  have e2 : (l.map (fun x => k * w x)).sum = k * (l.map w).sum := by rw [← List.sum_map_mul_left]
  rw [e1, e2]
  push_cast
  have hk' : (k : Rat) ≠ 0 := by exact_mod_cast hk.ne'
  rw [mul_div_mul_left _ _ hk']

theorem forall₂_map_eq {α β γ : Type} {R : α → β → Prop} {f : α → γ} {g : β → γ} {l : List α} {l' : List β}
    (h : List.Forall₂ R l l') (hfg : ∀ a b, a ∈ l → R a b → f a = g b) : l.map f = l'.map g := by
  induction h with
  | nil => rfl
  | cons hab _ ih =>
    rw [List.map_cons, List.map_cons, hfg _ _ (by simp) hab, ih (fun a b ha hab => hfg a b (by simp [ha]) hab)]

theorem mem_kids_mask {m : Nat} {s c : Scope} (h : c ∈ kids m s) : maskHit c.stype m = true := (List.mem_filter.1 h).2

/-- Scopes that are reported as coverpoints are not also covergroups. -/
theorem Spec.Scaled.groupCov {s t : Scope} (h : Scaled s t) (hx : kids ST.CROSS s = [])
    (hw : ∀ c ∈ kids ST.COVERPOINT s, 0 ≤ c.weight) : groupCov id t = groupCov id s := by
  obtain ⟨k, m, hk, hm, hkids⟩ := h.kidsOf
  have hcp := hkids ST.COVERPOINT
  have hcr := hkids ST.CROSS
  rw [hx, List.forall₂_nil_left_iff] at hcr
  have hwt : ∀ c ∈ kids ST.COVERPOINT t, 0 ≤ c.weight := by
    have : (kids ST.COVERPOINT s).map (fun c => k * c.weight) = (kids ST.COVERPOINT t).map (·.weight) := by
      apply forall₂_map_eq hcp
      intro a b ha hab
      have h1 := hab.1
      rw [if_pos (mem_kids_mask ha)] at h1
      exact h1.symm
    intro c hc
    have hm : c.weight ∈ (kids ST.COVERPOINT t).map (·.weight) := List.mem_map.2 ⟨c, hc, rfl⟩
    rw [← this] at hm
    obtain ⟨a, ha, he⟩ := List.mem_map.1 hm
    rw [← he]
    exact mul_nonneg hk.le (hw a ha)
  rw [groupCov_mean hw, groupCov_mean hwt]
  have ew : weightSum (kids ST.COVERPOINT t) = ((kids ST.COVERPOINT s).map (fun c => k * c.weight)).sum := by
    unfold weightSum
    rw [forall₂_map_eq hcp (g := (·.weight)) (f := fun c => k * c.weight)]
    intro a b ha hab
    have h1 := hab.1
    rw [if_pos (mem_kids_mask ha)] at h1
    exact h1.symm
  have ec : (kids ST.COVERPOINT t).map (fun c => hitShare c * (c.weight : Rat))
      = (kids ST.COVERPOINT s).map (fun c => hitShare c * ((k * c.weight : Int) : Rat)) := by
    rw [forall₂_map_eq hcp (g := fun c => hitShare c * (c.weight : Rat)) (f := fun c => hitShare c * ((k * c.weight : Int) : Rat))]
    intro a b ha hab
    have h1 := hab.1
    rw [if_pos (mem_kids_mask ha)] at h1
    rw [h1, hab.2.leaf]
  unfold meanCoverage groupWeight
  rw [hx, hcr, ec, ew]
  simp only [List.length_nil, Nat.cast_zero, add_zero, List.map_nil, List.sum_nil]
  have e2 : ((kids ST.COVERPOINT s).map (fun c => k * c.weight)).sum = k * weightSum (kids ST.COVERPOINT s) := by
    unfold weightSum; rw [← List.sum_map_mul_left]
  by_cases hp : 0 < weightSum (kids ST.COVERPOINT s)
  · rw [if_pos hp, if_pos (by rw [e2]; exact mul_pos hk hp)]
    exact wmean_scale hitShare (·.weight) hk
  · rw [if_neg hp, if_neg]
    rw [e2]
    intro hc
    exact hp (pos_of_mul_pos_right hc hk.le)

theorem Spec.Scaled.groupAt {p : List Nat} {l l' : List Scope} (hl : List.Forall₂ Scaled l l') {s s' : Scope}
    (h : groupAt p l = some s) (h' : Spec.groupAt p l' = some s') : Scaled s s' := by
  induction p generalizing l l' with
  | nil => simp [Spec.groupAt] at h
  | cons i p ih =>
    cases p with
    | nil => exact forall₂_getElem? hl h h'
    | cons j p =>
      rw [Spec.groupAt] at h h'
      cases ha : l[i]? with
      | none => simp [ha] at h
      | some a =>
        cases hb : l'[i]? with
        | none => simp [hb] at h'
        | some b =>
          rw [ha, Option.bind_some] at h
          rw [hb, Option.bind_some] at h'
          obtain ⟨k, m, _, _, hk⟩ := (forall₂_getElem? hl ha hb).kidsOf
          exact ih ((hk _).imp (fun _ _ h => h.2)) h h'

theorem not_cp_of_cg {c : Scope} (h : ¬ maskHit c.stype ST.COVERPOINT = true) : maskHit c.stype ST.COVERPOINT = false := by
  simpa using h

/-- **C26.** In exact arithmetic, multiplying the weights of the coverpoints of each covergroup by a
positive factor, and the weights of the covergroups of each instance by a positive factor, changes no
figure, provided no reported group has crosses (and no scope is a coverpoint and a covergroup at once). -/
theorem C26_weight_scaling {db db' : Scope} {r r' : Rpt} (h : build id db = .ok r) (h' : build id db' = .ok r')
    (hs : Scaled db db') (hw : NonNegWeights db) (hx : ∀ g ∈ reportedGroups db, kids ST.CROSS g = [])
    (hsep : ∀ g ∈ allCovergroups db, maskHit g.stype ST.COVERPOINT = false) :
    r.coverage = r'.coverage ∧
    ∀ p n n', nodeAt p r.covergroups = some n → nodeAt p r'.covergroups = some n' →
      n.coverage = n'.coverage ∧ n.coverpoints.map (·.coverage) = n'.coverpoints.map (·.coverage) := by
  obtain ⟨k0, m0, _, _, hkids⟩ := hs.kidsOf
  refine ⟨?_, fun p n n' hn hn' => ?_⟩
  · obtain ⟨_, rfl⟩ := (build_ok id db r).1 h
    obtain ⟨_, rfl⟩ := (build_ok id db' r').1 h'
    simp only [pRpt]
    have hk := hkids ST.INSTANCE
    have hmap : (kids ST.INSTANCE db).map (instCov id) = (kids ST.INSTANCE db').map (instCov id) := by
      apply forall₂_map_eq hk
      intro i j hi hij
      obtain ⟨k, m, hkp, hmp, hkk⟩ := hij.2.kidsOf
      have hcg := hkk ST.COVERGROUP
      have hwi : ∀ g ∈ kids ST.COVERGROUP i, 0 ≤ g.weight := fun g hg => hw.1 g (mem_reported_of_kid hi hg).1
      have hwt : (kids ST.COVERGROUP i).map (fun g => m * g.weight) = (kids ST.COVERGROUP j).map (·.weight) := by
        apply forall₂_map_eq hcg
        intro a b ha hab
        have h1 := hab.1
        have h2 := hsep a (mem_reported_of_kid hi ha).1
        rw [h2, mem_kids_mask ha] at h1
        simpa using h1.symm
      have hwj : ∀ g ∈ kids ST.COVERGROUP j, 0 ≤ g.weight := by
        intro c hc
        have hm : c.weight ∈ (kids ST.COVERGROUP j).map (·.weight) := List.mem_map.2 ⟨c, hc, rfl⟩
        rw [← hwt] at hm
        obtain ⟨a, ha, he⟩ := List.mem_map.1 hm
        rw [← he]
        exact mul_nonneg hmp.le (hwi a ha)
      rw [instCov_id i hwi, instCov_id j hwj]
      have e1 : (kids ST.COVERGROUP j).map (fun g => Report.groupCov id g * (g.weight : Rat))
          = (kids ST.COVERGROUP i).map (fun g => Report.groupCov id g * ((m * g.weight : Int) : Rat)) := by
        symm
        apply forall₂_map_eq hcg
        intro a b ha hab
        have h1 := hab.1
        have h2 := hsep a (mem_reported_of_kid hi ha).1
        rw [h2, mem_kids_mask ha] at h1
        simp only [Bool.false_eq_true, if_false, if_true] at h1
        rw [h1, hab.2.groupCov (hx a (mem_reported_of_kid hi ha).2) (hw.2 a (mem_reported_of_kid hi ha).2)]
      rw [e1, show weightSum (kids ST.COVERGROUP j) = ((kids ST.COVERGROUP i).map (fun g => m * g.weight)).sum from by
        rw [hwt]; rfl]
      exact (wmean_scale (Report.groupCov id) (·.weight) hmp).symm
    have := congrArg List.getLast? hmap
    rw [List.getLast?_map, List.getLast?_map] at this
    rw [this]
  · obtain ⟨s, ha, rfl, hs'⟩ := node_build h hn
    obtain ⟨s', ha', rfl, _⟩ := node_build h' hn'
    have hall : List.Forall₂ Scaled (allCovergroups db) (allCovergroups db') := by
      apply forall₂_flatMap (hkids ST.INSTANCE)
      intro i j hij
      obtain ⟨_, _, _, _, hkk⟩ := hij.2.kidsOf
      exact (hkk _).imp (fun _ _ h => h.2)
    have hss := Scaled.groupAt hall ha.1 ha'.1
    rw [pCg_eq, pCg_eq]
    refine ⟨(hss.groupCov (hx s hs') (hw.2 s hs')).symm, ?_⟩
    obtain ⟨_, _, _, _, hkk⟩ := hss.kidsOf
    simp only [List.map_map]
    apply forall₂_map_eq (hkk ST.COVERPOINT)
    intro a b _ hab
    simp [pCp, leafCov_id, hab.2.leaf]

example : Scaled (mkCovergroup "g" SrcInfo.none 1 [mkCoverpoint "a" SrcInfo.none 1 [], mkCoverpoint "b" SrcInfo.none 2 []])
    (mkCovergroup "g" SrcInfo.none 1 [mkCoverpoint "a" SrcInfo.none 3 [], mkCoverpoint "b" SrcInfo.none 6 []]) := by
  refine ⟨rfl, rfl, rfl, rfl, rfl, rfl, 3, 1, by decide, by decide, _, _, rfl, by decide, ?_, _, _, rfl, by decide, ?_, rfl⟩
  · exact ⟨rfl, rfl, rfl, rfl, rfl, rfl, 1, 1, by decide, by decide, rfl⟩
  · exact ⟨rfl, rfl, rfl, rfl, rfl, rfl, 1, 1, by decide, by decide, rfl⟩

namespace Ex
/-- A database without crosses, and the same with scaled weights. -/
def sdb (k m : Int) : Scope := { emptyDb with children := [mkDu "du" SrcInfo.none 1,
  mkInstance "i" SrcInfo.none 1 (some ⟨"du", SrcInfo.none, 1⟩)
    [mkCovergroup "g" SrcInfo.none (m * 2) [mkCoverpoint "a" SrcInfo.none (k * 1) [mkBin "x" CT.CVGBIN 1 1],
      mkCoverpoint "b" SrcInfo.none (k * 2) [mkBin "x" CT.CVGBIN 1 0]],
     mkCovergroup "h" SrcInfo.none (m * 1) []]] }

theorem build_sdb (k m : Int) (h : m * 2 + m * 1 ≠ 0) : build id (sdb k m) = .ok (pRpt id (sdb k m)) := by
  rw [build_ok]
  refine ⟨?_, rfl⟩
  intro i hi
  have h1 : kids ST.INSTANCE (sdb k m) = [mkInstance "i" SrcInfo.none 1 (some ⟨"du", SrcInfo.none, 1⟩)
    [mkCovergroup "g" SrcInfo.none (m * 2) [mkCoverpoint "a" SrcInfo.none (k * 1) [mkBin "x" CT.CVGBIN 1 1],
      mkCoverpoint "b" SrcInfo.none (k * 2) [mkBin "x" CT.CVGBIN 1 0]],
     mkCovergroup "h" SrcInfo.none (m * 1) []]] := by
    simp [kids, sdb, emptyDb, mkDu, mkInstance, maskHit, ST.INSTANCE, ST.DU_MODULE]
  rw [h1, List.mem_singleton] at hi
  subst hi
  refine ⟨?_, ?_⟩
  · intro g hg s hs
    simp only [kids, mkInstance, mkCovergroup, maskHit, ST.COVERGROUP, List.filter] at hg
    simp at hg
    rcases hg with rfl | rfl
    · rw [groupTree_eq] at hs
      simp [kids, mkCoverpoint, maskHit, ST.COVERPOINT, ST.COVERINSTANCE] at hs
      subst hs
      refine ⟨?_, ?_⟩ <;> intro c hc <;>
        simp [kids, mkCoverpoint, maskHit, ST.COVERPOINT, ST.CROSS] at hc
      rcases hc with rfl | rfl <;> (intro k' hk' i hi; simp [itemsOfKind, mkBin] at hi; rw [hi.1]; simp)
    · rw [groupTree_eq] at hs
      simp [kids, mkCoverpoint, maskHit, ST.COVERPOINT, ST.COVERINSTANCE] at hs
      subst hs
      refine ⟨?_, ?_⟩ <;> intro c hc <;> simp [kids] at hc
  · simpa [weightSum, kids, mkInstance, mkCovergroup, maskHit, ST.COVERGROUP] using h
end Ex

example : Scaled (Ex.sdb 1 1) (Ex.sdb 3 5) ∧ (∀ g ∈ reportedGroups (Ex.sdb 1 1), kids ST.CROSS g = []) ∧
    (∀ g ∈ allCovergroups (Ex.sdb 1 1), maskHit g.stype ST.COVERPOINT = false) ∧ NonNegWeights (Ex.sdb 1 1) ∧
    build id (Ex.sdb 1 1) = .ok (pRpt id (Ex.sdb 1 1)) ∧ build id (Ex.sdb 3 5) = .ok (pRpt id (Ex.sdb 3 5)) := by
  refine ⟨?_, ?_, by decide, ⟨by decide, by decide⟩, Ex.build_sdb 1 1 (by decide), Ex.build_sdb 3 5 (by decide)⟩
  · refine ⟨rfl, rfl, rfl, rfl, rfl, rfl, 1, 1, by decide, by decide, _, _, rfl, rfl, ?_, _, _, rfl, rfl, ?_, rfl⟩
    · exact ⟨rfl, rfl, rfl, rfl, rfl, rfl, 1, 1, by decide, by decide, rfl⟩
    · refine ⟨rfl, rfl, rfl, rfl, rfl, rfl, 1, 5, by decide, by decide, _, _, rfl, rfl, ?_, _, _, rfl, rfl, ?_, rfl⟩
      · refine ⟨rfl, rfl, rfl, rfl, rfl, rfl, 3, 1, by decide, by decide, _, _, rfl, rfl, ?_, _, _, rfl, rfl, ?_, rfl⟩
        · exact ⟨rfl, rfl, rfl, rfl, rfl, rfl, 1, 1, by decide, by decide, rfl⟩
        · exact ⟨rfl, rfl, rfl, rfl, rfl, rfl, 1, 1, by decide, by decide, rfl⟩
      · exact ⟨rfl, rfl, rfl, rfl, rfl, rfl, 1, 1, by decide, by decide, rfl⟩
  · have : ∀ g ∈ reportedGroups (Ex.sdb 1 1), (kids ST.CROSS g).length = 0 := by decide
    intro g hg
    exact List.length_eq_zero_iff.1 (this g hg)

/-! ## C09 -/

/-- Names and thresholds of the ordinary bins of a coverpoint or cross. -/
def Spec.binShape (s : Scope) : List (String × Option Int) := (itemsOfKind CT.CVGBIN s).map (fun i => (i.name, i.atLeast))

theorem countP_names {l : List Item} (hnd : (l.map (·.name)).Nodup) (q : Item → Bool) :
    l.countP q = (l.map (·.name)).countP (fun b => l.any (fun i => decide (i.name = b) && q i)) := by
  rw [List.countP_map]
  apply List.countP_congr
  intro i hi
  simp only [Function.comp_apply, List.any_eq_true, Bool.and_eq_true, decide_eq_true_eq]
  constructor
  · intro h; exact ⟨i, hi, rfl, h⟩
  · rintro ⟨j, hj, hn, hq⟩
    rwa [List.inj_on_of_nodup_map hnd hj hi hn] at hq

theorem binShape_names (s : Scope) : (binShape s).map Prod.fst = (itemsOfKind CT.CVGBIN s).map (·.name) := by
  simp [binShape, Function.comp_def]

/-- **C09.** Suppose every input that has this coverpoint or cross has it with the same ordinary bins
(names and thresholds, in any order, each name once) and no negative counts.  Then the share of
reached bins after the merge is at least the share in any of the inputs. -/
theorem C09_merge_never_lowers_coverage {out : Scope} {srcs : List Scope}
    (hu : ∀ s ∈ srcs, UniqueNames s) (h : merge emptyDb srcs = .ok out)
    {p : Addr} (hp : LeafAddr p) {db d : Scope} (hdb : db ∈ srcs) (hd : d ∈ reach p db)
    (hsame : ∀ s ∈ srcs, ∀ d' ∈ reach p s, (binShape d').Perm (binShape d))
    (hnd : ((binShape d).map Prod.fst).Nodup)
    (hnn : ∀ s ∈ srcs, ∀ d' ∈ reach p s, ∀ i ∈ d'.items, 0 ≤ i.count)
    {c : Scope} (hc : c ∈ reach p out) :
    numBins c = numBins d ∧ numReached d ≤ numReached c ∧ hitShare d ≤ hitShare c := by
  have hnames := C07_bin_order_of_first hu h hp (k := CT.CVGBIN) (Or.inl rfl) hc
  rw [binShape_names] at hnd
  have hcnd : ((itemsOfKind CT.CVGBIN c).map (·.name)).Nodup := by
    unfold itemsOfKind
    rw [hnames, ← firstSeen_eq_eraseDups]
    exact firstSeen_nodup _
  have hmemn : ∀ s ∈ srcs, ∀ d' ∈ reach p s, ∀ b, b ∈ (itemsOfKind CT.CVGBIN d').map (·.name) ↔ b ∈ (itemsOfKind CT.CVGBIN d).map (·.name) := by
    intro s hs d' hd' b
    have := ((hsame s hs d' hd').map Prod.fst).mem_iff (a := b)
    rwa [binShape_names, binShape_names] at this
  have hperm : ((itemsOfKind CT.CVGBIN c).map (·.name)).Perm ((itemsOfKind CT.CVGBIN d).map (·.name)) := by
    rw [List.perm_ext_iff_of_nodup hcnd hnd]
    intro b
    conv_lhs => unfold itemsOfKind
    rw [hnames, ← firstSeen_eq_eraseDups, mem_firstSeen, List.mem_flatMap]
    constructor
    · rintro ⟨d', hd', hb⟩
      obtain ⟨s, hs, hd'⟩ := List.mem_flatMap.1 hd'
      exact (hmemn s hs d' hd' b).1 hb
    · intro hb
      exact ⟨d, List.mem_flatMap.2 ⟨db, hdb, hd⟩, hb⟩
  have hlen : numBins c = numBins d := by
    have := hperm.length_eq
    rwa [List.length_map, List.length_map] at this
  have hre : numReached d ≤ numReached c := by
    unfold numReached
    rw [countP_names hnd, countP_names hcnd, hperm.countP_eq]
    apply List.countP_mono_left
    intro b _ hb
    simp only [List.any_eq_true, Bool.and_eq_true, decide_eq_true_eq] at hb ⊢
    obtain ⟨i, hi, rfl, t, ht, hle⟩ := hb
    have hb : ∀ s ∈ srcs, ∀ it ∈ binsAt p CT.CVGBIN i.name s, ∃ d' ∈ reach p s, it ∈ itemsOfKind CT.CVGBIN d' ∧ it.name = i.name := by
      intro s _ it hit
      obtain ⟨d', hd', hit⟩ := List.mem_flatMap.1 hit
      rw [List.mem_filter, Bool.and_eq_true, decide_eq_true_eq] at hit
      exact ⟨d', hd', List.mem_filter.2 ⟨hit.1, hit.2.1⟩, hit.2.2⟩
    have hthr : ∀ s ∈ srcs, ∀ it ∈ binsAt p CT.CVGBIN i.name s, it.atLeast = some t := by
      intro s hs it hit
      obtain ⟨d', hd', hit', hn⟩ := hb s hs it hit
      have h1 : (it.name, it.atLeast) ∈ binShape d := (hsame s hs d' hd').mem_iff.1 (List.mem_map.2 ⟨it, hit', rfl⟩)
      obtain ⟨j, hj, he⟩ := List.mem_map.1 h1
      simp only [Prod.mk.injEq] at he
      have : j = i := List.inj_on_of_nodup_map hnd hj hi (he.1.trans hn)
      rw [← he.2, this, ht]
    have hn2 : ∀ s ∈ srcs, ∀ it ∈ binsAt p CT.CVGBIN i.name s, 0 ≤ it.count := by
      intro s hs it hit
      obtain ⟨d', hd', hit', _⟩ := hb s hs it hit
      exact hnn s hs d' hd' it (List.mem_filter.1 hit').1
    have himem : i ∈ binsAt p CT.CVGBIN i.name db := by
      refine List.mem_flatMap.2 ⟨d, hd, List.mem_filter.2 ⟨(List.mem_filter.1 hi).1, ?_⟩⟩
      rw [(List.mem_filter.1 hi).2]; simp
    obtain ⟨it', hbo, hat, hct⟩ := C08_merge_never_unhits hu h hp (Or.inl rfl) i.name hthr hn2 hdb himem hle
    -- the merged bin lies in `c`
    have hcmem : i.name ∈ (itemsOfKind CT.CVGBIN c).map (·.name) := hperm.mem_iff.2 (List.mem_map.2 ⟨i, hi, rfl⟩)
    obtain ⟨j, hj, hjn⟩ := List.mem_map.1 hcmem
    have hjo : j ∈ binsAt p CT.CVGBIN i.name out := by
      refine List.mem_flatMap.2 ⟨c, hc, List.mem_filter.2 ⟨(List.mem_filter.1 hj).1, ?_⟩⟩
      rw [(List.mem_filter.1 hj).2]; simp [hjn]
    rw [hbo, List.mem_singleton] at hjo
    subst hjo
    exact ⟨j, hj, hjn, t, hat, hct⟩
  refine ⟨hlen, hre, ?_⟩
  unfold hitShare
  rw [hlen]
  split
  · exact le_refl _
  · have hp' : (0 : Rat) ≤ (numBins d : Rat) := by exact_mod_cast Nat.zero_le _
    have : (numReached d : Rat) ≤ (numReached c : Rat) := by exact_mod_cast hre
    exact div_le_div_of_nonneg_right (by linarith) hp'

/-- **C09**, as seen in the reports: the percentage of the merged coverpoint (or cross) is at least
that of the input, for every monotone rounding. -/
theorem C09_report_figure {rd : Rat → Rat} (hm : ∀ a b, a ≤ b → rd a ≤ rd b) {out : Scope} {srcs : List Scope}
    (hu : ∀ s ∈ srcs, UniqueNames s) (h : merge emptyDb srcs = .ok out)
    {p : Addr} (hp : LeafAddr p) {db d : Scope} (hdb : db ∈ srcs) (hd : d ∈ reach p db)
    (hsame : ∀ s ∈ srcs, ∀ d' ∈ reach p s, (binShape d').Perm (binShape d))
    (hnd : ((binShape d).map Prod.fst).Nodup)
    (hnn : ∀ s ∈ srcs, ∀ d' ∈ reach p s, ∀ i ∈ d'.items, 0 ≤ i.count)
    {c : Scope} (hc : c ∈ reach p out) :
    (∀ x y, buildCoverpoint rd d = .ok x → buildCoverpoint rd c = .ok y → x.coverage ≤ y.coverage) ∧
    (∀ x y, buildCross rd d = .ok x → buildCross rd c = .ok y → x.coverage ≤ y.coverage) := by
  obtain ⟨h1, h2, _⟩ := C09_merge_never_lowers_coverage hu h hp hdb hd hsame hnd hnn hc
  have key : leafCov rd d ≤ leafCov rd c := by
    unfold leafCov
    rw [h1]
    split
    · rename_i hpos
      unfold percent
      apply hm
      have hp' : (0 : Rat) < (numBins d : Rat) := by exact_mod_cast hpos
      have : ((100 * numReached d : Nat) : Rat) ≤ ((100 * numReached c : Nat) : Rat) := by
        exact_mod_cast Nat.mul_le_mul_left 100 h2
      exact div_le_div_of_nonneg_right this hp'.le
    · exact le_refl _
  constructor
  · intro x y hx hy
    obtain ⟨_, rfl⟩ := (buildCoverpoint_ok rd d x).1 hx
    obtain ⟨_, rfl⟩ := (buildCoverpoint_ok rd c y).1 hy
    exact key
  · intro x y hx hy
    obtain ⟨_, rfl⟩ := (buildCross_ok rd d x).1 hx
    obtain ⟨_, rfl⟩ := (buildCross_ok rd c y).1 hy
    exact key

namespace Ex
/-- A second run of the sample database, hitting the other bin and listing the bins in another order. -/
def rcp2 : Scope := mkCoverpoint "cp" SrcInfo.none 3 [mkBin "b" CT.CVGBIN 2 5, mkBin "a" CT.CVGBIN 1 0]
def rdb2 : Scope := { emptyDb with children := [mkDu "du" SrcInfo.none 1,
  mkInstance "i" SrcInfo.none 1 (some ⟨"du", SrcInfo.none, 1⟩) [mkCovergroup "cg" SrcInfo.none 2 [rcp2, rcq]]] }
def rout : Scope := match merge emptyDb [rdb, rdb2] with | .ok o => o | .error _ => emptyDb
end Ex

example : (∀ s ∈ [Ex.rdb, Ex.rdb2], UniqueNames s) ∧ merge emptyDb [Ex.rdb, Ex.rdb2] = .ok Ex.rout ∧
    reach Ex.pCp Ex.rdb2 = [Ex.rcp2] ∧
    (∀ s ∈ [Ex.rdb, Ex.rdb2], ∀ d' ∈ reach Ex.pCp s, (binShape d').Perm (binShape Ex.rcp2)) ∧
    ((binShape Ex.rcp2).map Prod.fst).Nodup ∧
    (∀ s ∈ [Ex.rdb, Ex.rdb2], ∀ d' ∈ reach Ex.pCp s, ∀ i ∈ d'.items, 0 ≤ i.count) ∧
    (reach Ex.pCp Ex.rout).map numReached = [2] ∧ numReached Ex.rcp2 = 1 :=
  ⟨by decide, rfl, rfl, by decide, by decide, by decide, by decide, by decide⟩

end Verif
