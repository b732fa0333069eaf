import Verif.ReportSpec
import Verif.MergeClosed
/-!
# Closed form of the report builder
-/

namespace Verif
namespace Report
open Spec

theorem bind_eq_ok {α β ε : Type} {x : Except ε α} {f : α → Except ε β} {b : β} :
    (x >>= f) = .ok b ↔ ∃ a, x = .ok a ∧ f a = .ok b := by
  cases x with
  | error e => simp [bind, Except.bind]
  | ok a => simp [bind, Except.bind]

theorem mapM_eq_ok {α β ε : Type} {f : α → Except ε β} {p : α → Prop} {g : α → β}
    (h : ∀ x b, f x = .ok b ↔ p x ∧ b = g x) (l : List α) (b : List β) :
    l.mapM f = .ok b ↔ (∀ x ∈ l, p x) ∧ b = l.map g := by
  induction l generalizing b with
  | nil => simp [pure, Except.pure, eq_comm]
  | cons a t ih =>
    rw [List.mapM_cons, bind_eq_ok]
    simp only [bind_eq_ok, h, ih, pure, Except.pure, Except.ok.injEq, List.mem_cons, forall_eq_or_imp,
      List.map_cons]
    constructor
    · rintro ⟨_, ⟨ha, rfl⟩, _, ⟨ht, rfl⟩, rfl⟩; exact ⟨⟨ha, ht⟩, rfl⟩
    · rintro ⟨⟨ha, ht⟩, rfl⟩; exact ⟨_, ⟨ha, rfl⟩, _, ⟨ht, rfl⟩, rfl⟩

theorem atLeastE_ok {i : Item} {a : Int} : atLeastE i = .ok a ↔ i.atLeast = some a := by
  unfold atLeastE; cases i.atLeast <;> simp

/-- The threshold of an item (0 if it has none; only used for items that have one). -/
def thr (i : Item) : Int := i.atLeast.getD 0

theorem reached_iff {i : Item} (h : i.atLeast ≠ none) : reached i ↔ thr i ≤ i.count := by
  unfold reached thr
  cases hi : i.atLeast with
  | none => exact absurd hi h
  | some a => simp

/-- A listed bin with its threshold. -/
def thrBin (i : Item) : RBin := ⟨i.name, thr i, i.count⟩
/-- A listed bin with its goal. -/
def goalBin (i : Item) : RBin := ⟨i.name, i.goal, i.count⟩

theorem foldlM_cpBin (l : List Item) (st b : BinLoop) :
    l.foldlM cpBinStep st = .ok b ↔ (∀ i ∈ l, i.atLeast ≠ none) ∧
      b = ⟨st.numHit + l.countP (fun i => decide (reached i)), st.total + l.length, st.bins ++ l.map thrBin⟩ := by
  induction l generalizing st with
  | nil => cases st; simp [pure, Except.pure, eq_comm]
  | cons a t ih =>
    rw [List.foldlM_cons, bind_eq_ok]
    simp only [ih, cpBinStep, bind_eq_ok, atLeastE_ok, pure, Except.pure, Except.ok.injEq]
    constructor
    · rintro ⟨st', ⟨x, hx, rfl⟩, ht, rfl⟩
      have hn : a.atLeast ≠ none := by rw [hx]; simp
      refine ⟨by simpa [hn] using ht, ?_⟩
      have hr := reached_iff hn
      simp only [thr, hx, Option.getD_some] at hr
      simp only [BinLoop.mk.injEq, List.countP_cons, hr, decide_eq_true_eq, List.length_cons, List.append_assoc,
        List.map_cons, thrBin, thr, hx, Option.getD_some]
      refine ⟨by split <;> omega, by omega, rfl⟩
    · rintro ⟨h, rfl⟩
      have hn : a.atLeast ≠ none := h a (by simp)
      obtain ⟨x, hx⟩ := Option.ne_none_iff_exists'.1 hn
      refine ⟨_, ⟨x, hx, rfl⟩, fun i hi => h i (by simp [hi]), ?_⟩
      have hr := reached_iff hn
      simp only [thr, hx, Option.getD_some] at hr
      simp only [BinLoop.mk.injEq, List.countP_cons, hr, decide_eq_true_eq, List.length_cons, List.append_assoc,
        List.map_cons, thrBin, thr, hx, Option.getD_some]
      refine ⟨by split <;> omega, by omega, rfl⟩

theorem foldlM_crossBin (l : List Item) (st b : BinLoop) :
    l.foldlM crossBinStep st = .ok b ↔ (∀ i ∈ l, i.atLeast ≠ none) ∧
      b = ⟨st.numHit + l.countP (fun i => decide (reached i)), st.total + l.length, st.bins ++ l.map goalBin⟩ := by
  induction l generalizing st with
  | nil => cases st; simp [pure, Except.pure, eq_comm]
  | cons a t ih =>
    rw [List.foldlM_cons, bind_eq_ok]
    simp only [ih, crossBinStep, bind_eq_ok, atLeastE_ok, pure, Except.pure, Except.ok.injEq]
    constructor
    · rintro ⟨st', ⟨x, hx, rfl⟩, ht, rfl⟩
      have hn : a.atLeast ≠ none := by rw [hx]; simp
      refine ⟨by simpa [hn] using ht, ?_⟩
      have hr := reached_iff hn
      simp only [thr, hx, Option.getD_some] at hr
      simp only [BinLoop.mk.injEq, List.countP_cons, hr, decide_eq_true_eq, List.length_cons, List.append_assoc,
        List.map_cons, goalBin]
      refine ⟨by split <;> omega, by omega, rfl⟩
    · rintro ⟨h, rfl⟩
      have hn : a.atLeast ≠ none := h a (by simp)
      obtain ⟨x, hx⟩ := Option.ne_none_iff_exists'.1 hn
      refine ⟨_, ⟨x, hx, rfl⟩, fun i hi => h i (by simp [hi]), ?_⟩
      have hr := reached_iff hn
      simp only [thr, hx, Option.getD_some] at hr
      simp only [BinLoop.mk.injEq, List.countP_cons, hr, decide_eq_true_eq, List.length_cons, List.append_assoc,
        List.map_cons, goalBin]
      refine ⟨by split <;> omega, by omega, rfl⟩

theorem foldlM_otherBin (l : List Item) (st b : List RBin) :
    l.foldlM otherBinStep st = .ok b ↔ (∀ i ∈ l, i.atLeast ≠ none) ∧ b = st ++ l.map thrBin := by
  induction l generalizing st with
  | nil => simp [pure, Except.pure, eq_comm]
  | cons a t ih =>
    rw [List.foldlM_cons, bind_eq_ok]
    simp only [ih, otherBinStep, bind_eq_ok, atLeastE_ok, pure, Except.pure, Except.ok.injEq]
    constructor
    · rintro ⟨st', ⟨x, hx, rfl⟩, ht, rfl⟩
      have hn : a.atLeast ≠ none := by rw [hx]; simp
      exact ⟨by simpa [hn] using ht, by simp [thrBin, thr, hx]⟩
    · rintro ⟨h, rfl⟩
      have hn : a.atLeast ≠ none := h a (by simp)
      obtain ⟨x, hx⟩ := Option.ne_none_iff_exists'.1 hn
      exact ⟨_, ⟨x, hx, rfl⟩, fun i hi => h i (by simp [hi]), by simp [thrBin, thr, hx]⟩

/-- Coverage of a leaf. -/
def leafCov (rd : Rat → Rat) (s : Scope) : Rat :=
  if numBins s > 0 then percent rd (numReached s) (numBins s) else 0

def pCp (rd : Rat → Rat) (s : Scope) : RCp :=
  ⟨s.name, leafCov rd s, s.weight, (itemsOfKind CT.CVGBIN s).map thrBin,
    (itemsOfKind CT.IGNOREBIN s).map thrBin, (itemsOfKind CT.ILLEGALBIN s).map thrBin⟩

def pCross (rd : Rat → Rat) (s : Scope) : RCross :=
  ⟨s.name, leafCov rd s, 1, (itemsOfKind CT.CVGBIN s).map goalBin⟩

def CpOk (c : Scope) : Prop :=
  ∀ k ∈ [CT.CVGBIN, CT.IGNOREBIN, CT.ILLEGALBIN], ∀ i ∈ itemsOfKind k c, i.atLeast ≠ none

def CrossOk (c : Scope) : Prop := ∀ i ∈ itemsOfKind CT.CVGBIN c, i.atLeast ≠ none

theorem buildCoverpoint_ok (rd : Rat → Rat) (s : Scope) (r : RCp) :
    buildCoverpoint rd s = .ok r ↔ CpOk s ∧ r = pCp rd s := by
  unfold buildCoverpoint
  simp only [bind_eq_ok, foldlM_cpBin, foldlM_otherBin, pure, Except.pure, Except.ok.injEq]
  simp only [List.nil_append, Nat.zero_add]
  constructor
  · rintro ⟨_, ⟨h1, rfl⟩, _, ⟨h2, rfl⟩, _, ⟨h3, rfl⟩, rfl⟩
    refine ⟨?_, rfl⟩
    intro k hk
    simp only [List.mem_cons, List.not_mem_nil, or_false] at hk
    rcases hk with rfl | rfl | rfl
    · exact h1
    · exact h2
    · exact h3
  · rintro ⟨h, rfl⟩
    exact ⟨_, ⟨h CT.CVGBIN (by simp), rfl⟩, _, ⟨h CT.IGNOREBIN (by simp), rfl⟩, _,
      ⟨h CT.ILLEGALBIN (by simp), rfl⟩, rfl⟩

theorem buildCross_ok (rd : Rat → Rat) (s : Scope) (r : RCross) :
    buildCross rd s = .ok r ↔ CrossOk s ∧ r = pCross rd s := by
  unfold buildCross
  simp only [bind_eq_ok, foldlM_crossBin, pure, Except.pure, Except.ok.injEq]
  simp only [List.nil_append, Nat.zero_add]
  constructor
  · rintro ⟨_, ⟨h1, rfl⟩, rfl⟩; exact ⟨h1, rfl⟩
  · rintro ⟨h, rfl⟩; exact ⟨_, ⟨h, rfl⟩, rfl⟩

/-- Coverage of a group. -/
def groupCov (rd : Rat → Rat) (s : Scope) : Rat :=
  groupCoverage rd ((kids ST.COVERPOINT s).map (pCp rd)) ((kids ST.CROSS s).map (pCross rd))

mutual
def pCg (rd : Rat → Rat) : Scope → RCg
  | ⟨ty, n, src, w, du, cps, ch, it⟩ =>
    ⟨n, n, groupCov rd ⟨ty, n, src, w, du, cps, ch, it⟩, w,
      (kids ST.COVERPOINT ⟨ty, n, src, w, du, cps, ch, it⟩).map (pCp rd),
      (kids ST.CROSS ⟨ty, n, src, w, du, cps, ch, it⟩).map (pCross rd), pCgs rd ch⟩
termination_by structural s => s
def pCgs (rd : Rat → Rat) : List Scope → List RCg
  | [] => []
  | c :: t => if maskHit c.stype ST.COVERINSTANCE then pCg rd c :: pCgs rd t else pCgs rd t
termination_by structural l => l
end

theorem pCgs_eq (rd : Rat → Rat) (l : List Scope) :
    pCgs rd l = (l.filter (fun c => maskHit c.stype ST.COVERINSTANCE)).map (pCg rd) := by
  induction l with
  | nil => rfl
  | cons c t ih =>
    rw [pCgs, List.filter_cons]
    split <;> simp [ih]

theorem pCg_eq (rd : Rat → Rat) (s : Scope) :
    pCg rd s = ⟨s.name, s.name, groupCov rd s, s.weight, (kids ST.COVERPOINT s).map (pCp rd),
      (kids ST.CROSS s).map (pCross rd), (kids ST.COVERINSTANCE s).map (pCg rd)⟩ := by
  cases s; rw [pCg, pCgs_eq]; rfl

def HereOk (g : Scope) : Prop := (∀ c ∈ kids ST.COVERPOINT g, CpOk c) ∧ (∀ c ∈ kids ST.CROSS g, CrossOk c)

mutual
theorem buildCg_ok (rd : Rat → Rat) : ∀ (s : Scope) (r : RCg),
    buildCg rd s = .ok r ↔ (∀ g ∈ groupTree s, HereOk g) ∧ r = pCg rd s
  | ⟨ty, n, src, w, du, cps, ch, it⟩, r => by
    rw [buildCg, groupTree, pCg]
    simp only [bind_eq_ok, mapM_eq_ok (buildCoverpoint_ok rd), mapM_eq_ok (buildCross_ok rd), buildCgs_ok rd ch,
      pure, Except.pure, Except.ok.injEq, List.mem_cons, forall_eq_or_imp]
    constructor
    · rintro ⟨_, ⟨h1, rfl⟩, _, ⟨h2, rfl⟩, _, ⟨h3, rfl⟩, rfl⟩
      exact ⟨⟨⟨h1, h2⟩, h3⟩, rfl⟩
    · rintro ⟨⟨⟨h1, h2⟩, h3⟩, rfl⟩
      exact ⟨_, ⟨h1, rfl⟩, _, ⟨h2, rfl⟩, _, ⟨h3, rfl⟩, rfl⟩
termination_by structural s => s
theorem buildCgs_ok (rd : Rat → Rat) : ∀ (l : List Scope) (r : List RCg),
    buildCgs rd l = .ok r ↔ (∀ g ∈ groupForest l, HereOk g) ∧ r = pCgs rd l
  | [], r => by simp [buildCgs, groupForest, pCgs, pure, Except.pure, eq_comm]
  | c :: t, r => by
    rw [buildCgs, groupForest, pCgs]
    split
    · simp only [bind_eq_ok, buildCg_ok rd c, buildCgs_ok rd t, pure, Except.pure, Except.ok.injEq, List.mem_append]
      constructor
      · rintro ⟨_, ⟨h1, rfl⟩, _, ⟨h2, rfl⟩, rfl⟩
        exact ⟨fun g hg => hg.elim (h1 g) (h2 g), rfl⟩
      · rintro ⟨h, rfl⟩
        exact ⟨_, ⟨fun g hg => h g (.inl hg), rfl⟩, _, ⟨fun g hg => h g (.inr hg), rfl⟩, rfl⟩
    · exact buildCgs_ok rd t r
termination_by structural l => l
end

/-- Accumulated weighted sum over covergroups. -/
def accOf (rd : Rat → Rat) (l : List Scope) : Acc :=
  (l.map (fun s => (groupCov rd s, s.weight))).foldl (accStep rd) ⟨0, 0⟩

theorem foldlM_covergroup (rd : Rat → Rat) (l : List Scope) (st b : InstLoop) :
    l.foldlM (covergroupStep rd) st = .ok b ↔ (∀ s ∈ l, ∀ g ∈ groupTree s, HereOk g) ∧
      b = ⟨{ st.rpt with covergroups := st.rpt.covergroups ++ l.map (pCg rd)
                         covergroupM := l.foldl (fun m s => m.set s.name (pCg rd s)) st.rpt.covergroupM },
           (l.map (fun s => (groupCov rd s, s.weight))).foldl (accStep rd) st.acc⟩ := by
  induction l generalizing st with
  | nil => cases st; simp [pure, Except.pure, eq_comm]
  | cons a t ih =>
    rw [List.foldlM_cons, bind_eq_ok]
    simp only [ih, covergroupStep, bind_eq_ok, buildCg_ok, pure, Except.pure, Except.ok.injEq]
    have e1 : (pCg rd a).instname = a.name := by rw [pCg_eq]
    have e2 : (pCg rd a).coverage = groupCov rd a := by rw [pCg_eq]
    have e3 : (pCg rd a).weight = a.weight := by rw [pCg_eq]
    constructor
    · rintro ⟨_, ⟨_, ⟨h1, rfl⟩, rfl⟩, h2, rfl⟩
      exact ⟨by simpa using ⟨h1, h2⟩, by simp [e1, e2, e3]⟩
    · rintro ⟨h, rfl⟩
      exact ⟨_, ⟨_, ⟨h a (by simp), rfl⟩, rfl⟩, fun s hs => h s (by simp [hs]), by simp [e1, e2, e3]⟩

theorem accOf_div (rd : Rat → Rat) (l : List Scope) : (accOf rd l).div = weightSum l := by
  have : ∀ (l : List Scope) (st : Acc),
      ((l.map (fun s => (groupCov rd s, s.weight))).foldl (accStep rd) st).div = st.div + weightSum l := by
    intro l
    induction l with
    | nil => intro st; simp [weightSum]
    | cons a t ih =>
      intro st
      simp only [List.map_cons, List.foldl_cons, ih, accStep, weightSum, List.sum_cons]
      omega
  simpa [accOf] using this l ⟨0, 0⟩

/-- Overall figure of one instance. -/
def instCov (rd : Rat → Rat) (i : Scope) : Rat :=
  rd ((accOf rd (kids ST.COVERGROUP i)).coverage / rd (weightSum (kids ST.COVERGROUP i) : Rat))

def InstOk (i : Scope) : Prop :=
  (∀ s ∈ kids ST.COVERGROUP i, ∀ g ∈ groupTree s, HereOk g) ∧ weightSum (kids ST.COVERGROUP i) ≠ 0

/-- Effect of one instance on the report. -/
def addInst (rd : Rat → Rat) (r : Rpt) (i : Scope) : Rpt :=
  { covergroups := r.covergroups ++ (kids ST.COVERGROUP i).map (pCg rd)
    covergroupM := (kids ST.COVERGROUP i).foldl (fun m s => m.set s.name (pCg rd s)) r.covergroupM
    coverage := instCov rd i }

theorem buildCovergroups_ok (rd : Rat → Rat) (r b : Rpt) (i : Scope) :
    buildCovergroups rd r i = .ok b ↔ InstOk i ∧ b = addInst rd r i := by
  unfold buildCovergroups
  rw [bind_eq_ok]
  simp only [foldlM_covergroup]
  have hdiv := accOf_div rd (kids ST.COVERGROUP i)
  change ((_ : Acc).div = _) at hdiv
  constructor
  · rintro ⟨_, ⟨h1, rfl⟩, h2⟩
    change (if (accOf rd (kids ST.COVERGROUP i)).div = 0 then _ else _) = _ at h2
    rw [hdiv] at h2
    by_cases hz : weightSum (kids ST.COVERGROUP i) = 0
    · rw [if_pos hz] at h2; simp [throw, throwThe, MonadExceptOf.throw] at h2
    · rw [if_neg hz] at h2
      simp only [pure, Except.pure, Except.ok.injEq] at h2
      refine ⟨⟨h1, hz⟩, ?_⟩
      rw [← h2]
      unfold addInst instCov
      rw [← hdiv]; rfl
  · rintro ⟨⟨h1, hz⟩, rfl⟩
    refine ⟨_, ⟨h1, rfl⟩, ?_⟩
    change (if (accOf rd (kids ST.COVERGROUP i)).div = 0 then _ else _) = _
    rw [hdiv, if_neg hz]
    simp only [pure, Except.pure, Except.ok.injEq]
    unfold addInst instCov
    rw [← hdiv]; rfl

theorem foldlM_inst (rd : Rat → Rat) (l : List Scope) (r b : Rpt) :
    l.foldlM (buildCovergroups rd) r = .ok b ↔ (∀ i ∈ l, InstOk i) ∧ b = l.foldl (addInst rd) r := by
  induction l generalizing r with
  | nil => simp [pure, Except.pure, eq_comm]
  | cons a t ih =>
    rw [List.foldlM_cons, bind_eq_ok]
    simp only [ih, buildCovergroups_ok]
    constructor
    · rintro ⟨_, ⟨h1, rfl⟩, h2, rfl⟩; exact ⟨by simpa using ⟨h1, h2⟩, rfl⟩
    · rintro ⟨h, rfl⟩; exact ⟨_, ⟨h a (by simp), rfl⟩, fun i hi => h i (by simp [hi]), rfl⟩

theorem foldl_addInst (rd : Rat → Rat) (l : List Scope) (r : Rpt) :
    l.foldl (addInst rd) r =
      { covergroups := r.covergroups ++ (l.flatMap (kids ST.COVERGROUP)).map (pCg rd)
        covergroupM := (l.flatMap (kids ST.COVERGROUP)).foldl (fun m s => m.set s.name (pCg rd s)) r.covergroupM
        coverage := ((l.getLast?).map (instCov rd)).getD r.coverage } := by
  induction l generalizing r with
  | nil => cases r; simp
  | cons a t ih =>
    rw [List.foldl_cons, ih]
    simp only [addInst, List.flatMap_cons, List.map_append, List.append_assoc, List.foldl_append,
      Rpt.mk.injEq, true_and]
    cases t with
    | nil => simp
    | cons b t => rw [List.getLast?_cons_cons]; simp [List.getLast?_cons]

/-- The closed form of the report. -/
def pRpt (rd : Rat → Rat) (db : Scope) : Rpt :=
  { covergroups := (allCovergroups db).map (pCg rd)
    covergroupM := (allCovergroups db).foldl (fun m s => m.set s.name (pCg rd s)) []
    coverage := (((kids ST.INSTANCE db).getLast?).map (instCov rd)).getD 0 }

theorem build_ok (rd : Rat → Rat) (db : Scope) (r : Rpt) :
    build rd db = .ok r ↔ (∀ i ∈ kids ST.INSTANCE db, InstOk i) ∧ r = pRpt rd db := by
  unfold build
  rw [foldlM_inst, foldl_addInst]
  simp [pRpt, allCovergroups]
  rfl

end Report
end Verif
