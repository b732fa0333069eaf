import Verif.MergeClosed
import Verif.MergeSpec
/-!
# What an address leads to in a merged database (proof machinery)
-/

namespace Verif
namespace Merge
open Spec

/-! ## Type bits -/

theorem hit_cp_cp : maskHit ST.COVERPOINT ST.COVERPOINT = true := by decide
theorem hit_cp_cross : maskHit ST.COVERPOINT ST.CROSS = false := by decide
theorem hit_cp_ci : maskHit ST.COVERPOINT ST.COVERINSTANCE = false := by decide
theorem hit_cp_cg : maskHit ST.COVERPOINT ST.COVERGROUP = false := by decide
theorem hit_cp_inst : maskHit ST.COVERPOINT ST.INSTANCE = false := by decide
theorem hit_cp_du : maskHit ST.COVERPOINT ST.DU_MODULE = false := by decide
theorem hit_cross_cp : maskHit ST.CROSS ST.COVERPOINT = false := by decide
theorem hit_cross_cross : maskHit ST.CROSS ST.CROSS = true := by decide
theorem hit_cross_ci : maskHit ST.CROSS ST.COVERINSTANCE = false := by decide
theorem hit_cross_cg : maskHit ST.CROSS ST.COVERGROUP = false := by decide
theorem hit_cross_inst : maskHit ST.CROSS ST.INSTANCE = false := by decide
theorem hit_cross_du : maskHit ST.CROSS ST.DU_MODULE = false := by decide
theorem hit_ci_cp : maskHit ST.COVERINSTANCE ST.COVERPOINT = false := by decide
theorem hit_ci_cross : maskHit ST.COVERINSTANCE ST.CROSS = false := by decide
theorem hit_ci_ci : maskHit ST.COVERINSTANCE ST.COVERINSTANCE = true := by decide
theorem hit_ci_cg : maskHit ST.COVERINSTANCE ST.COVERGROUP = false := by decide
theorem hit_ci_inst : maskHit ST.COVERINSTANCE ST.INSTANCE = false := by decide
theorem hit_ci_du : maskHit ST.COVERINSTANCE ST.DU_MODULE = false := by decide
theorem hit_cg_cp : maskHit ST.COVERGROUP ST.COVERPOINT = false := by decide
theorem hit_cg_cross : maskHit ST.COVERGROUP ST.CROSS = false := by decide
theorem hit_cg_ci : maskHit ST.COVERGROUP ST.COVERINSTANCE = false := by decide
theorem hit_cg_cg : maskHit ST.COVERGROUP ST.COVERGROUP = true := by decide
theorem hit_cg_inst : maskHit ST.COVERGROUP ST.INSTANCE = false := by decide
theorem hit_cg_du : maskHit ST.COVERGROUP ST.DU_MODULE = false := by decide
theorem hit_inst_cp : maskHit ST.INSTANCE ST.COVERPOINT = false := by decide
theorem hit_inst_cross : maskHit ST.INSTANCE ST.CROSS = false := by decide
theorem hit_inst_ci : maskHit ST.INSTANCE ST.COVERINSTANCE = false := by decide
theorem hit_inst_cg : maskHit ST.INSTANCE ST.COVERGROUP = false := by decide
theorem hit_inst_inst : maskHit ST.INSTANCE ST.INSTANCE = true := by decide
theorem hit_inst_du : maskHit ST.INSTANCE ST.DU_MODULE = false := by decide
theorem hit_du_cp : maskHit ST.DU_MODULE ST.COVERPOINT = false := by decide
theorem hit_du_cross : maskHit ST.DU_MODULE ST.CROSS = false := by decide
theorem hit_du_ci : maskHit ST.DU_MODULE ST.COVERINSTANCE = false := by decide
theorem hit_du_cg : maskHit ST.DU_MODULE ST.COVERGROUP = false := by decide
theorem hit_du_inst : maskHit ST.DU_MODULE ST.INSTANCE = false := by decide
theorem hit_du_du : maskHit ST.DU_MODULE ST.DU_MODULE = true := by decide

theorem childrenAt_eq (m : Nat) (n : String) (s : Scope) :
    childrenAt (m, n) s = (s.scopes m).filter (fun c => c.name = n) := by
  simp [childrenAt, Scope.scopes, List.filter_filter, Bool.and_comm]

theorem named_eq_pick {m : Nat} (h : m ≠ ST.CROSS) (l : List Scope) (n : String) :
    named m l n = pick (m, n) l := by
  simp [pick, h, named, lastNamed, childrenAt_eq]

theorem crossesNamed_eq_pick (l : List Scope) (n : String) :
    crossesNamed l n = pick (ST.CROSS, n) l := by
  have : childrenAt (ST.CROSS, n) = fun s : Scope => (s.scopes ST.CROSS).filter (fun c => c.name = n) :=
    funext (childrenAt_eq _ _)
  simp [pick, crossesNamed, this]

theorem pick_ne_nil (m : Nat) (n : String) (l : List Scope) :
    pick (m, n) l ≠ [] ↔ ∃ s ∈ l, childrenAt (m, n) s ≠ [] := by
  unfold pick
  split
  · rw [Ne, List.flatMap_eq_nil_iff]; simp
  · rw [Ne, List.filterMap_eq_nil_iff]; simp

theorem mem_childNames (m : Nat) (n : String) (l : List Scope) :
    n ∈ childNames m l ↔ pick (m, n) l ≠ [] := by
  rw [pick_ne_nil, childNames, mem_firstSeen, List.mem_flatMap]
  refine exists_congr (fun s => and_congr_right (fun _ => ?_))
  rw [childrenAt_eq, List.mem_map, Ne, List.filter_eq_nil_iff]
  simp

/-- A single merged scope, or none when nothing contributes. -/
def rep (f : List Scope → Scope) (l : List Scope) : List Scope := if l = [] then [] else [f l]

@[simp] theorem rep_nil (f : List Scope → Scope) : rep f [] = [] := rfl
theorem rep_of_ne {f : List Scope → Scope} {l : List Scope} (h : l ≠ []) : rep f l = [f l] := by
  simp [rep, h]

theorem filter_hit {m : Nat} {xs : List String} (hnd : xs.Nodup) {f : String → Scope}
    (hn : ∀ k, (f k).name = k) (ht : ∀ k, maskHit (f k).stype m = true) (n : String) :
    (xs.map f).filter (fun c => maskHit c.stype m && decide (c.name = n))
      = if n ∈ xs then [f n] else [] := by
  induction xs with
  | nil => simp
  | cons a t ih =>
    rw [List.nodup_cons] at hnd
    have := ih hnd.2
    by_cases h : a = n
    · subst h
      rw [List.map_cons, List.filter_cons, this]
      simp [hn, ht, hnd.1]
    · have h' : ¬ n = a := fun e => h e.symm
      rw [List.map_cons, List.filter_cons, this]
      simp [hn, h, h']

theorem filter_miss {m : Nat} {xs : List String} {f : String → Scope}
    (ht : ∀ k, maskHit (f k).stype m = false) (n : String) :
    (xs.map f).filter (fun c => maskHit c.stype m && decide (c.name = n)) = [] := by
  rw [List.filter_eq_nil_iff]
  intro c hc
  obtain ⟨k, _, rfl⟩ := List.mem_map.1 hc
  simp [ht]

/-! ## The merged scope of each type as a function of the contributing scopes -/

def mCp (n : String) (l : List Scope) : Scope := mkCoverpoint n (headSrc l) (headWeight l) (pBins l)
def mCross (n : String) (l : List Scope) : Scope :=
  mkCross n (headSrc l) (headWeight l) (headCps l) (pBins l)
def mCi (n : String) (l : List Scope) : Scope :=
  mkCoverInst n (headSrc l) (headWeight l) (pCoverpoints l ++ pCrosses l)
def mCg (n : String) (l : List Scope) : Scope :=
  mkCovergroup n (headSrc l) (headWeight l) (pCovergroupBody l)
def mInst (n : String) (l : List Scope) : Scope :=
  mkInstance n (headSrc l) 1 (some (headDu l)) (pCovergroups l)

theorem pCoverpoint_eq (l : List Scope) (n : String) :
    pCoverpoint l n = mCp n (pick (ST.COVERPOINT, n) l) := by
  rw [← named_eq_pick (by decide)]; rfl
theorem pCross_eq (l : List Scope) (n : String) :
    pCross l n = mCross n (pick (ST.CROSS, n) l) := by
  rw [← crossesNamed_eq_pick]; rfl
theorem pCoverinst_eq (l : List Scope) (n : String) :
    pCoverinst l n = mCi n (pick (ST.COVERINSTANCE, n) l) := by
  rw [← named_eq_pick (by decide)]; rfl
theorem pCovergroup_eq (l : List Scope) (n : String) :
    pCovergroup l n = mCg n (pick (ST.COVERGROUP, n) l) := by
  rw [← named_eq_pick (by decide)]; rfl

theorem childNames_nodup (m : Nat) (l : List Scope) : (childNames m l).Nodup := firstSeen_nodup _

theorem ite_rep (f : List Scope → Scope) (m : Nat) (n : String) (l : List Scope) :
    (if n ∈ childNames m l then [f (pick (m, n) l)] else []) = rep f (pick (m, n) l) := by
  unfold rep
  by_cases h : pick (m, n) l = []
  · simp [h, mem_childNames]
  · simp [h, mem_childNames]

theorem filter_pCoverpoints (l : List Scope) (n : String) :
    (pCoverpoints l).filter (fun c => maskHit c.stype ST.COVERPOINT && decide (c.name = n))
      = rep (mCp n) (pick (ST.COVERPOINT, n) l) := by
  rw [pCoverpoints, filter_hit (childNames_nodup _ _) (fun k => rfl) (fun k => hit_cp_cp),
    pCoverpoint_eq, ite_rep]

theorem filter_pCrosses (l : List Scope) (n : String) :
    (pCrosses l).filter (fun c => maskHit c.stype ST.CROSS && decide (c.name = n))
      = rep (mCross n) (pick (ST.CROSS, n) l) := by
  rw [pCrosses, filter_hit (childNames_nodup _ _) (fun k => rfl) (fun k => hit_cross_cross),
    pCross_eq, ite_rep]

theorem filter_pCoverinsts (l : List Scope) (n : String) :
    (pCoverinsts l).filter (fun c => maskHit c.stype ST.COVERINSTANCE && decide (c.name = n))
      = rep (mCi n) (pick (ST.COVERINSTANCE, n) l) := by
  rw [pCoverinsts, filter_hit (childNames_nodup _ _) (fun k => rfl) (fun k => hit_ci_ci),
    pCoverinst_eq, ite_rep]

theorem filter_pCovergroups (l : List Scope) (n : String) :
    (pCovergroups l).filter (fun c => maskHit c.stype ST.COVERGROUP && decide (c.name = n))
      = rep (mCg n) (pick (ST.COVERGROUP, n) l) := by
  rw [pCovergroups, filter_hit (childNames_nodup _ _) (fun k => rfl) (fun k => hit_cg_cg),
    pCovergroup_eq, ite_rep]

theorem at_mCi_cp (c n : String) (l : List Scope) :
    childrenAt (ST.COVERPOINT, n) (mCi c l) = rep (mCp n) (pick (ST.COVERPOINT, n) l) := by
  show List.filter _ (pCoverpoints l ++ pCrosses l) = _
  rw [List.filter_append, filter_pCoverpoints]
  rw [pCrosses, filter_miss (fun k => hit_cross_cp), List.append_nil]

theorem at_mCi_cross (c n : String) (l : List Scope) :
    childrenAt (ST.CROSS, n) (mCi c l) = rep (mCross n) (pick (ST.CROSS, n) l) := by
  show List.filter _ (pCoverpoints l ++ pCrosses l) = _
  rw [List.filter_append, filter_pCrosses]
  rw [pCoverpoints, filter_miss (fun k => hit_cp_cross), List.nil_append]

theorem at_mCg_cp (c n : String) (l : List Scope) :
    childrenAt (ST.COVERPOINT, n) (mCg c l) = rep (mCp n) (pick (ST.COVERPOINT, n) l) := by
  show List.filter _ (pCoverpoints l ++ pCrosses l ++ pCoverinsts l) = _
  rw [List.filter_append, List.filter_append, filter_pCoverpoints]
  rw [pCrosses, filter_miss (fun k => hit_cross_cp), pCoverinsts, filter_miss (fun k => hit_ci_cp)]
  simp

theorem at_mCg_cross (c n : String) (l : List Scope) :
    childrenAt (ST.CROSS, n) (mCg c l) = rep (mCross n) (pick (ST.CROSS, n) l) := by
  show List.filter _ (pCoverpoints l ++ pCrosses l ++ pCoverinsts l) = _
  rw [List.filter_append, List.filter_append, filter_pCrosses]
  rw [pCoverpoints, filter_miss (fun k => hit_cp_cross), pCoverinsts, filter_miss (fun k => hit_ci_cross)]
  simp

theorem at_mCg_ci (c n : String) (l : List Scope) :
    childrenAt (ST.COVERINSTANCE, n) (mCg c l) = rep (mCi n) (pick (ST.COVERINSTANCE, n) l) := by
  show List.filter _ (pCoverpoints l ++ pCrosses l ++ pCoverinsts l) = _
  rw [List.filter_append, List.filter_append, filter_pCoverinsts]
  rw [pCoverpoints, filter_miss (fun k => hit_cp_ci), pCrosses, filter_miss (fun k => hit_cross_ci)]
  simp

theorem at_mInst_cg (c n : String) (l : List Scope) :
    childrenAt (ST.COVERGROUP, n) (mInst c l) = rep (mCg n) (pick (ST.COVERGROUP, n) l) := by
  show List.filter _ (pCovergroups l) = _
  rw [filter_pCovergroups]

theorem pInstance_eq (l : List Scope) (n : String) :
    pInstance l n = [mkDu (headDu (pick (ST.INSTANCE, n) l)).name (headDu (pick (ST.INSTANCE, n) l)).src
      (headDu (pick (ST.INSTANCE, n) l)).weight, mInst n (pick (ST.INSTANCE, n) l)] := by
  rw [← named_eq_pick (by decide)]; rfl

theorem childrenAt_pMerge (dst : Scope) (srcs : List Scope) (n : String) :
    childrenAt (ST.INSTANCE, n) (pMerge dst srcs)
      = childrenAt (ST.INSTANCE, n) dst ++ rep (mInst n) (pick (ST.INSTANCE, n) srcs) := by
  show List.filter _ (dst.children ++ (childNames ST.INSTANCE srcs).flatMap (pInstance srcs)) = _
  rw [List.filter_append]
  congr 1
  rw [List.filter_flatMap, ← ite_rep]
  rw [← filter_hit (xs := childNames ST.INSTANCE srcs)
    (f := fun k => mInst k (pick (ST.INSTANCE, k) srcs)) (m := ST.INSTANCE)
    (childNames_nodup _ _) (fun k => rfl) (fun k => hit_inst_inst)]
  induction childNames ST.INSTANCE srcs with
  | nil => rfl
  | cons a t ih =>
    rw [List.flatMap_cons, ih, pInstance_eq, List.map_cons]
    simp only [List.filter_cons]
    rw [show maskHit (mkDu (headDu (pick (ST.INSTANCE, a) srcs)).name
      (headDu (pick (ST.INSTANCE, a) srcs)).src (headDu (pick (ST.INSTANCE, a) srcs)).weight).stype
        ST.INSTANCE = false from hit_du_inst]
    simp only [Bool.false_and, Bool.false_eq_true, if_false]
    split <;> simp

/-! ## Composition along an address -/

theorem flatMap_rep {f g : List Scope → Scope} {st : Step} {l : List Scope}
    (h : childrenAt st (f l) = rep g (pick st l)) :
    (rep f l).flatMap (childrenAt st) = rep g (pick st l) := by
  by_cases hl : l = []
  · subst hl
    have : pick st [] = [] := by unfold pick; split <;> rfl
    simp [this]
  · rw [rep_of_ne hl]; simp [h]

theorem reach_append (p q : Addr) (s : Scope) :
    reach (p ++ q) s = (reach p s).flatMap (reach q) := by
  induction p generalizing s with
  | nil => simp [reach]
  | cons st p ih =>
    simp only [List.cons_append, reach, List.flatMap_assoc]
    congr 1
    funext c
    exact ih c

theorem contrib_append (p q : Addr) (l : List Scope) :
    contrib (p ++ q) l = contrib q (contrib p l) := by
  induction p generalizing l with
  | nil => rfl
  | cons st p ih => exact ih _

theorem reach_one (st : Step) (s : Scope) : reach [st] s = childrenAt st s := by
  simp [reach]

theorem reach_snoc (p : Addr) (st : Step) (s : Scope) :
    reach (p ++ [st]) s = (reach p s).flatMap (childrenAt st) := by
  rw [reach_append]; congr 1; funext c; exact reach_one st c

theorem contrib_snoc (p : Addr) (st : Step) (l : List Scope) :
    contrib (p ++ [st]) l = pick st (contrib p l) := contrib_append p [st] l

theorem reach_inst (dst : Scope) (srcs : List Scope) (i : String) :
    reach [(ST.INSTANCE, i)] (pMerge dst srcs)
      = reach [(ST.INSTANCE, i)] dst ++ rep (mInst i) (contrib [(ST.INSTANCE, i)] srcs) := by
  rw [reach_one, reach_one, childrenAt_pMerge]; rfl

theorem reach_cg (dst : Scope) (srcs : List Scope) (i g : String) :
    reach [(ST.INSTANCE, i), (ST.COVERGROUP, g)] (pMerge dst srcs)
      = reach [(ST.INSTANCE, i), (ST.COVERGROUP, g)] dst
        ++ rep (mCg g) (contrib [(ST.INSTANCE, i), (ST.COVERGROUP, g)] srcs) := by
  rw [show [(ST.INSTANCE, i), (ST.COVERGROUP, g)] = [(ST.INSTANCE, i)] ++ [(ST.COVERGROUP, g)]
    from rfl]
  rw [reach_snoc, reach_snoc, contrib_snoc, reach_inst, List.flatMap_append,
    flatMap_rep (at_mInst_cg _ _ _)]

theorem reach_ci (dst : Scope) (srcs : List Scope) (i g c : String) :
    reach [(ST.INSTANCE, i), (ST.COVERGROUP, g), (ST.COVERINSTANCE, c)] (pMerge dst srcs)
      = reach [(ST.INSTANCE, i), (ST.COVERGROUP, g), (ST.COVERINSTANCE, c)] dst
        ++ rep (mCi c) (contrib [(ST.INSTANCE, i), (ST.COVERGROUP, g), (ST.COVERINSTANCE, c)] srcs) := by
  rw [show [(ST.INSTANCE, i), (ST.COVERGROUP, g), (ST.COVERINSTANCE, c)]
    = [(ST.INSTANCE, i), (ST.COVERGROUP, g)] ++ [(ST.COVERINSTANCE, c)] from rfl]
  rw [reach_snoc, reach_snoc, contrib_snoc, reach_cg, List.flatMap_append,
    flatMap_rep (at_mCg_ci _ _ _)]

theorem reach_cp {p : Addr} (hp : GroupAddr p) (dst : Scope) (srcs : List Scope) (n : String) :
    reach (p ++ [(ST.COVERPOINT, n)]) (pMerge dst srcs)
      = reach (p ++ [(ST.COVERPOINT, n)]) dst
        ++ rep (mCp n) (contrib (p ++ [(ST.COVERPOINT, n)]) srcs) := by
  rw [reach_snoc, reach_snoc, contrib_snoc]
  cases hp with
  | cg i g => rw [reach_cg, List.flatMap_append, flatMap_rep (at_mCg_cp _ _ _)]
  | ci i g c => rw [reach_ci, List.flatMap_append, flatMap_rep (at_mCi_cp _ _ _)]

theorem reach_cross {p : Addr} (hp : GroupAddr p) (dst : Scope) (srcs : List Scope) (n : String) :
    reach (p ++ [(ST.CROSS, n)]) (pMerge dst srcs)
      = reach (p ++ [(ST.CROSS, n)]) dst
        ++ rep (mCross n) (contrib (p ++ [(ST.CROSS, n)]) srcs) := by
  rw [reach_snoc, reach_snoc, contrib_snoc]
  cases hp with
  | cg i g => rw [reach_cg, List.flatMap_append, flatMap_rep (at_mCg_cross _ _ _)]
  | ci i g c => rw [reach_ci, List.flatMap_append, flatMap_rep (at_mCi_cross _ _ _)]

/-- All supported addresses at once. -/
theorem reach_any {p : Addr} (hp : AnyAddr p) (dst : Scope) (srcs : List Scope) :
    ∃ f, reach p (pMerge dst srcs) = reach p dst ++ rep f (contrib p srcs) := by
  cases hp with
  | inst i => exact ⟨_, reach_inst _ _ _⟩
  | group h => cases h with
    | cg i g => exact ⟨_, reach_cg _ _ _ _⟩
    | ci i g c => exact ⟨_, reach_ci _ _ _ _ _⟩
  | leaf h => cases h with
    | cp h n => exact ⟨_, reach_cp h _ _ _⟩
    | cross h n => exact ⟨_, reach_cross h _ _ _⟩

/-! ## Bins of a merged leaf -/

theorem leaf_items {p : Addr} (hp : LeafAddr p) (dst : Scope) (srcs : List Scope) :
    ∃ f : List Scope → Scope, (∀ l, (f l).items = pBins l) ∧ (∀ l, (f l).weight = headWeight l) ∧
      (∀ l, (f l).src = headSrc l) ∧
      reach p (pMerge dst srcs) = reach p dst ++ rep f (contrib p srcs) := by
  cases hp with
  | cp h n => exact ⟨mCp n, fun _ => rfl, fun _ => rfl, fun _ => rfl, reach_cp h _ _ _⟩
  | cross h n => exact ⟨mCross n, fun _ => rfl, fun _ => rfl, fun _ => rfl, reach_cross h _ _ _⟩

theorem kindItems_named (l : List Scope) (k : Nat) (b : String) :
    (kindItems l k).filter (fun i => i.name = b) = itemsOf k b l := by
  simp [kindItems, itemsOf, Scope.coverItems, List.filter_flatMap, List.filter_filter, Bool.and_comm]

theorem pBinsOfKind_filter (items : List Item) (k k' : Nat) (b : String) :
    (pBinsOfKind items k').filter (fun i => maskHit i.kind k && decide (i.name = b))
      = if maskHit k' k = true ∧ b ∈ items.map (·.name) then [pBin items k' b] else [] := by
  unfold pBinsOfKind
  have hnd := firstSeen_nodup (items.map (·.name))
  have hm : b ∈ items.map (·.name) ↔ b ∈ firstSeen (items.map (·.name)) := mem_firstSeen.symm
  simp only [hm]
  clear hm
  revert hnd
  generalize firstSeen (items.map (·.name)) = fs
  intro hnd
  induction fs with
  | nil => simp
  | cons a t ih =>
    rw [List.nodup_cons] at hnd
    rw [List.map_cons, List.filter_cons, ih hnd.2]
    simp only [pBin, mkBin]
    by_cases hk : maskHit k' k = true
    · by_cases h : a = b
      · subst h; simp [hk, hnd.1]
      · have : ¬ b = a := fun e => h e.symm
        simp [hk, h, this]
    · simp [hk]

/-- The bin of a kind and name in the merged bins: one bin, or none when nothing contributes. -/
theorem pBins_filter {k : Nat} (hk : IsKind k) (l : List Scope) (b : String) :
    (pBins l).filter (fun i => maskHit i.kind k && decide (i.name = b))
      = if itemsOf k b l = [] then [] else [pBin (kindItems l k) k b] := by
  have key : (b ∈ (kindItems l k).map (·.name)) ↔ ¬ itemsOf k b l = [] := by
    rw [← kindItems_named, List.filter_eq_nil_iff]
    simp
  unfold pBins
  rw [List.filter_append, List.filter_append, pBinsOfKind_filter, pBinsOfKind_filter,
    pBinsOfKind_filter]
  have e1 : maskHit CT.CVGBIN CT.IGNOREBIN = false := by decide
  have e2 : maskHit CT.CVGBIN CT.ILLEGALBIN = false := by decide
  have e3 : maskHit CT.IGNOREBIN CT.CVGBIN = false := by decide
  have e4 : maskHit CT.IGNOREBIN CT.ILLEGALBIN = false := by decide
  have e5 : maskHit CT.ILLEGALBIN CT.CVGBIN = false := by decide
  have e6 : maskHit CT.ILLEGALBIN CT.IGNOREBIN = false := by decide
  have e7 : maskHit CT.CVGBIN CT.CVGBIN = true := by decide
  have e8 : maskHit CT.IGNOREBIN CT.IGNOREBIN = true := by decide
  have e9 : maskHit CT.ILLEGALBIN CT.ILLEGALBIN = true := by decide
  by_cases h : itemsOf k b l = []
  · have h' := mt key.1 (not_not.2 h)
    rcases hk with rfl | rfl | rfl <;> simp [h, h', e1, e2, e3, e4, e5, e6]
  · have h' := key.2 h
    rcases hk with rfl | rfl | rfl <;> simp [h, h', e1, e2, e3, e4, e5, e6, e7, e8, e9]

theorem firstItem_kind (l : List Scope) (k : Nat) (b : String) :
    firstItem b (kindItems l k) = (itemsOf k b l).head? := by
  rw [← kindItems_named, List.head?_filter]; rfl

theorem sumNamed_kind (l : List Scope) (k : Nat) (b : String) :
    sumNamed b (kindItems l k) = sumCounts (itemsOf k b l) := by
  rw [← kindItems_named]; rfl

/-- The bins found at a leaf address of a merged database. -/
theorem binsAt_merge {p : Addr} (hp : LeafAddr p) {k : Nat} (hk : IsKind k) (b : String)
    (dst : Scope) (srcs : List Scope) :
    binsAt p k b (pMerge dst srcs) = binsAt p k b dst ++
      (if itemsOf k b (contrib p srcs) = [] then [] else
        [mkBin b k ((((itemsOf k b (contrib p srcs)).head?).bind (·.atLeast)).getD 0)
          (sumCounts (itemsOf k b (contrib p srcs)))]) := by
  obtain ⟨f, hf, _, _, hr⟩ := leaf_items hp dst srcs
  unfold binsAt
  rw [hr]
  rw [show itemsOf k b (reach p dst ++ rep f (contrib p srcs))
    = itemsOf k b (reach p dst) ++ itemsOf k b (rep f (contrib p srcs)) from by simp [itemsOf]]
  congr 1
  by_cases hc : contrib p srcs = []
  · simp [hc, itemsOf]
  · rw [rep_of_ne hc]
    simp only [itemsOf, List.flatMap_cons, List.flatMap_nil, List.append_nil]
    rw [hf, pBins_filter hk, pBin, firstItem_kind, sumNamed_kind]
    rfl

/-! ## Inputs without same-named siblings -/

theorem getLast?_toList_of_length_le_one {α : Type} {l : List α} (h : l.length ≤ 1) :
    l.getLast?.toList = l := by
  match l, h with
  | [], _ => rfl
  | [a], _ => rfl
  | _ :: _ :: _, h => simp at h

theorem filterMap_eq_flatMap {α β : Type} (f : α → Option β) (l : List α) :
    l.filterMap f = l.flatMap (fun a => (f a).toList) := by
  induction l with
  | nil => rfl
  | cons a t ih => cases h : f a <;> simp [h, ih]

theorem childrenAt_length_le {m : Nat} {s : Scope}
    (h : ((s.children.filter (fun c => maskHit c.stype m)).map (·.name)).Nodup) (n : String) :
    (childrenAt (m, n) s).length ≤ 1 := by
  rw [childrenAt_eq]
  unfold Scope.scopes
  generalize s.children.filter (fun c => maskHit c.stype m) = l at h
  induction l with
  | nil => simp
  | cons a t ih =>
    simp only [List.map_cons, List.nodup_cons, List.mem_map, not_exists, not_and] at h
    by_cases ha : a.name = n
    · have : t.filter (fun c => c.name = n) = [] := by
        rw [List.filter_eq_nil_iff]
        intro c hc
        simp only [decide_eq_true_eq]
        rw [← ha]
        exact h.1 c hc
      simp [ha, this]
    · simp only [List.filter_cons, ha, decide_false, Bool.false_eq_true, if_false]
      exact ih h.2

theorem subtrees_eq (s : Scope) : subtrees s = s :: subtreesL s.children := by
  cases s; rfl

theorem subtreesL_cons (s : Scope) (t : List Scope) :
    subtreesL (s :: t) = subtrees s ++ subtreesL t := rfl

theorem mem_subtrees_self (s : Scope) : s ∈ subtrees s := by
  rw [subtrees_eq]; simp

theorem mem_subtreesL {c x : Scope} {l : List Scope} (hc : c ∈ l) (hx : x ∈ subtrees c) :
    x ∈ subtreesL l := by
  induction l with
  | nil => cases hc
  | cons a t ih =>
    rw [subtreesL_cons]
    rcases List.mem_cons.1 hc with rfl | h
    · simp [hx]
    · simp [ih h]

theorem mem_subtrees_child {c x s : Scope} (hc : c ∈ s.children) (hx : x ∈ subtrees c) :
    x ∈ subtrees s := by
  rw [subtrees_eq]
  exact List.mem_cons_of_mem _ (mem_subtreesL hc hx)

theorem UniqueNames.child {c s : Scope} (h : UniqueNames s) (hc : c ∈ s.children) :
    UniqueNames c := fun x hx => h x (mem_subtrees_child hc hx)

/-- Types whose siblings are required to have unique names, plus crosses. -/
def Known (m : Nat) : Prop :=
  m = ST.CROSS ∨ m ∈ [ST.INSTANCE, ST.COVERGROUP, ST.COVERINSTANCE, ST.COVERPOINT]

theorem pick_of_unique {m : Nat} (hm : Known m) {l : List Scope} (h : ∀ s ∈ l, UniqueNames s)
    (n : String) : pick (m, n) l = l.flatMap (childrenAt (m, n)) := by
  unfold pick
  by_cases hc : m = ST.CROSS
  · simp [hc]
  · simp only [hc, if_false]
    rw [filterMap_eq_flatMap]
    have hm' := hm.resolve_left hc
    induction l with
    | nil => rfl
    | cons s t ih =>
      rw [List.flatMap_cons, List.flatMap_cons, ih (fun x hx => h x (by simp [hx]))]
      rw [getLast?_toList_of_length_le_one
        (childrenAt_length_le (h s (by simp) s (mem_subtrees_self s) m hm') n)]

theorem contrib_of_unique' {p : Addr} (hp : ∀ st ∈ p, Known st.1) {l : List Scope}
    (h : ∀ s ∈ l, UniqueNames s) : contrib p l = l.flatMap (reach p) := by
  induction p generalizing l with
  | nil =>
    show l = l.flatMap (fun s => [s])
    simp
  | cons st p ih =>
    obtain ⟨m, n⟩ := st
    show contrib p (pick (m, n) l) = _
    rw [pick_of_unique (hp (m, n) (by simp)) h]
    rw [ih (fun st hst => hp st (by simp [hst]))]
    · rw [List.flatMap_assoc]; rfl
    · intro c hc
      rw [List.mem_flatMap] at hc
      obtain ⟨s, hs, hc⟩ := hc
      exact UniqueNames.child (h s hs) (List.mem_of_mem_filter hc)

theorem known_group {p : Addr} (hp : GroupAddr p) : ∀ st ∈ p, Known st.1 := by
  cases hp <;> simp [Known]

theorem known_any {p : Addr} (hp : AnyAddr p) : ∀ st ∈ p, Known st.1 := by
  cases hp with
  | inst i => simp [Known]
  | group h => exact known_group h
  | leaf h => cases h with
    | cp h n =>
      intro st hst
      rcases List.mem_append.1 hst with h' | h'
      · exact known_group h st h'
      · simp at h'; subst h'; simp [Known]
    | cross h n =>
      intro st hst
      rcases List.mem_append.1 hst with h' | h'
      · exact known_group h st h'
      · simp at h'; subst h'; simp [Known]

theorem contrib_of_unique {p : Addr} (hp : AnyAddr p) {l : List Scope}
    (h : ∀ s ∈ l, UniqueNames s) : contrib p l = l.flatMap (reach p) :=
  contrib_of_unique' (known_any hp) h

theorem itemsOf_contrib_of_unique {p : Addr} (hp : AnyAddr p) {l : List Scope}
    (h : ∀ s ∈ l, UniqueNames s) (k : Nat) (b : String) :
    itemsOf k b (contrib p l) = l.flatMap (binsAt p k b) := by
  rw [contrib_of_unique hp h]
  simp only [itemsOf, List.flatMap_assoc]
  rfl

end Merge
end Verif
