import Verif.YamlThms2
import Verif.MergeTypes
/-!
# Merging a single database

Converting a file is a merge of one database (`cmd_convert.py:29-33`).  Such a merge does not change the report (C104).
-/

namespace Verif
open Merge

namespace Spec

/-- Nothing of the group is named twice: coverpoints, crosses, and the bins of one kind in each; the bins of crosses have the
default goal. -/
structure SoleGroup (c : Scope) : Prop where
  points : ((kids ST.COVERPOINT c).map (·.name)).Nodup
  crosses : ((kids ST.CROSS c).map (·.name)).Nodup
  bins : ∀ x ∈ kids ST.COVERPOINT c ++ kids ST.CROSS c, ∀ k, IsKind k → ((itemsOfKind k x).map (·.name)).Nodup
  goals : ∀ x ∈ kids ST.CROSS c, ∀ b ∈ itemsOfKind CT.CVGBIN x, b.goal = 1

/-- Nothing in the database is named twice, and cover-instances are not nested. -/
structure Sole (r : Scope) : Prop where
  insts : ((kids ST.INSTANCE r).map (·.name)).Nodup
  groups : ∀ i ∈ kids ST.INSTANCE r, ((kids ST.COVERGROUP i).map (·.name)).Nodup
  items : ∀ i ∈ kids ST.INSTANCE r, ∀ g ∈ kids ST.COVERGROUP i, SoleGroup g ∧ ((kids ST.COVERINSTANCE g).map (·.name)).Nodup ∧
    ∀ c ∈ kids ST.COVERINSTANCE g, SoleGroup c ∧ kids ST.COVERINSTANCE c = []

end Spec
open Spec

namespace Merge

theorem childNames_one {m : Nat} {p : Scope} (h : ((kids m p).map (·.name)).Nodup) : childNames m [p] = (kids m p).map (·.name) := by
  unfold childNames
  rw [List.flatMap_singleton]
  exact firstSeen_of_nodup h

theorem childrenAt_one {m : Nat} {p c : Scope} (h : ((kids m p).map (·.name)).Nodup) (hc : c ∈ kids m p) :
    childrenAt (m, c.name) p = [c] := by
  rw [childrenAt_kids]
  exact filter_named h hc

theorem pick_one {m : Nat} {p c : Scope} (h : ((kids m p).map (·.name)).Nodup) (hc : c ∈ kids m p) : pick (m, c.name) [p] = [c] := by
  unfold pick
  split <;> simp [childrenAt_one h hc]

theorem named_map {m : Nat} {p : Scope} (h : ((kids m p).map (·.name)).Nodup) {f : String → Scope} {f' : String → List Scope → Scope}
    (hf : ∀ n, f n = f' n (pick (m, n) [p])) : (childNames m [p]).map f = (kids m p).map (fun c => f' c.name [c]) := by
  rw [childNames_one h, List.map_map]
  apply List.map_congr_left
  intro c hc
  show f c.name = _
  rw [hf, pick_one h hc]

/-! ## Bins -/

theorem pBinsOfKind_one {l : List Item} (h : (l.map (·.name)).Nodup) (k : Nat) :
    pBinsOfKind l k = l.map (fun i => mkBin i.name k (i.atLeast.getD 0) i.count) := by
  unfold pBinsOfKind
  rw [firstSeen_of_nodup h, List.map_map]
  apply List.map_congr_left
  intro i hi
  have h1 : l.filter (fun c => c.name = i.name) = [i] := filter_item h hi
  have h2 : firstItem i.name l = some i := by
    unfold firstItem
    rw [← List.head?_filter, h1]
    rfl
  show pBin l k i.name = _
  unfold pBin
  rw [h2]
  unfold sumNamed
  rw [h1]
  simp

theorem itemsOfKind_one {c s : Scope} (hs : s.items = pBins [c]) {k : Nat} (hk : IsKind k) (h : ((itemsOfKind k c).map (·.name)).Nodup) :
    itemsOfKind k s = (itemsOfKind k c).map (fun i => mkBin i.name k (i.atLeast.getD 0) i.count) := by
  have h1 : itemsOfKind k s = pBinsOfKind (kindItems [c] k) k := coverItems_pBins hk s [c] hs
  have h2 : kindItems [c] k = itemsOfKind k c := by unfold kindItems; rw [List.flatMap_singleton]; rfl
  rw [h1, h2, pBinsOfKind_one h]

/-- Bins of the leaf have thresholds. -/
def LeafOk (c : Scope) : Prop := ∀ k, IsKind k → ∀ i ∈ itemsOfKind k c, i.atLeast ≠ none

theorem leafOk_one {c : Scope} (h : allBinsOk [c]) (hn : ∀ k, IsKind k → ((itemsOfKind k c).map (·.name)).Nodup) : LeafOk c := by
  intro k hk i hi
  have hb : binsOk (itemsOfKind k c) := by
    have e : ∀ k, kindItems [c] k = itemsOfKind k c := by intro k; unfold kindItems; rw [List.flatMap_singleton]; rfl
    obtain ⟨h1, h2, h3⟩ := h
    rw [e] at h1 h2 h3
    rcases hk with rfl | rfl | rfl
    · exact h1
    · exact h2
    · exact h3
  have h2 : firstItem i.name (itemsOfKind k c) = some i := by
    unfold firstItem
    rw [← List.head?_filter, filter_item (hn k hk) hi]
    rfl
  have := hb _ _ h2
  intro e
  rw [e] at this
  cases this

open Report in
theorem leafCov_one {c s : Scope} (hs : s.items = pBins [c]) (h : ((itemsOfKind CT.CVGBIN c).map (·.name)).Nodup) (ho : LeafOk c)
    (rd : Rat → Rat) : leafCov rd s = leafCov rd c := by
  have e := itemsOfKind_one hs (.inl rfl) h
  have h1 : numBins s = numBins c := by unfold numBins; rw [e, List.length_map]
  have h2 : numReached s = numReached c := by
    unfold numReached
    rw [e, List.countP_map]
    apply List.countP_congr
    intro i hi
    have hn := ho _ (.inl rfl) i hi
    simp only [Function.comp, decide_eq_true_eq]
    rw [Report.reached_iff hn, Report.reached_iff (by simp [mkBin])]
    rfl
  unfold leafCov
  rw [h1, h2]

theorem thrBins_one {c s : Scope} (hs : s.items = pBins [c]) {k : Nat} (hk : IsKind k) (h : ((itemsOfKind k c).map (·.name)).Nodup) :
    (itemsOfKind k s).map Report.thrBin = (itemsOfKind k c).map Report.thrBin := by
  rw [itemsOfKind_one hs hk h, List.map_map]
  rfl

theorem pCp_one {c : Scope} (h : ∀ k, IsKind k → ((itemsOfKind k c).map (·.name)).Nodup) (ho : LeafOk c) (rd : Rat → Rat) :
    Report.pCp rd (mCp c.name [c]) = Report.pCp rd c := by
  have hs : (mCp c.name [c]).items = pBins [c] := rfl
  unfold Report.pCp
  rw [leafCov_one hs (h _ (.inl rfl)) ho, thrBins_one hs (.inl rfl) (h _ (.inl rfl)), thrBins_one hs (.inr (.inl rfl)) (h _ (.inr (.inl rfl))),
    thrBins_one hs (.inr (.inr rfl)) (h _ (.inr (.inr rfl)))]
  rfl

theorem pCross_one {c : Scope} (h : ∀ k, IsKind k → ((itemsOfKind k c).map (·.name)).Nodup) (ho : LeafOk c)
    (hg : ∀ b ∈ itemsOfKind CT.CVGBIN c, b.goal = 1) (rd : Rat → Rat) :
    Report.pCross rd (mCross c.name [c]) = Report.pCross rd c := by
  have hs : (mCross c.name [c]).items = pBins [c] := rfl
  unfold Report.pCross
  rw [leafCov_one hs (h _ (.inl rfl)) ho, itemsOfKind_one hs (.inl rfl) (h _ (.inl rfl)), List.map_map]
  congr 1
  apply List.map_congr_left
  intro i hi
  simp [Report.goalBin, mkBin, hg i hi]

/-! ## Groups -/

/-- Leaves of the group have thresholds. -/
def GroupOk (c : Scope) : Prop := ∀ x ∈ kids ST.COVERPOINT c ++ kids ST.CROSS c, LeafOk x

theorem groupOk_one {c : Scope} (hs : SoleGroup c) (h : itemsOk [c]) : GroupOk c := by
  intro x hx
  rcases List.mem_append.1 hx with hx | hx
  · have hn : x.name ∈ childNames ST.COVERPOINT [c] := by rw [childNames_one hs.points]; exact List.mem_map_of_mem hx
    have := h.1 _ hn
    rw [named_eq_pick (by decide), pick_one hs.points hx] at this
    exact leafOk_one this (hs.bins x (List.mem_append_left _ hx))
  · have hn : x.name ∈ childNames ST.CROSS [c] := by rw [childNames_one hs.crosses]; exact List.mem_map_of_mem hx
    have := (h.2 _ hn).2
    rw [crossesNamed_eq_pick, pick_one hs.crosses hx] at this
    exact leafOk_one this (hs.bins x (List.mem_append_right _ hx))

theorem pCoverpoints_one {c : Scope} (hs : SoleGroup c) (ho : GroupOk c) (rd : Rat → Rat) :
    (pCoverpoints [c]).map (Report.pCp rd) = (kids ST.COVERPOINT c).map (Report.pCp rd) := by
  unfold pCoverpoints
  rw [named_map hs.points (f' := mCp) (pCoverpoint_eq [c]), List.map_map]
  apply List.map_congr_left
  intro x hx
  exact pCp_one (hs.bins x (List.mem_append_left _ hx)) (ho x (List.mem_append_left _ hx)) rd

theorem pCrosses_one {c : Scope} (hs : SoleGroup c) (ho : GroupOk c) (rd : Rat → Rat) :
    (pCrosses [c]).map (Report.pCross rd) = (kids ST.CROSS c).map (Report.pCross rd) := by
  unfold pCrosses
  rw [named_map hs.crosses (f' := mCross) (pCross_eq [c]), List.map_map]
  apply List.map_congr_left
  intro x hx
  exact pCross_one (hs.bins x (List.mem_append_right _ hx)) (ho x (List.mem_append_right _ hx)) (hs.goals x hx) rd

theorem kids_mCi_ci (n : String) (l : List Scope) : kids ST.COVERINSTANCE (mCi n l) = [] := by
  show (pCoverpoints l ++ pCrosses l).filter _ = _
  rw [List.filter_append, pCoverpoints, filter_map_miss (fun _ => hit_cp_ci), pCrosses, filter_map_miss (fun _ => hit_cross_ci),
    List.append_nil]

theorem pCg_inst_one {c : Scope} (hs : SoleGroup c) (ho : GroupOk c) (hf : kids ST.COVERINSTANCE c = []) (rd : Rat → Rat) :
    Report.pCg rd (mCi c.name [c]) = Report.pCg rd c := by
  rw [Report.pCg_eq, Report.pCg_eq]
  unfold Report.groupCov
  rw [kids_mCi_cp, kids_mCi_cross, kids_mCi_ci, hf, pCoverpoints_one hs ho, pCrosses_one hs ho]
  rfl

/-- A covergroup that can be merged. -/
def CgOk (g : Scope) : Prop := ∀ c ∈ g :: kids ST.COVERINSTANCE g, GroupOk c

theorem cgOk_one {g : Scope} (hs : SoleGroup g) (hn : ((kids ST.COVERINSTANCE g).map (·.name)).Nodup)
    (hi : ∀ c ∈ kids ST.COVERINSTANCE g, SoleGroup c) (h : covergroupOk [g]) : CgOk g := by
  intro c hc
  rcases List.mem_cons.1 hc with rfl | hc
  · exact groupOk_one hs h.1
  · have hm : c.name ∈ childNames ST.COVERINSTANCE [g] := by rw [childNames_one hn]; exact List.mem_map_of_mem hc
    have := h.2 _ hm
    rw [named_eq_pick (by decide), pick_one hn hc] at this
    exact groupOk_one (hi c hc) this

theorem pCg_one {g : Scope} (hs : SoleGroup g) (hn : ((kids ST.COVERINSTANCE g).map (·.name)).Nodup)
    (hi : ∀ c ∈ kids ST.COVERINSTANCE g, SoleGroup c ∧ kids ST.COVERINSTANCE c = []) (ho : CgOk g) (rd : Rat → Rat) :
    Report.pCg rd (mCg g.name [g]) = Report.pCg rd g ∧ Report.groupCov rd (mCg g.name [g]) = Report.groupCov rd g := by
  have hc : Report.groupCov rd (mCg g.name [g]) = Report.groupCov rd g := by
    unfold Report.groupCov
    rw [kids_mCg_cp, kids_mCg_cross, pCoverpoints_one hs (ho g (by simp)), pCrosses_one hs (ho g (by simp))]
  refine ⟨?_, hc⟩
  rw [Report.pCg_eq, Report.pCg_eq, hc, kids_mCg_cp, kids_mCg_cross, kids_mCg_ci, pCoverpoints_one hs (ho g (by simp)),
    pCrosses_one hs (ho g (by simp))]
  have : (pCoverinsts [g]).map (Report.pCg rd) = (kids ST.COVERINSTANCE g).map (Report.pCg rd) := by
    unfold pCoverinsts
    rw [named_map hn (f' := mCi) (pCoverinst_eq [g]), List.map_map]
    apply List.map_congr_left
    intro x hx
    exact pCg_inst_one (hi x hx).1 (ho x (List.mem_cons_of_mem _ hx)) (hi x hx).2 rd
  rw [this]
  rfl

/-! ## Whole databases -/

theorem groupForest_flat {l : List Scope} (h : ∀ c ∈ l, maskHit c.stype ST.COVERINSTANCE = true → kids ST.COVERINSTANCE c = []) :
    groupForest l = l.filter (fun c => maskHit c.stype ST.COVERINSTANCE) := by
  induction l with
  | nil => simp [groupForest]
  | cons a t ih =>
    rw [groupForest, ih (fun c hc => h c (by simp [hc])), List.filter_cons]
    split
    · rename_i ha
      have hk := h a (by simp) ha
      have : groupForest a.children = [] := by
        apply Yaml.groupForest_none
        intro s hs
        cases he : maskHit s.stype ST.COVERINSTANCE with
        | false => rfl
        | true =>
          have : s ∈ kids ST.COVERINSTANCE a := List.mem_filter.2 ⟨hs, he⟩
          rw [hk] at this
          cases this
      rw [Yaml.groupTree_eq, this]
      rfl
    · rfl

theorem groupTree_flat {g : Scope} (h : ∀ c ∈ kids ST.COVERINSTANCE g, kids ST.COVERINSTANCE c = []) :
    groupTree g = g :: kids ST.COVERINSTANCE g := by
  rw [Yaml.groupTree_eq, groupForest_flat (fun c hc hm => h c (List.mem_filter.2 ⟨hc, hm⟩))]
  rfl

theorem hereOk_of {c : Scope} (h : GroupOk c) : Report.HereOk c := by
  refine ⟨fun x hx k hk i hi => ?_, fun x hx i hi => h x (List.mem_append_right _ hx) _ (.inl rfl) i hi⟩
  refine h x (List.mem_append_left _ hx) k ?_ i hi
  simpa [IsKind] using hk

theorem groupOk_merged {s : Scope} (h : ∀ x ∈ kids ST.COVERPOINT s ++ kids ST.CROSS s, ∃ l, x.items = pBins l) : GroupOk s := by
  intro x hx k hk i hi
  obtain ⟨l, e⟩ := h x hx
  have : i ∈ pBins l := e ▸ (List.mem_filter.1 hi).1
  exact (mem_pBins this).2.1

theorem hereOk_merged (g : Scope) : ∀ c ∈ groupTree (mCg g.name [g]), Report.HereOk c := by
  have hci : ∀ c ∈ kids ST.COVERINSTANCE (mCg g.name [g]), ∃ n l, c = mCi n l := by
    intro c hc
    rw [kids_mCg_ci] at hc
    obtain ⟨n, _, rfl⟩ := List.mem_map.1 hc
    exact ⟨n, _, pCoverinst_eq _ _⟩
  rw [groupTree_flat (fun c hc => by obtain ⟨n, l, rfl⟩ := hci c hc; exact kids_mCi_ci n l)]
  have hl : ∀ l : List Scope, ∀ x ∈ pCoverpoints l ++ pCrosses l, ∃ l, x.items = pBins l := by
    intro l x hx
    rcases List.mem_append.1 hx with hx | hx
    · obtain ⟨n, _, rfl⟩ := List.mem_map.1 hx; exact ⟨_, rfl⟩
    · obtain ⟨n, _, rfl⟩ := List.mem_map.1 hx; exact ⟨_, rfl⟩
  intro c hc
  rcases List.mem_cons.1 hc with rfl | hc
  · apply hereOk_of
    apply groupOk_merged
    rw [kids_mCg_cp, kids_mCg_cross]
    exact hl _
  · obtain ⟨n, l, rfl⟩ := hci c hc
    apply hereOk_of
    apply groupOk_merged
    rw [kids_mCi_cp, kids_mCi_cross]
    exact hl _

theorem foldl_congr_map {α β γ : Type} (l : List α) (f : α → β) (g : γ → α → γ) (g' : γ → β → γ) (h : ∀ a ∈ l, ∀ c, g c a = g' c (f a)) (c : γ) :
    (l.map f).foldl g' c = l.foldl g c := by
  induction l generalizing c with
  | nil => rfl
  | cons a t ih =>
    rw [List.map_cons, List.foldl_cons, List.foldl_cons, ih (fun x hx => h x (by simp [hx])), h a (by simp)]

/-- **C104.** Merging a single database in which nothing is named twice does not change the report: there is a report on the merged
database exactly if there is one on the database itself, and it is the same. -/
theorem C104_single_report {r out : Scope} (hs : Sole r) (hm : merge emptyDb [r] = .ok out) (rd : Rat → Rat) (rpt : Report.Rpt) :
    Report.build rd out = .ok rpt ↔ Report.build rd r = .ok rpt := by
  obtain ⟨hok, rfl⟩ := merge_ok hm
  have hk : kids ST.INSTANCE (pMerge emptyDb [r]) = (kids ST.INSTANCE r).map (fun i => mInst i.name [i]) := by
    rw [kids_pMerge, childNames_one hs.insts, List.map_map]
    apply List.map_congr_left
    intro i hi
    show mInst i.name (pick (ST.INSTANCE, i.name) [r]) = _
    rw [pick_one hs.insts hi]
  have hcg : ∀ i ∈ kids ST.INSTANCE r, kids ST.COVERGROUP (mInst i.name [i]) = (kids ST.COVERGROUP i).map (fun g => mCg g.name [g]) := by
    intro i hi
    rw [kids_mInst_cg]
    exact named_map (hs.groups i hi) (f' := mCg) (pCovergroup_eq [i])
  have hgo : ∀ i ∈ kids ST.INSTANCE r, ∀ g ∈ kids ST.COVERGROUP i, CgOk g := by
    intro i hi g hg
    have h1 := hok i.name (by rw [childNames_one hs.insts]; exact List.mem_map_of_mem hi)
    rw [named_eq_pick (by decide), pick_one hs.insts hi] at h1
    have h2 := h1.2 g.name (by rw [childNames_one (hs.groups i hi)]; exact List.mem_map_of_mem hg)
    rw [named_eq_pick (by decide), pick_one (hs.groups i hi) hg] at h2
    obtain ⟨a, b, f⟩ := hs.items i hi g hg
    exact cgOk_one a b (fun c hc => (f c hc).1) h2
  have hp : ∀ i ∈ kids ST.INSTANCE r, ∀ g ∈ kids ST.COVERGROUP i,
      Report.pCg rd (mCg g.name [g]) = Report.pCg rd g ∧ Report.groupCov rd (mCg g.name [g]) = Report.groupCov rd g := by
    intro i hi g hg
    obtain ⟨a, b, c⟩ := hs.items i hi g hg
    exact pCg_one a b c (hgo i hi g hg) rd
  have hw : ∀ i ∈ kids ST.INSTANCE r, weightSum (kids ST.COVERGROUP (mInst i.name [i])) = weightSum (kids ST.COVERGROUP i) := by
    intro i hi
    unfold weightSum
    rw [hcg i hi, List.map_map]
    rfl
  have hcov : ∀ i ∈ kids ST.INSTANCE r, Report.instCov rd (mInst i.name [i]) = Report.instCov rd i := by
    intro i hi
    unfold Report.instCov Report.accOf
    rw [hw i hi, hcg i hi, List.map_map]
    rw [List.map_congr_left (g := fun s => (Report.groupCov rd s, s.weight)) (fun g hg => by
      show (Report.groupCov rd (mCg g.name [g]), _) = _
      rw [(hp i hi g hg).2]
      rfl)]
  rw [Report.build_ok, Report.build_ok]
  have hall : allCovergroups (pMerge emptyDb [r]) = (allCovergroups r).map (fun g => mCg g.name [g]) := by
    unfold allCovergroups
    rw [hk, List.flatMap_map, List.map_flatMap]
    exact List.flatMap_congr hcg
  have hrpt : Report.pRpt rd (pMerge emptyDb [r]) = Report.pRpt rd r := by
    have hp' : ∀ g ∈ allCovergroups r, Report.pCg rd (mCg g.name [g]) = Report.pCg rd g := by
      intro g hg
      obtain ⟨i, hi, hg⟩ := List.mem_flatMap.1 hg
      exact (hp i hi g hg).1
    unfold Report.pRpt
    rw [hall, hk, List.map_map]
    congr 1
    · exact List.map_congr_left hp'
    · exact foldl_congr_map _ _ _ _ (fun g hg m => by rw [hp' g hg]; rfl) _
    · rw [List.getLast?_map, Option.map_map]
      cases hl : (kids ST.INSTANCE r).getLast? with
      | none => rfl
      | some i => exact hcov i (List.mem_of_getLast? hl)
  rw [hrpt]
  refine and_congr ?_ Iff.rfl
  rw [hk]
  constructor
  · intro h i hi
    refine ⟨fun g hg c hc => ?_, ?_⟩
    · obtain ⟨_, _, hf⟩ := hs.items i hi g hg
      rw [groupTree_flat (fun c hc => (hf c hc).2)] at hc
      exact hereOk_of (hgo i hi g hg c hc)
    · rw [← hw i hi]
      exact (h _ (List.mem_map_of_mem hi)).2
  · intro h x hx
    obtain ⟨i, hi, rfl⟩ := List.mem_map.1 hx
    refine ⟨fun g hg => ?_, ?_⟩
    · rw [hcg i hi] at hg
      obtain ⟨y, _, rfl⟩ := List.mem_map.1 hg
      exact hereOk_merged y
    · rw [hw i hi]
      exact (h i hi).2

/-- A coverpoint with a bin of this count beside a hit bin, under the given names. -/
def exTwo (a b : String) : Scope :=
  { emptyDb with children := [mkInstance "top" SrcInfo.none 1 (some ⟨"du", SrcInfo.none, 1⟩) [mkCovergroup "cg" SrcInfo.none 1
    [mkCoverpoint "a" SrcInfo.none 1 [mkBin a CT.CVGBIN 1 0, mkBin b CT.CVGBIN 1 2, mkBin b CT.IGNOREBIN 1 7],
      mkCross "aa" SrcInfo.none 3 ["a"] [mkBin "q" CT.CVGBIN 2 1],
      mkCoverInst "i1" SrcInfo.none 2 [mkCoverpoint "a" SrcInfo.none 1 [mkBin a CT.CVGBIN 2 3, mkBin b CT.CVGBIN 2 2]]]]] }

theorem soleGroup_iff (c : Scope) : SoleGroup c ↔ ((kids ST.COVERPOINT c).map (·.name)).Nodup ∧ ((kids ST.CROSS c).map (·.name)).Nodup ∧
    (∀ x ∈ kids ST.COVERPOINT c ++ kids ST.CROSS c, ∀ k ∈ [CT.CVGBIN, CT.IGNOREBIN, CT.ILLEGALBIN], ((itemsOfKind k x).map (·.name)).Nodup) ∧
    (∀ x ∈ kids ST.CROSS c, ∀ b ∈ itemsOfKind CT.CVGBIN x, b.goal = 1) := by
  have e : ∀ k, IsKind k ↔ k ∈ [CT.CVGBIN, CT.IGNOREBIN, CT.ILLEGALBIN] := by intro k; simp [IsKind]
  constructor
  · rintro ⟨h1, h2, h3, h4⟩
    exact ⟨h1, h2, fun x hx k hk => h3 x hx k ((e k).2 hk), h4⟩
  · rintro ⟨h1, h2, h3, h4⟩
    exact ⟨h1, h2, fun x hx k hk => h3 x hx k ((e k).1 hk), h4⟩

instance (c : Scope) : Decidable (SoleGroup c) := decidable_of_iff _ (soleGroup_iff c).symm

instance (r : Scope) : Decidable (Sole r) :=
  decidable_of_iff (((kids ST.INSTANCE r).map (·.name)).Nodup ∧ (∀ i ∈ kids ST.INSTANCE r, ((kids ST.COVERGROUP i).map (·.name)).Nodup) ∧
    (∀ i ∈ kids ST.INSTANCE r, ∀ g ∈ kids ST.COVERGROUP i, SoleGroup g ∧ ((kids ST.COVERINSTANCE g).map (·.name)).Nodup ∧
    ∀ c ∈ kids ST.COVERINSTANCE g, SoleGroup c ∧ kids ST.COVERINSTANCE c = []))
    ⟨fun h => ⟨h.1, h.2.1, h.2.2⟩, fun h => ⟨h.insts, h.groups, h.items⟩⟩

theorem sole_exTwo : Sole (exTwo "x" "y") := by decide +kernel

/-- The hypotheses of C104 are met by a database with a reported coverage strictly between 0 and 100. -/
example : Sole (exTwo "x" "y") ∧ ∃ out rpt, merge emptyDb [exTwo "x" "y"] = .ok out ∧ Report.build id (exTwo "x" "y") = .ok rpt ∧
    0 < rpt.coverage ∧ rpt.coverage < 100 := by
  refine ⟨sole_exTwo, ?_⟩
  have h : ((merge emptyDb [exTwo "x" "y"]).bind (fun _ => (Report.build id (exTwo "x" "y")).map (fun r =>
    decide (0 < r.coverage ∧ r.coverage < 100)))) = .ok true := by decide +kernel
  cases h1 : merge emptyDb [exTwo "x" "y"] with
  | error e => rw [h1] at h; cases h
  | ok out =>
    cases h2 : Report.build id (exTwo "x" "y") with
    | error e => rw [h1, h2] at h; cases h
    | ok r =>
      rw [h1, h2] at h
      have := of_decide_eq_true (Except.ok.inj h)
      exact ⟨out, r, rfl, rfl, this⟩

/-- C104 fails if two bins of a coverpoint have the same name: the merge adds them up, and the reported coverage changes. -/
theorem C104_duplicates_refuted : ∃ out r r', merge emptyDb [exTwo "x" "x"] = .ok out ∧ Report.build id (exTwo "x" "x") = .ok r ∧
    Report.build id out = .ok r' ∧ r.coverage = 25 ∧ r'.coverage = 50 := by
  have h : ((merge emptyDb [exTwo "x" "x"]).bind (fun o => (Report.build id (exTwo "x" "x")).bind (fun r => (Report.build id o).map (fun r' =>
    decide (r.coverage = 25 ∧ r'.coverage = 50))))) = .ok true := by decide +kernel
  cases h1 : merge emptyDb [exTwo "x" "x"] with
  | error e => rw [h1] at h; cases h
  | ok out =>
    cases h2 : Report.build id (exTwo "x" "x") with
    | error e => rw [h1, h2] at h; cases h
    | ok r =>
      cases h3 : Report.build id out with
      | error e =>
        rw [h1, h2] at h
        change (Report.build id out).map _ = _ at h
        rw [h3] at h; cases h
      | ok r' =>
        rw [h1, h2] at h
        change (Report.build id out).map _ = _ at h
        rw [h3] at h
        have := of_decide_eq_true (Except.ok.inj h)
        exact ⟨out, r, r', rfl, rfl, h3, this⟩

/-- A cross whose only bin has been hit once and has the goal 2 (given with `createNextCover`). -/
def exGoal : Scope :=
  { emptyDb with children := [mkInstance "top" SrcInfo.none 1 (some ⟨"du", SrcInfo.none, 1⟩) [mkCovergroup "cg" SrcInfo.none 1
    [mkCoverpoint "a" SrcInfo.none 1 [mkBin "x" CT.CVGBIN 1 1],
      mkCross "aa" SrcInfo.none 1 ["a"] [{ mkBin "q" CT.CVGBIN 1 1 with goal := 2 }]]]] }

/-- The bins of crosses of covergroups, as the report lists them: name and whether hit. -/
def listedCrossBins (r : Report.Rpt) : List (String × Bool) :=
  (r.covergroups.flatMap (·.crosses)).flatMap (fun c => c.bins.map (fun b => (b.name, b.hit)))

/-- C104 fails for cross bins with a goal: it is lost in the merge, and a bin listed as missed is listed as hit afterwards. -/
theorem C104_goal_refuted : ∃ out r r', merge emptyDb [exGoal] = .ok out ∧ Report.build id exGoal = .ok r ∧
    Report.build id out = .ok r' ∧ listedCrossBins r = [("q", false)] ∧ listedCrossBins r' = [("q", true)] := by
  have h : (do
    let o ← merge emptyDb [exGoal]
    let r ← Report.build id exGoal
    let r' ← Report.build id o
    return decide (listedCrossBins r = [("q", false)] ∧ listedCrossBins r' = [("q", true)]) : Except Err Bool) = .ok true := by decide +kernel
  obtain ⟨o, h1, h⟩ := Ex.bind_ok.1 h
  obtain ⟨r, h2, h⟩ := Ex.bind_ok.1 h
  obtain ⟨r', h3, h⟩ := Ex.bind_ok.1 h
  exact ⟨o, r, r', h1, h2, h3, of_decide_eq_true (Except.ok.inj h)⟩

end Merge
end Verif
