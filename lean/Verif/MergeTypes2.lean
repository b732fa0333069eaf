import Verif.MergeTypes
/-!
# Properties C80 (type level) and C81 (figures)
-/

namespace Verif
open Merge Xml Spec Report

/-! ## Leaves of a merged database -/

theorem kindItem_ex {l : List Scope} {k : Nat} (hk : IsKind k) (hl : ∀ s ∈ l, ∀ i ∈ s.items, IsKind i.kind ∧ i.atLeast = some 1) {b : Item}
    (h : b ∈ pBinsOfKind (kindItems l k) k) :
    b.kind = k ∧ b.atLeast = some 1 ∧ ∃ s ∈ l, ∃ i ∈ s.items, i.name = b.name ∧ i.kind = k := by
  have hi : ∀ i ∈ kindItems l k, ∃ s ∈ l, i ∈ s.items ∧ i.kind = k := by
    intro i hi
    obtain ⟨s, hs, hi⟩ := List.mem_flatMap.1 hi
    obtain ⟨h1, h2⟩ := List.mem_filter.1 hi
    refine ⟨s, hs, h1, ?_⟩
    rcases (hl s hs i h1).1 with e | e | e <;> rcases hk with rfl | rfl | rfl <;> rw [e] at h2 ⊢ <;> first | rfl | (exact absurd h2 (by decide))
  unfold pBinsOfKind at h
  obtain ⟨n, hn, rfl⟩ := List.mem_map.1 h
  rw [mem_firstSeen] at hn
  obtain ⟨i, hi', rfl⟩ := List.mem_map.1 hn
  obtain ⟨s, hs, h1, h2⟩ := hi i hi'
  refine ⟨rfl, ?_, s, hs, i, h1, rfl, h2⟩
  have : ∃ j, firstItem i.name (kindItems l k) = some j ∧ j ∈ kindItems l k := by
    unfold firstItem
    cases hf : (kindItems l k).find? (fun j => j.name = i.name) with
    | none =>
      rw [List.find?_eq_none] at hf
      exact absurd (decide_eq_true rfl) (hf i hi')
    | some j => exact ⟨j, rfl, List.mem_of_find?_eq_some hf⟩
  obtain ⟨j, e, hj⟩ := this
  obtain ⟨s', hs', h3, _⟩ := hi j hj
  simp [pBin, mkBin, e, (hl s' hs' j h3).2]

theorem pBins_ex {l : List Scope} (hl : ∀ s ∈ l, ∀ i ∈ s.items, IsKind i.kind ∧ i.atLeast = some 1) {b : Item} (h : b ∈ pBins l) :
    IsKind b.kind ∧ b.atLeast = some 1 ∧ ∃ s ∈ l, ∃ i ∈ s.items, i.name = b.name ∧ i.kind = b.kind := by
  unfold pBins at h
  rw [List.mem_append, List.mem_append] at h
  rcases h with (h | h) | h
  · obtain ⟨e, h1, h2⟩ := kindItem_ex (.inl rfl) hl h
    exact ⟨.inl e, h1, by rw [e]; exact h2⟩
  · obtain ⟨e, h1, h2⟩ := kindItem_ex (.inr (.inl rfl)) hl h
    exact ⟨.inr (.inl e), h1, by rw [e]; exact h2⟩
  · obtain ⟨e, h1, h2⟩ := kindItem_ex (.inr (.inr rfl)) hl h
    exact ⟨.inr (.inr e), h1, by rw [e]; exact h2⟩

/-- Where the leaves of a list of groups come from. -/
theorem leaves_of {l : List Scope} {G : Scope} (h1 : kids ST.COVERPOINT G = pCoverpoints l) (h2 : kids ST.CROSS G = pCrosses l)
    {m : Nat} (hm : m ∈ [ST.COVERPOINT, ST.CROSS]) {x : Scope} (hx : x ∈ kids m G) :
    ∃ l' : List Scope, l' ≠ [] ∧ x.weight = headWeight l' ∧ x.items = pBins l' ∧ ∀ y ∈ l', ∃ c ∈ l, y ∈ kids m c ∧ y.name = x.name := by
  simp only [List.mem_cons, List.not_mem_nil, or_false] at hm
  rcases hm with rfl | rfl
  · rw [h1] at hx
    obtain ⟨n, hn, rfl⟩ := List.mem_map.1 hx
    rw [pCoverpoint_eq]
    obtain ⟨c, _, hc⟩ := head_pick hn
    exact ⟨_, List.ne_nil_of_mem hc, rfl, rfl, fun y hy => mem_pick hy⟩
  · rw [h2] at hx
    obtain ⟨n, hn, rfl⟩ := List.mem_map.1 hx
    rw [pCross_eq]
    obtain ⟨c, _, hc⟩ := head_pick hn
    exact ⟨_, List.ne_nil_of_mem hc, rfl, rfl, fun y hy => mem_pick hy⟩

/-- The kind function of an instance and covergroup. -/
def AllReadLike (K : String → String → String → String → Nat) (r : Scope) : Prop :=
  ∀ i ∈ kids ST.INSTANCE r, ∀ g ∈ kids ST.COVERGROUP i, ReadLike (K i.name g.name) g

theorem merged_leaf {K : String → String → String → String → Nat} {srcs : List Scope} (hs : ∀ s ∈ srcs, AllReadLike K s) {i g : Scope}
    (hi : i ∈ kids ST.INSTANCE (pMerge emptyDb srcs)) (hg : g ∈ kids ST.COVERGROUP i) :
    g.weight = 1 ∧ ∀ m ∈ [ST.COVERPOINT, ST.CROSS], ∀ c ∈ g :: kids ST.COVERINSTANCE g, ∀ x ∈ kids m c,
      (m = ST.COVERPOINT → x.weight = 1) ∧ ∀ b ∈ x.items, IsKind b.kind ∧ b.atLeast = some 1 ∧ b.kind = kindOf (K i.name g.name) m x.name b.name := by
  rw [kids_pMerge] at hi
  obtain ⟨n, hn, rfl⟩ := List.mem_map.1 hi
  rw [kids_mInst_cg] at hg
  obtain ⟨k, hk, rfl⟩ := List.mem_map.1 hg
  rw [pCovergroup_eq]
  have hl : ∀ c ∈ pick (ST.COVERGROUP, k) (pick (ST.INSTANCE, n) srcs), ReadLike (K n k) c := by
    intro c hc
    obtain ⟨a, ha, h1, rfl⟩ := mem_pick hc
    obtain ⟨s, hs', h2, rfl⟩ := mem_pick ha
    exact hs s hs' a h2 c h1
  have hnk : (mInst n (pick (ST.INSTANCE, n) srcs)).name = n ∧ (mCg k (pick (ST.COVERGROUP, k) (pick (ST.INSTANCE, n) srcs))).name = k := ⟨rfl, rfl⟩
  rw [hnk.1, hnk.2]
  obtain ⟨c0, hc0, hc0'⟩ := head_pick hk
  generalize pick (ST.COVERGROUP, k) (pick (ST.INSTANCE, n) srcs) = l at hl hc0 hc0'
  refine ⟨?_, fun m hm c hc x hx => ?_⟩
  · show headWeight l = 1
    unfold headWeight
    rw [hc0]
    exact (hl c0 hc0').weight
  · have hleaf : ∃ l' : List Scope, l' ≠ [] ∧ x.weight = headWeight l' ∧ x.items = pBins l' ∧ ∀ y ∈ l', ∃ g' ∈ l, ∃ c ∈ g' :: kids ST.COVERINSTANCE g',
        y ∈ kids m c ∧ y.name = x.name := by
      rcases List.mem_cons.1 hc with rfl | hc
      · obtain ⟨l', e0, e1, e2, e3⟩ := leaves_of (kids_mCg_cp k l) (kids_mCg_cross k l) hm hx
        refine ⟨l', e0, e1, e2, fun y hy => ?_⟩
        obtain ⟨c, hc, h⟩ := e3 y hy
        exact ⟨c, hc, c, List.mem_cons_self, h⟩
      · rw [kids_mCg_ci] at hc
        obtain ⟨q, hq, rfl⟩ := List.mem_map.1 hc
        rw [pCoverinst_eq] at hx
        obtain ⟨l', e0, e1, e2, e3⟩ := leaves_of (kids_mCi_cp q _) (kids_mCi_cross q _) hm hx
        refine ⟨l', e0, e1, e2, fun y hy => ?_⟩
        obtain ⟨c, hc, h⟩ := e3 y hy
        obtain ⟨g', hg', h1, _⟩ := mem_pick hc
        exact ⟨g', hg', c, List.mem_cons_of_mem _ h1, h⟩
    obtain ⟨l', e0, e1, e2, e3⟩ := hleaf
    constructor
    · intro em
      rw [e1]
      obtain ⟨y, t, rfl⟩ := List.exists_cons_of_ne_nil e0
      obtain ⟨g', hg', c, hc, h1, _⟩ := e3 y List.mem_cons_self
      exact ((hl g' hg').leaf m hm c hc y h1).1 em
    · intro b hb
      rw [e2] at hb
      have hall : ∀ s ∈ l', ∀ i ∈ s.items, IsKind i.kind ∧ i.atLeast = some 1 ∧ i.kind = kindOf (K n k) m x.name i.name := by
        intro y hy i hi
        obtain ⟨g', hg', c, hc, h1, h2⟩ := e3 y hy
        have := ((hl g' hg').leaf m hm c hc y h1).2 i hi
        rw [h2] at this
        exact this
      obtain ⟨h1, h2, s, hs, i, hi, h3, h4⟩ := pBins_ex (fun s hs i hi => ⟨(hall s hs i hi).1, (hall s hs i hi).2.1⟩) hb
      exact ⟨h1, h2, by rw [← h4, (hall s hs i hi).2.2, h3]⟩

/-! ## C80 at type level -/

theorem read_allLike {flt : FloatText} {doc : Elem} {db : Database} (h : Xml.read flt doc = .ok db)
    {K : String → String → String → String → Nat} (hK : KindsBy K db.root) : AllReadLike K db.root :=
  fun i hi g hg => read_like h hi hg _ (hK i hi g hg)

theorem AllReadLike.totals {K : String → String → String → String → Nat} {r : Scope} (h : AllReadLike K r) : TypeTotals r :=
  typeTotals_of_groups (fun i hi g hg => (h i hi g hg).totals)

theorem kindsBy_view {K : String → String → String → String → Nat} {r : Scope} (hr : Instanced r) :
    KindsBy K r ↔ ∀ i ∈ dbView cpView r, ∀ g ∈ i.2, ∀ c ∈ g.2, ∀ x ∈ c.2, ∀ b ∈ x.2, b.2.1 = K i.1 g.1 x.1 b.1 := by
  constructor
  · intro h i hi g hg c hc x hx b hb
    obtain ⟨i', hi', rfl⟩ := List.mem_map.1 hi
    obtain ⟨g', hg', rfl⟩ := List.mem_map.1 hg
    rw [written_insts (hr i' hi' g' hg')] at hc
    obtain ⟨c', hc', rfl⟩ := List.mem_map.1 hc
    obtain ⟨x', hx', rfl⟩ := List.mem_map.1 hx
    obtain ⟨b', hb', rfl⟩ := List.mem_map.1 hb
    exact h i' hi' g' hg' c' hc' x' hx' b' hb'
  · intro h i hi g hg c hc x hx b hb
    have e1 : (i.name, (kids ST.COVERGROUP i).map (fun g => (g.name, (writtenGroups g).map (fun c => (c.name, cpView c))))) ∈ dbView cpView r :=
      List.mem_map_of_mem hi
    refine h _ e1 (g.name, (writtenGroups g).map (fun c => (c.name, cpView c))) (List.mem_map.2 ⟨g, hg, rfl⟩) (c.name, cpView c) ?_
      (x.name, binTriples x) (List.mem_map.2 ⟨x, hx, rfl⟩) (b.name, b.kind, b.count) (List.mem_map.2 ⟨b, hb, rfl⟩)
    rw [written_insts (hr i hi g hg)]
    exact List.mem_map.2 ⟨c, hc, rfl⟩

/-- **C80** (type level). If the kind of a coverpoint bin does not differ between the inputs and their cover-instances, the counts of the
coverpoints and crosses of the covergroups themselves in the stored merge are also the sums over the inputs. -/
theorem C80_type_counts_through_files {env : Env} (he : GoodEnv env) {flt : FloatText} {srcs : List Database} {out db' : Database}
    (h : ∀ s ∈ srcs, ∃ doc, Xml.read flt doc = .ok s) (hu : ∀ s ∈ srcs, UniqueNames s.root)
    {K : String → String → String → String → Nat} (hK : ∀ s ∈ srcs, KindsBy K s.root)
    (hm : mergeDb ⟨emptyDb, [], []⟩ srcs = .ok out) (hr : throughFile env out = .ok db')
    {m : Nat} (hmm : m ∈ [ST.COVERPOINT, ST.CROSS]) (i g n : String) {k : Nat} (hk : IsKind k) (b : String) :
    total [(ST.INSTANCE, i), (ST.COVERGROUP, g), (m, n)] k b db'.root
      = (srcs.map (fun s => total [(ST.INSTANCE, i), (ST.COVERGROUP, g), (m, n)] k b s.root)).sum := by
  have hkm : k ∈ [CT.CVGBIN, CT.IGNOREBIN, CT.ILLEGALBIN] := by simpa [IsKind] using hk
  have hall : ∀ s ∈ srcs.map (·.root), AllReadLike K s := by
    intro s hs
    obtain ⟨d, hd, rfl⟩ := List.mem_map.1 hs
    obtain ⟨doc, hdoc⟩ := h d hd
    exact read_allLike hdoc (hK d hd)
  -- the re-read database has the same kinds
  have hr0 := hr
  have hKr : KindsBy K db'.root ∧ ∃ doc, Xml.read env.flt doc = .ok db' := by
    unfold mergeDb at hm
    cases hm' : merge emptyDb (srcs.map (·.root)) with
    | error e => rw [hm'] at hm; cases hm
    | ok r =>
      rw [hm'] at hm
      cases hm
      obtain ⟨_, hpm⟩ := Merge.merge_ok hm'
      have huniq : UniqueInsts r := (C03_merged_names_unique hm' r (mem_subtrees_self r)).1 ST.INSTANCE (by simp)
      have hin : Instanced r := by
        rw [hpm]
        refine merged_instanced (fun s hs => ?_)
        obtain ⟨d, hd, rfl⟩ := List.mem_map.1 hs
        obtain ⟨doc, hdoc⟩ := h d hd
        exact read_instanced hdoc
      have hKout : KindsBy K r := by
        rw [hpm]
        intro i hi g hg c hc x hx b hb
        have := ((merged_leaf hall hi hg).2 ST.COVERPOINT (by simp) c (List.mem_cons_of_mem _ hc) x hx).2 b (List.mem_filter.1 hb).1
        rw [this.2.2]
        simp [kindOf, ST.COVERPOINT, ST.CROSS]
      unfold throughFile at hr
      obtain ⟨doc, hw, hr⟩ := Ex.bind_ok.1 hr
      obtain ⟨_, hr⟩ := factoryRead_ok.1 hr
      refine ⟨?_, _, hr⟩
      rw [kindsBy_view (read_instanced hr), C31_coverpoint_round_trip he huniq hw hr, ← kindsBy_view hin]
      exact hKout
  obtain ⟨hKr, doc, hdoc⟩ := hKr
  rw [(read_allLike hdoc hKr).totals i g n b m hmm k hkm]
  let C := firstSeen ((db'.root :: srcs.map (·.root)).flatMap (instNames i g))
  have hC : C.Nodup := firstSeen_nodup _
  have hin : ∀ s ∈ db'.root :: srcs.map (·.root), ∀ c ∈ instNames i g s, c ∈ C := fun s hs c hc => mem_firstSeen.2 (List.mem_flatMap.2 ⟨s, hs, hc⟩)
  rw [leafInstTotal_eq hC (hin _ List.mem_cons_self)]
  have h1 : srcs.map (fun s => total [(ST.INSTANCE, i), (ST.COVERGROUP, g), (m, n)] k b s.root)
      = srcs.map (fun s => (C.map (fun c => total [(ST.INSTANCE, i), (ST.COVERGROUP, g), (ST.COVERINSTANCE, c), (m, n)] k b s.root)).sum) := by
    apply List.map_congr_left
    intro s hs
    have hs' : s.root ∈ srcs.map (·.root) := List.mem_map_of_mem hs
    rw [(hall _ hs').totals i g n b m hmm k hkm, leafInstTotal_eq hC (hin _ (List.mem_cons_of_mem _ hs'))]
  rw [h1, sum_swap]
  congr 1
  apply List.map_congr_left
  intro c _
  refine C80_counts_through_files he h hu hm hr0 (m := m) ?_ hk b
  simp only [List.mem_cons, List.not_mem_nil, or_false] at hmm
  rcases hmm with rfl | rfl
  · exact .cp i g c n
  · exact .cross i g c n

end Verif
