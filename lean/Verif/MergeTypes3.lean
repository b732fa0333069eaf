import Verif.MergeTypes2
/-!
# Property C81: figures of a stored merge
-/

namespace Verif
open Merge Xml Spec Report

/-! ## Bins at addresses -/

theorem mem_binsAt3 {r : Scope} {i g n b : String} {m k : Nat} {z : Item} :
    z ∈ binsAt [(ST.INSTANCE, i), (ST.COVERGROUP, g), (m, n)] k b r ↔
      ∃ i' ∈ kids ST.INSTANCE r, i'.name = i ∧ ∃ g' ∈ kids ST.COVERGROUP i', g'.name = g ∧ ∃ x ∈ kids m g', x.name = n ∧
        z ∈ x.items ∧ maskHit z.kind k = true ∧ z.name = b := by
  simp only [binsAt, itemsOf, reach, List.mem_flatMap, List.flatMap_singleton', mem_childrenAt, List.mem_filter, Bool.and_eq_true, decide_eq_true_eq]
  constructor
  · rintro ⟨x, ⟨i', ⟨h1, h2⟩, g', ⟨h3, h4⟩, h5, h6⟩, h7, h8, h9⟩
    exact ⟨i', h1, h2, g', h3, h4, x, h5, h6, h7, h8, h9⟩
  · rintro ⟨i', h1, h2, g', h3, h4, x, h5, h6, h7, h8, h9⟩
    exact ⟨x, ⟨i', ⟨h1, h2⟩, g', ⟨h3, h4⟩, h5, h6⟩, h7, h8, h9⟩

theorem mem_binsAt4 {r : Scope} {i g c n b : String} {m k : Nat} {z : Item} :
    z ∈ binsAt [(ST.INSTANCE, i), (ST.COVERGROUP, g), (ST.COVERINSTANCE, c), (m, n)] k b r ↔
      ∃ i' ∈ kids ST.INSTANCE r, i'.name = i ∧ ∃ g' ∈ kids ST.COVERGROUP i', g'.name = g ∧ ∃ c' ∈ kids ST.COVERINSTANCE g', c'.name = c ∧
        ∃ x ∈ kids m c', x.name = n ∧ z ∈ x.items ∧ maskHit z.kind k = true ∧ z.name = b := by
  simp only [binsAt, itemsOf, reach, List.mem_flatMap, List.flatMap_singleton', mem_childrenAt, List.mem_filter, Bool.and_eq_true, decide_eq_true_eq]
  constructor
  · rintro ⟨x, ⟨i', ⟨h1, h2⟩, g', ⟨h3, h4⟩, c', ⟨h10, h11⟩, h5, h6⟩, h7, h8, h9⟩
    exact ⟨i', h1, h2, g', h3, h4, c', h10, h11, x, h5, h6, h7, h8, h9⟩
  · rintro ⟨i', h1, h2, g', h3, h4, c', h10, h11, x, h5, h6, h7, h8, h9⟩
    exact ⟨x, ⟨i', ⟨h1, h2⟩, g', ⟨h3, h4⟩, c', ⟨h10, h11⟩, h5, h6⟩, h7, h8, h9⟩

theorem kind_of_hit {a k : Nat} (ha : IsKind a) (hk : IsKind k) (h : maskHit a k = true) : a = k := by
  rcases ha with rfl | rfl | rfl <;> rcases hk with rfl | rfl | rfl <;> first | rfl | (exact absurd h (by decide))

theorem hit_self {k : Nat} (hk : IsKind k) : maskHit k k = true := by rcases hk with rfl | rfl | rfl <;> decide

/-- In a read-like database a bin exists at type level iff it exists in a cover-instance. -/
theorem AllReadLike.exists_iff {K : String → String → String → String → Nat} {r : Scope} (h : AllReadLike K r) (i g n b : String) {m : Nat}
    (hm : m ∈ [ST.COVERPOINT, ST.CROSS]) {k : Nat} (hk : IsKind k) :
    binsAt [(ST.INSTANCE, i), (ST.COVERGROUP, g), (m, n)] k b r ≠ [] ↔
      ∃ c, binsAt [(ST.INSTANCE, i), (ST.COVERGROUP, g), (ST.COVERINSTANCE, c), (m, n)] k b r ≠ [] := by
  constructor
  · intro hne
    obtain ⟨z, hz⟩ := List.exists_mem_of_ne_nil _ hne
    obtain ⟨i', h1, h2, g', h3, h4, x, h5, h6, h7, h8, h9⟩ := mem_binsAt3.1 hz
    have hl := h i' h1 g' h3
    obtain ⟨y, hy, e⟩ := List.mem_map.1 (((hl.sums m hm).bins x h5 z.name).1 (List.mem_map_of_mem h7))
    obtain ⟨c, hc, x', hx', e', hy'⟩ := mem_instBins.1 hy
    have hyk := (hl.leaf m hm c (List.mem_cons_of_mem _ hc) x' hx').2 y (List.mem_filter.1 hy').1
    have hzk := (hl.leaf m hm g' List.mem_cons_self x h5).2 z h7
    have ek : z.kind = k := kind_of_hit hzk.1 hk h8
    refine ⟨c.name, List.ne_nil_of_mem (a := y) (mem_binsAt4.2 ⟨i', h1, h2, g', h3, h4, c, hc, rfl, x', hx', e'.trans h6, (List.mem_filter.1 hy').1, ?_,
      e.trans h9⟩)⟩
    rw [hyk.2.2, e', e, ← hzk.2.2, ek]
    exact hit_self hk
  · rintro ⟨c, hne⟩
    obtain ⟨z, hz⟩ := List.exists_mem_of_ne_nil _ hne
    obtain ⟨i', h1, h2, g', h3, h4, c', hc, _, x, h5, h6, h7, h8, h9⟩ := mem_binsAt4.1 hz
    have hl := h i' h1 g' h3
    have hzk := (hl.leaf m hm c' (List.mem_cons_of_mem _ hc) x h5).2 z h7
    obtain ⟨x', hx', e⟩ := List.mem_map.1 (((hl.sums m hm).names x.name).2 ⟨c', hc, x, h5, rfl⟩)
    have hzi : z ∈ instBins m g' x'.name := mem_instBins.2 ⟨c', hc, x, h5, e.symm, by
      rw [Xml.covBins_all (fun b hb => ((hl.leaf m hm c' (List.mem_cons_of_mem _ hc) x h5).2 b hb).1)]; exact h7⟩
    obtain ⟨y, hy, e'⟩ := List.mem_map.1 (((hl.sums m hm).bins x' hx' z.name).2 (List.mem_map_of_mem hzi))
    have hyk := (hl.leaf m hm g' List.mem_cons_self x' hx').2 y hy
    refine List.ne_nil_of_mem (a := y) (mem_binsAt3.2 ⟨i', h1, h2, g', h3, h4, x', hx', e.trans h6, hy, ?_, e'.trans h9⟩)
    rw [hyk.2.2, e', e, ← hzk.2.2, kind_of_hit hzk.1 hk h8]
    exact hit_self hk

theorem subtree_kids {m : Nat} {s c x : Scope} (hc : c ∈ kids m s) (hx : x ∈ subtrees c) : x ∈ subtrees s :=
  mem_subtrees_child (List.mem_filter.1 hc).1 hx

/-- **C81**, the essential step: covergroups of a merge of read databases can be stored without changing their figures. -/
theorem merged_representable {K : String → String → String → String → Nat} {srcs : List Scope} {out : Scope}
    (hl : ∀ s ∈ srcs, AllReadLike K s) (hu : ∀ s ∈ srcs, UniqueNames s) (hm : merge emptyDb srcs = .ok out) :
    ∀ g ∈ allCovergroups out, Representable g := by
  intro g hg
  obtain ⟨i, hi, hg⟩ := List.mem_flatMap.1 hg
  have hi : i ∈ kids ST.INSTANCE out := hi
  have hg : g ∈ kids ST.COVERGROUP i := hg
  obtain ⟨_, hpm⟩ := Merge.merge_ok hm
  have hleaf := merged_leaf (K := K) (srcs := srcs) hl (i := i) (g := g) (hpm ▸ hi) hg
  have huniq := C03_merged_names_unique hm
  have hin : kids ST.COVERINSTANCE g ≠ [] := by
    have : Instanced out := by
      rw [hpm]
      exact merged_instanced (fun s hs i hi g hg => (hl s hs i hi g hg).insts)
    exact this i hi g hg
  have hsi : i ∈ subtrees out := subtree_kids hi (mem_subtrees_self i)
  have hsg : g ∈ subtrees out := subtree_kids hi (subtree_kids hg (mem_subtrees_self g))
  have hni : ((kids ST.INSTANCE out).map (·.name)).Nodup := (huniq out (mem_subtrees_self out)).1 ST.INSTANCE (by simp)
  have hng : ((kids ST.COVERGROUP i).map (·.name)).Nodup := (huniq i hsi).1 ST.COVERGROUP (by simp)
  have h2 : reach [(ST.INSTANCE, i.name), (ST.COVERGROUP, g.name)] out = [g] := by
    simp only [reach, List.flatMap_singleton', childrenAt_kids, filter_named hni hi, List.flatMap_singleton, filter_named hng hg]
  -- totals and existence
  have htot : ∀ m ∈ [ST.COVERPOINT, ST.CROSS], ∀ n k b, IsKind k →
      total [(ST.INSTANCE, i.name), (ST.COVERGROUP, g.name), (m, n)] k b out = leafInstTotal i.name g.name m n k b out := by
    intro m hmm n k b hk
    have hkm : k ∈ [CT.CVGBIN, CT.IGNOREBIN, CT.ILLEGALBIN] := by simpa [IsKind] using hk
    have hleafA : LeafAddr [(ST.INSTANCE, i.name), (ST.COVERGROUP, g.name), (m, n)] := by
      simp only [List.mem_cons, List.not_mem_nil, or_false] at hmm
      rcases hmm with rfl | rfl
      · exact .cp (.cg _ _) n
      · exact .cross (.cg _ _) n
    rw [C01_merge_conserves_counts hu hm hleafA hk, leafInstTotal_merge hu hm _ _ hmm n hk]
    congr 1
    exact List.map_congr_left (fun s hs => (hl s hs).totals i.name g.name n b m hmm k hkm)
  have hex : ∀ m ∈ [ST.COVERPOINT, ST.CROSS], ∀ n k b, IsKind k →
      (binsAt [(ST.INSTANCE, i.name), (ST.COVERGROUP, g.name), (m, n)] k b out ≠ [] ↔
        ∃ c, binsAt [(ST.INSTANCE, i.name), (ST.COVERGROUP, g.name), (ST.COVERINSTANCE, c), (m, n)] k b out ≠ []) := by
    intro m hmm n k b hk
    have hA : LeafAddr [(ST.INSTANCE, i.name), (ST.COVERGROUP, g.name), (m, n)] ∧
        ∀ c, LeafAddr [(ST.INSTANCE, i.name), (ST.COVERGROUP, g.name), (ST.COVERINSTANCE, c), (m, n)] := by
      simp only [List.mem_cons, List.not_mem_nil, or_false] at hmm
      rcases hmm with rfl | rfl
      · exact ⟨.cp (.cg _ _) n, fun c => .cp (.ci _ _ c) n⟩
      · exact ⟨.cross (.cg _ _) n, fun c => .cross (.ci _ _ c) n⟩
    rw [C02_bin_exists_iff hu hm hA.1 hk]
    constructor
    · rintro ⟨s, hs, h⟩
      obtain ⟨c, hc⟩ := ((hl s hs).exists_iff i.name g.name n b hmm hk).1 h
      exact ⟨c, (C02_bin_exists_iff hu hm (hA.2 c) hk b).2 ⟨s, hs, hc⟩⟩
    · rintro ⟨c, hc⟩
      obtain ⟨s, hs, h⟩ := (C02_bin_exists_iff hu hm (hA.2 c) hk b).1 hc
      exact ⟨s, hs, ((hl s hs).exists_iff i.name g.name n b hmm hk).2 ⟨c, h⟩⟩
  have hscope : ∀ m ∈ [ST.COVERPOINT, ST.CROSS], ∀ n,
      (reach [(ST.INSTANCE, i.name), (ST.COVERGROUP, g.name), (m, n)] out ≠ [] ↔
        ∃ c, reach [(ST.INSTANCE, i.name), (ST.COVERGROUP, g.name), (ST.COVERINSTANCE, c), (m, n)] out ≠ []) := by
    intro m hmm n
    have hA : AnyAddr [(ST.INSTANCE, i.name), (ST.COVERGROUP, g.name), (m, n)] ∧
        ∀ c, AnyAddr [(ST.INSTANCE, i.name), (ST.COVERGROUP, g.name), (ST.COVERINSTANCE, c), (m, n)] := by
      simp only [List.mem_cons, List.not_mem_nil, or_false] at hmm
      rcases hmm with rfl | rfl
      · exact ⟨.leaf (.cp (.cg _ _) n), fun c => .leaf (.cp (.ci _ _ c) n)⟩
      · exact ⟨.leaf (.cross (.cg _ _) n), fun c => .leaf (.cross (.ci _ _ c) n)⟩
    have hs : ∀ s ∈ srcs, (reach [(ST.INSTANCE, i.name), (ST.COVERGROUP, g.name), (m, n)] s ≠ [] ↔
        ∃ c, reach [(ST.INSTANCE, i.name), (ST.COVERGROUP, g.name), (ST.COVERINSTANCE, c), (m, n)] s ≠ []) := by
      intro s hs
      constructor
      · intro h
        obtain ⟨x, hx⟩ := List.exists_mem_of_ne_nil _ h
        simp only [reach, List.mem_flatMap, List.flatMap_singleton', mem_childrenAt] at hx
        obtain ⟨i', ⟨h1, h2⟩, g', ⟨h3, h4⟩, h5, h6⟩ := hx
        obtain ⟨c, hc, y, hy, e⟩ := (((hl s hs i' h1 g' h3).sums m hmm).names x.name).1 (List.mem_map_of_mem h5)
        refine ⟨c.name, List.ne_nil_of_mem (a := y) ?_⟩
        simp only [reach, List.mem_flatMap, List.flatMap_singleton', mem_childrenAt]
        exact ⟨i', ⟨h1, h2⟩, g', ⟨h3, h4⟩, c, ⟨hc, rfl⟩, hy, e.trans h6⟩
      · rintro ⟨c, h⟩
        obtain ⟨x, hx⟩ := List.exists_mem_of_ne_nil _ h
        simp only [reach, List.mem_flatMap, List.flatMap_singleton', mem_childrenAt] at hx
        obtain ⟨i', ⟨h1, h2⟩, g', ⟨h3, h4⟩, c', ⟨h7, h8⟩, h5, h6⟩ := hx
        obtain ⟨y, hy, e⟩ := List.mem_map.1 ((((hl s hs i' h1 g' h3).sums m hmm).names x.name).2 ⟨c', h7, x, h5, rfl⟩)
        refine List.ne_nil_of_mem (a := y) ?_
        simp only [reach, List.mem_flatMap, List.flatMap_singleton', mem_childrenAt]
        exact ⟨i', ⟨h1, h2⟩, g', ⟨h3, h4⟩, hy, e.trans h6⟩
    rw [C02_scope_exists_iff hu hm hA.1]
    constructor
    · rintro ⟨s, hs', h⟩
      obtain ⟨c, hc⟩ := (hs s hs').1 h
      exact ⟨c, (C02_scope_exists_iff hu hm (hA.2 c)).2 ⟨s, hs', hc⟩⟩
    · rintro ⟨c, hc⟩
      obtain ⟨s, hs', h⟩ := (C02_scope_exists_iff hu hm (hA.2 c)).1 hc
      exact ⟨s, hs', (hs s hs').2 ⟨c, h⟩⟩
  have agg : ∀ m ∈ [ST.COVERPOINT, ST.CROSS], Aggregated m g := by
    intro m hmm
    have hnm : ((kids m g).map (·.name)).Nodup := (huniq g hsg).1 m (by
      simp only [List.mem_cons, List.not_mem_nil, or_false] at hmm
      rcases hmm with rfl | rfl <;> simp)
    have hcov : ∀ c ∈ g :: kids ST.COVERINSTANCE g, ∀ x ∈ kids m c, covBins x = x.items := fun c hc x hx =>
      Xml.covBins_all (fun b hb => ((hleaf.2 m hmm c hc x hx).2 b hb).1)
    have hnd : ∀ c ∈ kids m g, ((binTriples c).map (·.1)).Nodup := by
      intro c hc
      unfold binTriples
      rw [hcov g List.mem_cons_self c hc, List.map_map]
      have hsc : c ∈ subtrees out := subtree_kids hi (subtree_kids hg (subtree_kids hc (mem_subtrees_self c)))
      have hk := (huniq c hsc).2
      have hkinds := (hleaf.2 m hmm g List.mem_cons_self c hc).2
      -- equal names have equal kinds
      have hpw : c.items.Pairwise (fun a b => a.name ≠ b.name) := by
        rw [List.pairwise_iff_forall_sublist]
        intro a b hab e
        have ha : a ∈ c.items := hab.subset (by simp)
        have hb : b ∈ c.items := hab.subset (by simp)
        have ek : a.kind = b.kind := by rw [(hkinds a ha).2.2, (hkinds b hb).2.2, e]
        have hs := (hab.filter (fun i => maskHit i.kind a.kind)).map (·.name)
        have hfil : [a, b].filter (fun i => maskHit i.kind a.kind) = [a, b] := by
          have h1 := hit_self (hkinds a ha).1
          simp [h1, ← ek]
        rw [hfil] at hs
        have := (hk a.kind (hkinds a ha).1).sublist hs
        simp [e] at this
      exact List.pairwise_map.2 hpw
    have hwb : ∀ n b k, IsKind k → ((∃ z', (b, k, z') ∈ writtenBins m g n) ↔
        ∃ c, binsAt [(ST.INSTANCE, i.name), (ST.COVERGROUP, g.name), (ST.COVERINSTANCE, c), (m, n)] k b out ≠ []) := by
      intro n b k hk
      unfold writtenBins
      rw [written_insts hin]
      simp only [List.mem_flatMap, List.mem_filter, decide_eq_true_eq]
      constructor
      · rintro ⟨z', x, ⟨⟨c, hc, hx⟩, hn⟩, hb⟩
        obtain ⟨it, hit, e⟩ := List.mem_map.1 hb
        simp only [Prod.mk.injEq] at e
        refine ⟨c.name, List.ne_nil_of_mem (a := it) (mem_binsAt4.2 ⟨i, hi, rfl, g, hg, rfl, c, hc, rfl, x, hx, hn, (List.mem_filter.1 hit).1, ?_, e.1⟩)⟩
        rw [e.2.1]; exact hit_self hk
      · rintro ⟨c, hne⟩
        obtain ⟨z, hz⟩ := List.exists_mem_of_ne_nil _ hne
        obtain ⟨i', h1, e1, g', h3, e2, c', hc, _, x, h5, h6, h7, h8, h9⟩ := mem_binsAt4.1 hz
        have ei : i' = i := List.inj_on_of_nodup_map hni h1 hi e1
        subst ei
        have eg : g' = g := List.inj_on_of_nodup_map hng h3 hg e2
        subst eg
        have hzk := (hleaf.2 m hmm c' (List.mem_cons_of_mem _ hc) x h5).2 z h7
        refine ⟨z.count, x, ⟨⟨c', hc, h5⟩, h6⟩, List.mem_map.2 ⟨z, ?_, ?_⟩⟩
        · rw [hcov c' (List.mem_cons_of_mem _ hc) x h5]; exact h7
        · rw [kind_of_hit hzk.1 hk h8, h9]
    have hsum : ∀ n b k, IsKind k → k = kindOf (K i.name g.name) m n b →
        (((writtenBins m g n).filter (fun t => t.1 = b)).map (·.2.2)).sum = leafInstTotal i.name g.name m n k b out := by
      intro n b k hk ek
      unfold leafInstTotal
      rw [h2, List.flatMap_singleton]
      have l2 : ∀ s ∈ (kids ST.COVERINSTANCE g).flatMap (childrenAt (m, n)), ∀ i ∈ s.items, IsKind i.kind ∧ (i.name = b → i.kind = k) := by
        intro s hs j hj
        obtain ⟨c, hc, hs⟩ := List.mem_flatMap.1 hs
        obtain ⟨h1, h2⟩ := mem_childrenAt.1 hs
        have := (hleaf.2 m hmm c (List.mem_cons_of_mem _ hc) s h1).2 j hj
        exact ⟨this.1, fun e => by rw [this.2.2, h2, e, ek]⟩
      have e2 := (itemsOf_covBins hk b ((kids ST.COVERINSTANCE g).flatMap (childrenAt (m, n)))).resolve_right (by
        rintro ⟨s, hs, j, hj, hn⟩; exact hn (l2 s hs j hj).1)
      rw [e2, filter_kind (kk := k), if_pos rfl, instBins_eq]
      · unfold writtenBins instBins sumCounts binTriples
        rw [written_insts hin]
        simp only [List.filter_flatMap, List.map_flatMap, List.filter_map, List.map_map]
        rfl
      · intro j hj hb
        obtain ⟨s, hs, hj⟩ := List.mem_flatMap.1 hj
        exact (l2 s hs j (List.mem_filter.1 hj).1).2 hb
    have hone : ∀ c ∈ kids m g, ∀ it ∈ c.items,
        total [(ST.INSTANCE, i.name), (ST.COVERGROUP, g.name), (m, c.name)] it.kind it.name out = it.count := by
      intro c hc it hit
      have h3 : reach [(ST.INSTANCE, i.name), (ST.COVERGROUP, g.name), (m, c.name)] out = [c] := by
        have : reach [(ST.INSTANCE, i.name), (ST.COVERGROUP, g.name), (m, c.name)] out
            = (reach [(ST.INSTANCE, i.name), (ST.COVERGROUP, g.name)] out).flatMap (childrenAt (m, c.name)) := by
          simp only [reach, List.flatMap_singleton', List.flatMap_assoc]
        rw [this, h2, List.flatMap_singleton, childrenAt_kids, filter_named hnm hc]
      have hkinds := (hleaf.2 m hmm g List.mem_cons_self c hc).2
      have hnames : (c.items.map (·.name)).Nodup := by
        have := hnd c hc
        unfold binTriples at this
        rw [hcov g List.mem_cons_self c hc, List.map_map] at this
        exact this
      unfold total binsAt
      rw [h3]
      have e1 := (itemsOf_covBins (hkinds it hit).1 it.name [c]).resolve_right (by
        rintro ⟨s, hs, j, hj, hn⟩
        rw [List.mem_singleton] at hs
        subst hs
        exact hn (hkinds j hj).1)
      rw [e1, List.flatMap_singleton, hcov g List.mem_cons_self c hc, filter_kind (kk := it.kind), if_pos rfl, filter_item hnames hit]
      · simp [sumCounts]
      · intro j hj e
        rw [(hkinds j hj).2.2, (hkinds it hit).2.2, e]
    refine ⟨hnm, fun n => ?_, hnd, fun c hc n k z => ?_⟩
    · have := hscope m hmm n
      rw [written_insts hin]
      constructor
      · intro h
        obtain ⟨x, hx, e⟩ := List.mem_map.1 h
        have hne : reach [(ST.INSTANCE, i.name), (ST.COVERGROUP, g.name), (m, n)] out ≠ [] := by
          refine List.ne_nil_of_mem (a := x) ?_
          simp only [reach, List.mem_flatMap, List.flatMap_singleton', mem_childrenAt]
          exact ⟨i, ⟨hi, rfl⟩, g, ⟨hg, rfl⟩, hx, e⟩
        obtain ⟨c, hc⟩ := this.1 hne
        obtain ⟨y, hy⟩ := List.exists_mem_of_ne_nil _ hc
        simp only [reach, List.mem_flatMap, List.flatMap_singleton', mem_childrenAt] at hy
        obtain ⟨i', ⟨h1, e1⟩, g', ⟨h3, e2⟩, c', ⟨h7, _⟩, h5, h6⟩ := hy
        have ei : i' = i := List.inj_on_of_nodup_map hni h1 hi e1
        subst ei
        have eg : g' = g := List.inj_on_of_nodup_map hng h3 hg e2
        subst eg
        exact List.mem_map.2 ⟨y, List.mem_flatMap.2 ⟨c', h7, h5⟩, h6⟩
      · intro h
        obtain ⟨x, hx, e⟩ := List.mem_map.1 h
        obtain ⟨c, hc, hx⟩ := List.mem_flatMap.1 hx
        have hne : reach [(ST.INSTANCE, i.name), (ST.COVERGROUP, g.name), (ST.COVERINSTANCE, c.name), (m, n)] out ≠ [] := by
          refine List.ne_nil_of_mem (a := x) ?_
          simp only [reach, List.mem_flatMap, List.flatMap_singleton', mem_childrenAt]
          exact ⟨i, ⟨hi, rfl⟩, g, ⟨hg, rfl⟩, c, ⟨hc, rfl⟩, hx, e⟩
        obtain ⟨y, hy⟩ := List.exists_mem_of_ne_nil _ (this.2 ⟨_, hne⟩)
        simp only [reach, List.mem_flatMap, List.flatMap_singleton', mem_childrenAt] at hy
        obtain ⟨i', ⟨h1, e1⟩, g', ⟨h3, e2⟩, h5, h6⟩ := hy
        have ei : i' = i := List.inj_on_of_nodup_map hni h1 hi e1
        subst ei
        have eg : g' = g := List.inj_on_of_nodup_map hng h3 hg e2
        subst eg
        exact List.mem_map.2 ⟨y, h5, h6⟩
    · have hkinds := (hleaf.2 m hmm g List.mem_cons_self c hc).2
      have key : ∀ it ∈ c.items, (∃ z', (it.name, it.kind, z') ∈ writtenBins m g c.name) ∧
          it.count = (((writtenBins m g c.name).filter (fun t => t.1 = it.name)).map (·.2.2)).sum := by
        intro it hit
        have hk := hkinds it hit
        refine ⟨(hwb c.name it.name it.kind hk.1).2 ((hex m hmm c.name it.kind it.name hk.1).1 (List.ne_nil_of_mem (a := it)
          (mem_binsAt3.2 ⟨i, hi, rfl, g, hg, rfl, c, hc, rfl, hit, hit_self hk.1, rfl⟩))), ?_⟩
        rw [hsum c.name it.name it.kind hk.1 hk.2.2, ← htot m hmm c.name it.kind it.name hk.1, hone c hc it hit]
      constructor
      · intro h
        obtain ⟨it, hit, e⟩ := List.mem_map.1 h
        rw [hcov g List.mem_cons_self c hc] at hit
        simp only [Prod.mk.injEq] at e
        obtain ⟨rfl, rfl, rfl⟩ := e
        exact key it hit
      · rintro ⟨⟨z', hz'⟩, rfl⟩
        have hk : IsKind k := by
          unfold writtenBins at hz'
          rw [written_insts hin] at hz'
          obtain ⟨x, hx, hb⟩ := List.mem_flatMap.1 hz'
          obtain ⟨q, hq, hx⟩ := List.mem_flatMap.1 (List.mem_filter.1 hx).1
          obtain ⟨it, hit, e⟩ := List.mem_map.1 hb
          simp only [Prod.mk.injEq] at e
          rw [← e.2.1]
          exact ((hleaf.2 m hmm q (List.mem_cons_of_mem _ hq) x hx).2 it (List.mem_filter.1 hit).1).1
        have hne := (hex m hmm c.name k n hk).2 ((hwb c.name n k hk).1 ⟨z', hz'⟩)
        obtain ⟨it, hz⟩ := List.exists_mem_of_ne_nil _ hne
        obtain ⟨i', h1, e1, g', h3, e2, x, h5, h6, h7, h8, h9⟩ := mem_binsAt3.1 hz
        have ei : i' = i := List.inj_on_of_nodup_map hni h1 hi e1
        subst ei
        have eg : g' = g := List.inj_on_of_nodup_map hng h3 hg e2
        subst eg
        have ex : x = c := List.inj_on_of_nodup_map hnm h5 hc h6
        subst ex
        have e := key it h7
        rw [h9] at e
        rw [← e.2]
        refine List.mem_map.2 ⟨it, by rw [hcov g' List.mem_cons_self x hc]; exact h7, ?_⟩
        rw [h9, kind_of_hit (hkinds it h7).1 hk h8]
  refine ⟨hleaf.1, fun c hc x hx => ?_, fun c hc x hx => ?_, agg _ (by simp), agg _ (by simp)⟩
  · rw [written_insts hin] at hc
    have := hleaf.2 ST.COVERPOINT (by simp) c hc x hx
    exact ⟨this.1 rfl, unitLeaf_of_items (fun b hb => (this.2 b hb).2.1)⟩
  · rw [written_insts hin] at hc
    have := hleaf.2 ST.CROSS (by simp) c hc x hx
    refine ⟨unitLeaf_of_items (fun b hb => (this.2 b hb).2.1), fun b hb => ?_⟩
    rw [(this.2 b (List.mem_filter.1 hb).1).2.2]
    simp [kindOf]

/-- C81 for inputs from anywhere that have the shape of databases read from XML. -/
theorem merged_figures {env : Env} (he : GoodEnv env) {srcs : List Database} {out db' : Database} {r : Rpt}
    {K : String → String → String → String → Nat} (hl : ∀ s ∈ srcs, AllReadLike K s.root) (hu : ∀ s ∈ srcs, UniqueNames s.root)
    (hm : mergeDb ⟨emptyDb, [], []⟩ srcs = .ok out) (hr : throughFile env out = .ok db') (hb : build id out.root = .ok r) :
    ∃ r', build id db'.root = .ok r' ∧ r'.coverage = r.coverage ∧ List.Forall₂ SameFigures r.covergroups r'.covergroups := by
  have hall : ∀ s ∈ srcs.map (·.root), AllReadLike K s := by
    intro s hs
    obtain ⟨d, hd, rfl⟩ := List.mem_map.1 hs
    exact hl d hd
  have hu' : ∀ s ∈ srcs.map (·.root), UniqueNames s := by
    intro s hs
    obtain ⟨d, hd, rfl⟩ := List.mem_map.1 hs
    exact hu d hd
  unfold mergeDb at hm
  cases hm' : merge emptyDb (srcs.map (·.root)) with
  | error e => rw [hm'] at hm; cases hm
  | ok x =>
    rw [hm'] at hm
    cases hm
    unfold throughFile at hr
    obtain ⟨doc, hw, hr⟩ := Ex.bind_ok.1 hr
    obtain ⟨_, hr⟩ := factoryRead_ok.1 hr
    have huniq : UniqueInsts x := (C03_merged_names_unique hm' x (mem_subtrees_self x)).1 ST.INSTANCE (by simp)
    exact C36_figures_partial he (db := ⟨x, [], []⟩) huniq (merged_representable hall hu' hm') hw hr hb

/-- **C81, partial.** Missing: inputs in which the kind of a bin differs (the property is false there, `C81_kinds_refuted`).  Storing a merge does not change its figures: if the merged databases were read from XML, names are unique and the kind of a
coverpoint bin does not differ between the inputs and their cover-instances, then the report on the stored merge has the same
total and, for every covergroup, the same figures as the report on the merged database. -/
theorem C81_merged_figures_partial {env : Env} (he : GoodEnv env) {flt : FloatText} {srcs : List Database} {out db' : Database} {r : Rpt}
    (h : ∀ s ∈ srcs, ∃ doc, Xml.read flt doc = .ok s) (hu : ∀ s ∈ srcs, UniqueNames s.root)
    {K : String → String → String → String → Nat} (hK : ∀ s ∈ srcs, KindsBy K s.root)
    (hm : mergeDb ⟨emptyDb, [], []⟩ srcs = .ok out) (hr : throughFile env out = .ok db') (hb : build id out.root = .ok r) :
    ∃ r', build id db'.root = .ok r' ∧ r'.coverage = r.coverage ∧ List.Forall₂ SameFigures r.covergroups r'.covergroups :=
  merged_figures he (fun d hd => (h d hd).elim (fun _ hdoc => read_allLike hdoc (hK d hd))) hu hm hr hb

/-! ## Examples -/

/-- An input with one cover-instance, one coverpoint and one bin. -/
def exOneBin (c : String) (k : Nat) (z : Int) : Database where
  root := { emptyDb with children := [mkInstance "top" SrcInfo.none 1 none
    [mkCovergroup "cg" SrcInfo.none 1 [mkCoverInst c SrcInfo.none 1 [mkCoverpoint "a" SrcInfo.none 1 [mkBin "x" k 1 z]]]]] }
  hist := []
  files := []

/-- The two inputs as read from their files, merged, and the merge stored: all succeed, with the two report totals. -/
def exFigures (a b : Database) : Except Err (Rat × Rat) := do
  let a ← throughFile exEnv2 a
  let b ← throughFile exEnv2 b
  let o ← mergeDb ⟨emptyDb, [], []⟩ [a, b]
  let d ← throughFile exEnv2 o
  return ((← build id o.root).coverage, (← build id d.root).coverage)

theorem exFigures_ok {a b : Database} {p : Rat × Rat} (h : exFigures a b = .ok p) :
    ∃ a' b' o d r r', throughFile exEnv2 a = .ok a' ∧ throughFile exEnv2 b = .ok b' ∧ mergeDb ⟨emptyDb, [], []⟩ [a', b'] = .ok o ∧
      throughFile exEnv2 o = .ok d ∧ build id o.root = .ok r ∧ build id d.root = .ok r' ∧ p = (r.coverage, r'.coverage) := by
  unfold exFigures at h
  obtain ⟨a', h1, h⟩ := Ex.bind_ok.1 h
  obtain ⟨b', h2, h⟩ := Ex.bind_ok.1 h
  obtain ⟨o, h3, h⟩ := Ex.bind_ok.1 h
  obtain ⟨d, h4, h⟩ := Ex.bind_ok.1 h
  obtain ⟨r, h5, h⟩ := Ex.bind_ok.1 h
  obtain ⟨r', h6, h⟩ := Ex.bind_ok.1 h
  cases h
  exact ⟨a', b', o, d, r, r', h1, h2, h3, h4, h5, h6, rfl⟩

theorem read_of_file {a b : Database} (h : throughFile exEnv2 a = .ok b) : ∃ doc, Xml.read exEnv2.flt doc = .ok b := by
  unfold throughFile at h
  obtain ⟨doc, _, hr⟩ := Ex.bind_ok.1 h
  exact ⟨_, (factoryRead_ok.1 hr).2⟩

instance (r : Scope) (K : String → String → String → String → Nat) : Decidable (KindsBy K r) := by unfold KindsBy; infer_instance

/-- The hypotheses of C80 (type level) and C81 are met. -/
example : ∃ a b o d r, (∀ s ∈ [a, b], ∃ doc, Xml.read exEnv2.flt doc = .ok s) ∧ (∀ s ∈ [a, b], UniqueNames s.root) ∧
    (∀ s ∈ [a, b], KindsBy (fun _ _ _ _ => CT.CVGBIN) s.root) ∧ mergeDb ⟨emptyDb, [], []⟩ [a, b] = .ok o ∧
    throughFile exEnv2 o = .ok d ∧ build id o.root = .ok r ∧ r.coverage = 100 := by
  have h : exFigures (exOneBin "i1" CT.CVGBIN 0) (exOneBin "i2" CT.CVGBIN 2) = .ok (100, 100) := by decide +kernel
  obtain ⟨a, b, o, d, r, r', h1, h2, h3, h4, h5, _, e⟩ := exFigures_ok h
  have hp : ∀ c z x, c ∈ ["i1", "i2"] → z ∈ [(0 : Int), 2] → throughFile exEnv2 (exOneBin c CT.CVGBIN z) = .ok x →
      UniqueNames x.root ∧ KindsBy (fun _ _ _ _ => CT.CVGBIN) x.root := by
    intro c z x hc hz hx
    have hd : (throughFile exEnv2 (exOneBin c CT.CVGBIN z)).map (fun x =>
        decide (UniqueNames x.root ∧ KindsBy (fun _ _ _ _ => CT.CVGBIN) x.root)) = .ok true := by
      simp only [List.mem_cons, List.not_mem_nil, or_false] at hc hz
      rcases hc with rfl | rfl <;> rcases hz with rfl | rfl <;> decide +kernel
    rw [hx] at hd
    exact of_decide_eq_true (Except.ok.inj hd)
  refine ⟨a, b, o, d, r, ?_, ?_, ?_, h3, h4, h5, (Prod.ext_iff.1 e).1.symm⟩
  · intro s hs
    simp only [List.mem_cons, List.not_mem_nil, or_false] at hs
    rcases hs with rfl | rfl
    · exact read_of_file h1
    · exact read_of_file h2
  · intro s hs
    simp only [List.mem_cons, List.not_mem_nil, or_false] at hs
    rcases hs with rfl | rfl
    · exact (hp "i1" 0 _ (by simp) (by simp) h1).1
    · exact (hp "i2" 2 _ (by simp) (by simp) h2).1
  · intro s hs
    simp only [List.mem_cons, List.not_mem_nil, or_false] at hs
    rcases hs with rfl | rfl
    · exact (hp "i1" 0 _ (by simp) (by simp) h1).2
    · exact (hp "i2" 2 _ (by simp) (by simp) h2).2

/-- C81 fails if a bin is an ordinary bin in one input and an ignore bin in another: storing the merge turns a coverage
of 0 into 100. -/
theorem C81_kinds_refuted : ∃ a b o d : Database, ∃ r r' : Rpt, (∃ doc, Xml.read exEnv2.flt doc = .ok a) ∧ (∃ doc, Xml.read exEnv2.flt doc = .ok b) ∧
    UniqueNames a.root ∧ UniqueNames b.root ∧ mergeDb ⟨emptyDb, [], []⟩ [a, b] = .ok o ∧ throughFile exEnv2 o = .ok d ∧
    build id o.root = .ok r ∧ build id d.root = .ok r' ∧ r.coverage = 0 ∧ r'.coverage = 100 := by
  have h : exFigures (exOneBin "i1" CT.CVGBIN 0) (exOneBin "i2" CT.IGNOREBIN 1) = .ok (0, 100) := by decide +kernel
  obtain ⟨a, b, o, d, r, r', h1, h2, h3, h4, h5, h6, e⟩ := exFigures_ok h
  have hu : ∀ c k z x, throughFile exEnv2 (exOneBin c k z) = .ok x →
      (throughFile exEnv2 (exOneBin c k z)).map (fun x => decide (UniqueNames x.root)) = .ok true → UniqueNames x.root := by
    intro c k z x hx hd
    rw [hx] at hd
    exact of_decide_eq_true (Except.ok.inj hd)
  exact ⟨a, b, o, d, r, r', read_of_file h1, read_of_file h2, hu _ _ _ _ h1 (by decide +kernel), hu _ _ _ _ h2 (by decide +kernel), h3, h4, h5, h6,
    (Prod.ext_iff.1 e).1.symm, (Prod.ext_iff.1 e).2.symm⟩

/-- A covergroup with a coverpoint and without cover-instances. -/
def exFlat : Database where
  root := { emptyDb with children := [mkInstance "top" SrcInfo.none 1 (some Ex.du)
    [mkCovergroup "cg" SrcInfo.none 1 [mkCoverpoint "a" SrcInfo.none 1 [mkBin "y" CT.CVGBIN 1 5]]]] }
  hist := []
  files := []

/-- The same covergroup with a cover-instance. -/
def exInst : Database where
  root := { emptyDb with children := [mkInstance "top" SrcInfo.none 1 (some Ex.du)
    [mkCovergroup "cg" SrcInfo.none 1 [mkCoverInst "i1" SrcInfo.none 1 [mkCoverpoint "a" SrcInfo.none 1 [mkBin "x" CT.CVGBIN 1 2]]]]] }
  hist := []
  files := []

/-- C80 needs databases that were read from XML: merging a covergroup without cover-instances with one that has some keeps the counts
of the first in the merged database, and storing the merge loses them without an error. -/
theorem C80_flat_refuted : ∃ o d : Database, mergeDb ⟨emptyDb, [], []⟩ [exFlat, exInst] = .ok o ∧ throughFile exEnv2 o = .ok d ∧
    total [(ST.INSTANCE, "top"), (ST.COVERGROUP, "cg"), (ST.COVERPOINT, "a")] CT.CVGBIN "y" o.root = 5 ∧
    ∀ s ∈ subtrees d.root, ∀ i ∈ s.items, i.name ≠ "y" := by
  have h : (mergeDb ⟨emptyDb, [], []⟩ [exFlat, exInst]).bind (fun o => (throughFile exEnv2 o).map (fun (d : Database) =>
      decide (total [(ST.INSTANCE, "top"), (ST.COVERGROUP, "cg"), (ST.COVERPOINT, "a")] CT.CVGBIN "y" o.root = 5 ∧
        ∀ s ∈ subtrees d.root, ∀ i ∈ s.items, i.name ≠ "y"))) = .ok true := by decide +kernel
  cases hm : mergeDb ⟨emptyDb, [], []⟩ [exFlat, exInst] with
  | error e => rw [hm] at h; cases h
  | ok o =>
    rw [hm] at h
    cases hd : throughFile exEnv2 o with
    | error e => simp only [Except.bind, hd] at h; cases h
    | ok d =>
      simp only [Except.bind, hd] at h
      exact ⟨o, d, rfl, hd, of_decide_eq_true (Except.ok.inj h)⟩

end Verif
