import Verif.MergeXmlThms
import Verif.MergeThms2
/-!
# Type-level counts under merging and storing: lemmas for C80 and C81
-/

namespace Verif
open Merge Xml Spec

namespace Spec

/-- The count of a bin over all cover-instances of the covergroups `g` of the instances `i`. -/
def leafInstTotal (i g : String) (m : Nat) (n : String) (k : Nat) (b : String) (r : Scope) : Int :=
  sumCounts (itemsOf k b (((reach [(ST.INSTANCE, i), (ST.COVERGROUP, g)] r).flatMap (kids ST.COVERINSTANCE)).flatMap (childrenAt (m, n))))

/-- The coverpoints and crosses of every covergroup carry the sums over its cover-instances, for each kind of bin. -/
def TypeTotals (r : Scope) : Prop :=
  ∀ i g n b, ∀ m ∈ [ST.COVERPOINT, ST.CROSS], ∀ k ∈ [CT.CVGBIN, CT.IGNOREBIN, CT.ILLEGALBIN],
    total [(ST.INSTANCE, i), (ST.COVERGROUP, g), (m, n)] k b r = leafInstTotal i g m n k b r

/-- In all cover-instances, the kind of a coverpoint bin depends on instance, covergroup, coverpoint and bin name only. -/
def KindsBy (K : String → String → String → String → Nat) (r : Scope) : Prop :=
  ∀ i ∈ kids ST.INSTANCE r, ∀ g ∈ kids ST.COVERGROUP i, ∀ c ∈ kids ST.COVERINSTANCE g, ∀ x ∈ kids ST.COVERPOINT c, ∀ b ∈ covBins x,
    b.kind = K i.name g.name x.name b.name

end Spec

/-! ## Sums over names -/

theorem sum_swap {α β : Type} (l : List α) (l' : List β) (f : α → β → Int) :
    (l.map (fun a => (l'.map (f a)).sum)).sum = (l'.map (fun b => (l.map (fun a => f a b)).sum)).sum := by
  induction l with
  | nil => simp
  | cons a t ih =>
    simp only [List.map_cons, List.sum_cons]
    rw [ih, List.sum_map_add]

theorem sum_itemsOf (k : Nat) (b : String) (l : List Scope) (f : Scope → List Scope) :
    sumCounts (itemsOf k b (l.flatMap f)) = (l.map (fun s => sumCounts (itemsOf k b (f s)))).sum := by
  induction l with
  | nil => rfl
  | cons a t ih =>
    rw [List.flatMap_cons, List.map_cons, List.sum_cons, ← ih]
    unfold itemsOf sumCounts
    rw [List.flatMap_append, List.map_append, List.sum_append]

/-- Cover-instance names at an address. -/
def instNames (i g : String) (r : Scope) : List String :=
  ((reach [(ST.INSTANCE, i), (ST.COVERGROUP, g)] r).flatMap (kids ST.COVERINSTANCE)).map (·.name)

theorem leafInstTotal_eq {i g n b : String} {m k : Nat} {r : Scope} {C : List String} (hC : C.Nodup) (h : ∀ c ∈ instNames i g r, c ∈ C) :
    leafInstTotal i g m n k b r
      = (C.map (fun c => total [(ST.INSTANCE, i), (ST.COVERGROUP, g), (ST.COVERINSTANCE, c), (m, n)] k b r)).sum := by
  unfold leafInstTotal
  rw [sum_itemsOf, sum_by_name _ (fun x => sumCounts (itemsOf k b (childrenAt (m, n) x))) C hC
    (fun x hx => h _ (List.mem_map_of_mem hx))]
  congr 1
  apply List.map_congr_left
  intro c _
  unfold total binsAt
  have : reach [(ST.INSTANCE, i), (ST.COVERGROUP, g), (ST.COVERINSTANCE, c), (m, n)] r
      = (((reach [(ST.INSTANCE, i), (ST.COVERGROUP, g)] r).flatMap (kids ST.COVERINSTANCE)).filter (fun x => x.name = c)).flatMap
        (childrenAt (m, n)) := by
    have e : childrenAt (m, n) = fun x => (kids m x).filter (fun c => c.name = n) := funext (childrenAt_kids m n)
    rw [e]
    simp only [reach, List.flatMap_singleton', List.filter_flatMap, List.flatMap_assoc, childrenAt_kids]
  rw [this, sum_itemsOf]

/-- Merging adds the counts over all cover-instances. -/
theorem leafInstTotal_merge {srcs : List Scope} {out : Scope} (hu : ∀ s ∈ srcs, UniqueNames s) (h : merge emptyDb srcs = .ok out)
    (i g : String) {m : Nat} (hm : m ∈ [ST.COVERPOINT, ST.CROSS]) (n : String) {k : Nat} (hk : IsKind k) (b : String) :
    leafInstTotal i g m n k b out = (srcs.map (leafInstTotal i g m n k b)).sum := by
  let C := firstSeen ((out :: srcs).flatMap (instNames i g))
  have hC : C.Nodup := firstSeen_nodup _
  have hin : ∀ s ∈ out :: srcs, ∀ c ∈ instNames i g s, c ∈ C := fun s hs c hc => mem_firstSeen.2 (List.mem_flatMap.2 ⟨s, hs, hc⟩)
  rw [leafInstTotal_eq hC (hin out List.mem_cons_self)]
  have h1 : srcs.map (leafInstTotal i g m n k b)
      = srcs.map (fun s => (C.map (fun c => total [(ST.INSTANCE, i), (ST.COVERGROUP, g), (ST.COVERINSTANCE, c), (m, n)] k b s)).sum) :=
    List.map_congr_left (fun s hs => leafInstTotal_eq hC (hin s (List.mem_cons_of_mem _ hs)))
  rw [h1, sum_swap]
  congr 1
  apply List.map_congr_left
  intro c _
  apply C01_merge_conserves_counts hu h _ hk
  simp only [List.mem_cons, List.not_mem_nil, or_false] at hm
  rcases hm with rfl | rfl
  · exact .cp (.ci i g c) n
  · exact .cross (.ci i g c) n

/-! ## Type totals, group by group -/

/-- `TypeTotals` for one covergroup. -/
def groupTotals (g : Scope) : Prop :=
  ∀ n b, ∀ m ∈ [ST.COVERPOINT, ST.CROSS], ∀ k ∈ [CT.CVGBIN, CT.IGNOREBIN, CT.ILLEGALBIN],
    sumCounts (itemsOf k b (childrenAt (m, n) g)) = sumCounts (itemsOf k b ((kids ST.COVERINSTANCE g).flatMap (childrenAt (m, n))))

theorem typeTotals_of_groups {r : Scope} (h : ∀ i ∈ kids ST.INSTANCE r, ∀ g ∈ kids ST.COVERGROUP i, groupTotals g) : TypeTotals r := by
  intro i g n b m hm k hk
  unfold total binsAt leafInstTotal
  have : reach [(ST.INSTANCE, i), (ST.COVERGROUP, g), (m, n)] r
      = (reach [(ST.INSTANCE, i), (ST.COVERGROUP, g)] r).flatMap (childrenAt (m, n)) := by
    simp only [reach, List.flatMap_singleton', List.flatMap_assoc]
  rw [this, sum_itemsOf, List.flatMap_assoc, sum_itemsOf]
  congr 1
  apply List.map_congr_left
  intro x hx
  simp only [reach, List.flatMap_singleton'] at hx
  obtain ⟨y, hy, hx⟩ := List.mem_flatMap.1 hx
  exact h y (mem_childrenAt.1 hy).1 x (mem_childrenAt.1 hx).1 n b m hm k hk

/-- With kind fixed by the name, filtering by kind and name. -/
theorem itemsOf_covBins {k : Nat} (hk : IsKind k) (b : String) (l : List Scope) :
    itemsOf k b l = (l.flatMap covBins).filter (fun i => decide (i.name = b ∧ i.kind = k)) ∨ ∃ s ∈ l, ∃ i ∈ s.items, ¬ IsKind i.kind := by
  by_cases h : ∃ s ∈ l, ∃ i ∈ s.items, ¬ IsKind i.kind
  · exact .inr h
  · refine .inl ?_
    unfold itemsOf
    rw [List.filter_flatMap]
    apply List.flatMap_congr
    intro s hs
    have hall : ∀ i ∈ s.items, IsKind i.kind := by
      intro i hi
      by_contra hn
      exact h ⟨s, hs, i, hi, hn⟩
    rw [Xml.covBins_all hall]
    apply List.filter_congr
    intro i hi
    rcases hall i hi with e | e | e <;> rcases hk with rfl | rfl | rfl <;> rw [e] <;> by_cases hb : i.name = b <;> simp [hb] <;> decide

/-! ## Covergroups as the reader builds them -/

/-- The kind of a bin of a coverpoint (given by its name) or of a cross. -/
def kindOf (K : String → String → Nat) (m : Nat) (x b : String) : Nat := if m = ST.CROSS then CT.CVGBIN else K x b

structure ReadLike (K : String → String → Nat) (g : Scope) : Prop where
  insts : kids ST.COVERINSTANCE g ≠ []
  weight : g.weight = 1
  sums : ∀ m ∈ [ST.COVERPOINT, ST.CROSS], TypeSums m g
  leaf : ∀ m ∈ [ST.COVERPOINT, ST.CROSS], ∀ c ∈ g :: kids ST.COVERINSTANCE g, ∀ x ∈ kids m c, (m = ST.COVERPOINT → x.weight = 1) ∧
    ∀ b ∈ x.items, IsKind b.kind ∧ b.atLeast = some 1 ∧ b.kind = kindOf K m x.name b.name

theorem instBins_eq (m : Nat) (g : Scope) (n : String) :
    ((kids ST.COVERINSTANCE g).flatMap (childrenAt (m, n))).flatMap covBins = instBins m g n := by
  unfold instBins
  have e : childrenAt (m, n) = fun x => (kids m x).filter (fun c => c.name = n) := funext (childrenAt_kids m n)
  rw [e, List.filter_flatMap]

theorem filter_named {l : List Scope} (h : (l.map (·.name)).Nodup) {x : Scope} (hx : x ∈ l) : l.filter (fun c => c.name = x.name) = [x] := by
  induction l with
  | nil => cases hx
  | cons a t ih =>
    rw [List.map_cons, List.nodup_cons] at h
    rw [List.filter_cons]
    rcases List.mem_cons.1 hx with rfl | hx
    · have : t.filter (fun c => decide (c.name = x.name)) = [] := by
        rw [List.filter_eq_nil_iff]
        intro c hc e
        exact h.1 ((of_decide_eq_true e) ▸ List.mem_map_of_mem hc)
      simp [this]
    · have : a.name ≠ x.name := fun e => h.1 (e ▸ List.mem_map_of_mem hx)
      simp [this, ih h.2 hx]

theorem filter_item {l : List Item} (h : (l.map (·.name)).Nodup) {x : Item} (hx : x ∈ l) : l.filter (fun c => c.name = x.name) = [x] := by
  induction l with
  | nil => cases hx
  | cons a t ih =>
    rw [List.map_cons, List.nodup_cons] at h
    rw [List.filter_cons]
    rcases List.mem_cons.1 hx with rfl | hx
    · have : t.filter (fun c => decide (c.name = x.name)) = [] := by
        rw [List.filter_eq_nil_iff]
        intro c hc e
        exact h.1 ((of_decide_eq_true e) ▸ List.mem_map_of_mem hc)
      simp [this]
    · have : a.name ≠ x.name := fun e => h.1 (e ▸ List.mem_map_of_mem hx)
      simp [this, ih h.2 hx]

theorem filter_kind {l : List Item} {b : String} {k kk : Nat} (h : ∀ i ∈ l, i.name = b → i.kind = kk) :
    l.filter (fun i => decide (i.name = b ∧ i.kind = k)) = if k = kk then l.filter (fun i => i.name = b) else [] := by
  split
  · rename_i e
    apply List.filter_congr
    intro i hi
    by_cases hb : i.name = b
    · simp [hb, h i hi hb, e]
    · simp [hb]
  · rename_i e
    rw [List.filter_eq_nil_iff]
    intro i hi hd
    have := of_decide_eq_true hd
    exact e (this.2.symm.trans (h i hi this.1))

theorem mem_instBins {m : Nat} {g : Scope} {n : String} {i : Item} :
    i ∈ instBins m g n ↔ ∃ c ∈ kids ST.COVERINSTANCE g, ∃ x ∈ kids m c, x.name = n ∧ i ∈ covBins x := by
  rw [← instBins_eq]
  simp only [List.mem_flatMap, mem_childrenAt]
  constructor
  · rintro ⟨x, ⟨c, hc, h1, h2⟩, h3⟩
    exact ⟨c, hc, x, h1, h2, h3⟩
  · rintro ⟨c, hc, x, h1, h2, h3⟩
    exact ⟨x, ⟨c, hc, h1, h2⟩, h3⟩

theorem ReadLike.totals {K : String → String → Nat} {g : Scope} (h : ReadLike K g) : groupTotals g := by
  intro n b m hm k hk
  have hk : IsKind k := by simpa [IsKind] using hk
  have ht := h.sums m hm
  have l1 : ∀ s ∈ childrenAt (m, n) g, ∀ i ∈ s.items, IsKind i.kind ∧ (i.name = b → i.kind = kindOf K m n b) := by
    intro s hs i hi
    obtain ⟨h1, h2⟩ := mem_childrenAt.1 hs
    have := (h.leaf m hm g List.mem_cons_self s h1).2 i hi
    exact ⟨this.1, fun e => by rw [this.2.2, h2, e]⟩
  have l2 : ∀ s ∈ (kids ST.COVERINSTANCE g).flatMap (childrenAt (m, n)), ∀ i ∈ s.items, IsKind i.kind ∧ (i.name = b → i.kind = kindOf K m n b) := by
    intro s hs i hi
    obtain ⟨c, hc, hs⟩ := List.mem_flatMap.1 hs
    obtain ⟨h1, h2⟩ := mem_childrenAt.1 hs
    have := (h.leaf m hm c (List.mem_cons_of_mem _ hc) s h1).2 i hi
    exact ⟨this.1, fun e => by rw [this.2.2, h2, e]⟩
  have e1 := (itemsOf_covBins hk b (childrenAt (m, n) g)).resolve_right (by
    rintro ⟨s, hs, i, hi, hn⟩; exact hn (l1 s hs i hi).1)
  have e2 := (itemsOf_covBins hk b ((kids ST.COVERINSTANCE g).flatMap (childrenAt (m, n)))).resolve_right (by
    rintro ⟨s, hs, i, hi, hn⟩; exact hn (l2 s hs i hi).1)
  rw [e1, e2, instBins_eq, filter_kind (kk := kindOf K m n b), filter_kind (kk := kindOf K m n b)]
  rotate_left
  · intro i hi hb
    rw [← instBins_eq] at hi
    obtain ⟨s, hs, hi⟩ := List.mem_flatMap.1 hi
    exact (l2 s hs i (List.mem_filter.1 hi).1).2 hb
  · intro i hi hb
    obtain ⟨s, hs, hi⟩ := List.mem_flatMap.1 hi
    exact (l1 s hs i (List.mem_filter.1 hi).1).2 hb
  by_cases hkk : k = kindOf K m n b
  · rw [if_pos hkk, if_pos hkk]
    by_cases hn : n ∈ (kids m g).map (·.name)
    · obtain ⟨x, hx, rfl⟩ := List.mem_map.1 hn
      rw [childrenAt_kids, filter_named ht.names_nodup hx, List.flatMap_singleton,
        Xml.covBins_all (fun i hi => ((h.leaf m hm g List.mem_cons_self x hx).2 i hi).1)]
      by_cases hb : b ∈ x.items.map (·.name)
      · obtain ⟨i, hi, rfl⟩ := List.mem_map.1 hb
        rw [filter_item (ht.bins_nodup x hx) hi]
        have := ht.sums x hx i hi
        simpa [sumCounts] using this
      · have h1 : x.items.filter (fun i => decide (i.name = b)) = [] := by
          rw [List.filter_eq_nil_iff]
          intro i hi e
          exact hb (List.mem_map.2 ⟨i, hi, of_decide_eq_true e⟩)
        have h2 : (instBins m g x.name).filter (fun i => decide (i.name = b)) = [] := by
          rw [List.filter_eq_nil_iff]
          intro i hi e
          exact hb ((ht.bins x hx b).2 (List.mem_map.2 ⟨i, hi, of_decide_eq_true e⟩))
        rw [h1, h2]
    · have h1 : childrenAt (m, n) g = [] := by
        rw [childrenAt_kids, List.filter_eq_nil_iff]
        intro x hx e
        exact hn (List.mem_map.2 ⟨x, hx, of_decide_eq_true e⟩)
      have h2 : instBins m g n = [] := by
        rw [List.eq_nil_iff_forall_not_mem]
        intro i hi
        obtain ⟨c, hc, x, hx, h3, _⟩ := mem_instBins.1 hi
        exact hn ((ht.names n).2 ⟨c, hc, x, hx, h3⟩)
      rw [h1, h2]; rfl
  · rw [if_neg hkk, if_neg hkk]

/-! ## Read databases -/

theorem weight_buildGroup (t : String) (ps : List PInst) : (buildGroup t ps).weight = 1 := rfl

theorem read_like {flt : FloatText} {doc : Elem} {db : Database} (h : Xml.read flt doc = .ok db) {i g : Scope}
    (hi : i ∈ kids ST.INSTANCE db.root) (hg : g ∈ kids ST.COVERGROUP i) (K : String → String → Nat)
    (hK : ∀ c ∈ kids ST.COVERINSTANCE g, ∀ x ∈ kids ST.COVERPOINT c, ∀ b ∈ covBins x, b.kind = K x.name b.name) : ReadLike K g := by
  have hinst := read_instanced h i hi g hg
  have hsums := C33_type_sums h hi hg
  obtain ⟨t, es, hne, hgood, rfl⟩ := read_group h hi hg
  have hps : ∀ p ∈ es.map dInst, KindsOk p := by
    intro p hp
    obtain ⟨e, he, rfl⟩ := List.mem_map.1 hp
    exact kindsOk_dInst (hgood e he).1
  refine ⟨hinst, weight_buildGroup _ _, fun m hm => ?_, fun m hm c hc x hx => ?_⟩
  · simp only [List.mem_cons, List.not_mem_nil, or_false] at hm
    rcases hm with rfl | rfl
    · exact hsums.1
    · exact hsums.2
  · have h1 : kids ST.COVERPOINT (buildGroup t (es.map dInst)) = _ := buildGroup_cps t _
    have h2 : kids ST.CROSS (buildGroup t (es.map dInst)) = _ := buildGroup_crosses t _
    simp only [List.mem_cons, List.not_mem_nil, or_false] at hm
    rcases List.mem_cons.1 hc with rfl | hc
    · rcases hm with rfl | rfl
      · have hs := hsums.1
        have hx' := hx
        rw [h1] at hx
        obtain ⟨n, _, rfl⟩ := List.mem_map.1 hx
        refine ⟨fun _ => rfl, fun b hb => ?_⟩
        have hb' := hb
        obtain ⟨y, hy, rfl⟩ := List.mem_map.1 hb
        rw [mem_firstSeen] at hy
        have hex : ∃ a ∈ cpBins (es.map dInst) n, a.name = y ∧ a.kind = (((cpBins (es.map dInst) n).filter (fun i => i.name = y)).head?.map (·.kind)).getD 0 := by
          obtain ⟨a, ha, hn⟩ := List.mem_map.1 hy
          cases hl : (cpBins (es.map dInst) n).filter (fun i => i.name = y) with
          | nil =>
            rw [List.filter_eq_nil_iff] at hl
            exact absurd (decide_eq_true hn) (hl a ha)
          | cons b t =>
            have hb : b ∈ (cpBins (es.map dInst) n).filter (fun i => i.name = y) := by rw [hl]; simp
            obtain ⟨hb1, hb2⟩ := List.mem_filter.1 hb
            exact ⟨b, hb1, of_decide_eq_true hb2, rfl⟩
        obtain ⟨a, ha, e1, e2⟩ := hex
        obtain ⟨p, hp, hap⟩ := List.mem_flatMap.1 ha
        obtain ⟨hp1, hp2⟩ := List.mem_filter.1 hp
        obtain ⟨q, hq, hp1⟩ := List.mem_flatMap.1 hp1
        have hak : IsKind a.kind := (hps q hq).1 p hp1 a hap
        have hin : mkCoverpoint p.name SrcInfo.none 1 p.bins ∈ kids ST.COVERPOINT q.scope := by
          rw [kids_inst_cp]; exact List.mem_map_of_mem hp1
        have hq' : q.scope ∈ kids ST.COVERINSTANCE (buildGroup t (es.map dInst)) := by
          rw [insts_build]; exact List.mem_map_of_mem hq
        have := hK _ hq' _ hin a (by
          rw [Xml.covBins_all (s := mkCoverpoint p.name SrcInfo.none 1 p.bins) (fun b hb => (hps q hq).1 p hp1 b hb)]; exact hap)
        refine ⟨by rw [← e2] at *; exact hak, rfl, ?_⟩
        simp only [mkBin]
        rw [← e2, this, e1]
        have : p.name = n := of_decide_eq_true hp2
        simp [kindOf, mkCoverpoint, this, ST.COVERPOINT, ST.CROSS]
      · rw [h2] at hx
        obtain ⟨n, _, rfl⟩ := List.mem_map.1 hx
        refine ⟨fun h => absurd h (by decide), fun b hb => ?_⟩
        obtain ⟨y, hy, rfl⟩ := List.mem_map.1 hb
        exact ⟨.inl rfl, rfl, by simp [kindOf, mkBin]⟩
    · have hc' := hc
      rw [insts_build, List.map_map] at hc
      obtain ⟨e, he, rfl⟩ := List.mem_map.1 hc
      rcases hm with rfl | rfl
      · have hx' := hx
        rw [Function.comp, kids_inst_cp] at hx
        obtain ⟨p, hp, rfl⟩ := List.mem_map.1 hx
        refine ⟨fun _ => rfl, fun b hb => ?_⟩
        have hall : ∀ b ∈ p.bins, IsKind b.kind := fun b hb => (hps _ (List.mem_map_of_mem he)).1 p hp b hb
        have hk := hK _ hc' _ hx' b (by
          rw [Xml.covBins_all (s := mkCoverpoint p.name SrcInfo.none 1 p.bins) hall]; exact hb)
        refine ⟨hall b hb, ?_, by simp [kindOf, hk, ST.COVERPOINT, ST.CROSS]⟩
        obtain ⟨y, _, rfl⟩ := List.mem_map.1 hp
        obtain ⟨z, _, rfl⟩ := List.mem_map.1 hb
        rfl
      · rw [Function.comp, kids_inst_cross] at hx
        obtain ⟨p, hp, rfl⟩ := List.mem_map.1 hx
        refine ⟨fun h => absurd h (by decide), fun b hb => ?_⟩
        obtain ⟨y, _, rfl⟩ := List.mem_map.1 hp
        obtain ⟨z, _, rfl⟩ := List.mem_map.1 hb
        exact ⟨.inl rfl, rfl, by show CT.CVGBIN = kindOf K ST.CROSS _ _; simp [kindOf]⟩

end Verif
