import Verif.MergeReach
/-!
# Interchangeable source lists (proof machinery for incremental merging)

For each level a relation between lists of source scopes that is closed under append, holds between
the merged scope and the list it was made of, and determines the result of the merge.
-/

namespace Verif
namespace Merge
open Spec

theorem kindItems_append (a b : List Scope) (k : Nat) :
    kindItems (a ++ b) k = kindItems a k ++ kindItems b k := by simp [kindItems]

theorem pick_append (st : Step) (a b : List Scope) : pick st (a ++ b) = pick st a ++ pick st b := by
  unfold pick; split <;> simp

theorem childNames_append (m : Nat) (a b : List Scope) :
    childNames m (a ++ b) = firstSeen (childNames m a ++ childNames m b) := by
  simp only [childNames, List.flatMap_append]
  rw [firstSeen_append_firstSeen_left, firstSeen_append_firstSeen_right]

theorem childNames_append_congr {m : Nat} {a a' b b' : List Scope}
    (h1 : childNames m a = childNames m a') (h2 : childNames m b = childNames m b') :
    childNames m (a ++ b) = childNames m (a' ++ b') := by
  rw [childNames_append, childNames_append, h1, h2]

/-! ## Bins -/

structure EItems (a b : List Item) : Prop where
  names : firstSeen (a.map (·.name)) = firstSeen (b.map (·.name))
  first : ∀ n, (firstItem n a).map (·.atLeast) = (firstItem n b).map (·.atLeast)
  sum : ∀ n, sumNamed n a = sumNamed n b

theorem EItems.append {a a' b b' : List Item} (h : EItems a a') (h' : EItems b b') :
    EItems (a ++ b) (a' ++ b') where
  names := by
    rw [List.map_append, List.map_append, ← firstSeen_append_firstSeen_left,
      ← firstSeen_append_firstSeen_right, h.names, h'.names, firstSeen_append_firstSeen_right,
      firstSeen_append_firstSeen_left]
  first n := by
    have := h.first n
    have h2 := h'.first n
    simp only [firstItem, List.find?_append] at *
    cases h3 : a.find? (fun i => i.name = n) <;> cases h4 : a'.find? (fun i => i.name = n) <;>
      simp_all
  sum n := by
    have := h.sum n
    have h2 := h'.sum n
    simp only [sumNamed, List.filter_append, List.map_append, List.sum_append] at *
    omega

theorem pBinsOfKind_congr {a b : List Item} (h : EItems a b) (k : Nat) :
    pBinsOfKind a k = pBinsOfKind b k := by
  unfold pBinsOfKind
  rw [h.names]
  apply List.map_congr_left
  intro n _
  have h1 := h.first n
  unfold pBin
  rw [h.sum n]
  congr 1
  cases ha : firstItem n a <;> cases hb : firstItem n b <;> simp_all

theorem binsOk_congr {a b : List Item} (h : EItems a b) : binsOk a ↔ binsOk b := by
  have key : ∀ {a b : List Item}, EItems a b → binsOk a → binsOk b := by
    intro a b h ha n it hit
    have h1 := h.first n
    rw [hit] at h1
    cases h2 : firstItem n a with
    | none => rw [h2] at h1; cases h1
    | some x =>
      rw [h2] at h1
      have := ha n x h2
      simp at h1
      rw [← h1]; exact this
  exact ⟨key h, key ⟨h.names.symm, fun n => (h.first n).symm, fun n => (h.sum n).symm⟩⟩

theorem EItems.refl (a : List Item) : EItems a a := ⟨rfl, fun _ => rfl, fun _ => rfl⟩

theorem EItems.pBins {items : List Item} (h : binsOk items) (k : Nat) :
    EItems (pBinsOfKind items k) items where
  names := by
    have : (pBinsOfKind items k).map (·.name) = firstSeen (items.map (·.name)) := by
      simp [pBinsOfKind, Function.comp_def, pBin, mkBin]
    rw [this, firstSeen_firstSeen]
  first n := by
    have hf : firstItem n (pBinsOfKind items k)
        = if n ∈ items.map (·.name) then some (pBin items k n) else none := by
      have hm : n ∈ items.map (·.name) ↔ n ∈ firstSeen (items.map (·.name)) := mem_firstSeen.symm
      simp only [hm]
      unfold firstItem pBinsOfKind
      clear hm
      induction firstSeen (items.map (·.name)) with
      | nil => rfl
      | cons a t ih =>
        rw [List.map_cons, List.find?_cons, ih]
        by_cases h : a = n
        · subst h; simp [pBin, mkBin]
        · have : ¬ n = a := fun e => h e.symm
          simp [pBin, mkBin, h, this]
    rw [hf]
    cases hi : firstItem n items with
    | none =>
      have : n ∉ items.map (·.name) := by
        unfold firstItem at hi
        rw [List.find?_eq_none] at hi
        intro hm
        obtain ⟨x, hx, rfl⟩ := List.mem_map.1 hm
        exact hi x hx (by simp)
      simp [this]
    | some x =>
      have : n ∈ items.map (·.name) := by
        unfold firstItem at hi
        have h1 := List.mem_of_find?_eq_some hi
        have h2 := List.find?_some hi
        simp at h2
        exact List.mem_map.2 ⟨x, h1, h2⟩
      obtain ⟨v, hv⟩ := Option.isSome_iff_exists.1 (h n x hi)
      simp [this, pBin, mkBin, hi, hv]
  sum n := by
    unfold sumNamed pBinsOfKind
    have hnd := firstSeen_nodup (items.map (·.name))
    have hm : n ∈ items.map (·.name) ↔ n ∈ firstSeen (items.map (·.name)) := mem_firstSeen.symm
    have hz : n ∉ items.map (·.name) → ((items.filter (fun i => i.name = n)).map (·.count)).sum = 0 := by
      intro h
      have : items.filter (fun i => i.name = n) = [] := by
        rw [List.filter_eq_nil_iff]
        intro x hx hn
        exact h (List.mem_map.2 ⟨x, hx, by simpa using hn⟩)
      simp [this]
    have : ((firstSeen (items.map (·.name))).map (pBin items k)).filter (fun i => i.name = n)
        = if n ∈ firstSeen (items.map (·.name)) then [pBin items k n] else [] := by
      clear hm hz
      revert hnd
      generalize firstSeen (items.map (·.name)) = fs
      intro hnd
      induction fs with
      | nil => simp
      | cons a t ih =>
        rw [List.nodup_cons] at hnd
        rw [List.map_cons, List.filter_cons, ih hnd.2]
        by_cases h : a = n
        · subst h; simp [pBin, mkBin, hnd.1]
        · have : ¬ n = a := fun e => h e.symm
          simp [pBin, mkBin, h, this]
    rw [this]
    by_cases h : n ∈ items.map (·.name)
    · rw [if_pos (hm.1 h)]
      simp [pBin, mkBin, sumNamed]
    · rw [if_neg (fun h' => h (hm.2 h')), hz h]; simp

/-! ## Leaves: coverpoints and crosses -/

structure ELeaf (a b : List Scope) : Prop where
  head : a.head?.map (fun s => (s.src, s.weight, s.cps)) = b.head?.map (fun s => (s.src, s.weight, s.cps))
  bins : ∀ k, IsKind k → EItems (kindItems a k) (kindItems b k)

theorem head_append_congr {α : Type} {f : Scope → α} {a a' b b' : List Scope}
    (h : a.head?.map f = a'.head?.map f) (h' : b.head?.map f = b'.head?.map f) :
    (a ++ b).head?.map f = (a' ++ b').head?.map f := by
  cases a <;> cases a' <;> simp_all

theorem ELeaf.append {a a' b b' : List Scope} (h : ELeaf a a') (h' : ELeaf b b') :
    ELeaf (a ++ b) (a' ++ b') where
  head := head_append_congr h.head h'.head
  bins k hk := by
    rw [kindItems_append, kindItems_append]
    exact (h.bins k hk).append (h'.bins k hk)

theorem ELeaf.refl (a : List Scope) : ELeaf a a := ⟨rfl, fun _ _ => EItems.refl _⟩

theorem map_map_head {α β : Type} {g : α → β} {f : Scope → α} {a b : List Scope}
    (h : a.head?.map f = b.head?.map f) :
    a.head?.map (fun s => g (f s)) = b.head?.map (fun s => g (f s)) := by
  have := congrArg (Option.map g) h
  simpa [Function.comp_def] using this

theorem pBins_congr {a b : List Scope} (h : ∀ k, IsKind k → EItems (kindItems a k) (kindItems b k)) :
    pBins a = pBins b := by
  unfold pBins
  rw [pBinsOfKind_congr (h _ (Or.inl rfl)), pBinsOfKind_congr (h _ (Or.inr (Or.inl rfl))),
    pBinsOfKind_congr (h _ (Or.inr (Or.inr rfl)))]

theorem allBinsOk_congr {a b : List Scope}
    (h : ∀ k, IsKind k → EItems (kindItems a k) (kindItems b k)) : allBinsOk a ↔ allBinsOk b := by
  unfold allBinsOk
  rw [binsOk_congr (h _ (Or.inl rfl)), binsOk_congr (h _ (Or.inr (Or.inl rfl))),
    binsOk_congr (h _ (Or.inr (Or.inr rfl)))]

theorem mCp_congr {a b : List Scope} (h : ELeaf a b) (n : String) : mCp n a = mCp n b := by
  have h1 := map_map_head (g := fun t => t.1) h.head
  have h2 := map_map_head (g := fun t => t.2.1) h.head
  simp only [mCp, headSrc, headWeight]
  rw [h1, h2, pBins_congr h.bins]

theorem headCps_congr {a b : List Scope} (h : ELeaf a b) : headCps a = headCps b := by
  have h3 := map_map_head (g := fun t => t.2.2) h.head
  unfold headCps
  cases ha : a.head? <;> cases hb : b.head? <;> simp_all

theorem mCross_congr {a b : List Scope} (h : ELeaf a b) (n : String) : mCross n a = mCross n b := by
  have h1 := map_map_head (g := fun t => t.1) h.head
  have h2 := map_map_head (g := fun t => t.2.1) h.head
  simp only [mCross, headSrc, headWeight, headCps_congr h]
  rw [h1, h2, pBins_congr h.bins]

theorem crossOk_congr {a b : List Scope} (h : ELeaf a b) (dst : List String) :
    crossOk dst a ↔ crossOk dst b := by
  have key : ∀ {a b : List Scope}, ELeaf a b → crossOk dst a → crossOk dst b := by
    rintro a b h ⟨⟨c, cps, hc, hcps, hin⟩, hb⟩
    refine ⟨?_, (allBinsOk_congr h.bins).1 hb⟩
    have h3 := map_map_head (g := fun t => t.2.2) h.head
    rw [hc] at h3
    cases hb : b.head? with
    | none => rw [hb] at h3; cases h3
    | some d =>
      rw [hb] at h3
      simp at h3
      exact ⟨d, cps, rfl, by rw [← h3, hcps], hin⟩
  refine ⟨key h, key ⟨h.head.symm, fun k hk => ?_⟩⟩
  have := h.bins k hk
  exact ⟨this.names.symm, fun n => (this.first n).symm, fun n => (this.sum n).symm⟩

theorem coverItems_pBins {k : Nat} (hk : IsKind k) (s : Scope) (l : List Scope)
    (hs : s.items = pBins l) : s.coverItems k = pBinsOfKind (kindItems l k) k := by
  have hfilt : ∀ (k' : Nat) (items : List Item),
      (pBinsOfKind items k').filter (fun i => maskHit i.kind k)
        = if maskHit k' k = true then pBinsOfKind items k' else [] := by
    intro k' items
    by_cases h : maskHit k' k = true
    · rw [if_pos h, List.filter_eq_self]
      intro x hx
      simp only [pBinsOfKind, List.mem_map] at hx
      obtain ⟨n, _, rfl⟩ := hx
      exact h
    · rw [if_neg h, List.filter_eq_nil_iff]
      intro x hx
      simp only [pBinsOfKind, List.mem_map] at hx
      obtain ⟨n, _, rfl⟩ := hx
      exact h
  have e1 : maskHit CT.CVGBIN CT.IGNOREBIN = false := by decide
  have e2 : maskHit CT.CVGBIN CT.ILLEGALBIN = false := by decide
  have e3 : maskHit CT.IGNOREBIN CT.CVGBIN = false := by decide
  have e4 : maskHit CT.IGNOREBIN CT.ILLEGALBIN = false := by decide
  have e5 : maskHit CT.ILLEGALBIN CT.CVGBIN = false := by decide
  have e6 : maskHit CT.ILLEGALBIN CT.IGNOREBIN = false := by decide
  have e7 : maskHit CT.CVGBIN CT.CVGBIN = true := by decide
  have e8 : maskHit CT.IGNOREBIN CT.IGNOREBIN = true := by decide
  have e9 : maskHit CT.ILLEGALBIN CT.ILLEGALBIN = true := by decide
  unfold Scope.coverItems
  rw [hs]
  unfold pBins
  rw [List.filter_append, List.filter_append, hfilt, hfilt, hfilt]
  rcases hk with rfl | rfl | rfl <;> simp [e1, e2, e3, e4, e5, e6, e7, e8, e9]

theorem kindOk {l : List Scope} (h : allBinsOk l) {k : Nat} (hk : IsKind k) :
    binsOk (kindItems l k) := by
  rcases hk with rfl | rfl | rfl
  · exact h.1
  · exact h.2.1
  · exact h.2.2

theorem bins_of_merged {s : Scope} {l : List Scope} (hs : s.items = pBins l) (h : allBinsOk l)
    {k : Nat} (hk : IsKind k) : EItems (kindItems [s] k) (kindItems l k) := by
  have : kindItems [s] k = pBinsOfKind (kindItems l k) k := by
    simp only [kindItems, List.flatMap_cons, List.flatMap_nil, List.append_nil]
    exact coverItems_pBins hk s l hs
  rw [this]
  exact EItems.pBins (kindOk h hk) k

/-- Head data of a coverpoint: the crossed coverpoints are not looked at. -/
structure ECp (a b : List Scope) : Prop where
  head : a.head?.map (fun s => (s.src, s.weight)) = b.head?.map (fun s => (s.src, s.weight))
  bins : ∀ k, IsKind k → EItems (kindItems a k) (kindItems b k)

theorem ECp.append {a a' b b' : List Scope} (h : ECp a a') (h' : ECp b b') :
    ECp (a ++ b) (a' ++ b') where
  head := head_append_congr h.head h'.head
  bins k hk := by
    rw [kindItems_append, kindItems_append]
    exact (h.bins k hk).append (h'.bins k hk)

theorem ECp.refl (a : List Scope) : ECp a a := ⟨rfl, fun _ _ => EItems.refl _⟩

theorem mCp_congr' {a b : List Scope} (h : ECp a b) (n : String) : mCp n a = mCp n b := by
  have h1 := map_map_head (g := fun t => t.1) h.head
  have h2 := map_map_head (g := fun t => t.2) h.head
  simp only [mCp, headSrc, headWeight]
  rw [h1, h2, pBins_congr h.bins]

theorem ECp.merged (n : String) {l : List Scope} (h : allBinsOk l) : ECp (rep (mCp n) l) l := by
  by_cases hl : l = []
  · subst hl; exact ECp.refl _
  · rw [rep_of_ne hl]
    refine ⟨?_, fun k hk => bins_of_merged rfl h hk⟩
    cases l with
    | nil => exact absurd rfl hl
    | cons c t => simp [mCp, mkCoverpoint, headSrc, headWeight]

theorem ELeaf.merged (n : String) {l : List Scope} {dst : List String} (h : l ≠ [] → crossOk dst l) :
    ELeaf (rep (mCross n) l) l := by
  by_cases hl : l = []
  · subst hl; exact ELeaf.refl _
  · rw [rep_of_ne hl]
    obtain ⟨⟨c, cps, hc, hcps, _⟩, hb⟩ := h hl
    refine ⟨?_, fun k hk => bins_of_merged rfl hb hk⟩
    simp [mCross, mkCross, headSrc, headWeight, headCps, hc, hcps]

/-! ## Coverpoints and crosses of a group -/

structure EBody (a b : List Scope) : Prop where
  cpNames : childNames ST.COVERPOINT a = childNames ST.COVERPOINT b
  crNames : childNames ST.CROSS a = childNames ST.CROSS b
  cps : ∀ n, ECp (pick (ST.COVERPOINT, n) a) (pick (ST.COVERPOINT, n) b)
  crs : ∀ n, ELeaf (pick (ST.CROSS, n) a) (pick (ST.CROSS, n) b)

theorem EBody.append {a a' b b' : List Scope} (h : EBody a a') (h' : EBody b b') :
    EBody (a ++ b) (a' ++ b') where
  cpNames := childNames_append_congr h.cpNames h'.cpNames
  crNames := childNames_append_congr h.crNames h'.crNames
  cps n := by rw [pick_append, pick_append]; exact (h.cps n).append (h'.cps n)
  crs n := by rw [pick_append, pick_append]; exact (h.crs n).append (h'.crs n)

theorem EBody.refl (a : List Scope) : EBody a a :=
  ⟨rfl, rfl, fun _ => ECp.refl _, fun _ => ELeaf.refl _⟩

theorem pCoverpoints_congr {a b : List Scope} (h : EBody a b) : pCoverpoints a = pCoverpoints b := by
  unfold pCoverpoints
  rw [h.cpNames]
  apply List.map_congr_left
  intro n _
  rw [pCoverpoint_eq, pCoverpoint_eq, mCp_congr' (h.cps n)]

theorem pCrosses_congr {a b : List Scope} (h : EBody a b) : pCrosses a = pCrosses b := by
  unfold pCrosses
  rw [h.crNames]
  apply List.map_congr_left
  intro n _
  rw [pCross_eq, pCross_eq, mCross_congr (h.crs n)]

theorem itemsOk_congr {a b : List Scope} (h : EBody a b) : itemsOk a ↔ itemsOk b := by
  unfold itemsOk cpsOk crossesOk
  rw [h.cpNames, h.crNames]
  refine and_congr (forall₂_congr fun n _ => ?_) (forall₂_congr fun n _ => ?_)
  · rw [named_eq_pick (by decide), named_eq_pick (by decide)]
    exact allBinsOk_congr (h.cps n).bins
  · rw [crossesNamed_eq_pick, crossesNamed_eq_pick]
    exact crossOk_congr (h.crs n) _

/-- Children of the given type of a merged scope: their names are those collected. -/
theorem childNames_single {m : Nat} {s : Scope} {names : List String}
    (h : (s.scopes m).map (·.name) = names) (hn : names.Nodup) : childNames m [s] = names := by
  simp [childNames, h, firstSeen_of_nodup hn]

theorem pick_single {st : Step} {s : Scope} {f : List Scope → Scope} {l : List Scope}
    (h : childrenAt st s = rep f l) : pick st [s] = rep f l := by
  unfold pick rep at *
  by_cases hl : l = []
  · simp [h, hl]
  · simp [h, hl]

theorem scopes_hit {m : Nat} {l : List String} {f : String → Scope}
    (h : ∀ k, maskHit (f k).stype m = true) :
    (l.map f).filter (fun c => maskHit c.stype m) = l.map f := by
  rw [List.filter_eq_self]
  intro c hc
  obtain ⟨k, _, rfl⟩ := List.mem_map.1 hc
  exact h k

theorem scopes_miss {m : Nat} {l : List String} {f : String → Scope}
    (h : ∀ k, maskHit (f k).stype m = false) :
    (l.map f).filter (fun c => maskHit c.stype m) = [] := by
  rw [List.filter_eq_nil_iff]
  intro c hc
  obtain ⟨k, _, rfl⟩ := List.mem_map.1 hc
  simp [h k]

theorem cps_mCi (n : String) (l : List Scope) :
    ((mCi n l).scopes ST.COVERPOINT).map (·.name) = childNames ST.COVERPOINT l := by
  show ((pCoverpoints l ++ pCrosses l).filter _).map _ = _
  rw [List.filter_append, pCoverpoints, pCrosses, scopes_hit (fun _ => hit_cp_cp),
    scopes_miss (fun _ => hit_cross_cp), List.append_nil, List.map_map]
  exact List.map_id _

theorem crs_mCi (n : String) (l : List Scope) :
    ((mCi n l).scopes ST.CROSS).map (·.name) = childNames ST.CROSS l := by
  show ((pCoverpoints l ++ pCrosses l).filter _).map _ = _
  rw [List.filter_append, pCoverpoints, pCrosses, scopes_miss (fun _ => hit_cp_cross),
    scopes_hit (fun _ => hit_cross_cross), List.nil_append, List.map_map]
  exact List.map_id _

theorem cps_mCg (n : String) (l : List Scope) :
    ((mCg n l).scopes ST.COVERPOINT).map (·.name) = childNames ST.COVERPOINT l := by
  show ((pCoverpoints l ++ pCrosses l ++ pCoverinsts l).filter _).map _ = _
  rw [List.filter_append, List.filter_append, pCoverpoints, pCrosses, pCoverinsts,
    scopes_hit (fun _ => hit_cp_cp), scopes_miss (fun _ => hit_cross_cp),
    scopes_miss (fun _ => hit_ci_cp), List.append_nil, List.append_nil, List.map_map]
  exact List.map_id _

theorem crs_mCg (n : String) (l : List Scope) :
    ((mCg n l).scopes ST.CROSS).map (·.name) = childNames ST.CROSS l := by
  show ((pCoverpoints l ++ pCrosses l ++ pCoverinsts l).filter _).map _ = _
  rw [List.filter_append, List.filter_append, pCoverpoints, pCrosses, pCoverinsts,
    scopes_miss (fun _ => hit_cp_cross), scopes_hit (fun _ => hit_cross_cross),
    scopes_miss (fun _ => hit_ci_cross), List.append_nil, List.nil_append, List.map_map]
  exact List.map_id _

theorem cis_mCg (n : String) (l : List Scope) :
    ((mCg n l).scopes ST.COVERINSTANCE).map (·.name) = childNames ST.COVERINSTANCE l := by
  show ((pCoverpoints l ++ pCrosses l ++ pCoverinsts l).filter _).map _ = _
  rw [List.filter_append, List.filter_append, pCoverpoints, pCrosses, pCoverinsts,
    scopes_miss (fun _ => hit_cp_ci), scopes_miss (fun _ => hit_cross_ci),
    scopes_hit (fun _ => hit_ci_ci), List.nil_append, List.nil_append, List.map_map]
  exact List.map_id _

theorem cgs_mInst (n : String) (l : List Scope) :
    ((mInst n l).scopes ST.COVERGROUP).map (·.name) = childNames ST.COVERGROUP l := by
  show ((pCovergroups l).filter _).map _ = _
  rw [pCovergroups, scopes_hit (fun _ => hit_cg_cg), List.map_map]
  exact List.map_id _

theorem not_mem_names {m : Nat} {n : String} {l : List Scope} (h : n ∉ childNames m l) :
    pick (m, n) l = [] := by
  rw [mem_childNames, not_not] at h; exact h

theorem cpsOk_pick {l : List Scope} (h : cpsOk l) (n : String) :
    allBinsOk (pick (ST.COVERPOINT, n) l) := by
  by_cases hn : n ∈ childNames ST.COVERPOINT l
  · have := h n hn
    rwa [named_eq_pick (by decide)] at this
  · rw [not_mem_names hn]
    refine ⟨?_, ?_, ?_⟩ <;> intro b it hit <;> simp [kindItems, firstItem] at hit

theorem crossesOk_pick {l : List Scope} {dst : List String} (h : crossesOk dst l) (n : String)
    (hne : pick (ST.CROSS, n) l ≠ []) : crossOk dst (pick (ST.CROSS, n) l) := by
  have := h n ((mem_childNames _ _ _).2 hne)
  rwa [crossesNamed_eq_pick] at this

theorem EBody.ofMerged {s : Scope} {l : List Scope} (hok : itemsOk l)
    (h1 : (s.scopes ST.COVERPOINT).map (·.name) = childNames ST.COVERPOINT l)
    (h2 : (s.scopes ST.CROSS).map (·.name) = childNames ST.CROSS l)
    (h3 : ∀ n, childrenAt (ST.COVERPOINT, n) s = rep (mCp n) (pick (ST.COVERPOINT, n) l))
    (h4 : ∀ n, childrenAt (ST.CROSS, n) s = rep (mCross n) (pick (ST.CROSS, n) l)) :
    EBody [s] l where
  cpNames := childNames_single h1 (childNames_nodup _ _)
  crNames := childNames_single h2 (childNames_nodup _ _)
  cps n := by
    rw [pick_single (h3 n)]
    exact ECp.merged n (cpsOk_pick hok.1 n)
  crs n := by
    rw [pick_single (h4 n)]
    exact ELeaf.merged n (crossesOk_pick hok.2 n)

/-! ## Cover-instances -/

structure ECi (a b : List Scope) : Prop where
  head : a.head?.map (fun s => (s.src, s.weight)) = b.head?.map (fun s => (s.src, s.weight))
  body : EBody a b

theorem ECi.append {a a' b b' : List Scope} (h : ECi a a') (h' : ECi b b') :
    ECi (a ++ b) (a' ++ b') := ⟨head_append_congr h.head h'.head, h.body.append h'.body⟩

theorem ECi.refl (a : List Scope) : ECi a a := ⟨rfl, EBody.refl _⟩

theorem mCi_congr {a b : List Scope} (h : ECi a b) (n : String) : mCi n a = mCi n b := by
  have h1 := map_map_head (g := fun t => t.1) h.head
  have h2 := map_map_head (g := fun t => t.2) h.head
  simp only [mCi, headSrc, headWeight]
  rw [h1, h2, pCoverpoints_congr h.body, pCrosses_congr h.body]

theorem ECi.merged (n : String) {l : List Scope} (h : itemsOk l) : ECi (rep (mCi n) l) l := by
  by_cases hl : l = []
  · subst hl; exact ECi.refl _
  · rw [rep_of_ne hl]
    refine ⟨?_, EBody.ofMerged h (cps_mCi n l) (crs_mCi n l) (fun k => at_mCi_cp n k l)
      (fun k => at_mCi_cross n k l)⟩
    cases l with
    | nil => exact absurd rfl hl
    | cons c t => simp [mCi, mkCoverInst, headSrc, headWeight]

/-! ## Covergroups -/

structure ECg (a b : List Scope) : Prop where
  head : a.head?.map (fun s => (s.src, s.weight)) = b.head?.map (fun s => (s.src, s.weight))
  body : EBody a b
  ciNames : childNames ST.COVERINSTANCE a = childNames ST.COVERINSTANCE b
  cis : ∀ n, ECi (pick (ST.COVERINSTANCE, n) a) (pick (ST.COVERINSTANCE, n) b)

theorem ECg.append {a a' b b' : List Scope} (h : ECg a a') (h' : ECg b b') :
    ECg (a ++ b) (a' ++ b') where
  head := head_append_congr h.head h'.head
  body := h.body.append h'.body
  ciNames := childNames_append_congr h.ciNames h'.ciNames
  cis n := by rw [pick_append, pick_append]; exact (h.cis n).append (h'.cis n)

theorem ECg.refl (a : List Scope) : ECg a a := ⟨rfl, EBody.refl _, rfl, fun _ => ECi.refl _⟩

theorem mCg_congr {a b : List Scope} (h : ECg a b) (n : String) : mCg n a = mCg n b := by
  have h1 := map_map_head (g := fun t => t.1) h.head
  have h2 := map_map_head (g := fun t => t.2) h.head
  have h3 : pCoverinsts a = pCoverinsts b := by
    unfold pCoverinsts
    rw [h.ciNames]
    apply List.map_congr_left
    intro n _
    rw [pCoverinst_eq, pCoverinst_eq, mCi_congr (h.cis n)]
  simp only [mCg, headSrc, headWeight, pCovergroupBody]
  rw [h1, h2, pCoverpoints_congr h.body, pCrosses_congr h.body, h3]

theorem covergroupOk_congr {a b : List Scope} (h : ECg a b) : covergroupOk a ↔ covergroupOk b := by
  unfold covergroupOk coverinstsOk
  rw [itemsOk_congr h.body, h.ciNames]
  refine and_congr Iff.rfl (forall₂_congr fun n _ => ?_)
  rw [named_eq_pick (by decide), named_eq_pick (by decide)]
  exact itemsOk_congr (h.cis n).body

theorem itemsOk_nil : itemsOk [] := by
  constructor
  · intro k hk; simp [childNames] at hk
  · intro k hk; simp [childNames] at hk

theorem coverinstsOk_pick {l : List Scope} (h : coverinstsOk l) (n : String) :
    itemsOk (pick (ST.COVERINSTANCE, n) l) := by
  by_cases hn : n ∈ childNames ST.COVERINSTANCE l
  · have := h n hn
    rwa [named_eq_pick (by decide)] at this
  · rw [not_mem_names hn]; exact itemsOk_nil

theorem ECg.merged (n : String) {l : List Scope} (h : covergroupOk l) : ECg (rep (mCg n) l) l := by
  by_cases hl : l = []
  · subst hl; exact ECg.refl _
  · rw [rep_of_ne hl]
    refine ⟨?_, EBody.ofMerged h.1 (cps_mCg n l) (crs_mCg n l) (fun k => at_mCg_cp n k l)
      (fun k => at_mCg_cross n k l), childNames_single (cis_mCg n l) (childNames_nodup _ _), ?_⟩
    · cases l with
      | nil => exact absurd rfl hl
      | cons c t => simp [mCg, mkCovergroup, headSrc, headWeight]
    · intro k
      rw [pick_single (at_mCg_ci n k l)]
      exact ECi.merged k (coverinstsOk_pick h.2 k)

/-! ## Instances -/

structure EInst (a b : List Scope) : Prop where
  head : a.head?.map (fun s => (s.src, s.du)) = b.head?.map (fun s => (s.src, s.du))
  cgNames : childNames ST.COVERGROUP a = childNames ST.COVERGROUP b
  cgs : ∀ n, ECg (pick (ST.COVERGROUP, n) a) (pick (ST.COVERGROUP, n) b)

theorem EInst.append {a a' b b' : List Scope} (h : EInst a a') (h' : EInst b b') :
    EInst (a ++ b) (a' ++ b') where
  head := head_append_congr h.head h'.head
  cgNames := childNames_append_congr h.cgNames h'.cgNames
  cgs n := by rw [pick_append, pick_append]; exact (h.cgs n).append (h'.cgs n)

theorem EInst.refl (a : List Scope) : EInst a a := ⟨rfl, rfl, fun _ => ECg.refl _⟩

theorem headDu_congr {a b : List Scope} (h : EInst a b) : headDu a = headDu b := by
  have h3 := map_map_head (g := fun t => t.2) h.head
  unfold headDu
  cases ha : a.head? <;> cases hb : b.head? <;> simp_all

theorem pCovergroups_congr {a b : List Scope} (h : EInst a b) : pCovergroups a = pCovergroups b := by
  unfold pCovergroups
  rw [h.cgNames]
  apply List.map_congr_left
  intro n _
  rw [pCovergroup_eq, pCovergroup_eq, mCg_congr (h.cgs n)]

theorem mInst_congr {a b : List Scope} (h : EInst a b) (n : String) : mInst n a = mInst n b := by
  have h1 := map_map_head (g := fun t => t.1) h.head
  simp only [mInst, headSrc, headDu_congr h]
  rw [h1, pCovergroups_congr h]

theorem instOk_congr {a b : List Scope} (h : EInst a b) : instOk a ↔ instOk b := by
  unfold instOk covergroupsOk
  rw [h.cgNames]
  refine and_congr ?_ (forall₂_congr fun n _ => ?_)
  · have h3 := map_map_head (g := fun t => t.2) h.head
    cases ha : a.head? <;> cases hb : b.head? <;> simp_all
  · rw [named_eq_pick (by decide), named_eq_pick (by decide)]
    exact covergroupOk_congr (h.cgs n)

theorem covergroupOk_nil : covergroupOk [] :=
  ⟨itemsOk_nil, by intro k hk; simp [childNames] at hk⟩

theorem covergroupsOk_pick {l : List Scope} (h : covergroupsOk l) (n : String) :
    covergroupOk (pick (ST.COVERGROUP, n) l) := by
  by_cases hn : n ∈ childNames ST.COVERGROUP l
  · have := h n hn
    rwa [named_eq_pick (by decide)] at this
  · rw [not_mem_names hn]; exact covergroupOk_nil

theorem EInst.merged (n : String) {l : List Scope} (h : l ≠ [] → instOk l) :
    EInst (rep (mInst n) l) l := by
  by_cases hl : l = []
  · subst hl; exact EInst.refl _
  · rw [rep_of_ne hl]
    obtain ⟨⟨s, du, hs, hdu⟩, hcg⟩ := h hl
    refine ⟨?_, childNames_single (cgs_mInst n l) (childNames_nodup _ _), ?_⟩
    · simp [mInst, mkInstance, headSrc, headDu, hs, hdu]
    · intro k
      rw [pick_single (at_mInst_cg n k l)]
      exact ECg.merged k (covergroupsOk_pick hcg k)

/-! ## Databases -/

structure EDb (a b : List Scope) : Prop where
  names : childNames ST.INSTANCE a = childNames ST.INSTANCE b
  insts : ∀ n, EInst (pick (ST.INSTANCE, n) a) (pick (ST.INSTANCE, n) b)

theorem EDb.append {a a' b b' : List Scope} (h : EDb a a') (h' : EDb b b') :
    EDb (a ++ b) (a' ++ b') where
  names := childNames_append_congr h.names h'.names
  insts n := by rw [pick_append, pick_append]; exact (h.insts n).append (h'.insts n)

theorem EDb.refl (a : List Scope) : EDb a a := ⟨rfl, fun _ => EInst.refl _⟩

theorem pMerge_congr {a b : List Scope} (h : EDb a b) (dst : Scope) : pMerge dst a = pMerge dst b := by
  unfold pMerge
  rw [h.names]
  have : pInstance a = pInstance b := by
    funext n
    rw [pInstance_eq, pInstance_eq, headDu_congr (h.insts n), mInst_congr (h.insts n)]
  rw [this]

theorem mergeOk_congr {a b : List Scope} (h : EDb a b) : mergeOk a ↔ mergeOk b := by
  unfold mergeOk
  rw [h.names]
  refine forall₂_congr fun n _ => ?_
  rw [named_eq_pick (by decide), named_eq_pick (by decide)]
  exact instOk_congr (h.insts n)

theorem merge_congr {a b : List Scope} (h : EDb a b) (dst : Scope) : merge dst a = merge dst b := by
  by_cases hok : mergeOk a
  · rw [(merge_closed dst a).1 hok, (merge_closed dst b).1 ((mergeOk_congr h).1 hok),
      pMerge_congr h]
  · rw [(merge_closed dst a).2 hok,
      (merge_closed dst b).2 (fun h' => hok ((mergeOk_congr h).2 h'))]

theorem insts_pMerge (srcs : List Scope) (dst : Scope)
    (hdst : dst.scopes ST.INSTANCE = []) :
    ((pMerge dst srcs).scopes ST.INSTANCE).map (·.name) = childNames ST.INSTANCE srcs := by
  show ((dst.children ++ (childNames ST.INSTANCE srcs).flatMap (pInstance srcs)).filter _).map _ = _
  unfold Scope.scopes at hdst
  rw [List.filter_append, hdst, List.nil_append]
  induction childNames ST.INSTANCE srcs with
  | nil => rfl
  | cons a t ih =>
    rw [List.flatMap_cons, List.filter_append, List.map_append, ih, pInstance_eq]
    simp only [List.filter_cons]
    rw [show maskHit (mkDu (headDu (pick (ST.INSTANCE, a) srcs)).name
      (headDu (pick (ST.INSTANCE, a) srcs)).src (headDu (pick (ST.INSTANCE, a) srcs)).weight).stype
        ST.INSTANCE = false from hit_du_inst]
    rw [show maskHit (mInst a (pick (ST.INSTANCE, a) srcs)).stype ST.INSTANCE = true
      from hit_inst_inst]
    rfl

theorem childrenAt_of_scopes_nil {m : Nat} {n : String} {s : Scope} (h : s.scopes m = []) :
    childrenAt (m, n) s = [] := by
  rw [childrenAt_eq, h]; rfl

theorem EDb.merged {srcs : List Scope} {dst : Scope} (hdst : dst.scopes ST.INSTANCE = [])
    (h : mergeOk srcs) : EDb [pMerge dst srcs] srcs where
  names := childNames_single (insts_pMerge srcs dst hdst) (childNames_nodup _ _)
  insts n := by
    have : childrenAt (ST.INSTANCE, n) (pMerge dst srcs)
        = rep (mInst n) (pick (ST.INSTANCE, n) srcs) := by
      rw [childrenAt_pMerge, childrenAt_of_scopes_nil hdst, List.nil_append]
    rw [pick_single this]
    refine EInst.merged n (fun hne => ?_)
    have := h n ((mem_childNames _ _ _).2 hne)
    rwa [named_eq_pick (by decide)] at this

/-! ## The success condition along addresses -/

theorem itemsOk_iff (l : List Scope) : itemsOk l ↔
    (∀ n, allBinsOk (pick (ST.COVERPOINT, n) l)) ∧
    (∀ n, pick (ST.CROSS, n) l ≠ [] →
      crossOk (childNames ST.COVERPOINT l) (pick (ST.CROSS, n) l)) := by
  constructor
  · exact fun h => ⟨cpsOk_pick h.1, crossesOk_pick h.2⟩
  · rintro ⟨h1, h2⟩
    refine ⟨fun n _ => ?_, fun n hn => ?_⟩
    · rw [named_eq_pick (by decide)]; exact h1 n
    · rw [crossesNamed_eq_pick]; exact h2 n ((mem_childNames _ _ _).1 hn)

theorem pick_nil (st : Step) : pick st [] = [] := by unfold pick; split <;> rfl

theorem mergeOk_iff (srcs : List Scope) : mergeOk srcs ↔
    (∀ i s, (contrib [(ST.INSTANCE, i)] srcs).head? = some s → s.du.isSome) ∧
    ∀ p, GroupAddr p → itemsOk (contrib p srcs) := by
  have hinst : ∀ i, i ∈ childNames ST.INSTANCE srcs ↔ contrib [(ST.INSTANCE, i)] srcs ≠ [] :=
    fun i => mem_childNames _ _ _
  constructor
  · intro h
    have h' : ∀ i, contrib [(ST.INSTANCE, i)] srcs ≠ [] → instOk (contrib [(ST.INSTANCE, i)] srcs) := by
      intro i hi
      have := h i ((hinst i).2 hi)
      rwa [named_eq_pick (by decide)] at this
    have hcg : ∀ i g, covergroupOk (contrib [(ST.INSTANCE, i), (ST.COVERGROUP, g)] srcs) := by
      intro i g
      show covergroupOk (pick (ST.COVERGROUP, g) (contrib [(ST.INSTANCE, i)] srcs))
      by_cases hi : contrib [(ST.INSTANCE, i)] srcs = []
      · rw [hi, pick_nil]; exact covergroupOk_nil
      · exact covergroupsOk_pick (h' i hi).2 g
    refine ⟨fun i s hs => ?_, fun p hp => ?_⟩
    · have hi : contrib [(ST.INSTANCE, i)] srcs ≠ [] := by
        intro e; rw [e] at hs; cases hs
      obtain ⟨⟨s', du, hs', hdu⟩, _⟩ := h' i hi
      rw [hs] at hs'; cases hs'
      simp [hdu]
    · cases hp with
      | cg i g => exact (hcg i g).1
      | ci i g c => exact coverinstsOk_pick (hcg i g).2 c
  · rintro ⟨h1, h2⟩ i hi
    rw [named_eq_pick (by decide)]
    have hne := (hinst i).1 hi
    refine ⟨?_, fun g _ => ?_⟩
    · cases hs : (contrib [(ST.INSTANCE, i)] srcs).head? with
      | none => rw [List.head?_eq_none_iff] at hs; exact absurd hs hne
      | some s =>
        obtain ⟨du, hdu⟩ := Option.isSome_iff_exists.1 (h1 i s hs)
        exact ⟨s, du, hs, hdu⟩
    · rw [named_eq_pick (by decide)]
      refine ⟨h2 _ (.cg i g), fun c _ => ?_⟩
      rw [named_eq_pick (by decide)]
      exact h2 _ (.ci i g c)

theorem groupOk {srcs : List Scope} (h : mergeOk srcs) {p : Addr} (hp : GroupAddr p) :
    itemsOk (contrib p srcs) := ((mergeOk_iff srcs).1 h).2 p hp

theorem allBinsOk_nil : allBinsOk [] := by
  refine ⟨?_, ?_, ?_⟩ <;> intro b it hit <;> simp [kindItems, firstItem] at hit

theorem leafOk {srcs : List Scope} (h : mergeOk srcs) {p : Addr} (hp : LeafAddr p) :
    allBinsOk (contrib p srcs) := by
  cases hp with
  | cp hg n => rw [contrib_snoc]; exact ((itemsOk_iff _).1 (groupOk h hg)).1 n
  | @cross q hg n =>
    rw [contrib_snoc]
    by_cases hne : pick (ST.CROSS, n) (contrib q srcs) = []
    · rw [hne]; exact allBinsOk_nil
    · exact (((itemsOk_iff _).1 (groupOk h hg)).2 n hne).2

end Merge
end Verif
