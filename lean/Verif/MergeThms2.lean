import Verif.MergeThms
/-!
# Properties C10 - C13 and C15: bin kinds, errors, crosses, same-named siblings, consistency
-/

namespace Verif
open Spec Merge

/-! ## C10 -/

mutual
/-- The database without the cover items that fail a test. -/
def Spec.keepItems (q : Item → Bool) : Scope → Scope
  | ⟨ty, n, src, w, du, cps, ch, it⟩ => ⟨ty, n, src, w, du, cps, keepItemsL q ch, it.filter q⟩
termination_by structural s => s
def Spec.keepItemsL (q : Item → Bool) : List Scope → List Scope
  | [] => []
  | s :: t => keepItems q s :: keepItemsL q t
termination_by structural l => l
end

theorem keepItemsL_eq (q : Item → Bool) (l : List Scope) : keepItemsL q l = l.map (keepItems q) := by
  induction l with
  | nil => rfl
  | cons a t ih => simp [keepItemsL, ih]

theorem keepItems_children (q : Item → Bool) (s : Scope) :
    (keepItems q s).children = s.children.map (keepItems q) := by
  cases s; exact keepItemsL_eq q _
theorem keepItems_items (q : Item → Bool) (s : Scope) : (keepItems q s).items = s.items.filter q := by
  cases s; rfl
theorem keepItems_stype (q : Item → Bool) (s : Scope) : (keepItems q s).stype = s.stype := by
  cases s; rfl
theorem keepItems_name (q : Item → Bool) (s : Scope) : (keepItems q s).name = s.name := by
  cases s; rfl

theorem childrenAt_keep (q : Item → Bool) (st : Step) (s : Scope) :
    childrenAt st (keepItems q s) = (childrenAt st s).map (keepItems q) := by
  unfold childrenAt
  rw [keepItems_children, List.filter_map]
  simp only [Function.comp_def, keepItems_stype, keepItems_name]

theorem pick_keep (q : Item → Bool) (st : Step) (l : List Scope) :
    pick st (l.map (keepItems q)) = (pick st l).map (keepItems q) := by
  unfold pick
  split
  · rw [List.flatMap_map, List.map_flatMap]
    congr 1
    funext s
    exact childrenAt_keep q st s
  · rw [List.filterMap_map, List.map_filterMap]
    congr 1
    funext s
    simp [childrenAt_keep]

theorem contrib_keep (q : Item → Bool) (p : Addr) (l : List Scope) :
    contrib p (l.map (keepItems q)) = (contrib p l).map (keepItems q) := by
  induction p generalizing l with
  | nil => rfl
  | cons st p ih =>
    show contrib p (pick st (l.map (keepItems q))) = _
    rw [pick_keep, ih]; rfl

theorem itemsOf_keep (q : Item → Bool) {k : Nat} (hq : ∀ i : Item, maskHit i.kind k = true → q i = true)
    (b : String) (l : List Scope) : itemsOf k b (l.map (keepItems q)) = itemsOf k b l := by
  unfold itemsOf
  rw [List.flatMap_map]
  congr 1
  funext s
  rw [keepItems_items, List.filter_filter]
  apply List.filter_congr
  intro i _
  by_cases h : maskHit i.kind k = true
  · simp [h, hq i h]
  · simp [h]

/-- **C10** If two lists of inputs become equal when all bins that are not of kind `k` are removed,
then their merges contain exactly the same bins of kind `k`, even where bins of different kinds
share names. -/
theorem C10_kinds_kept_apart {srcs srcs' : List Scope} {out out' : Scope}
    {k : Nat} (hk : IsKind k)
    (hsame : srcs.map (keepItems (fun i => maskHit i.kind k))
      = srcs'.map (keepItems (fun i => maskHit i.kind k)))
    (h : merge emptyDb srcs = .ok out) (h' : merge emptyDb srcs' = .ok out')
    {p : Addr} (hp : LeafAddr p) (b : String) :
    binsAt p k b out = binsAt p k b out' := by
  obtain ⟨_, rfl⟩ := Merge.merge_ok h
  obtain ⟨_, rfl⟩ := Merge.merge_ok h'
  have key : itemsOf k b (contrib p srcs) = itemsOf k b (contrib p srcs') := by
    rw [← itemsOf_keep (fun i => maskHit i.kind k) (fun _ h => h) b (contrib p srcs),
      ← itemsOf_keep (fun i => maskHit i.kind k) (fun _ h => h) b (contrib p srcs'),
      ← contrib_keep, ← contrib_keep, hsame]
  rw [binsAt_merge hp hk, binsAt_merge hp hk, key]

/-- **C10** Every merged bin has exactly one of the three kinds. -/
theorem C10_single_kind {srcs : List Scope} {out : Scope} (h : merge emptyDb srcs = .ok out)
    {p : Addr} (hp : LeafAddr p) {c : Scope} (hc : c ∈ reach p out) :
    ∀ it ∈ c.items, IsKind it.kind := by
  obtain ⟨_, rfl⟩ := Merge.merge_ok h
  obtain ⟨f, hi, _, _, hr⟩ := leaf_items hp emptyDb srcs
  rw [hr, reach_emptyDb hp.ne_nil, List.nil_append] at hc
  obtain ⟨rfl, _⟩ := head_of_rep hc
  rw [hi]
  intro it hit
  simp only [pBins, pBinsOfKind, List.mem_append, List.mem_map] at hit
  rcases hit with (⟨_, _, rfl⟩ | ⟨_, _, rfl⟩) | ⟨_, _, rfl⟩ <;> simp [IsKind, pBin, mkBin]

/-- The ignore and illegal bins of the samples have the name of an ordinary bin. -/
def Ex.dbA' : Scope := keepItems (fun i => maskHit i.kind CT.CVGBIN) Ex.dbA

example : (∃ o, merge emptyDb [Ex.dbA'] = .ok o) ∧ (∃ o, merge emptyDb [Ex.dbA] = .ok o) ∧
    [Ex.dbA'].map (keepItems (fun i => maskHit i.kind CT.CVGBIN))
      = [Ex.dbA].map (keepItems (fun i => maskHit i.kind CT.CVGBIN)) ∧
    total Ex.pCp CT.IGNOREBIN "a" Ex.dbA = 7 ∧ total Ex.pCp CT.IGNOREBIN "a" Ex.dbA' = 0 :=
  ⟨⟨_, rfl⟩, ⟨_, rfl⟩, rfl, by decide, by decide⟩

/-! ## C11 -/

/-- What makes a list of inputs impossible to merge. -/
def Spec.Unresolvable (srcs : List Scope) : Prop :=
  -- (a) an instance without design unit in its first input
  (∃ i s, (contrib [(ST.INSTANCE, i)] srcs).head? = some s ∧ s.du = none) ∨
  -- (b) a cross whose first occurrence names a coverpoint that exists nowhere in that group
  (∃ p, GroupAddr p ∧ ∃ x c, (contrib (p ++ [(ST.CROSS, x)]) srcs).head? = some c ∧
    (c.cps = none ∨ ∃ cps n, c.cps = some cps ∧ n ∈ cps ∧
      contrib (p ++ [(ST.COVERPOINT, n)]) srcs = [])) ∨
  -- (c) a bin whose first occurrence has no threshold
  (∃ p, LeafAddr p ∧ ∃ k, IsKind k ∧ ∃ b it,
    (itemsOf k b (contrib p srcs)).head? = some it ∧ it.atLeast = none)

theorem allBinsOk_iff (l : List Scope) : allBinsOk l ↔
    ∀ k, IsKind k → ∀ b it, (itemsOf k b l).head? = some it → it.atLeast.isSome := by
  constructor
  · intro h k hk b it hit
    exact kindOk h hk b it (by rw [firstItem_kind]; exact hit)
  · intro h
    refine ⟨?_, ?_, ?_⟩ <;> intro b it hit <;> rw [firstItem_kind] at hit
    · exact h _ (Or.inl rfl) b it hit
    · exact h _ (Or.inr (Or.inl rfl)) b it hit
    · exact h _ (Or.inr (Or.inr rfl)) b it hit

theorem mergeOk_iff_resolvable (srcs : List Scope) : mergeOk srcs ↔ ¬ Unresolvable srcs := by
  constructor
  · rintro hok (⟨i, s, hs, hdu⟩ | ⟨p, hp, x, c, hc, hbad⟩ | ⟨p, hp, k, hk, b, it, hit, hno⟩)
    · have := ((mergeOk_iff srcs).1 hok).1 i s hs
      rw [hdu] at this; cases this
    · have hne : pick (ST.CROSS, x) (contrib p srcs) ≠ [] := by
        intro e; rw [contrib_snoc, e] at hc; cases hc
      obtain ⟨⟨c', cps, hc', hcps, hin⟩, _⟩ := ((itemsOk_iff _).1 (groupOk hok hp)).2 x hne
      rw [contrib_snoc, hc'] at hc; cases hc
      rcases hbad with hbad | ⟨cps', n, h1, h2, h3⟩
      · rw [hcps] at hbad; cases hbad
      · rw [hcps] at h1; cases h1
        have := (mem_childNames _ _ _).1 (hin n h2)
        rw [contrib_snoc] at h3
        exact this h3
    · have := (allBinsOk_iff _).1 (leafOk hok hp) k hk b it hit
      rw [hno] at this; cases this
  · intro h
    unfold Unresolvable at h
    rw [not_or, not_or] at h
    obtain ⟨ha, hb, hc⟩ := h
    have hbins : ∀ {p}, LeafAddr p → allBinsOk (contrib p srcs) := by
      intro p hp
      rw [allBinsOk_iff]
      intro k hk b it hit
      by_contra hno
      exact hc ⟨p, hp, k, hk, b, it, hit, by simpa using hno⟩
    rw [mergeOk_iff]
    refine ⟨fun i s hs => ?_, fun p hp => ?_⟩
    · by_contra hno
      exact ha ⟨i, s, hs, by simpa using hno⟩
    · rw [itemsOk_iff]
      refine ⟨fun n => ?_, fun x hne => ?_⟩
      · have := hbins (.cp hp n); rwa [contrib_snoc] at this
      · have h1 := hbins (.cross hp x)
        rw [contrib_snoc] at h1
        refine ⟨?_, h1⟩
        cases hh : (pick (ST.CROSS, x) (contrib p srcs)).head? with
        | none => rw [List.head?_eq_none_iff] at hh; exact absurd hh hne
        | some c =>
          have hnb : ¬ (c.cps = none ∨ ∃ cps n, c.cps = some cps ∧ n ∈ cps ∧
              contrib (p ++ [(ST.COVERPOINT, n)]) srcs = []) :=
            fun hbad => hb ⟨p, hp, x, c, by rw [contrib_snoc]; exact hh, hbad⟩
          rw [not_or] at hnb
          cases hcps : c.cps with
          | none => exact absurd hcps hnb.1
          | some cps =>
            refine ⟨c, cps, rfl, hcps, fun n hn => ?_⟩
            rw [mem_childNames]
            intro e
            exact hnb.2 ⟨cps, n, hcps, hn, by rw [contrib_snoc]; exact e⟩

/-- **C11** Merging raises exactly on unresolvable inputs, for every list of inputs; the exception
is then an `AttributeError`. -/
theorem C11_merge_fails_iff (dst : Scope) (srcs : List Scope) :
    (merge dst srcs = .error .attributeError ↔ Unresolvable srcs) ∧
    ((∃ out, merge dst srcs = .ok out) ↔ ¬ Unresolvable srcs) := by
  rw [← mergeOk_iff_resolvable]
  have hcl := merge_closed dst srcs
  by_cases hok : mergeOk srcs
  · have h1 := (mergeOk_iff_resolvable srcs).1 hok
    rw [hcl.1 hok]
    simp [hok, h1]
  · have h1 : Unresolvable srcs := by
      by_contra h; exact hok ((mergeOk_iff_resolvable srcs).2 h)
    rw [hcl.2 hok]
    simp [hok, h1]

/-- A cross over a coverpoint that does not exist. -/
def Ex.dbBadCross : Scope := { emptyDb with children :=
  [mkInstance "i" SrcInfo.none 1 (some Ex.du)
    [mkCovergroup "cg" SrcInfo.none 1 [Ex.cpA, Ex.crA]]] }

/-- Merged with a database that has the coverpoint, the same cross is resolvable. -/
example : merge emptyDb [Ex.dbBadCross] = .error .attributeError ∧
    (∃ o, merge emptyDb [Ex.dbBadCross, Ex.dbA] = .ok o) := ⟨rfl, _, rfl⟩

example : Unresolvable [Ex.dbBadCross] ∧ ¬ Unresolvable [Ex.dbA, Ex.dbB] :=
  ⟨((C11_merge_fails_iff emptyDb _).1).1 rfl, ((C11_merge_fails_iff emptyDb _).2).1 ⟨_, rfl⟩⟩

/-! ## C12 (value level; object identity is in `StoreMerge`) -/

/-- **C12** Every cross of a merged database lists only coverpoints of its own merged group, and it
lists those that the first input lists, in the same order. -/
theorem C12_cross_refs {out : Scope} {srcs : List Scope}
    (h : merge emptyDb srcs = .ok out) {p : Addr} (hp : GroupAddr p) (x : String) {c : Scope}
    (hc : c ∈ reach (p ++ [(ST.CROSS, x)]) out) :
    ∃ cps first, (contrib (p ++ [(ST.CROSS, x)]) srcs).head? = some first ∧
      first.cps = some cps ∧ c.cps = some cps ∧
      ∀ n ∈ cps, ∃ cp, reach (p ++ [(ST.COVERPOINT, n)]) out = [cp] ∧ cp.name = n := by
  obtain ⟨hok, rfl⟩ := Merge.merge_ok h
  rw [reach_cross hp, reach_emptyDb (by simp), List.nil_append] at hc
  obtain ⟨rfl, first, hf⟩ := head_of_rep hc
  have hne : pick (ST.CROSS, x) (contrib p srcs) ≠ [] := by
    intro e; rw [contrib_snoc, e] at hf; cases hf
  obtain ⟨⟨first', cps, hf', hcps, hin⟩, _⟩ := ((itemsOk_iff _).1 (groupOk hok hp)).2 x hne
  rw [contrib_snoc] at hf
  rw [hf] at hf'; cases hf'
  refine ⟨cps, first, by rw [contrib_snoc]; exact hf, hcps, ?_, ?_⟩
  · simp [mCross, mkCross, headCps, contrib_snoc, hf, hcps]
  · intro n hn
    have hne := (mem_childNames _ _ _).1 (hin n hn)
    rw [reach_cp hp, reach_emptyDb (by simp), List.nil_append, contrib_snoc, rep_of_ne hne]
    exact ⟨_, rfl, rfl⟩

example : (reach Ex.pCr Ex.out).map (·.cps) = [some ["cp", "q"]] ∧
    (reach Ex.pCp Ex.out).length = 1 := by decide

/-! ## C13 -/

/-- The full statement of **C13**: the counts of all same-named siblings contribute. -/
def Spec.AllSiblingsContribute : Prop :=
  ∀ (srcs : List Scope) (out : Scope), merge emptyDb srcs = .ok out →
    ∀ p, LeafAddr p → ∀ k, IsKind k → ∀ b,
      total p k b out = (srcs.map (total p k b)).sum

/-- **C13** is false: of two same-named coverpoints only the later one contributes. -/
theorem C13_same_named_siblings_refuted : ¬ AllSiblingsContribute := by
  intro h
  have := h [Ex.dbDup] _ rfl Ex.pCp Ex.leaf_pCp CT.CVGBIN (Or.inl rfl) "a"
  revert this
  decide

/-- What holds instead of **C13** for arbitrary inputs: the merged count is the sum over the
contributing scopes, which are, at each step of the address, the *last* sibling of that name of each
scope (all siblings in the case of crosses). Missing compared to the full statement: the earlier
same-named instances, covergroups, cover-instances and coverpoints of one input. -/
theorem C13_same_named_siblings_partial {out : Scope} {srcs : List Scope}
    (h : merge emptyDb srcs = .ok out)
    {p : Addr} (hp : LeafAddr p) {k : Nat} (hk : IsKind k) (b : String) :
    total p k b out = sumCounts (itemsOf k b (contrib p srcs)) := by
  rw [total_merge h hp hk, total_emptyDb hp]; simp

/-- Same-named crosses of one group do all contribute. -/
example : ∃ out, merge emptyDb [Ex.dbDup] = .ok out ∧ total Ex.pCr CT.CVGBIN "x" out = 11 ∧
    total Ex.pCp CT.CVGBIN "a" out = 0 ∧ total Ex.pCp CT.CVGBIN "a" Ex.dbDup = 2 :=
  ⟨_, rfl, by decide, by decide, by decide⟩

/-! ## C15 -/

/-- Sum over all cover-instances of a covergroup of the count of a coverpoint bin. -/
def Spec.instTotal (i g n : String) (k : Nat) (b : String) (db : Scope) : Int :=
  (((reach [(ST.INSTANCE, i), (ST.COVERGROUP, g)] db).flatMap
    (fun cg => cg.children.filter (fun c => maskHit c.stype ST.COVERINSTANCE))).map
      (total [(ST.COVERPOINT, n)] k b)).sum

/-- Type coverage of coverpoints equals the sum over the cover-instances, for covergroups that have
the bin in some cover-instance or at type level alike. -/
def Spec.Consistent (db : Scope) : Prop :=
  ∀ i g n k b, IsKind k →
    total [(ST.INSTANCE, i), (ST.COVERGROUP, g), (ST.COVERPOINT, n)] k b db = instTotal i g n k b db

/-- Splitting a sum by names. -/
theorem sum_by_name (l : List Scope) (f : Scope → Int) (names : List String) (hn : names.Nodup)
    (hsub : ∀ s ∈ l, s.name ∈ names) :
    (l.map f).sum = (names.map (fun n => ((l.filter (fun s => s.name = n)).map f).sum)).sum := by
  induction l with
  | nil => simp
  | cons a t ih =>
    rw [List.map_cons, List.sum_cons, ih (fun s hs => hsub s (by simp [hs]))]
    have : ∀ n, ((((a :: t).filter (fun s => s.name = n)).map f).sum)
        = (if a.name = n then f a else 0) + (((t.filter (fun s => s.name = n)).map f).sum) := by
      intro n
      by_cases h : a.name = n <;> simp [h]
    simp only [this]
    rw [List.sum_map_add]
    congr 1
    have ha := hsub a (by simp)
    clear ih this hsub
    induction names with
    | nil => cases ha
    | cons x xs ihx =>
      rw [List.nodup_cons] at hn
      by_cases hx : a.name = x
      · have : ∀ y ∈ xs, (if a.name = y then f a else 0) = 0 := by
          intro y hy
          rw [if_neg]
          rintro rfl
          exact hn.1 (hx ▸ hy)
        have hz : (xs.map (fun y => if a.name = y then f a else 0)).sum = 0 := by
          rw [List.map_congr_left this]; simp
        simp [hx]
        rw [← hx]
        exact hz
      · have : a.name ∈ xs := by
          rcases List.mem_cons.1 ha with h | h
          · exact absurd h hx
          · exact h
        simp only [List.map_cons, List.sum_cons, hx, if_false, Int.zero_add]
        exact ihx hn.2 this

theorem total_append (p q : Addr) (k : Nat) (b : String) (db : Scope) :
    total (p ++ q) k b db = ((reach p db).map (total q k b)).sum := by
  unfold total binsAt itemsOf
  rw [reach_append, List.flatMap_assoc, sumCounts_flatMap]

theorem instTotal_eq (i g n : String) (k : Nat) (b : String) (db : Scope) (names : List String)
    (hn : names.Nodup)
    (hsub : ∀ cg ∈ reach [(ST.INSTANCE, i), (ST.COVERGROUP, g)] db,
      ∀ c ∈ cg.children.filter (fun c => maskHit c.stype ST.COVERINSTANCE), c.name ∈ names) :
    instTotal i g n k b db = (names.map (fun c =>
      total [(ST.INSTANCE, i), (ST.COVERGROUP, g), (ST.COVERINSTANCE, c), (ST.COVERPOINT, n)] k b db)).sum := by
  unfold instTotal
  rw [sum_by_name _ _ names hn]
  · congr 1
    apply List.map_congr_left
    intro c _
    rw [show [(ST.INSTANCE, i), (ST.COVERGROUP, g), (ST.COVERINSTANCE, c), (ST.COVERPOINT, n)]
      = ([(ST.INSTANCE, i), (ST.COVERGROUP, g)] ++ [(ST.COVERINSTANCE, c)]) ++ [(ST.COVERPOINT, n)] from rfl,
      total_append, reach_snoc]
    congr 2
    rw [List.filter_flatMap]
    congr 1
    funext cg
    rw [childrenAt_eq]; rfl
  · intro s hs
    obtain ⟨cg, hcg, hs⟩ := List.mem_flatMap.1 hs
    exact hsub cg hcg s hs

/-- **C15** If in every input the type-level counts of coverpoints are the sums over the
cover-instances, then so they are in the merged database. -/
theorem C15_consistency_preserved {out : Scope} {srcs : List Scope}
    (hu : ∀ s ∈ srcs, UniqueNames s) (h : merge emptyDb srcs = .ok out)
    (hc : ∀ s ∈ srcs, Consistent s) : Consistent out := by
  intro i g n k b hk
  have hleaf : LeafAddr [(ST.INSTANCE, i), (ST.COVERGROUP, g), (ST.COVERPOINT, n)] :=
    LeafAddr.cp (GroupAddr.cg i g) n
  have hleaf' : ∀ c, LeafAddr [(ST.INSTANCE, i), (ST.COVERGROUP, g), (ST.COVERINSTANCE, c), (ST.COVERPOINT, n)] :=
    fun c => LeafAddr.cp (GroupAddr.ci i g c) n
  rw [C01_merge_conserves_counts hu h hleaf hk]
  -- all cover-instance names that occur anywhere
  let names := firstSeen ((out :: srcs).flatMap (fun db =>
    (reach [(ST.INSTANCE, i), (ST.COVERGROUP, g)] db).flatMap (fun cg =>
      (cg.children.filter (fun c => maskHit c.stype ST.COVERINSTANCE)).map (·.name))))
  have hnd : names.Nodup := firstSeen_nodup _
  have hsub : ∀ db ∈ out :: srcs, ∀ cg ∈ reach [(ST.INSTANCE, i), (ST.COVERGROUP, g)] db,
      ∀ c ∈ cg.children.filter (fun c => maskHit c.stype ST.COVERINSTANCE), c.name ∈ names := by
    intro db hdb cg hcg c hc
    rw [mem_firstSeen]
    exact List.mem_flatMap.2 ⟨db, hdb, List.mem_flatMap.2 ⟨cg, hcg, List.mem_map.2 ⟨c, hc, rfl⟩⟩⟩
  rw [instTotal_eq i g n k b out names hnd (hsub out (by simp))]
  have h1 : srcs.map (total [(ST.INSTANCE, i), (ST.COVERGROUP, g), (ST.COVERPOINT, n)] k b)
      = srcs.map (fun s => (names.map (fun c => total [(ST.INSTANCE, i), (ST.COVERGROUP, g),
          (ST.COVERINSTANCE, c), (ST.COVERPOINT, n)] k b s)).sum) := by
    apply List.map_congr_left
    intro s hs
    rw [hc s hs i g n k b hk, instTotal_eq i g n k b s names hnd (hsub s (by simp [hs]))]
  rw [h1]
  have h2 : names.map (fun c => total [(ST.INSTANCE, i), (ST.COVERGROUP, g), (ST.COVERINSTANCE, c),
        (ST.COVERPOINT, n)] k b out)
      = names.map (fun c => (srcs.map (total [(ST.INSTANCE, i), (ST.COVERGROUP, g),
          (ST.COVERINSTANCE, c), (ST.COVERPOINT, n)] k b)).sum) := by
    apply List.map_congr_left
    intro c _
    exact C01_merge_conserves_counts hu h (hleaf' c) hk b
  rw [h2]
  -- exchange the two sums
  clear h1 h2 hsub hc h hu
  clear hnd
  generalize names = ns
  clear names
  induction srcs with
  | nil => simp
  | cons s t ih => simp only [List.map_cons, List.sum_cons, List.sum_map_add, ih]

/-- A consistent database with two cover-instances. -/
def Ex.dbC : Scope := { emptyDb with children :=
  [mkInstance "i" SrcInfo.none 1 (some Ex.du)
    [mkCovergroup "cg" SrcInfo.none 1
      [mkCoverpoint "cp" SrcInfo.none 1 [mkBin "a" CT.CVGBIN 1 5],
       mkCoverInst "c1" SrcInfo.none 1 [mkCoverpoint "cp" SrcInfo.none 1 [mkBin "a" CT.CVGBIN 1 2]],
       mkCoverInst "c2" SrcInfo.none 1 [mkCoverpoint "cp" SrcInfo.none 1 [mkBin "a" CT.CVGBIN 1 3]]]]] }

theorem Ex.consistent_dbC : Consistent Ex.dbC := by
  intro i g n k b hk
  have e1 : maskHit CT.CVGBIN CT.IGNOREBIN = false := by decide
  have e2 : maskHit CT.CVGBIN CT.ILLEGALBIN = false := by decide
  have e3 : maskHit CT.CVGBIN CT.CVGBIN = true := by decide
  by_cases h1 : "i" = i <;> by_cases h2 : "cg" = g <;> by_cases h3 : "cp" = n <;>
    by_cases h4 : "a" = b <;> rcases hk with rfl | rfl | rfl <;>
    simp [h1, h2, h3, h4, hit_inst_inst, hit_cg_cg, hit_cp_cp, hit_ci_ci, hit_cp_ci, hit_ci_cp, mkBin,
      sumCounts, instTotal, total, binsAt, itemsOf, reach, childrenAt, Ex.dbC, emptyDb, mkInstance,
      mkCovergroup, mkCoverpoint, mkCoverInst, e1, e2, e3]

example : ∃ out, merge emptyDb [Ex.dbC, Ex.dbC] = .ok out ∧ UniqueNames Ex.dbC ∧ Consistent Ex.dbC ∧
    total Ex.pCp CT.CVGBIN "a" out = 10 :=
  ⟨_, rfl, by decide, Ex.consistent_dbC, by decide⟩

end Verif
