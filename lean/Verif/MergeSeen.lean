import Verif.MergeThms2
import Verif.ReportSpec
/-!
# What merging looks at, and the number of hits (C124)

No new code.  `seenDb` reduces a database to what the merger reads; `hits` adds up all counts of a database, wherever they are.
-/

namespace Verif
namespace Spec

/-! ## What merging looks at -/

/-- The type bits of a scope. -/
def hasType (m : Nat) (c : Scope) : Bool := maskHit c.stype m

/-- Ordinary, ignore and illegal bins. -/
def seenItem (i : Item) : Bool := maskHit i.kind CT.CVGBIN || maskHit i.kind CT.IGNOREBIN || maskHit i.kind CT.ILLEGALBIN

/-- A coverpoint or cross: its bins. -/
def seenLeaf (c : Scope) : Scope := { c with children := [], items := c.items.filter seenItem }

/-- A child of a covergroup: if it is a coverpoint or cross, its bins; if it is a cover-instance, its coverpoints and crosses. -/
def seenPart (c : Scope) : Scope :=
  { c with
    items := if hasType ST.COVERPOINT c || hasType ST.CROSS c then c.items.filter seenItem else []
    children := if hasType ST.COVERINSTANCE c then (c.children.filter (fun x => hasType ST.COVERPOINT x || hasType ST.CROSS x)).map seenLeaf else [] }

/-- A covergroup: coverpoints, crosses and cover-instances. -/
def seenGroup (g : Scope) : Scope :=
  { g with
    items := []
    children := (g.children.filter (fun x => hasType ST.COVERPOINT x || hasType ST.CROSS x || hasType ST.COVERINSTANCE x)).map seenPart }

/-- An instance: its covergroups, not its weight, and no other instances in it. -/
def seenInst (i : Scope) : Scope := { i with weight := 0, items := [], children := (i.children.filter (hasType ST.COVERGROUP)).map seenGroup }

/-- A database: its instances. -/
def seenDb (db : Scope) : Scope := { emptyDb with children := (db.children.filter (hasType ST.INSTANCE)).map seenInst }

/-! ## Hits -/

/-- The sum of all counts below a scope, wherever the bins are. -/
def hits (db : Scope) : Int := sumCounts ((subtrees db).flatMap (·.items))

/-- The counts of ordinary, ignore and illegal bins of a coverpoint or cross. -/
def binHits (c : Scope) : Int :=
  sumCounts (itemsOfKind CT.CVGBIN c) + sumCounts (itemsOfKind CT.IGNOREBIN c) + sumCounts (itemsOfKind CT.ILLEGALBIN c)

/-- The counts in the coverpoints and crosses of a covergroup or cover-instance. -/
def partHits (g : Scope) : Int := ((kids ST.COVERPOINT g).map binHits).sum + ((kids ST.CROSS g).map binHits).sum

/-- The counts in a covergroup and its cover-instances. -/
def groupHits (g : Scope) : Int := partHits g + ((kids ST.COVERINSTANCE g).map partHits).sum

/-- The counts in the covergroups of the instances of a database: those that merging looks at. -/
def seenHits (db : Scope) : Int := ((kids ST.INSTANCE db).map (fun i => ((kids ST.COVERGROUP i).map groupHits).sum)).sum

end Spec

namespace Merge
open Spec

/-! ## Only what is looked at matters -/

/-- `f` prepares the children of type `m`. -/
def Prepares (m : Nat) (f g : Scope → Scope) : Prop := ∀ s, (g s).scopes m = (s.scopes m).map f

theorem childNames_prepared {m : Nat} {f g : Scope → Scope} (h : Prepares m f g) (hn : ∀ s, (f s).name = s.name) (l : List Scope) :
    childNames m (l.map g) = childNames m l := by
  unfold childNames
  rw [List.flatMap_map]
  congr 1
  refine List.flatMap_congr (fun s _ => ?_)
  rw [h, List.map_map]
  exact List.map_congr_left (fun c _ => hn c)

theorem named_prepared {m : Nat} {f g : Scope → Scope} (h : Prepares m f g) (hn : ∀ s, (f s).name = s.name) (l : List Scope) (k : String) :
    named m (l.map g) k = (named m l k).map f := by
  unfold named
  rw [List.filterMap_map, List.map_filterMap]
  refine List.filterMap_congr (fun s _ => ?_)
  simp only [Function.comp, lastNamed]
  rw [h, List.filter_map, List.getLast?_map]
  simp only [Function.comp_def, hn]

theorem crossesNamed_prepared {f g : Scope → Scope} (h : Prepares ST.CROSS f g) (hn : ∀ s, (f s).name = s.name) (l : List Scope) (k : String) :
    crossesNamed (l.map g) k = (crossesNamed l k).map f := by
  unfold crossesNamed
  rw [List.flatMap_map, List.map_flatMap]
  refine List.flatMap_congr (fun s _ => ?_)
  rw [h, List.filter_map]
  simp only [Function.comp_def, hn]

/-- `f` keeps what the merger reads of a coverpoint or cross. -/
structure KeepsLeaf (f : Scope → Scope) : Prop where
  name : ∀ s, (f s).name = s.name
  src : ∀ s, (f s).src = s.src
  weight : ∀ s, (f s).weight = s.weight
  cps : ∀ s, (f s).cps = s.cps

/-- `f` keeps the bins of `s`. -/
def KeepsBins (f : Scope → Scope) (s : Scope) : Prop := ∀ k, IsKind k → (f s).coverItems k = s.coverItems k

theorem kindItems_map {f : Scope → Scope} {l : List Scope} (h : ∀ s ∈ l, KeepsBins f s) {k : Nat} (hk : IsKind k) : kindItems (l.map f) k = kindItems l k := by
  unfold kindItems
  rw [List.flatMap_map]
  exact List.flatMap_congr (fun s hs => h s hs k hk)

theorem pBins_map {f : Scope → Scope} {l : List Scope} (h : ∀ s ∈ l, KeepsBins f s) : pBins (l.map f) = pBins l ∧ (allBinsOk (l.map f) ↔ allBinsOk l) := by
  unfold pBins allBinsOk
  rw [kindItems_map h (.inl rfl), kindItems_map h (.inr (.inl rfl)), kindItems_map h (.inr (.inr rfl))]
  exact ⟨rfl, Iff.rfl⟩

theorem headSrc_map {f : Scope → Scope} (h : ∀ s, (f s).src = s.src) (l : List Scope) : headSrc (l.map f) = headSrc l := by
  unfold headSrc
  cases l with
  | nil => rfl
  | cons a t => simp [h]

theorem headWeight_map {f : Scope → Scope} (h : ∀ s, (f s).weight = s.weight) (l : List Scope) : headWeight (l.map f) = headWeight l := by
  unfold headWeight
  cases l with
  | nil => rfl
  | cons a t => simp [h]

theorem headCps_map {f : Scope → Scope} (h : ∀ s, (f s).cps = s.cps) (l : List Scope) : headCps (l.map f) = headCps l := by
  unfold headCps
  cases l with
  | nil => rfl
  | cons a t => simp [h]

theorem named_kid {m : Nat} {l : List Scope} {k : String} {c : Scope} (h : c ∈ named m l k) : ∃ s ∈ l, c ∈ s.scopes m := by
  obtain ⟨s, hs, hc⟩ := List.mem_filterMap.1 h
  exact ⟨s, hs, (List.mem_filter.1 (List.mem_of_getLast? hc)).1⟩

theorem crossesNamed_kid {l : List Scope} {k : String} {c : Scope} (h : c ∈ crossesNamed l k) : ∃ s ∈ l, c ∈ s.scopes ST.CROSS := by
  obtain ⟨s, hs, hc⟩ := List.mem_flatMap.1 h
  exact ⟨s, hs, (List.mem_filter.1 hc).1⟩

/-- Coverpoints and crosses of groups. -/
theorem parts_map {f g : Scope → Scope} (h1 : Prepares ST.COVERPOINT f g) (h2 : Prepares ST.CROSS f g) (hf : KeepsLeaf f)
    (hb : ∀ s c : Scope, c ∈ s.scopes ST.COVERPOINT ∨ c ∈ s.scopes ST.CROSS → KeepsBins f c) (l : List Scope) :
    pCoverpoints (l.map g) = pCoverpoints l ∧ pCrosses (l.map g) = pCrosses l ∧ (itemsOk (l.map g) ↔ itemsOk l) := by
  have e1 := childNames_prepared h1 hf.name l
  have e2 := childNames_prepared h2 hf.name l
  have b1 : ∀ k, ∀ c ∈ named ST.COVERPOINT l k, KeepsBins f c := fun k c hc => by
    obtain ⟨s, _, h⟩ := named_kid hc
    exact hb s c (.inl h)
  have b2 : ∀ k, ∀ c ∈ crossesNamed l k, KeepsBins f c := fun k c hc => by
    obtain ⟨s, _, h⟩ := crossesNamed_kid hc
    exact hb s c (.inr h)
  refine ⟨?_, ?_, ?_⟩
  · unfold pCoverpoints
    rw [e1]
    refine List.map_congr_left (fun k _ => ?_)
    simp only [pCoverpoint]
    rw [named_prepared h1 hf.name, headSrc_map hf.src, headWeight_map hf.weight, (pBins_map (b1 k)).1]
  · unfold pCrosses
    rw [e2]
    refine List.map_congr_left (fun k _ => ?_)
    simp only [pCross]
    rw [crossesNamed_prepared h2 hf.name, headSrc_map hf.src, headWeight_map hf.weight, headCps_map hf.cps, (pBins_map (b2 k)).1]
  · unfold itemsOk cpsOk crossesOk
    rw [e1, e2]
    refine and_congr (forall₂_congr (fun k _ => ?_)) (forall₂_congr (fun k _ => ?_))
    · rw [named_prepared h1 hf.name]
      exact (pBins_map (b1 k)).2
    · rw [crossesNamed_prepared h2 hf.name]
      unfold crossOk
      rw [(pBins_map (b2 k)).2]
      refine and_congr_left (fun _ => ?_)
      cases crossesNamed l k with
      | nil => simp
      | cons a t => simp [hf.cps]

theorem scopes_filter_map {m : Nat} {s : Scope} {q : Scope → Bool} {f : Scope → Scope} (hq : ∀ c, hasType m c = true → q c = true)
    (hf : ∀ c, (f c).stype = c.stype) {ty n src w du cps it} :
    (⟨ty, n, src, w, du, cps, (s.children.filter q).map f, it⟩ : Scope).scopes m = (s.scopes m).map f := by
  unfold Scope.scopes
  simp only
  rw [List.filter_map, List.filter_filter]
  congr 1
  refine List.filter_congr (fun c _ => ?_)
  simp only [Function.comp, hf]
  cases h : maskHit c.stype m with
  | false => rfl
  | true => simpa using hq c h

theorem items_filter {k : Nat} (hk : IsKind k) (l : List Item) : (l.filter seenItem).filter (fun i => maskHit i.kind k) = l.filter (fun i => maskHit i.kind k) := by
  rw [List.filter_filter]
  refine List.filter_congr (fun i _ => ?_)
  cases h : maskHit i.kind k with
  | false => rfl
  | true =>
    rcases hk with rfl | rfl | rfl <;> simp [seenItem, h]

theorem keeps_seenLeaf : KeepsLeaf seenLeaf := ⟨fun _ => rfl, fun _ => rfl, fun _ => rfl, fun _ => rfl⟩
theorem keeps_seenPart : KeepsLeaf seenPart := ⟨fun _ => rfl, fun _ => rfl, fun _ => rfl, fun _ => rfl⟩

theorem bins_seenLeaf (s : Scope) : KeepsBins seenLeaf s := fun _ hk => items_filter hk s.items

theorem bins_seenPart {s c : Scope} (h : c ∈ s.scopes ST.COVERPOINT ∨ c ∈ s.scopes ST.CROSS) : KeepsBins seenPart c := by
  intro k hk
  have hc : (hasType ST.COVERPOINT c || hasType ST.CROSS c) = true := by
    rcases h with h | h
    · rw [show hasType ST.COVERPOINT c = true from (List.mem_filter.1 h).2]; rfl
    · rw [show hasType ST.CROSS c = true from (List.mem_filter.1 h).2]; simp
  unfold Scope.coverItems seenPart
  simp only [hc, if_true]
  exact items_filter hk c.items

theorem group_map (l : List Scope) : pCovergroupBody (l.map seenGroup) = pCovergroupBody l ∧ (covergroupOk (l.map seenGroup) ↔ covergroupOk l) := by
  have h1 : Prepares ST.COVERPOINT seenPart seenGroup := fun s => scopes_filter_map (f := seenPart) (s := s) (fun c h => by simp [h]) (fun _ => rfl)
  have h2 : Prepares ST.CROSS seenPart seenGroup := fun s => scopes_filter_map (f := seenPart) (s := s) (fun c h => by simp [h]) (fun _ => rfl)
  have h3 : Prepares ST.COVERINSTANCE seenPart seenGroup := fun s => scopes_filter_map (f := seenPart) (s := s) (fun c h => by simp [h]) (fun _ => rfl)
  obtain ⟨a1, a2, a3⟩ := parts_map h1 h2 keeps_seenPart (fun s c h => bins_seenPart h) l
  -- the cover-instances
  have hci : ∀ k, pCoverinst (l.map seenGroup) k = pCoverinst l k ∧ (itemsOk (named ST.COVERINSTANCE (l.map seenGroup) k) ↔ itemsOk (named ST.COVERINSTANCE l k)) := by
    intro k
    have hty : ∀ c ∈ named ST.COVERINSTANCE l k, hasType ST.COVERINSTANCE c = true := fun c hc => by
      obtain ⟨s, _, h⟩ := named_kid hc
      exact (List.mem_filter.1 h).2
    -- on cover-instances `seenPart` is a reduction to coverpoints and crosses
    let ci : Scope → Scope := fun c =>
      { c with items := (seenPart c).items, children := (c.children.filter (fun x => hasType ST.COVERPOINT x || hasType ST.CROSS x)).map seenLeaf }
    have e : (named ST.COVERINSTANCE l k).map seenPart = (named ST.COVERINSTANCE l k).map ci := by
      refine List.map_congr_left (fun c hc => ?_)
      simp only [seenPart, ci, hty c hc, if_true]
    have p1 : Prepares ST.COVERPOINT seenLeaf ci := fun s => scopes_filter_map (f := seenLeaf) (s := s) (fun c h => by simp [h]) (fun _ => rfl)
    have p2 : Prepares ST.CROSS seenLeaf ci := fun s => scopes_filter_map (f := seenLeaf) (s := s) (fun c h => by simp [h]) (fun _ => rfl)
    obtain ⟨b1, b2, b3⟩ := parts_map p1 p2 keeps_seenLeaf (fun s c _ => bins_seenLeaf c) (named ST.COVERINSTANCE l k)
    rw [named_prepared h3 keeps_seenPart.name, e]
    refine ⟨?_, b3⟩
    simp only [pCoverinst]
    rw [named_prepared h3 keeps_seenPart.name, headSrc_map keeps_seenPart.src, headWeight_map keeps_seenPart.weight, e, b1, b2]
  have e3 := childNames_prepared h3 keeps_seenPart.name l
  constructor
  · unfold pCovergroupBody pCoverinsts
    rw [a1, a2, e3]
    congr 1
    exact List.map_congr_left (fun k _ => (hci k).1)
  · unfold covergroupOk coverinstsOk
    rw [a3, e3]
    exact and_congr_right (fun _ => forall₂_congr (fun k _ => (hci k).2))

theorem groups_map (l : List Scope) : pCovergroups (l.map seenInst) = pCovergroups l ∧ (covergroupsOk (l.map seenInst) ↔ covergroupsOk l) := by
  have h : Prepares ST.COVERGROUP seenGroup seenInst := fun s => scopes_filter_map (f := seenGroup) (s := s) (fun _ h => h) (fun _ => rfl)
  have e := childNames_prepared h (fun _ => rfl) l
  unfold pCovergroups covergroupsOk
  rw [e]
  constructor
  · refine List.map_congr_left (fun k _ => ?_)
    simp only [pCovergroup]
    rw [named_prepared h (fun _ => rfl), headSrc_map (f := seenGroup) (fun _ => rfl), headWeight_map (f := seenGroup) (fun _ => rfl), (group_map _).1]
  · refine forall₂_congr (fun k _ => ?_)
    rw [named_prepared h (fun _ => rfl)]
    exact (group_map _).2

/-- **C124.** Merging looks at the covergroups of the instances directly in a database, their coverpoints and crosses and those of their cover-instances,
and the ordinary, ignore and illegal bins of these, and at nothing else: reduced to that, all inputs give the same outcome. -/
theorem C124_looks (dst : Scope) (srcs : List Scope) : merge dst (srcs.map seenDb) = merge dst srcs := by
  have h : Prepares ST.INSTANCE seenInst seenDb := fun s => scopes_filter_map (f := seenInst) (s := s) (fun _ h => h) (fun _ => rfl)
  have e := childNames_prepared h (fun _ => rfl) srcs
  have hok : mergeOk (srcs.map seenDb) ↔ mergeOk srcs := by
    unfold mergeOk
    rw [e]
    refine forall₂_congr (fun k _ => ?_)
    rw [named_prepared h (fun _ => rfl)]
    unfold instOk
    rw [(groups_map _).2]
    refine and_congr_left (fun _ => ?_)
    cases named ST.INSTANCE srcs k with
    | nil => simp
    | cons a t => simp [seenInst]
  have hp : pMerge dst (srcs.map seenDb) = pMerge dst srcs := by
    unfold pMerge
    rw [e]
    congr 2
    refine List.flatMap_congr (fun k _ => ?_)
    simp only [pInstance]
    rw [named_prepared h (fun _ => rfl), headSrc_map (f := seenInst) (fun _ => rfl), (groups_map _).1]
    have hd : headDu ((named ST.INSTANCE srcs k).map seenInst) = headDu (named ST.INSTANCE srcs k) := by
      unfold headDu
      cases named ST.INSTANCE srcs k with
      | nil => rfl
      | cons a t => simp [seenInst]
    rw [hd]
  by_cases hm : mergeOk srcs
  · rw [(merge_closed _ _).1 (hok.2 hm), (merge_closed _ _).1 hm, hp]
  · rw [(merge_closed _ _).2 (fun h => hm (hok.1 h)), (merge_closed _ _).2 hm]

/-- **C124.** Databases without instances, such as a new one, make no difference. -/
theorem C124_empty (dst : Scope) (a b : List Scope) {s : Scope} (h : ∀ c ∈ s.children, hasType ST.INSTANCE c = false) :
    merge dst (a ++ s :: b) = merge dst (a ++ b) := by
  have hs : s.scopes ST.INSTANCE = [] := by
    unfold Scope.scopes
    rw [List.filter_eq_nil_iff]
    intro c hc
    have := h c hc
    simp only [hasType] at this
    simp [this]
  have e : childNames ST.INSTANCE (a ++ s :: b) = childNames ST.INSTANCE (a ++ b) := by simp [childNames, hs]
  have n : ∀ k, named ST.INSTANCE (a ++ s :: b) k = named ST.INSTANCE (a ++ b) k := by intro k; simp [named, hs, lastNamed]
  have hok : mergeOk (a ++ s :: b) ↔ mergeOk (a ++ b) := by
    unfold mergeOk
    rw [e]
    exact forall₂_congr (fun k _ => by rw [n])
  have hp : pMerge dst (a ++ s :: b) = pMerge dst (a ++ b) := by
    unfold pMerge
    rw [e]
    congr 2
    exact List.flatMap_congr (fun k _ => by simp only [pInstance]; rw [n])
  by_cases hm : mergeOk (a ++ b)
  · rw [(merge_closed _ _).1 (hok.2 hm), (merge_closed _ _).1 hm, hp]
  · rw [(merge_closed _ _).2 (fun h => hm (hok.1 h)), (merge_closed _ _).2 hm]

/-! ## The number of hits -/

/-- Grouping by a key only changes the order. -/
theorem groups_perm {α : Type} (key : α → String) (l : List α) :
    ((firstSeen (l.map key)).flatMap (fun k => l.filter (fun a => decide (key a = k)))).Perm l := by
  have h : ∀ (ks : List String), ks.Nodup → ∀ l : List α, (∀ a ∈ l, key a ∈ ks) → (ks.flatMap (fun k => l.filter (fun a => decide (key a = k)))).Perm l := by
    intro ks
    induction ks with
    | nil =>
      intro _ l hl
      cases l with
      | nil => exact List.Perm.refl _
      | cons a t => exact absurd (hl a (by simp)) (by simp)
    | cons k t ih =>
      intro hn l hl
      rw [List.flatMap_cons]
      have h1 := ih (List.nodup_cons.1 hn).2 (l.filter (fun a => !decide (key a = k))) (by
        intro a ha
        obtain ⟨h2, h3⟩ := List.mem_filter.1 ha
        rcases List.mem_cons.1 (hl a h2) with h4 | h4
        · simp [h4] at h3
        · exact h4)
      have h2 : t.flatMap (fun k' => (l.filter (fun a => !decide (key a = k))).filter (fun a => decide (key a = k'))) =
          t.flatMap (fun k' => l.filter (fun a => decide (key a = k'))) := by
        refine List.flatMap_congr (fun k' hk' => ?_)
        rw [List.filter_filter]
        refine List.filter_congr (fun a _ => ?_)
        by_cases e : key a = k'
        · have : k' ≠ k := by rintro rfl; exact (List.nodup_cons.1 hn).1 hk'
          simp [e, this]
        · simp [e]
      rw [h2] at h1
      exact (List.Perm.append_left _ h1).trans (List.filter_append_perm _ l)
  exact h _ (firstSeen_nodup _) l (fun a ha => mem_firstSeen.2 (List.mem_map.2 ⟨a, ha, rfl⟩))

theorem sum_flatMap_int {α : Type} (g : α → List Int) (l : List α) : (l.flatMap g).sum = (l.map (fun a => (g a).sum)).sum := by
  induction l with
  | nil => rfl
  | cons a t ih => rw [List.flatMap_cons, List.sum_append, ih, List.map_cons, List.sum_cons]

theorem sum_groups {α : Type} (key : α → String) (f : α → Int) (l : List α) :
    ((firstSeen (l.map key)).map (fun k => ((l.filter (fun a => decide (key a = k))).map f).sum)).sum = (l.map f).sum := by
  rw [← ((groups_perm key l).map f).sum_eq, List.map_flatMap, sum_flatMap_int]

theorem sum_flatMap_map {α β : Type} (g : α → List β) (f : β → Int) (l : List α) : ((l.flatMap g).map f).sum = (l.map (fun a => ((g a).map f).sum)).sum := by
  rw [List.map_flatMap, sum_flatMap_int]

theorem childNames_eq (m : Nat) (l : List Scope) : childNames m l = firstSeen ((l.flatMap (kids m)).map (·.name)) := by
  unfold childNames
  rw [List.map_flatMap]
  rfl

/-- Same-named children of a type do not occur. -/
def DistinctKids (m : Nat) (s : Scope) : Prop := ((kids m s).map (·.name)).Nodup

theorem named_eq_filter {m : Nat} {l : List Scope} (h : ∀ s ∈ l, DistinctKids m s) (k : String) :
    named m l k = (l.flatMap (kids m)).filter (fun c => decide (c.name = k)) := by
  unfold named
  induction l with
  | nil => rfl
  | cons s t ih =>
    rw [List.filterMap_cons, List.flatMap_cons, List.filter_append, ← ih (fun x hx => h x (by simp [hx]))]
    have h1 : (((kids m s).filter (fun c => decide (c.name = k))).map (·.name)).Nodup :=
      List.Nodup.sublist ((List.filter_sublist).map _) (h s (by simp))
    have h2 : ∀ c ∈ (kids m s).filter (fun c => decide (c.name = k)), c.name = k := fun c hc => by simpa using (List.mem_filter.1 hc).2
    unfold lastNamed
    rw [show s.scopes m = kids m s from rfl]
    generalize (kids m s).filter (fun c => decide (c.name = k)) = r at h1 h2 ⊢
    match r, h1, h2 with
    | [], _, _ => rfl
    | [a], _, _ => rfl
    | a :: b :: r, h1, h2 =>
      rw [List.map_cons, List.map_cons, h2 a (by simp), h2 b (by simp)] at h1
      exact absurd (List.nodup_cons.1 h1).1 (by simp)

/-- Summing over the names of all children is summing over the children. -/
theorem sum_named {m : Nat} {l : List Scope} (h : ∀ s ∈ l, DistinctKids m s) (f : Scope → Int) :
    ((childNames m l).map (fun k => ((named m l k).map f).sum)).sum = (l.map (fun s => ((kids m s).map f).sum)).sum := by
  rw [childNames_eq, ← sum_flatMap_map (kids m)]
  rw [show (fun k => ((named m l k).map f).sum) = fun k => (((l.flatMap (kids m)).filter (fun c => decide (c.name = k))).map f).sum from
    funext (fun k => by rw [named_eq_filter h])]
  exact sum_groups _ f _

theorem sum_crosses (l : List Scope) (f : Scope → Int) :
    ((childNames ST.CROSS l).map (fun k => ((crossesNamed l k).map f).sum)).sum = (l.map (fun s => ((kids ST.CROSS s).map f).sum)).sum := by
  rw [childNames_eq, ← sum_flatMap_map (kids ST.CROSS), ← sum_groups (·.name) f]
  have h : ∀ k, crossesNamed l k = (l.flatMap (kids ST.CROSS)).filter (fun c => decide (c.name = k)) := by
    intro k
    unfold crossesNamed
    rw [List.filter_flatMap]
    rfl
  rw [show crossesNamed l = fun k => (l.flatMap (kids ST.CROSS)).filter (fun c => decide (c.name = k)) from funext h]

theorem hits_eq (s : Scope) : hits s = sumCounts s.items + (s.children.map hits).sum := by
  have h : ∀ l : List Scope, sumCounts ((subtreesL l).flatMap (·.items)) = (l.map hits).sum := by
    intro l
    induction l with
    | nil => rfl
    | cons a t ih =>
      rw [subtreesL, List.flatMap_append, List.map_cons, List.sum_cons, ← ih]
      simp [sumCounts, hits]
  rw [← h, hits, subtrees_eq, List.flatMap_cons]
  simp [sumCounts]

theorem sum_pBinsOfKind (items : List Item) (kind : Nat) : sumCounts (pBinsOfKind items kind) = sumCounts items := by
  unfold pBinsOfKind sumCounts
  rw [List.map_map, ← sum_groups (·.name) (·.count) items]
  rfl

theorem sum_pBins (l : List Scope) : sumCounts (pBins l) = (l.map binHits).sum := by
  have h : ∀ k, sumCounts (kindItems l k) = (l.map (fun c => sumCounts (itemsOfKind k c))).sum := by
    intro k
    unfold kindItems sumCounts
    rw [sum_flatMap_map]
    rfl
  have h2 : sumCounts (pBins l) = sumCounts (kindItems l CT.CVGBIN) + sumCounts (kindItems l CT.IGNOREBIN) + sumCounts (kindItems l CT.ILLEGALBIN) := by
    unfold pBins
    rw [← sum_pBinsOfKind (kindItems l CT.CVGBIN) CT.CVGBIN, ← sum_pBinsOfKind (kindItems l CT.IGNOREBIN) CT.IGNOREBIN,
      ← sum_pBinsOfKind (kindItems l CT.ILLEGALBIN) CT.ILLEGALBIN]
    simp [sumCounts, add_assoc]
  rw [h2, h, h, h]
  unfold binHits
  rw [List.sum_map_add, List.sum_map_add]

theorem hits_leaf {s : Scope} (h : s.children = []) : hits s = sumCounts s.items := by rw [hits_eq, h]; simp

theorem hits_parts {l : List Scope} (h : ∀ s ∈ l, DistinctKids ST.COVERPOINT s) :
    ((pCoverpoints l).map hits).sum + ((pCrosses l).map hits).sum = (l.map partHits).sum := by
  unfold pCoverpoints pCrosses partHits
  rw [List.map_map, List.map_map, List.sum_map_add, ← sum_named h, ← sum_crosses]
  congr 2
  · refine List.map_congr_left (fun k _ => ?_)
    rw [Function.comp, hits_leaf (by rfl), ← sum_pBins]
    rfl
  · refine List.map_congr_left (fun k _ => ?_)
    rw [Function.comp, hits_leaf (by rfl), ← sum_pBins]
    rfl

/-- What is needed of a covergroup. -/
def DistinctGroup (g : Scope) : Prop :=
  DistinctKids ST.COVERPOINT g ∧ DistinctKids ST.COVERINSTANCE g ∧ ∀ c ∈ kids ST.COVERINSTANCE g, DistinctKids ST.COVERPOINT c

theorem hits_group {l : List Scope} (h : ∀ g ∈ l, DistinctGroup g) : ((pCovergroupBody l).map hits).sum = (l.map groupHits).sum := by
  unfold pCovergroupBody groupHits
  rw [List.map_append, List.map_append, List.sum_append, List.sum_append, hits_parts (fun s hs => (h s hs).1), List.sum_map_add,
    ← sum_named (fun s hs => (h s hs).2.1)]
  congr 1
  unfold pCoverinsts
  rw [List.map_map]
  congr 1
  refine List.map_congr_left (fun k _ => ?_)
  rw [Function.comp, hits_eq, ← hits_parts]
  · simp [pCoverinst, mkCoverInst, sumCounts]
  · intro s hs
    obtain ⟨g, hg, h1⟩ := named_kid hs
    exact (h g hg).2.2 s h1

theorem hits_groups {l : List Scope} (h : ∀ i ∈ l, DistinctKids ST.COVERGROUP i ∧ ∀ g ∈ kids ST.COVERGROUP i, DistinctGroup g) :
    ((pCovergroups l).map hits).sum = (l.map (fun i => ((kids ST.COVERGROUP i).map groupHits).sum)).sum := by
  rw [← sum_named (fun s hs => (h s hs).1)]
  unfold pCovergroups
  rw [List.map_map]
  congr 1
  refine List.map_congr_left (fun k _ => ?_)
  rw [Function.comp, hits_eq, ← hits_group]
  · simp [pCovergroup, mkCovergroup, sumCounts]
  · intro g hg
    obtain ⟨i, hi, h1⟩ := named_kid hg
    exact (h i hi).2 g h1

theorem unique_distinct {s t : Scope} (h : UniqueNames s) (ht : t ∈ subtrees s) {m : Nat} (hm : m ∈ [ST.INSTANCE, ST.COVERGROUP, ST.COVERINSTANCE, ST.COVERPOINT]) :
    DistinctKids m t := h t ht m hm

theorem kid_subtree {m : Nat} {c s : Scope} (hc : c ∈ kids m s) {x : Scope} (hx : x ∈ subtrees c) : x ∈ subtrees s :=
  mem_subtrees_child (List.mem_filter.1 hc).1 hx

/-- **C124**, what holds: the number of hits in the destination grows by those of the inputs that merging looks at, if no siblings have the same name.
Missing: hits elsewhere in the inputs are lost (`C124_refuted`). -/
theorem C124_hits_partial {dst : Scope} {srcs : List Scope} (hu : ∀ s ∈ srcs, UniqueNames s) {out : Scope} (h : merge dst srcs = .ok out) :
    hits out = hits dst + (srcs.map seenHits).sum := by
  obtain ⟨_, rfl⟩ := merge_ok h
  have hd : ∀ s ∈ srcs, DistinctKids ST.INSTANCE s := fun s hs => unique_distinct (hu s hs) (mem_subtrees_self s) (by simp)
  rw [hits_eq, hits_eq dst]
  unfold pMerge seenHits
  simp only
  rw [List.map_append, List.sum_append, ← add_assoc, ← sum_named hd]
  congr 1
  rw [sum_flatMap_map]
  congr 1
  refine List.map_congr_left (fun k _ => ?_)
  rw [← hits_groups]
  · have h1 : hits (mkDu (headDu (named ST.INSTANCE srcs k)).name (headDu (named ST.INSTANCE srcs k)).src (headDu (named ST.INSTANCE srcs k)).weight) = 0 := by
      rw [hits_leaf (by rfl)]; rfl
    simp only [pInstance, List.map_cons, List.map_nil, List.sum_cons, List.sum_nil, h1]
    rw [hits_eq]
    simp [mkInstance, sumCounts]
  · intro i hi
    obtain ⟨s, hs, h1⟩ := named_kid hi
    have hi' : ∀ x ∈ subtrees i, x ∈ subtrees s := fun x hx => kid_subtree h1 hx
    refine ⟨unique_distinct (hu s hs) (hi' i (mem_subtrees_self i)) (by simp), fun g hg => ?_⟩
    have hg' : ∀ x ∈ subtrees g, x ∈ subtrees s := fun x hx => hi' x (kid_subtree hg hx)
    refine ⟨unique_distinct (hu s hs) (hg' g (mem_subtrees_self g)) (by simp), unique_distinct (hu s hs) (hg' g (mem_subtrees_self g)) (by simp), fun c hc => ?_⟩
    exact unique_distinct (hu s hs) (hg' c (kid_subtree hc (mem_subtrees_self c))) (by simp)

end Merge
end Verif
