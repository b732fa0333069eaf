import Verif.XmlThms5
import Verif.XsdThms2
import Verif.MergeThms3
/-!
# Merging databases that came from files, and writing the result

Shared facts for C79 - C82: which databases can be merged and then stored as XML, and that merging keeps
this condition.
-/

namespace Verif
open Merge

namespace Spec

/-- Crosses refer to coverpoints of the same group and every bin has a threshold. -/
structure Linked (c : Scope) : Prop where
  crosses : ∀ x ∈ kids ST.CROSS c, ∃ l, x.cps = some l ∧ ∀ n ∈ l, n ∈ (kids ST.COVERPOINT c).map (·.name)
  points : ∀ x ∈ kids ST.COVERPOINT c, ∀ b ∈ covBins x, b.atLeast ≠ none
  bins : ∀ x ∈ kids ST.CROSS c, ∀ b ∈ covBins x, b.atLeast ≠ none

/-- A group that XML can hold: representable names, at least one coverpoint, each coverpoint with a bin, counts not
negative; crossed coverpoints have a non-empty name that is still found without surrounding blanks. -/
structure Storable (c : Scope) : Prop where
  name : Printable c.name
  some : kids ST.COVERPOINT c ≠ []
  points : ∀ p ∈ kids ST.COVERPOINT c, Printable p.name ∧ covBins p ≠ [] ∧
    ∀ b ∈ covBins p, Printable b.name ∧ IsKind b.kind ∧ 0 ≤ b.count
  crosses : ∀ x ∈ kids ST.CROSS c, Printable x.name ∧ (∀ b ∈ covBins x, Printable b.name ∧ 0 ≤ b.count) ∧
    ∀ n ∈ x.cps.getD [], Printable n ∧ n ≠ "" ∧ String.ofList (PyNum.stripL n.toList) ∈ (kids ST.COVERPOINT c).map (·.name)

/-- A covergroup that can be merged and stored. -/
structure TidyGroup (g : Scope) : Prop where
  name : Printable g.name
  linked : ∀ c ∈ g :: kids ST.COVERINSTANCE g, Linked c
  stored : ∀ c ∈ writtenGroups g, Storable c

/-- The file names of a scope and of the design unit it refers to are representable. -/
def TidyFile (s : Scope) : Prop := OptPrintable s.src.file ∧ ∀ d, s.du = some d → OptPrintable d.src.file

/-- A database that can be merged: every instance has a design unit, and groups are linked. -/
def Mergeable (r : Scope) : Prop := ∀ i ∈ kids ST.INSTANCE r, i.du ≠ none ∧
  ∀ g ∈ kids ST.COVERGROUP i, ∀ c ∈ g :: kids ST.COVERINSTANCE g, Linked c

/-- A database that can be merged and stored. -/
structure Tidy (r : Scope) : Prop where
  insts : ∀ i ∈ kids ST.INSTANCE r, Printable i.name ∧ i.du ≠ none ∧ ∀ g ∈ kids ST.COVERGROUP i, TidyGroup g
  files : ∀ s ∈ subtreesL r.children, TidyFile s

end Spec
open Spec

/-! ## Contributing scopes -/

theorem mem_childrenAt {m : Nat} {n : String} {s c : Scope} : c ∈ childrenAt (m, n) s ↔ c ∈ kids m s ∧ c.name = n := by
  simp [childrenAt, kids, and_assoc]

theorem mem_pick {m : Nat} {n : String} {l : List Scope} {c : Scope} (h : c ∈ pick (m, n) l) :
    ∃ s ∈ l, c ∈ kids m s ∧ c.name = n := by
  unfold pick at h
  split at h
  · obtain ⟨s, hs, hc⟩ := List.mem_flatMap.1 h
    exact ⟨s, hs, mem_childrenAt.1 hc⟩
  · obtain ⟨s, hs, hc⟩ := List.mem_filterMap.1 h
    exact ⟨s, hs, mem_childrenAt.1 (List.mem_of_getLast? hc)⟩

theorem pick_of_kid {m : Nat} {l : List Scope} {s c : Scope} (hs : s ∈ l) (hc : c ∈ kids m s) : pick (m, c.name) l ≠ [] := by
  rw [pick_ne_nil]
  exact ⟨s, hs, List.ne_nil_of_mem (mem_childrenAt.2 ⟨hc, rfl⟩)⟩

theorem childName_iff {m : Nat} {n : String} {l : List Scope} : n ∈ childNames m l ↔ ∃ s ∈ l, n ∈ (kids m s).map (·.name) := by
  rw [mem_childNames]
  constructor
  · intro h
    obtain ⟨c, hc⟩ := List.exists_mem_of_ne_nil _ h
    obtain ⟨s, hs, h1, h2⟩ := mem_pick hc
    exact ⟨s, hs, List.mem_map.2 ⟨c, h1, h2⟩⟩
  · rintro ⟨s, hs, h⟩
    obtain ⟨c, hc, rfl⟩ := List.mem_map.1 h
    exact pick_of_kid hs hc

/-! ## Bins of a merged coverpoint or cross -/

theorem kind_hit {k : Nat} (hk : IsKind k) {i : Item} (h : maskHit i.kind k = true) {s : Scope} (hi : i ∈ s.items) : i ∈ covBins s := by
  unfold covBins
  rw [List.mem_filter]
  refine ⟨hi, ?_⟩
  rcases hk with rfl | rfl | rfl <;> simp [h]

theorem mem_kindItems {l : List Scope} {k : Nat} (hk : IsKind k) {i : Item} (h : i ∈ kindItems l k) :
    ∃ s ∈ l, i ∈ covBins s := by
  obtain ⟨s, hs, hi⟩ := List.mem_flatMap.1 h
  unfold Scope.coverItems at hi
  obtain ⟨h1, h2⟩ := List.mem_filter.1 hi
  exact ⟨s, hs, kind_hit hk h2 h1⟩

theorem mem_pBinsOfKind {l : List Scope} {k : Nat} (hk : IsKind k) {b : Item} (h : b ∈ pBinsOfKind (kindItems l k) k) :
    b.kind = k ∧ b.atLeast ≠ none ∧ (∃ s ∈ l, ∃ i ∈ covBins s, i.name = b.name) ∧
      ((∀ s ∈ l, ∀ i ∈ covBins s, 0 ≤ i.count) → 0 ≤ b.count) := by
  obtain ⟨n, hn, rfl⟩ := List.mem_map.1 h
  rw [mem_firstSeen] at hn
  obtain ⟨i, hi, rfl⟩ := List.mem_map.1 hn
  refine ⟨rfl, by simp [pBin, mkBin], ?_, fun hc => ?_⟩
  · obtain ⟨s, hs, hi⟩ := mem_kindItems hk hi
    exact ⟨s, hs, i, hi, rfl⟩
  · show 0 ≤ sumNamed _ _
    unfold sumNamed
    apply List.sum_nonneg
    intro z hz
    obtain ⟨j, hj, rfl⟩ := List.mem_map.1 hz
    obtain ⟨s, hs, hj⟩ := mem_kindItems hk (List.mem_filter.1 hj).1
    exact hc s hs j hj

theorem mem_pBins {l : List Scope} {b : Item} (h : b ∈ pBins l) :
    IsKind b.kind ∧ b.atLeast ≠ none ∧ (∃ s ∈ l, ∃ i ∈ covBins s, i.name = b.name) ∧
      ((∀ s ∈ l, ∀ i ∈ covBins s, 0 ≤ i.count) → 0 ≤ b.count) := by
  unfold pBins at h
  rw [List.mem_append, List.mem_append] at h
  rcases h with (h | h) | h
  · obtain ⟨h1, h2⟩ := mem_pBinsOfKind (.inl rfl) h; exact ⟨.inl h1, h2⟩
  · obtain ⟨h1, h2⟩ := mem_pBinsOfKind (.inr (.inl rfl)) h; exact ⟨.inr (.inl h1), h2⟩
  · obtain ⟨h1, h2⟩ := mem_pBinsOfKind (.inr (.inr rfl)) h; exact ⟨.inr (.inr h1), h2⟩

theorem pBinsOfKind_ne {l : List Scope} {k : Nat} {s : Scope} (hs : s ∈ l) {i : Item} (hi : i ∈ s.items)
    (h : maskHit i.kind k = true) : pBinsOfKind (kindItems l k) k ≠ [] := by
  have : i.name ∈ firstSeen ((kindItems l k).map (·.name)) := by
    rw [mem_firstSeen]
    refine List.mem_map_of_mem (List.mem_flatMap.2 ⟨s, hs, ?_⟩)
    exact List.mem_filter.2 ⟨hi, h⟩
  exact List.ne_nil_of_mem (List.mem_map_of_mem this)

theorem pBins_ne {l : List Scope} {s : Scope} (hs : s ∈ l) (h : covBins s ≠ []) : pBins l ≠ [] := by
  obtain ⟨i, hi⟩ := List.exists_mem_of_ne_nil _ h
  obtain ⟨h1, h2⟩ := List.mem_filter.1 hi
  unfold pBins
  simp only [Bool.or_eq_true] at h2
  rcases h2 with (h2 | h2) | h2
  · have := pBinsOfKind_ne hs h1 h2; simp [this]
  · have := pBinsOfKind_ne hs h1 h2; simp [this]
  · have := pBinsOfKind_ne hs h1 h2; simp [this]

theorem covBins_mCp (n : String) (l : List Scope) : covBins (mCp n l) = pBins l :=
  Xml.covBins_all (s := mCp n l) (fun _ hb => (mem_pBins hb).1)
theorem covBins_mCross (n : String) (l : List Scope) : covBins (mCross n l) = pBins l :=
  Xml.covBins_all (s := mCross n l) (fun _ hb => (mem_pBins hb).1)

/-! ## Children of the merged scopes -/

theorem filter_map_hit {m : Nat} {xs : List String} {f : String → Scope} (ht : ∀ k, maskHit (f k).stype m = true) :
    (xs.map f).filter (fun c => maskHit c.stype m) = xs.map f := by
  rw [List.filter_eq_self]
  intro c hc
  obtain ⟨k, _, rfl⟩ := List.mem_map.1 hc
  exact ht k
theorem filter_map_miss {m : Nat} {xs : List String} {f : String → Scope} (ht : ∀ k, maskHit (f k).stype m = false) :
    (xs.map f).filter (fun c => maskHit c.stype m) = [] := by
  rw [List.filter_eq_nil_iff]
  intro c hc
  obtain ⟨k, _, rfl⟩ := List.mem_map.1 hc
  simp [ht k]

theorem kids_mCi_cp (n : String) (l : List Scope) : kids ST.COVERPOINT (mCi n l) = pCoverpoints l := by
  show (pCoverpoints l ++ pCrosses l).filter _ = _
  rw [List.filter_append, pCoverpoints, filter_map_hit (fun _ => hit_cp_cp), pCrosses, filter_map_miss (fun _ => hit_cross_cp), List.append_nil]
theorem kids_mCi_cross (n : String) (l : List Scope) : kids ST.CROSS (mCi n l) = pCrosses l := by
  show (pCoverpoints l ++ pCrosses l).filter _ = _
  rw [List.filter_append, pCoverpoints, filter_map_miss (fun _ => hit_cp_cross), pCrosses, filter_map_hit (fun _ => hit_cross_cross), List.nil_append]
theorem kids_mCg_cp (n : String) (l : List Scope) : kids ST.COVERPOINT (mCg n l) = pCoverpoints l := by
  show (pCoverpoints l ++ pCrosses l ++ pCoverinsts l).filter _ = _
  rw [List.filter_append, List.filter_append, pCoverpoints, filter_map_hit (fun _ => hit_cp_cp), pCrosses,
    filter_map_miss (fun _ => hit_cross_cp), pCoverinsts, filter_map_miss (fun _ => hit_ci_cp), List.append_nil, List.append_nil]
theorem kids_mCg_cross (n : String) (l : List Scope) : kids ST.CROSS (mCg n l) = pCrosses l := by
  show (pCoverpoints l ++ pCrosses l ++ pCoverinsts l).filter _ = _
  rw [List.filter_append, List.filter_append, pCoverpoints, filter_map_miss (fun _ => hit_cp_cross), pCrosses,
    filter_map_hit (fun _ => hit_cross_cross), pCoverinsts, filter_map_miss (fun _ => hit_ci_cross), List.append_nil, List.nil_append]
theorem kids_mCg_ci (n : String) (l : List Scope) : kids ST.COVERINSTANCE (mCg n l) = pCoverinsts l := by
  show (pCoverpoints l ++ pCrosses l ++ pCoverinsts l).filter _ = _
  rw [List.filter_append, List.filter_append, pCoverpoints, filter_map_miss (fun _ => hit_cp_ci), pCrosses,
    filter_map_miss (fun _ => hit_cross_ci), pCoverinsts, filter_map_hit (fun _ => hit_ci_ci), List.nil_append, List.nil_append]
theorem kids_mInst_cg (n : String) (l : List Scope) : kids ST.COVERGROUP (mInst n l) = pCovergroups l := by
  show (pCovergroups l).filter _ = _
  rw [pCovergroups, filter_map_hit (fun _ => hit_cg_cg)]

theorem kids_pMerge (srcs : List Scope) : kids ST.INSTANCE (pMerge emptyDb srcs)
    = (childNames ST.INSTANCE srcs).map (fun n => mInst n (pick (ST.INSTANCE, n) srcs)) := by
  show ((childNames ST.INSTANCE srcs).flatMap (pInstance srcs)).filter _ = _
  rw [List.filter_flatMap]
  induction childNames ST.INSTANCE srcs with
  | nil => rfl
  | cons a t ih =>
    rw [List.flatMap_cons, ih, pInstance_eq, List.map_cons]
    simp only [List.filter_cons]
    rw [show maskHit (mkDu (headDu (pick (ST.INSTANCE, a) srcs)).name
      (headDu (pick (ST.INSTANCE, a) srcs)).src (headDu (pick (ST.INSTANCE, a) srcs)).weight).stype
        ST.INSTANCE = false from hit_du_inst,
      show maskHit (mInst a (pick (ST.INSTANCE, a) srcs)).stype ST.INSTANCE = true from hit_inst_inst]
    rfl

/-! ## Merging keeps the conditions -/

theorem names_mCg_cp (l : List Scope) : (pCoverpoints l).map (·.name) = childNames ST.COVERPOINT l := names_pCoverpoints l

/-- A head of a list is one of its members. -/
theorem head_pick {m : Nat} {n : String} {l : List Scope} (h : n ∈ childNames m l) :
    ∃ c, (pick (m, n) l).head? = some c ∧ c ∈ pick (m, n) l := by
  rw [mem_childNames] at h
  obtain ⟨c, t, e⟩ := List.exists_cons_of_ne_nil h
  exact ⟨c, by rw [e]; rfl, by rw [e]; simp⟩

theorem linked_merge {l : List Scope} (h : ∀ c ∈ l, Linked c) {G : Scope} (h1 : kids ST.COVERPOINT G = pCoverpoints l)
    (h2 : kids ST.CROSS G = pCrosses l) : Linked G where
  crosses x hx := by
    rw [h2] at hx
    obtain ⟨n, hn, rfl⟩ := List.mem_map.1 hx
    rw [pCross_eq, h1, names_pCoverpoints]
    refine ⟨_, rfl, fun a ha => ?_⟩
    obtain ⟨c, hc, hm⟩ := head_pick hn
    obtain ⟨s, hs, hk, _⟩ := mem_pick hm
    obtain ⟨q, hq, hin⟩ := (h s hs).crosses c hk
    unfold headCps at ha
    rw [hc] at ha
    simp only [Option.bind_some, hq, Option.getD_some] at ha
    exact childName_iff.2 ⟨s, hs, hin a ha⟩
  points x hx b hb := by
    rw [h1] at hx
    obtain ⟨n, _, rfl⟩ := List.mem_map.1 hx
    rw [pCoverpoint_eq, covBins_mCp] at hb
    exact (mem_pBins hb).2.1
  bins x hx b hb := by
    rw [h2] at hx
    obtain ⟨n, _, rfl⟩ := List.mem_map.1 hx
    rw [pCross_eq, covBins_mCross] at hb
    exact (mem_pBins hb).2.1

theorem storable_merge {l : List Scope} (hne : l ≠ []) (hl : ∀ c ∈ l, Linked c) (h : ∀ c ∈ l, Storable c) {G : Scope}
    (hG : Printable G.name) (h1 : kids ST.COVERPOINT G = pCoverpoints l) (h2 : kids ST.CROSS G = pCrosses l) : Storable G where
  name := hG
  some := by
    rw [h1]
    obtain ⟨s, hs⟩ := List.exists_mem_of_ne_nil _ hne
    obtain ⟨c, hc⟩ := List.exists_mem_of_ne_nil _ (h s hs).some
    exact List.ne_nil_of_mem (List.mem_map_of_mem (childName_iff.2 ⟨s, hs, List.mem_map_of_mem hc⟩))
  points p hp := by
    rw [h1] at hp
    obtain ⟨n, hn, rfl⟩ := List.mem_map.1 hp
    rw [pCoverpoint_eq, covBins_mCp]
    obtain ⟨c, _, hm⟩ := head_pick hn
    refine ⟨?_, ?_, fun b hb => ?_⟩
    · obtain ⟨s, hs, hk, rfl⟩ := mem_pick hm
      exact ((h s hs).points c hk).1
    · obtain ⟨s, hs, hk, _⟩ := mem_pick hm
      exact pBins_ne hm ((h s hs).points c hk).2.1
    · obtain ⟨b1, _, ⟨q, hq, i, hi, e⟩, b4⟩ := mem_pBins hb
      refine ⟨?_, b1, b4 ?_⟩
      · obtain ⟨s, hs, hk, _⟩ := mem_pick hq
        rw [← e]
        exact (((h s hs).points q hk).2.2 i hi).1
      · intro q hq i hi
        obtain ⟨s, hs, hk, _⟩ := mem_pick hq
        exact (((h s hs).points q hk).2.2 i hi).2.2
  crosses x hx := by
    rw [h2] at hx
    obtain ⟨n, hn, rfl⟩ := List.mem_map.1 hx
    rw [pCross_eq, covBins_mCross]
    obtain ⟨c, hc, hm⟩ := head_pick hn
    refine ⟨?_, fun b hb => ?_, fun a ha => ?_⟩
    · obtain ⟨s, hs, hk, rfl⟩ := mem_pick hm
      exact ((h s hs).crosses c hk).1
    · obtain ⟨_, _, ⟨q, hq, i, hi, e⟩, b4⟩ := mem_pBins hb
      refine ⟨?_, b4 ?_⟩
      · obtain ⟨s, hs, hk, _⟩ := mem_pick hq
        rw [← e]
        exact (((h s hs).crosses q hk).2.1 i hi).1
      · intro q hq i hi
        obtain ⟨s, hs, hk, _⟩ := mem_pick hq
        exact (((h s hs).crosses q hk).2.1 i hi).2
    · obtain ⟨s, hs, hk, _⟩ := mem_pick hm
      obtain ⟨q, hq, _⟩ := (hl s hs).crosses c hk
      have ha : a ∈ c.cps.getD [] := by
        have e : (mCross n (pick (ST.CROSS, n) l)).cps.getD [] = headCps (pick (ST.CROSS, n) l) := rfl
        rw [e] at ha
        unfold headCps at ha
        rw [hc] at ha
        simpa using ha
      obtain ⟨a1, a2, a3⟩ := ((h s hs).crosses c hk).2.2 a ha
      refine ⟨a1, a2, ?_⟩
      rw [h1, names_pCoverpoints]
      exact childName_iff.2 ⟨s, hs, a3⟩

theorem written_insts {g : Scope} (h : kids ST.COVERINSTANCE g ≠ []) : writtenGroups g = kids ST.COVERINSTANCE g := by
  simp [writtenGroups, h]

theorem tidyGroup_merge {n : String} {l : List Scope} (hne : l ≠ []) (h : ∀ g ∈ l, TidyGroup g ∧ g.name = n) : TidyGroup (mCg n l) := by
  have hci : ∀ c ∈ pCoverinsts l, ∃ k, k ∈ childNames ST.COVERINSTANCE l ∧ c = mCi k (pick (ST.COVERINSTANCE, k) l) := by
    intro c hc
    obtain ⟨k, hk, rfl⟩ := List.mem_map.1 hc
    exact ⟨k, hk, pCoverinst_eq l k⟩
  have hlk : ∀ k, ∀ c ∈ pick (ST.COVERINSTANCE, k) l, Linked c := by
    intro k c hc
    obtain ⟨s, hs, hk, _⟩ := mem_pick hc
    exact (h s hs).1.linked c (List.mem_cons_of_mem _ hk)
  refine ⟨?_, fun c hc => ?_, fun c hc => ?_⟩
  · obtain ⟨g, hg⟩ := List.exists_mem_of_ne_nil _ hne
    show Printable n
    rw [← (h g hg).2]
    exact (h g hg).1.name
  · rcases List.mem_cons.1 hc with rfl | hc
    · exact linked_merge (fun g hg => (h g hg).1.linked g List.mem_cons_self) (kids_mCg_cp n l) (kids_mCg_cross n l)
    · rw [kids_mCg_ci] at hc
      obtain ⟨k, _, rfl⟩ := hci c hc
      exact linked_merge (hlk k) (kids_mCi_cp k _) (kids_mCi_cross k _)
  · unfold writtenGroups at hc
    rw [kids_mCg_ci] at hc
    split at hc
    · rename_i hnil
      obtain rfl := List.mem_singleton.1 hc
      have hflat : ∀ g ∈ l, writtenGroups g = [g] := by
        intro g hg
        unfold writtenGroups
        rw [if_pos]
        by_contra hk
        obtain ⟨c, hc⟩ := List.exists_mem_of_ne_nil _ hk
        have : c.name ∈ childNames ST.COVERINSTANCE l := childName_iff.2 ⟨g, hg, List.mem_map_of_mem hc⟩
        have h3 : pCoverinst l c.name ∈ pCoverinsts l := List.mem_map_of_mem this
        rw [hnil] at h3
        cases h3
      refine storable_merge hne (fun g hg => (h g hg).1.linked g List.mem_cons_self)
        (fun g hg => (h g hg).1.stored g (by rw [hflat g hg]; simp)) ?_ (kids_mCg_cp n l) (kids_mCg_cross n l)
      obtain ⟨g, hg⟩ := List.exists_mem_of_ne_nil _ hne
      show Printable n
      rw [← (h g hg).2]
      exact (h g hg).1.name
    · obtain ⟨k, hk, rfl⟩ := hci c hc
      have hst : ∀ c ∈ pick (ST.COVERINSTANCE, k) l, Storable c ∧ c.name = k := by
        intro c hc
        obtain ⟨s, hs, hk, hn⟩ := mem_pick hc
        exact ⟨(h s hs).1.stored c (by rw [written_insts (List.ne_nil_of_mem hk)]; exact hk), hn⟩
      have hp : pick (ST.COVERINSTANCE, k) l ≠ [] := (mem_childNames _ _ _).1 hk
      refine storable_merge hp (hlk k) (fun c hc => (hst c hc).1) ?_ (kids_mCi_cp k _) (kids_mCi_cross k _)
      obtain ⟨c, hc⟩ := List.exists_mem_of_ne_nil _ hp
      show Printable k
      rw [← (hst c hc).2]
      exact (hst c hc).1.name

/-! ### Source files -/

theorem tidyFile_none {s : Scope} (h1 : s.src = SrcInfo.none) (h2 : s.du = none) : TidyFile s := by
  refine ⟨?_, ?_⟩
  · rw [h1]; intro f hf; cases hf
  · rw [h2]; intro d hd; cases hd

theorem optPrintable_headSrc {l : List Scope} (h : ∀ s ∈ l, TidyFile s) : OptPrintable (headSrc l).file := by
  cases l with
  | nil => intro f hf; cases hf
  | cons a t => exact (h a List.mem_cons_self).1

theorem optPrintable_headDu {l : List Scope} (h : ∀ s ∈ l, TidyFile s) : OptPrintable (headDu l).src.file := by
  cases l with
  | nil => intro f hf; cases hf
  | cons a t =>
    unfold headDu
    cases hd : a.du with
    | none => simp [hd]; intro f hf; cases hf
    | some d => simp [hd]; exact (h a List.mem_cons_self).2 d hd

/-- All scopes below have representable files. -/
def Spec.TidyTree (s : Scope) : Prop := ∀ x ∈ subtrees s, TidyFile x

theorem tidyTree_iff {s : Scope} : TidyTree s ↔ TidyFile s ∧ ∀ c ∈ s.children, TidyTree c := forall_subtrees

theorem tidyTree_pick {st : Step} {l : List Scope} (h : ∀ s ∈ l, TidyTree s) : ∀ c ∈ pick st l, TidyTree c := by
  intro c hc
  obtain ⟨s, hs, hk, _⟩ := mem_pick (m := st.1) (n := st.2) hc
  exact (tidyTree_iff.1 (h s hs)).2 c (List.mem_filter.1 hk).1

theorem plain_tidy_of {s : Scope} (hs : TidyFile s ∧ maskHit s.stype ST.ALL = true)
    (hc : ∀ c ∈ s.children, ∀ x ∈ subtrees c, TidyFile x ∧ maskHit x.stype ST.ALL = true) :
    ∀ x ∈ subtrees s, TidyFile x ∧ maskHit x.stype ST.ALL = true := forall_subtrees.2 ⟨hs, hc⟩

theorem files_leaf {l : List Scope} (h : ∀ s ∈ l, TidyTree s) {s : Scope} (h1 : s.src = headSrc l) (h2 : s.du = none) : TidyFile s := by
  refine ⟨?_, ?_⟩
  · rw [h1]; exact optPrintable_headSrc (fun s hs => (tidyTree_iff.1 (h s hs)).1)
  · rw [h2]; intro d hd; cases hd

theorem all_cps {l : List Scope} (h : ∀ s ∈ l, TidyTree s) : ∀ c ∈ pCoverpoints l, ∀ x ∈ subtrees c, TidyFile x ∧ maskHit x.stype ST.ALL = true := by
  intro c hc
  obtain ⟨n, _, rfl⟩ := List.mem_map.1 hc
  rw [pCoverpoint_eq]
  exact plain_tidy_of ⟨files_leaf (tidyTree_pick h) rfl rfl, show maskHit ST.COVERPOINT ST.ALL = true by decide⟩ (fun c hc => nomatch hc)

theorem all_crosses {l : List Scope} (h : ∀ s ∈ l, TidyTree s) : ∀ c ∈ pCrosses l, ∀ x ∈ subtrees c, TidyFile x ∧ maskHit x.stype ST.ALL = true := by
  intro c hc
  obtain ⟨n, _, rfl⟩ := List.mem_map.1 hc
  rw [pCross_eq]
  exact plain_tidy_of ⟨files_leaf (tidyTree_pick h) rfl rfl, show maskHit ST.CROSS ST.ALL = true by decide⟩ (fun c hc => nomatch hc)

theorem all_cis {l : List Scope} (h : ∀ s ∈ l, TidyTree s) : ∀ c ∈ pCoverinsts l, ∀ x ∈ subtrees c, TidyFile x ∧ maskHit x.stype ST.ALL = true := by
  intro c hc
  obtain ⟨n, _, rfl⟩ := List.mem_map.1 hc
  rw [pCoverinst_eq]
  refine plain_tidy_of ⟨files_leaf (tidyTree_pick h) rfl rfl, show maskHit ST.COVERINSTANCE ST.ALL = true by decide⟩ ?_
  show ∀ c ∈ pCoverpoints _ ++ pCrosses _, _
  rw [List.forall_mem_append]
  exact ⟨all_cps (tidyTree_pick h), all_crosses (tidyTree_pick h)⟩

theorem all_cgs {l : List Scope} (h : ∀ s ∈ l, TidyTree s) : ∀ c ∈ pCovergroups l, ∀ x ∈ subtrees c, TidyFile x ∧ maskHit x.stype ST.ALL = true := by
  intro c hc
  obtain ⟨n, _, rfl⟩ := List.mem_map.1 hc
  rw [pCovergroup_eq]
  refine plain_tidy_of ⟨files_leaf (tidyTree_pick h) rfl rfl, show maskHit ST.COVERGROUP ST.ALL = true by decide⟩ ?_
  show ∀ c ∈ pCoverpoints _ ++ pCrosses _ ++ pCoverinsts _, _
  rw [List.forall_mem_append, List.forall_mem_append]
  exact ⟨⟨all_cps (tidyTree_pick h), all_crosses (tidyTree_pick h)⟩, all_cis (tidyTree_pick h)⟩

theorem all_merged {srcs : List Scope} (h : ∀ s ∈ srcs, ∀ c ∈ s.children, TidyTree c) :
    ∀ x ∈ subtreesL (pMerge emptyDb srcs).children, TidyFile x ∧ maskHit x.stype ST.ALL = true := by
  have h' : ∀ n, ∀ c ∈ pick (ST.INSTANCE, n) srcs, TidyTree c := by
    intro n c hc
    obtain ⟨s, hs, hk, _⟩ := mem_pick hc
    exact h s hs c (List.mem_filter.1 hk).1
  have key : ∀ c ∈ (pMerge emptyDb srcs).children, ∀ x ∈ subtrees c, TidyFile x ∧ maskHit x.stype ST.ALL = true := by
    intro c hc
    have hc : c ∈ (childNames ST.INSTANCE srcs).flatMap (pInstance srcs) := hc
    obtain ⟨n, _, hc⟩ := List.mem_flatMap.1 hc
    rw [pInstance_eq] at hc
    simp only [List.mem_cons, List.not_mem_nil, or_false] at hc
    have hd := optPrintable_headDu (l := pick (ST.INSTANCE, n) srcs) (fun s hs => (tidyTree_iff.1 (h' n s hs)).1)
    rcases hc with rfl | rfl
    · exact plain_tidy_of ⟨⟨hd, fun d hd => nomatch hd⟩, show maskHit ST.DU_MODULE ST.ALL = true by decide⟩ (fun c hc => nomatch hc)
    · refine plain_tidy_of ⟨⟨optPrintable_headSrc (fun s hs => (tidyTree_iff.1 (h' n s hs)).1), fun d e => ?_⟩,
        show maskHit ST.INSTANCE ST.ALL = true by decide⟩ (all_cgs (h' n))
      cases e
      exact hd
  have : (∀ x ∈ subtrees (pMerge emptyDb srcs), x = pMerge emptyDb srcs ∨ (TidyFile x ∧ maskHit x.stype ST.ALL = true)) := by
    rw [forall_subtrees]
    exact ⟨.inl rfl, fun c hc x hx => .inr (key c hc x hx)⟩
  intro x hx
  have aux : ∀ l : List Scope, (∀ c ∈ l, ∀ x ∈ subtrees c, TidyFile x ∧ maskHit x.stype ST.ALL = true) →
      ∀ x ∈ subtreesL l, TidyFile x ∧ maskHit x.stype ST.ALL = true := by
    intro l
    induction l with
    | nil => intro _ x hx; cases hx
    | cons a t ih =>
      intro h x hx
      rw [subtreesL_cons, List.mem_append] at hx
      rcases hx with hx | hx
      · exact h a List.mem_cons_self x hx
      · exact ih (fun c hc => h c (List.mem_cons_of_mem _ hc)) x hx
  exact aux _ key x hx

/-! ## Merging tidy databases -/

theorem contrib_linked {srcs : List Scope} (h : ∀ s ∈ srcs, Mergeable s) {p : Addr} (hp : GroupAddr p) :
    ∀ c ∈ contrib p srcs, Linked c := by
  have h2 : ∀ i g, ∀ c ∈ contrib [(ST.INSTANCE, i), (ST.COVERGROUP, g)] srcs, ∀ x ∈ c :: kids ST.COVERINSTANCE c, Linked x := by
    intro i g c hc
    obtain ⟨a, ha, hk, _⟩ := mem_pick (m := ST.COVERGROUP) (n := g) (l := pick (ST.INSTANCE, i) srcs) hc
    obtain ⟨s, hs, hi, _⟩ := mem_pick ha
    exact (h s hs a hi).2 c hk
  cases hp with
  | cg i g => exact fun c hc => h2 i g c hc c List.mem_cons_self
  | ci i g n =>
    intro c hc
    obtain ⟨a, ha, hk, _⟩ := mem_pick (m := ST.COVERINSTANCE) (n := n) (l := pick (ST.COVERGROUP, g) (pick (ST.INSTANCE, i) srcs)) hc
    exact h2 i g a ha c (List.mem_cons_of_mem _ hk)

theorem mergeable_resolvable {srcs : List Scope} (h : ∀ s ∈ srcs, Mergeable s) : ¬ Unresolvable srcs := by
  rintro (⟨i, s, hs, hd⟩ | ⟨p, hp, x, c, hc, hbad⟩ | ⟨p, hp, k, hk, b, it, hit, hno⟩)
  · obtain ⟨r, hr, hk, _⟩ := mem_pick (m := ST.INSTANCE) (n := i) (l := srcs) (List.mem_of_mem_head? hs)
    exact (h r hr s hk).1 hd
  · rw [contrib_snoc] at hc
    obtain ⟨g, hg, hk, _⟩ := mem_pick (List.mem_of_mem_head? hc)
    obtain ⟨l, hl, hin⟩ := (contrib_linked h hp g hg).crosses c hk
    rcases hbad with hbad | ⟨l', n, e, hn, hnil⟩
    · rw [hl] at hbad; cases hbad
    · rw [hl] at e; cases e
      obtain ⟨q, hq, rfl⟩ := List.mem_map.1 (hin n hn)
      rw [contrib_snoc] at hnil
      exact pick_of_kid hg hq hnil
  · have hm := List.mem_of_mem_head? hit
    obtain ⟨c, hc, hi⟩ := List.mem_flatMap.1 hm
    obtain ⟨h1, h2⟩ := List.mem_filter.1 hi
    simp only [Bool.and_eq_true] at h2
    have hb : it ∈ covBins c := kind_hit hk h2.1 h1
    cases hp with
    | cp hp n =>
      rw [contrib_snoc] at hc
      obtain ⟨g, hg, hk, _⟩ := mem_pick hc
      exact (contrib_linked h hp g hg).points c hk it hb hno
    | cross hp n =>
      rw [contrib_snoc] at hc
      obtain ⟨g, hg, hk, _⟩ := mem_pick hc
      exact (contrib_linked h hp g hg).bins c hk it hb hno

theorem mergeable_merge_ok {srcs : List Scope} (h : ∀ s ∈ srcs, Mergeable s) : merge emptyDb srcs = .ok (pMerge emptyDb srcs) :=
  (merge_closed emptyDb srcs).1 ((mergeOk_iff_resolvable srcs).2 (mergeable_resolvable h))

theorem Spec.Tidy.mergeable {r : Scope} (h : Tidy r) : Mergeable r :=
  fun i hi => ⟨(h.insts i hi).2.1, fun g hg => ((h.insts i hi).2.2 g hg).linked⟩

theorem tidy_merge_ok {srcs : List Scope} (h : ∀ s ∈ srcs, Tidy s) : merge emptyDb srcs = .ok (pMerge emptyDb srcs) :=
  mergeable_merge_ok (fun s hs => (h s hs).mergeable)

/-- Merging keeps tidiness. -/
theorem tidy_merge {srcs : List Scope} (h : ∀ s ∈ srcs, Tidy s) :
    Tidy (pMerge emptyDb srcs) ∧ PlainTypes (pMerge emptyDb srcs) := by
  have hf := all_merged (srcs := srcs) (fun s hs c hc => fun x hx => (h s hs).files x (mem_subtreesL hc hx))
  refine ⟨⟨fun i hi => ?_, fun x hx => (hf x hx).1⟩, fun x hx => (hf x hx).2⟩
  rw [kids_pMerge] at hi
  obtain ⟨n, hn, rfl⟩ := List.mem_map.1 hi
  obtain ⟨c, _, hm⟩ := head_pick hn
  have hall : ∀ c ∈ pick (ST.INSTANCE, n) srcs, Printable c.name ∧ c.name = n ∧ ∀ g ∈ kids ST.COVERGROUP c, TidyGroup g := by
    intro c hc
    obtain ⟨s, hs, hk, hn⟩ := mem_pick hc
    obtain ⟨a, _, b⟩ := (h s hs).insts c hk
    exact ⟨a, hn, b⟩
  refine ⟨?_, by simp [mInst, mkInstance], fun g hg => ?_⟩
  · obtain ⟨a, e, _⟩ := hall c hm
    show Printable n
    rw [← e]; exact a
  · rw [kids_mInst_cg] at hg
    obtain ⟨k, hk, rfl⟩ := List.mem_map.1 hg
    rw [pCovergroup_eq]
    refine tidyGroup_merge ((mem_childNames _ _ _).1 hk) (fun g hg => ?_)
    obtain ⟨a, ha, h1, h2⟩ := mem_pick hg
    exact ⟨(hall a ha).2.2 g h1, h2⟩

/-! ## Storing a tidy database -/

theorem optPrintable_fileNames {r : Scope} (h : Tidy r) : ∀ f ∈ fileNames r, Printable f := by
  intro f hf
  obtain ⟨s, hs, e⟩ := List.mem_filterMap.1 hf
  exact (h.files s hs).1 f e

/-- A tidy database without history can be written, and its document can be read, if it has an instance. -/
theorem tidy_stored {env : Xml.Env} (he : GoodEnv env) {db : Database} (ht : Tidy db.root) (hp : PlainTypes db.root) (hh : db.hist = []) :
    (∃ doc, Xml.write env db = .ok doc) ∧ (kids ST.INSTANCE db.root ≠ [] → ∃ db', Xml.throughFile env db = .ok db') := by
  have hcr : ∀ i ∈ kids ST.INSTANCE db.root, ∀ g ∈ kids ST.COVERGROUP i, ∀ c ∈ writtenGroups g, Storable c ∧ Linked c := by
    intro i hi g hg c hc
    have t := (ht.insts i hi).2.2 g hg
    refine ⟨t.stored c hc, t.linked c ?_⟩
    unfold writtenGroups at hc
    split at hc
    · rw [List.mem_singleton] at hc; rw [hc]; exact List.mem_cons_self
    · exact List.mem_cons_of_mem _ hc
  have hw : ∃ doc, Xml.write env db = .ok doc := by
    rw [C68_writer_accepts he db hp]
    refine ⟨optPrintable_fileNames ht, by simp [hh], fun i hi => ⟨(ht.insts i hi).1, fun g hg => ⟨((ht.insts i hi).2.2 g hg).name, fun c hc => ?_⟩⟩⟩
    obtain ⟨s, l⟩ := hcr i hi g hg c hc
    refine ⟨s.name, fun p hp => ⟨(s.points p hp).1, fun b hb => ⟨((s.points p hp).2.2 b hb).1, ((s.points p hp).2.2 b hb).2.1⟩⟩, fun x hx => ?_⟩
    obtain ⟨x1, x2, x3⟩ := s.crosses x hx
    obtain ⟨q, hq, _⟩ := l.crosses x hx
    refine ⟨x1, ⟨q, hq, fun n hn => (x3 n (by rw [hq]; exact hn)).1⟩, fun b hb => (x2 b hb).1⟩
  refine ⟨hw, fun hne => ?_⟩
  obtain ⟨doc, hw⟩ := hw
  rw [C40_through_file_partial he hw]
  refine ⟨⟨hne, by simp [hh], fun i hi g hg c hc => ?_⟩, fun i hi g hg c hc x hx n hn => ?_⟩
  · obtain ⟨s, _⟩ := hcr i hi g hg c hc
    exact ⟨s.some, fun p hp => ⟨(s.points p hp).2.1, fun b hb => ((s.points p hp).2.2 b hb).2.2⟩, fun x hx b hb => ((s.crosses x hx).2.1 b hb).2⟩
  · obtain ⟨s, _⟩ := hcr i hi g hg c hc
    exact ((s.crosses x hx).2.2 n hn).2

end Verif
