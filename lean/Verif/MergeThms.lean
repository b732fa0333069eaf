import Verif.MergeAssoc
import Mathlib.Algebra.BigOperators.Group.List.Basic
import Mathlib.Algebra.Order.BigOperators.Group.List
import Mathlib.Algebra.Order.Group.Int
/-!
# Properties C01 - C08, C10 - C13 and C15: merging databases
-/

namespace Verif
open Spec Merge

/-! ## Sample databases for the non-vacuity examples -/

namespace Ex

def cpA : Scope := mkCoverpoint "cp" SrcInfo.none 1
  [mkBin "a" CT.CVGBIN 1 2, mkBin "b" CT.CVGBIN 1 0, mkBin "a" CT.IGNOREBIN 1 7]
def cpB : Scope := mkCoverpoint "cp" SrcInfo.none 3
  [mkBin "b" CT.CVGBIN 4 4, mkBin "c" CT.CVGBIN 1 1, mkBin "a" CT.ILLEGALBIN 1 9]
def cpQ : Scope := mkCoverpoint "q" SrcInfo.none 1 [mkBin "z" CT.CVGBIN 1 1]
def crA : Scope := mkCross "cr" SrcInfo.none 1 ["cp", "q"] [mkBin "x" CT.CVGBIN 1 5]
def crB : Scope := mkCross "cr" SrcInfo.none 2 ["q", "cp"] [mkBin "x" CT.CVGBIN 1 6]
def du : DuInfo := ⟨"du", SrcInfo.none, 1⟩
/-- One instance, one covergroup with coverpoints, a cross and a cover-instance. -/
def dbA : Scope := { emptyDb with children :=
  [mkDu "du" SrcInfo.none 1,
   mkInstance "i" SrcInfo.none 1 (some du)
    [mkCovergroup "cg" SrcInfo.none 1 [cpA, cpQ, crA,
      mkCoverInst "ci" SrcInfo.none 1 [cpA]]]] }
/-- As `dbA` with other bins, plus a second instance. -/
def dbB : Scope := { emptyDb with children :=
  [mkInstance "j" SrcInfo.none 1 (some du) [],
   mkInstance "i" SrcInfo.none 1 (some du)
    [mkCovergroup "cg" SrcInfo.none 2 [cpB, cpQ, crB,
      mkCoverInst "ci" SrcInfo.none 1 [cpB], mkCoverInst "ci2" SrcInfo.none 1 [cpQ]]]] }

def pCp : Addr := [(ST.INSTANCE, "i"), (ST.COVERGROUP, "cg"), (ST.COVERPOINT, "cp")]
def pCr : Addr := [(ST.INSTANCE, "i"), (ST.COVERGROUP, "cg"), (ST.CROSS, "cr")]
theorem leaf_pCp : LeafAddr pCp := LeafAddr.cp (GroupAddr.cg "i" "cg") "cp"
theorem leaf_pCr : LeafAddr pCr := LeafAddr.cross (GroupAddr.cg "i" "cg") "cr"

instance (db : Scope) : Decidable (UniqueNames db) := by unfold UniqueNames; infer_instance

theorem unique_dbA : UniqueNames dbA := by decide
theorem unique_dbB : UniqueNames dbB := by decide

/-- The merge of the two sample databases. -/
def out : Scope := match merge emptyDb [dbA, dbB] with | .ok o => o | .error _ => emptyDb
theorem merge_ok : merge emptyDb [dbA, dbB] = .ok out := rfl

end Ex

/-! ## C01 -/

theorem sumCounts_append (a b : List Item) : sumCounts (a ++ b) = sumCounts a + sumCounts b := by
  simp [sumCounts]

theorem sumCounts_flatMap {α : Type} (f : α → List Item) (l : List α) :
    sumCounts (l.flatMap f) = (l.map (fun a => sumCounts (f a))).sum := by
  induction l with
  | nil => rfl
  | cons a t ih => simp [sumCounts_append, ih]

theorem total_merge {dst out : Scope} {srcs : List Scope} (h : merge dst srcs = .ok out)
    {p : Addr} (hp : LeafAddr p) {k : Nat} (hk : IsKind k) (b : String) :
    total p k b out = total p k b dst + sumCounts (itemsOf k b (contrib p srcs)) := by
  obtain ⟨_, rfl⟩ := Merge.merge_ok h
  unfold total
  rw [binsAt_merge hp hk, sumCounts_append]
  congr 1
  split
  · next h => rw [h]
  · simp [sumCounts, mkBin]

/-- **C01**, general destination: what was in the destination stays, everything else is added up. -/
theorem C01_merge_conserves_counts_into {dst out : Scope} {srcs : List Scope}
    (hu : ∀ s ∈ srcs, UniqueNames s) (h : merge dst srcs = .ok out)
    {p : Addr} (hp : LeafAddr p) {k : Nat} (hk : IsKind k) (b : String) :
    total p k b out = total p k b dst + (srcs.map (total p k b)).sum := by
  rw [total_merge h hp hk, itemsOf_contrib_of_unique (.leaf hp) hu, sumCounts_flatMap]
  rfl

theorem reach_emptyDb {p : Addr} (hp : p ≠ []) : reach p emptyDb = [] := by
  cases p with
  | nil => exact absurd rfl hp
  | cons st p => rfl

theorem Spec.LeafAddr.ne_nil {p : Addr} (hp : LeafAddr p) : p ≠ [] := by
  cases hp <;> simp

theorem total_emptyDb {p : Addr} (hp : LeafAddr p) (k : Nat) (b : String) :
    total p k b emptyDb = 0 := by
  simp [total, binsAt, reach_emptyDb hp.ne_nil, itemsOf, sumCounts]

/-- **C01** Merging into an empty database conserves the hit count of every bin of every kind at
every coverpoint and cross address. -/
theorem C01_merge_conserves_counts {out : Scope} {srcs : List Scope}
    (hu : ∀ s ∈ srcs, UniqueNames s) (h : merge emptyDb srcs = .ok out)
    {p : Addr} (hp : LeafAddr p) {k : Nat} (hk : IsKind k) (b : String) :
    total p k b out = (srcs.map (total p k b)).sum := by
  rw [C01_merge_conserves_counts_into hu h hp hk b, total_emptyDb hp]; simp

example : total Ex.pCp CT.CVGBIN "b" Ex.out = 4 ∧
    (∀ s ∈ [Ex.dbA, Ex.dbB], UniqueNames s) ∧ merge emptyDb [Ex.dbA, Ex.dbB] = .ok Ex.out :=
  ⟨by decide, by decide, Ex.merge_ok⟩

/-! ## C02 -/

theorem reach_merge_ne_nil {dst : Scope} {srcs : List Scope} {p : Addr} (hp : AnyAddr p) :
    reach p (pMerge dst srcs) ≠ [] ↔ reach p dst ≠ [] ∨ contrib p srcs ≠ [] := by
  obtain ⟨f, hf⟩ := reach_any hp dst srcs
  rw [hf]
  by_cases hc : contrib p srcs = []
  · simp [hc]
  · simp [hc, rep_of_ne hc]

theorem Spec.AnyAddr.ne_nil {p : Addr} (hp : AnyAddr p) : p ≠ [] := by
  cases hp with
  | inst i => simp
  | group h => cases h <;> simp
  | leaf h => exact h.ne_nil

theorem flatMap_ne_nil {α β : Type} (f : α → List β) (l : List α) :
    l.flatMap f ≠ [] ↔ ∃ a ∈ l, f a ≠ [] := by
  rw [Ne, List.flatMap_eq_nil_iff]; simp

/-- **C02** (scopes) A scope exists at an address of the merged database exactly when it exists
there in some input. -/
theorem C02_scope_exists_iff {out : Scope} {srcs : List Scope}
    (hu : ∀ s ∈ srcs, UniqueNames s) (h : merge emptyDb srcs = .ok out)
    {p : Addr} (hp : AnyAddr p) :
    reach p out ≠ [] ↔ ∃ s ∈ srcs, reach p s ≠ [] := by
  obtain ⟨_, rfl⟩ := Merge.merge_ok h
  rw [reach_merge_ne_nil hp, reach_emptyDb (AnyAddr.ne_nil hp), contrib_of_unique hp hu,
    flatMap_ne_nil]
  simp

/-- **C02** (bins) A bin exists in the merged database exactly when it exists in some input. -/
theorem C02_bin_exists_iff {out : Scope} {srcs : List Scope}
    (hu : ∀ s ∈ srcs, UniqueNames s) (h : merge emptyDb srcs = .ok out)
    {p : Addr} (hp : LeafAddr p) {k : Nat} (hk : IsKind k) (b : String) :
    binsAt p k b out ≠ [] ↔ ∃ s ∈ srcs, binsAt p k b s ≠ [] := by
  obtain ⟨_, rfl⟩ := Merge.merge_ok h
  rw [binsAt_merge hp hk, itemsOf_contrib_of_unique (.leaf hp) hu]
  have : binsAt p k b emptyDb = [] := by
    simp [binsAt, reach_emptyDb hp.ne_nil, itemsOf]
  rw [this, List.nil_append, ← flatMap_ne_nil]
  split <;> simp [*]

/-- **C02** holds for arbitrary inputs as far as scopes are concerned if only the presence at each
level matters; in particular every instance name of any input is present, without any assumption. -/
theorem C02_instance_exists_iff {out : Scope} {srcs : List Scope}
    (h : merge emptyDb srcs = .ok out) (i : String) :
    reach [(ST.INSTANCE, i)] out ≠ [] ↔ ∃ s ∈ srcs, reach [(ST.INSTANCE, i)] s ≠ [] := by
  obtain ⟨_, rfl⟩ := Merge.merge_ok h
  rw [reach_merge_ne_nil (.inst i), reach_emptyDb (by simp)]
  show _ ∨ pick (ST.INSTANCE, i) srcs ≠ [] ↔ _
  rw [pick_ne_nil]
  simp only [reach_one]
  simp

example : binsAt Ex.pCp CT.CVGBIN "c" Ex.dbA = [] ∧ binsAt Ex.pCp CT.CVGBIN "c" Ex.dbB ≠ [] ∧
    binsAt Ex.pCp CT.CVGBIN "c" Ex.out ≠ [] := by decide

/-! ## C03 -/

theorem forall_subtrees {P : Scope → Prop} {s : Scope} :
    (∀ x ∈ subtrees s, P x) ↔ P s ∧ ∀ c ∈ s.children, ∀ x ∈ subtrees c, P x := by
  rw [subtrees_eq]
  have : ∀ l : List Scope, (∀ x ∈ subtreesL l, P x) ↔ ∀ c ∈ l, ∀ x ∈ subtrees c, P x := by
    intro l
    induction l with
    | nil => simp [subtreesL]
    | cons a t ih =>
      rw [subtreesL_cons]
      simp only [List.forall_mem_append, ih, List.forall_mem_cons]
  simp only [List.forall_mem_cons, this]

/-- Names of children are unique per type, names of bins per kind. -/
def Spec.UniqueHere (s : Scope) : Prop :=
  (∀ m ∈ [ST.INSTANCE, ST.COVERGROUP, ST.COVERINSTANCE, ST.COVERPOINT, ST.CROSS],
    ((s.children.filter (fun c => maskHit c.stype m)).map (·.name)).Nodup) ∧
  (∀ k, IsKind k → ((s.items.filter (fun i => maskHit i.kind k)).map (·.name)).Nodup)

theorem uniqueHere_leaf {s : Scope} {l : List Scope} (hc : s.children = []) (hi : s.items = pBins l) :
    UniqueHere s := by
  constructor
  · simp [hc]
  · intro k hk
    have := coverItems_pBins hk s l hi
    unfold Scope.coverItems at this
    rw [this]
    have : (pBinsOfKind (kindItems l k) k).map (·.name)
        = firstSeen ((kindItems l k).map (·.name)) := by
      simp [pBinsOfKind, Function.comp_def, pBin, mkBin]
    rw [this]
    exact firstSeen_nodup _

/-- Children given by several lists with distinct types and duplicate-free names. -/
theorem nodup_filter_map {m t : Nat} {names : List String} {f : String → Scope} (hn : names.Nodup)
    (hname : ∀ k, (f k).name = k) (ht : ∀ k, (f k).stype = t) :
    (((names.map f).filter (fun c => maskHit c.stype m)).map (·.name)).Nodup := by
  by_cases h : maskHit t m = true
  · rw [scopes_hit (fun k => by rw [ht]; exact h), List.map_map]
    rw [show ((fun x : Scope => x.name) ∘ f) = id from funext hname, List.map_id]
    exact hn
  · rw [scopes_miss (fun k => by rw [ht]; simpa using h)]
    simp

theorem subtrees_leaf {s : Scope} (hc : s.children = []) : subtrees s = [s] := by
  rw [subtrees_eq, hc]; rfl

theorem all_pCoverpoints (l : List Scope) :
    ∀ c ∈ pCoverpoints l, ∀ x ∈ subtrees c, UniqueHere x := by
  intro c hc
  simp only [pCoverpoints, List.mem_map] at hc
  obtain ⟨n, _, rfl⟩ := hc
  rw [subtrees_leaf rfl]
  intro x hx
  simp only [List.mem_singleton] at hx
  subst hx
  exact uniqueHere_leaf rfl rfl

theorem all_pCrosses (l : List Scope) :
    ∀ c ∈ pCrosses l, ∀ x ∈ subtrees c, UniqueHere x := by
  intro c hc
  simp only [pCrosses, List.mem_map] at hc
  obtain ⟨n, _, rfl⟩ := hc
  rw [subtrees_leaf rfl]
  intro x hx
  simp only [List.mem_singleton] at hx
  subst hx
  exact uniqueHere_leaf rfl rfl

theorem nodup_types {m : Nat} (hm : m ∈ [ST.INSTANCE, ST.COVERGROUP, ST.COVERINSTANCE, ST.COVERPOINT, ST.CROSS])
    (a b c : List Scope)
    (ha : ((a.filter (fun c => maskHit c.stype ST.COVERPOINT)).map (·.name)).Nodup)
    (hb : ((b.filter (fun c => maskHit c.stype ST.CROSS)).map (·.name)).Nodup)
    (hc : ((c.filter (fun c => maskHit c.stype ST.COVERINSTANCE)).map (·.name)).Nodup)
    (ta : ∀ s ∈ a, s.stype = ST.COVERPOINT) (tb : ∀ s ∈ b, s.stype = ST.CROSS)
    (tc : ∀ s ∈ c, s.stype = ST.COVERINSTANCE) :
    (((a ++ b ++ c).filter (fun c => maskHit c.stype m)).map (·.name)).Nodup := by
  have miss : ∀ {l : List Scope} {t : Nat}, (∀ s ∈ l, s.stype = t) → maskHit t m = false →
      l.filter (fun c => maskHit c.stype m) = [] := by
    intro l t hl ht
    rw [List.filter_eq_nil_iff]
    intro s hs
    rw [hl s hs, ht]; simp
  rw [List.filter_append, List.filter_append]
  simp only [List.mem_cons, List.not_mem_nil, or_false] at hm
  rcases hm with rfl | rfl | rfl | rfl | rfl
  · rw [miss ta (by decide), miss tb (by decide), miss tc (by decide)]; simp
  · rw [miss ta (by decide), miss tb (by decide), miss tc (by decide)]; simp
  · rw [miss ta (by decide), miss tb (by decide)]; simpa using hc
  · rw [miss tb (by decide), miss tc (by decide)]; simpa using ha
  · rw [miss ta (by decide), miss tc (by decide)]; simpa using hb

theorem types_pCoverpoints (l : List Scope) : ∀ s ∈ pCoverpoints l, s.stype = ST.COVERPOINT := by
  intro s hs
  simp only [pCoverpoints, List.mem_map] at hs
  obtain ⟨n, _, rfl⟩ := hs; rfl
theorem types_pCrosses (l : List Scope) : ∀ s ∈ pCrosses l, s.stype = ST.CROSS := by
  intro s hs
  simp only [pCrosses, List.mem_map] at hs
  obtain ⟨n, _, rfl⟩ := hs; rfl
theorem types_pCoverinsts (l : List Scope) : ∀ s ∈ pCoverinsts l, s.stype = ST.COVERINSTANCE := by
  intro s hs
  simp only [pCoverinsts, List.mem_map] at hs
  obtain ⟨n, _, rfl⟩ := hs; rfl

theorem nodup_pCoverpoints (l : List Scope) :
    (((pCoverpoints l).filter (fun c => maskHit c.stype ST.COVERPOINT)).map (·.name)).Nodup :=
  nodup_filter_map (childNames_nodup _ _) (fun _ => rfl) (fun _ => rfl)
theorem nodup_pCrosses (l : List Scope) :
    (((pCrosses l).filter (fun c => maskHit c.stype ST.CROSS)).map (·.name)).Nodup :=
  nodup_filter_map (childNames_nodup _ _) (fun _ => rfl) (fun _ => rfl)
theorem nodup_pCoverinsts (l : List Scope) :
    (((pCoverinsts l).filter (fun c => maskHit c.stype ST.COVERINSTANCE)).map (·.name)).Nodup :=
  nodup_filter_map (childNames_nodup _ _) (fun _ => rfl) (fun _ => rfl)

theorem all_pCoverinsts (l : List Scope) :
    ∀ c ∈ pCoverinsts l, ∀ x ∈ subtrees c, UniqueHere x := by
  intro c hc
  simp only [pCoverinsts, List.mem_map] at hc
  obtain ⟨n, _, rfl⟩ := hc
  rw [pCoverinst_eq]
  generalize pick (ST.COVERINSTANCE, n) l = l'
  rw [forall_subtrees]
  refine ⟨⟨fun m hm => ?_, fun k _ => by simp [mCi, mkCoverInst]⟩, ?_⟩
  · show (((pCoverpoints l' ++ pCrosses l').filter _).map _).Nodup
    have := nodup_types hm (pCoverpoints l') (pCrosses l') [] (nodup_pCoverpoints l')
      (nodup_pCrosses l') (by simp) (types_pCoverpoints l') (types_pCrosses l') (by simp)
    simpa using this
  · show ∀ c ∈ pCoverpoints l' ++ pCrosses l', _
    rw [List.forall_mem_append]
    exact ⟨all_pCoverpoints l', all_pCrosses l'⟩

theorem all_pCovergroups (l : List Scope) :
    ∀ c ∈ pCovergroups l, ∀ x ∈ subtrees c, UniqueHere x := by
  intro c hc
  simp only [pCovergroups, List.mem_map] at hc
  obtain ⟨n, _, rfl⟩ := hc
  rw [pCovergroup_eq]
  generalize pick (ST.COVERGROUP, n) l = l'
  rw [forall_subtrees]
  refine ⟨⟨fun m hm => ?_, fun k _ => by simp [mCg, mkCovergroup]⟩, ?_⟩
  · exact nodup_types hm (pCoverpoints l') (pCrosses l') (pCoverinsts l') (nodup_pCoverpoints l')
      (nodup_pCrosses l') (nodup_pCoverinsts l') (types_pCoverpoints l') (types_pCrosses l')
      (types_pCoverinsts l')
  · show ∀ c ∈ pCoverpoints l' ++ pCrosses l' ++ pCoverinsts l', _
    rw [List.forall_mem_append, List.forall_mem_append]
    exact ⟨⟨all_pCoverpoints l', all_pCrosses l'⟩, all_pCoverinsts l'⟩

theorem all_mInst (n : String) (l : List Scope) : ∀ x ∈ subtrees (mInst n l), UniqueHere x := by
  rw [forall_subtrees]
  refine ⟨⟨fun m hm => ?_, fun k _ => by simp [mInst, mkInstance]⟩, all_pCovergroups l⟩
  show (((pCovergroups l).filter _).map _).Nodup
  exact nodup_filter_map (childNames_nodup _ _) (fun _ => rfl) (fun _ => rfl)

/-- **C03** In a merged database all names are unique: same-typed children of any scope, and bins
of the same kind of any coverpoint or cross.  There is no assumption on the inputs. -/
theorem C03_merged_names_unique {out : Scope} {srcs : List Scope}
    (h : merge emptyDb srcs = .ok out) : ∀ s ∈ subtrees out, UniqueHere s := by
  obtain ⟨_, rfl⟩ := Merge.merge_ok h
  rw [forall_subtrees]
  refine ⟨⟨fun m hm => ?_, fun k _ => by simp [pMerge, emptyDb]⟩, ?_⟩
  · show ((((childNames ST.INSTANCE srcs).flatMap (pInstance srcs)).filter _).map _).Nodup
    by_cases hi : m = ST.INSTANCE
    · subst hi
      have := insts_pMerge srcs emptyDb rfl
      have h' := childNames_nodup ST.INSTANCE srcs
      rw [← this] at h'
      exact h'
    · have : ((childNames ST.INSTANCE srcs).flatMap (pInstance srcs)).filter
          (fun c => maskHit c.stype m) = [] := by
        rw [List.filter_eq_nil_iff]
        intro c hc
        obtain ⟨n, _, hc⟩ := List.mem_flatMap.1 hc
        rw [pInstance_eq] at hc
        simp only [List.mem_cons, List.not_mem_nil, or_false] at hc hm
        have h1 : c.stype = ST.DU_MODULE ∨ c.stype = ST.INSTANCE := by
          rcases hc with rfl | rfl
          · exact Or.inl rfl
          · exact Or.inr rfl
        rcases h1 with h1 | h1 <;> rw [h1] <;>
          rcases hm with rfl | rfl | rfl | rfl | rfl <;> first | exact absurd rfl hi | decide
      rw [this]; simp
  · show ∀ c ∈ (childNames ST.INSTANCE srcs).flatMap (pInstance srcs), _
    intro c hc
    obtain ⟨n, _, hc⟩ := List.mem_flatMap.1 hc
    rw [pInstance_eq] at hc
    simp only [List.mem_cons, List.not_mem_nil, or_false] at hc
    rcases hc with rfl | rfl
    · rw [subtrees_leaf rfl]
      intro x hx
      simp only [List.mem_singleton] at hx
      subst hx
      exact ⟨fun m _ => by simp [mkDu], fun k _ => by simp [mkDu]⟩
    · exact all_mInst n _

/-- Duplicates in the input: two same-named crosses, two same-named bins and two same-named
coverpoints become one each. -/
def Ex.dbDup : Scope := { emptyDb with children :=
  [mkInstance "i" SrcInfo.none 1 (some Ex.du)
    [mkCovergroup "cg" SrcInfo.none 1 [Ex.cpA, Ex.cpB, Ex.cpQ, Ex.crA, Ex.crB]]] }

example : ∃ out, merge emptyDb [Ex.dbDup] = .ok out ∧ ¬ UniqueNames Ex.dbDup ∧
    (subtrees out).length = 7 := ⟨_, rfl, by decide, by decide⟩

/-! ## C04 -/

/-- **C04** Permuting the inputs changes no merged count. -/
theorem C04_order_independent {srcs srcs' : List Scope} (hperm : srcs.Perm srcs')
    {out out' : Scope} (hu : ∀ s ∈ srcs, UniqueNames s)
    (h : merge emptyDb srcs = .ok out) (h' : merge emptyDb srcs' = .ok out')
    {p : Addr} (hp : LeafAddr p) {k : Nat} (hk : IsKind k) (b : String) :
    total p k b out = total p k b out' := by
  rw [C01_merge_conserves_counts hu h hp hk,
    C01_merge_conserves_counts (fun s hs => hu s (hperm.mem_iff.2 hs)) h' hp hk]
  exact (hperm.map _).sum_eq

example : ∃ out', merge emptyDb [Ex.dbB, Ex.dbA] = .ok out' ∧
    total Ex.pCp CT.CVGBIN "a" out' = 2 ∧ total Ex.pCp CT.CVGBIN "a" Ex.out = 2 :=
  ⟨_, rfl, by decide, by decide⟩

/-! ## C05, C06 -/

/-- **C05** Merging the result of a merge with further databases gives exactly what merging
everything at once gives (including which exception is raised, if any). There is no assumption on
the inputs. -/
theorem C05_incremental {xs ys : List Scope} {m : Scope} (h : merge emptyDb xs = .ok m)
    (dst : Scope) : merge dst (m :: ys) = merge dst (xs ++ ys) := by
  obtain ⟨hok, rfl⟩ := Merge.merge_ok h
  exact merge_congr ((EDb.merged (srcs := xs) (dst := emptyDb) rfl hok).append (EDb.refl ys)) dst

/-- **C05** Merging in groups and then merging the results equals merging everything at once. -/
theorem C05_grouped {gs : List (List Scope)} {ms : List Scope}
    (h : List.Forall₂ (fun g m => merge emptyDb g = .ok m) gs ms) (dst : Scope) :
    merge dst ms = merge dst gs.flatten := by
  apply merge_congr
  induction h with
  | nil => exact EDb.refl _
  | cons hg _ ih =>
    obtain ⟨hok, rfl⟩ := Merge.merge_ok hg
    exact (EDb.merged (dst := emptyDb) rfl hok).append ih

/-- **C06** Merging one database and merging the result again gives the same as merging once; more
generally a database that is the result of any merge is copied unchanged. -/
theorem C06_idempotent {xs : List Scope} {m : Scope} (h : merge emptyDb xs = .ok m) :
    merge emptyDb [m] = .ok m := by
  have := C05_incremental (ys := []) h emptyDb
  rw [List.append_nil] at this
  rw [this, h]

example : merge emptyDb [Ex.out, Ex.dbA] = merge emptyDb [Ex.dbA, Ex.dbB, Ex.dbA] ∧
    (∃ o, merge emptyDb [Ex.out, Ex.dbA] = .ok o) ∧ merge emptyDb [Ex.out] = .ok Ex.out :=
  ⟨C05_incremental (ys := [Ex.dbA]) Ex.merge_ok emptyDb, ⟨_, rfl⟩, C06_idempotent Ex.merge_ok⟩

/-! ## C07 -/

theorem firstSeen_eq_eraseDups (l : List String) : firstSeen l = l.eraseDups := by
  have : ∀ n (l : List String), l.length ≤ n → firstSeen l = l.eraseDups := by
    intro n
    induction n with
    | zero => intro l hl; cases l <;> simp_all
    | succ n ih =>
      intro l hl
      cases l with
      | nil => rfl
      | cons a t =>
        rw [List.eraseDups_cons]
        simp only [firstSeen]
        rw [← firstSeen_filter]
        congr 1
        have hlen : (t.filter (fun b => !b == a)).length ≤ n := by
          have h1 := List.length_filter_le (fun b => !b == a) t
          simp only [List.length_cons] at hl
          omega
        rw [← ih _ hlen]
        congr 1
        apply List.filter_congr
        intro b _
        simp
        by_cases h : b = a <;> simp [h]
  exact this _ l (Nat.le_refl _)

/-- **C07** (thresholds) The threshold of a merged bin is that of the first input bin at the same
address, in argument order. -/
theorem C07_threshold_of_first {out : Scope} {srcs : List Scope}
    (hu : ∀ s ∈ srcs, UniqueNames s) (h : merge emptyDb srcs = .ok out)
    {p : Addr} (hp : LeafAddr p) {k : Nat} (hk : IsKind k) (b : String)
    {it : Item} (hit : it ∈ binsAt p k b out) :
    ∃ first a, (srcs.flatMap (binsAt p k b)).head? = some first ∧ first.atLeast = some a ∧
      it.atLeast = some a := by
  obtain ⟨hok, rfl⟩ := Merge.merge_ok h
  have h0 : binsAt p k b emptyDb = [] := by simp [binsAt, reach_emptyDb hp.ne_nil, itemsOf]
  rw [binsAt_merge hp hk, h0, List.nil_append] at hit
  split at hit
  · simp at hit
  · next hne =>
    rw [← itemsOf_contrib_of_unique (.leaf hp) hu]
    have hbins : allBinsOk (contrib p srcs) := leafOk hok hp
    cases hh : (itemsOf k b (contrib p srcs)).head? with
    | none => rw [List.head?_eq_none_iff] at hh; exact absurd hh hne
    | some first =>
      have h1 := kindOk hbins hk b first (by rw [firstItem_kind]; exact hh)
      obtain ⟨a, ha⟩ := Option.isSome_iff_exists.1 h1
      refine ⟨first, a, rfl, ha, ?_⟩
      simp only [List.mem_singleton] at hit
      subst hit
      simp [mkBin, hh, ha]

example : (binsAt Ex.pCp CT.CVGBIN "b" Ex.dbB).map (·.atLeast) = [some 4] ∧
    (binsAt Ex.pCp CT.CVGBIN "b" Ex.out).map (·.atLeast) = [some 1] := by decide

theorem head_of_rep {f : List Scope → Scope} {l : List Scope} {c : Scope} (h : c ∈ rep f l) :
    c = f l ∧ ∃ first, l.head? = some first := by
  unfold rep at h
  split at h
  · cases h
  · next hne =>
    cases l with
    | nil => exact absurd rfl hne
    | cons a t => exact ⟨by simpa using h, a, rfl⟩

/-- **C07** (weights and locations of covergroups and cover-instances). -/
theorem C07_group_weight_of_first {out : Scope} {srcs : List Scope}
    (hu : ∀ s ∈ srcs, UniqueNames s) (h : merge emptyDb srcs = .ok out)
    {p : Addr} (hp : GroupAddr p) {c : Scope} (hc : c ∈ reach p out) :
    ∃ first, (srcs.flatMap (reach p)).head? = some first ∧ c.weight = first.weight ∧
      c.src = first.src := by
  obtain ⟨hok, rfl⟩ := Merge.merge_ok h
  rw [← contrib_of_unique (.group hp) hu]
  cases hp with
  | cg i g =>
    rw [reach_cg, reach_emptyDb (by simp), List.nil_append] at hc
    obtain ⟨rfl, first, hf⟩ := head_of_rep hc
    exact ⟨first, hf, by simp [mCg, mkCovergroup, headWeight, hf],
      by simp [mCg, mkCovergroup, headSrc, hf]⟩
  | ci i g n =>
    rw [reach_ci, reach_emptyDb (by simp), List.nil_append] at hc
    obtain ⟨rfl, first, hf⟩ := head_of_rep hc
    exact ⟨first, hf, by simp [mCi, mkCoverInst, headWeight, hf],
      by simp [mCi, mkCoverInst, headSrc, hf]⟩

/-- **C07** (weights and locations of coverpoints and crosses). -/
theorem C07_leaf_weight_of_first {out : Scope} {srcs : List Scope}
    (hu : ∀ s ∈ srcs, UniqueNames s) (h : merge emptyDb srcs = .ok out)
    {p : Addr} (hp : LeafAddr p) {c : Scope} (hc : c ∈ reach p out) :
    ∃ first, (srcs.flatMap (reach p)).head? = some first ∧ c.weight = first.weight ∧
      c.src = first.src := by
  obtain ⟨hok, rfl⟩ := Merge.merge_ok h
  rw [← contrib_of_unique (.leaf hp) hu]
  obtain ⟨f, _, hw, hs, hr⟩ := leaf_items hp emptyDb srcs
  rw [hr, reach_emptyDb hp.ne_nil, List.nil_append] at hc
  obtain ⟨rfl, first, hf⟩ := head_of_rep hc
  exact ⟨first, hf, by rw [hw]; simp [headWeight, hf], by rw [hs]; simp [headSrc, hf]⟩

/-- **C07** (crossed coverpoints) A merged cross lists the coverpoints that the first input's cross
lists. -/
theorem C07_crossed_of_first {out : Scope} {srcs : List Scope}
    (hu : ∀ s ∈ srcs, UniqueNames s) (h : merge emptyDb srcs = .ok out)
    {p : Addr} (hp : GroupAddr p) (n : String) {c : Scope}
    (hc : c ∈ reach (p ++ [(ST.CROSS, n)]) out) :
    ∃ first cps, (srcs.flatMap (reach (p ++ [(ST.CROSS, n)]))).head? = some first ∧
      first.cps = some cps ∧ c.cps = some cps := by
  obtain ⟨hok, rfl⟩ := Merge.merge_ok h
  rw [← contrib_of_unique (.leaf (.cross hp n)) hu]
  rw [reach_cross hp, reach_emptyDb (by simp), List.nil_append] at hc
  obtain ⟨rfl, first, hf⟩ := head_of_rep hc
  have hne : pick (ST.CROSS, n) (contrib p srcs) ≠ [] := by
    intro e
    rw [contrib_snoc, e] at hf
    cases hf
  obtain ⟨⟨first', cps, hf', hcps, _⟩, _⟩ := ((itemsOk_iff _).1 (groupOk hok hp)).2 n hne
  rw [contrib_snoc] at hf
  rw [hf] at hf'; cases hf'
  refine ⟨first, cps, by rw [contrib_snoc]; exact hf, hcps, ?_⟩
  simp [mCross, mkCross, headCps, contrib_snoc, hf, hcps]

example : (reach Ex.pCr Ex.dbB).map (·.cps) = [some ["q", "cp"]] ∧
    (reach Ex.pCr Ex.out).map (·.cps) = [some ["cp", "q"]] ∧
    (reach Ex.pCr Ex.out).map (·.weight) = [1] ∧
    (reach [(ST.INSTANCE, "i"), (ST.COVERGROUP, "cg")] Ex.out).map (·.weight) = [1] := by decide

/-- The child types below each kind of address. -/
inductive Spec.ChildOf : Addr → Nat → Prop
  | root : ChildOf [] ST.INSTANCE
  | inst (i : String) : ChildOf [(ST.INSTANCE, i)] ST.COVERGROUP
  | cgi (i g : String) : ChildOf [(ST.INSTANCE, i), (ST.COVERGROUP, g)] ST.COVERINSTANCE
  | cp {p : Addr} (h : GroupAddr p) : ChildOf p ST.COVERPOINT
  | cr {p : Addr} (h : GroupAddr p) : ChildOf p ST.CROSS

/-- **C07** (order of scopes) Children of a merged scope appear in order of first appearance in the
inputs (`eraseDups` keeps first occurrences). -/
theorem C07_order_of_first {out : Scope} {srcs : List Scope}
    (hu : ∀ s ∈ srcs, UniqueNames s) (h : merge emptyDb srcs = .ok out)
    {p : Addr} {m : Nat} (hpm : ChildOf p m) {c : Scope} (hc : c ∈ reach p out) :
    (c.children.filter (fun x => maskHit x.stype m)).map (·.name)
      = ((srcs.flatMap (reach p)).flatMap
          (fun s => (s.children.filter (fun x => maskHit x.stype m)).map (·.name))).eraseDups := by
  obtain ⟨hok, rfl⟩ := Merge.merge_ok h
  have conv : ∀ {names : List String} {l : List Scope}, l = srcs.flatMap (reach p) →
      names = childNames m l → names = ((srcs.flatMap (reach p)).flatMap
          (fun s => (s.children.filter (fun x => maskHit x.stype m)).map (·.name))).eraseDups := by
    intro names l hl hn
    rw [← firstSeen_eq_eraseDups, hn, hl]; rfl
  cases hpm with
  | root =>
    simp only [reach, List.mem_singleton] at hc
    subst hc
    refine conv (l := srcs) ?_ (insts_pMerge srcs emptyDb rfl)
    show srcs = srcs.flatMap (fun s => [s])
    simp
  | inst i =>
    rw [reach_inst, reach_emptyDb (by simp), List.nil_append] at hc
    obtain ⟨rfl, _⟩ := head_of_rep hc
    exact conv (contrib_of_unique (.inst i) hu) (cgs_mInst i _)
  | cgi i g =>
    rw [reach_cg, reach_emptyDb (by simp), List.nil_append] at hc
    obtain ⟨rfl, _⟩ := head_of_rep hc
    exact conv (contrib_of_unique (.group (.cg i g)) hu) (cis_mCg g _)
  | cp hg =>
    have := contrib_of_unique (.group hg) hu
    cases hg with
    | cg i g =>
      rw [reach_cg, reach_emptyDb (by simp), List.nil_append] at hc
      obtain ⟨rfl, _⟩ := head_of_rep hc
      exact conv this (cps_mCg g _)
    | ci i g c =>
      rw [reach_ci, reach_emptyDb (by simp), List.nil_append] at hc
      obtain ⟨rfl, _⟩ := head_of_rep hc
      exact conv this (cps_mCi c _)
  | cr hg =>
    have := contrib_of_unique (.group hg) hu
    cases hg with
    | cg i g =>
      rw [reach_cg, reach_emptyDb (by simp), List.nil_append] at hc
      obtain ⟨rfl, _⟩ := head_of_rep hc
      exact conv this (crs_mCg g _)
    | ci i g c =>
      rw [reach_ci, reach_emptyDb (by simp), List.nil_append] at hc
      obtain ⟨rfl, _⟩ := head_of_rep hc
      exact conv this (crs_mCi c _)

/-- **C07** (order of bins) Bins of each kind appear in order of first appearance in the inputs. -/
theorem C07_bin_order_of_first {out : Scope} {srcs : List Scope}
    (hu : ∀ s ∈ srcs, UniqueNames s) (h : merge emptyDb srcs = .ok out)
    {p : Addr} (hp : LeafAddr p) {k : Nat} (hk : IsKind k) {c : Scope} (hc : c ∈ reach p out) :
    (c.items.filter (fun x => maskHit x.kind k)).map (·.name)
      = ((srcs.flatMap (reach p)).flatMap
          (fun s => (s.items.filter (fun x => maskHit x.kind k)).map (·.name))).eraseDups := by
  obtain ⟨hok, rfl⟩ := Merge.merge_ok h
  obtain ⟨f, hi, _, _, hr⟩ := leaf_items hp emptyDb srcs
  rw [hr, reach_emptyDb hp.ne_nil, List.nil_append] at hc
  obtain ⟨rfl, _⟩ := head_of_rep hc
  have := coverItems_pBins hk (f (contrib p srcs)) (contrib p srcs) (hi _)
  unfold Scope.coverItems at this
  rw [this, ← firstSeen_eq_eraseDups, ← contrib_of_unique (.leaf hp) hu]
  have h2 : (pBinsOfKind (kindItems (contrib p srcs) k) k).map (·.name)
      = firstSeen ((kindItems (contrib p srcs) k).map (·.name)) := by
    simp [pBinsOfKind, Function.comp_def, pBin, mkBin]
  rw [h2]
  simp [kindItems, Scope.coverItems, List.map_flatMap]

example : (reach Ex.pCp Ex.out).map (fun c => (c.items.filter (fun x => maskHit x.kind CT.CVGBIN)).map (·.name))
      = [["a", "b", "c"]] ∧
    (Ex.out.children.filter (fun x => maskHit x.stype ST.INSTANCE)).map (·.name) = ["i", "j"] := by
  decide

/-! ## C08 -/

theorem le_sumCounts {l : List Item} (hnn : ∀ i ∈ l, 0 ≤ i.count) {it : Item} (h : it ∈ l) :
    it.count ≤ sumCounts l := by
  have h1 : ∀ x ∈ l.map (·.count), 0 ≤ x := by
    intro x hx
    obtain ⟨i, hi, rfl⟩ := List.mem_map.1 hx
    exact hnn i hi
  exact List.single_le_sum h1 _ (List.mem_map.2 ⟨it, h, rfl⟩)

/-- **C08** If all inputs use the same threshold for a bin and counts are non-negative, a bin that
is hit in one of the inputs is hit in the merged database. -/
theorem C08_merge_never_unhits {out : Scope} {srcs : List Scope}
    (hu : ∀ s ∈ srcs, UniqueNames s) (h : merge emptyDb srcs = .ok out)
    {p : Addr} (hp : LeafAddr p) {k : Nat} (hk : IsKind k) (b : String) {t : Int}
    (hthr : ∀ s ∈ srcs, ∀ it ∈ binsAt p k b s, it.atLeast = some t)
    (hnn : ∀ s ∈ srcs, ∀ it ∈ binsAt p k b s, 0 ≤ it.count)
    {s : Scope} (hs : s ∈ srcs) {it : Item} (hit : it ∈ binsAt p k b s) (hhit : t ≤ it.count) :
    ∃ it', binsAt p k b out = [it'] ∧ it'.atLeast = some t ∧ t ≤ it'.count := by
  obtain ⟨hok, rfl⟩ := Merge.merge_ok h
  have h0 : binsAt p k b emptyDb = [] := by simp [binsAt, reach_emptyDb hp.ne_nil, itemsOf]
  rw [binsAt_merge hp hk, h0, List.nil_append, itemsOf_contrib_of_unique (.leaf hp) hu]
  have hmem : it ∈ srcs.flatMap (binsAt p k b) := List.mem_flatMap.2 ⟨s, hs, hit⟩
  have hne : srcs.flatMap (binsAt p k b) ≠ [] := by
    intro e; rw [e] at hmem; cases hmem
  rw [if_neg hne]
  refine ⟨_, rfl, ?_, ?_⟩
  · cases hh : (srcs.flatMap (binsAt p k b)).head? with
    | none => rw [List.head?_eq_none_iff] at hh; exact absurd hh hne
    | some f =>
      obtain ⟨s', hs', hf⟩ := List.mem_flatMap.1 (List.mem_of_mem_head? hh)
      simp [mkBin, hthr s' hs' f hf]
  · refine le_trans hhit (le_sumCounts ?_ hmem)
    intro i hi
    obtain ⟨s', hs', hf⟩ := List.mem_flatMap.1 hi
    exact hnn s' hs' i hf

example : (∀ s ∈ [Ex.dbA, Ex.dbB], ∀ it ∈ binsAt Ex.pCp CT.CVGBIN "a" s, it.atLeast = some 1) ∧
    (∃ it ∈ binsAt Ex.pCp CT.CVGBIN "a" Ex.dbA, 1 ≤ it.count) := by decide

end Verif
