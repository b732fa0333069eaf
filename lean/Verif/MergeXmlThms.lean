import Verif.MergeXml2
import Verif.MergeDb
/-!
# Properties C79 and C80: merging databases read from XML, and storing the result
-/

namespace Verif
open Merge Xml Spec

/-! ## C79 -/

/-- **C79** (merging). Databases read from XML documents can always be merged, into any destination; no document
conditions beyond being readable are needed. -/
theorem C79_read_merges {flt : FloatText} {srcs : List Database} (h : ∀ s ∈ srcs, ∃ doc, Xml.read flt doc = .ok s) (dst : Database) :
    ∃ out, mergeDb dst srcs = .ok out := by
  have hm : ∀ s ∈ srcs.map (·.root), Mergeable s := by
    intro s hs
    obtain ⟨d, hd, rfl⟩ := List.mem_map.1 hs
    obtain ⟨doc, hdoc⟩ := h d hd
    exact read_mergeable hdoc
  have := (merge_closed dst.root _).1 ((mergeOk_iff_resolvable _).2 (mergeable_resolvable hm))
  exact ⟨{ dst with root := pMerge dst.root (srcs.map (·.root)) }, by unfold mergeDb; rw [this]; rfl⟩

theorem required_insts {flt : FloatText} {doc : Elem} {db : Database} (h : factoryRead flt doc = .ok db) : kids ST.INSTANCE db.root ≠ [] := by
  obtain ⟨hv, hr⟩ := factoryRead_ok.1 h
  unfold Xsd.valid at hv
  rw [Bool.and_eq_true, beq_iff_eq] at hv
  have hne := required_within (n := "instanceCoverages") (ty' := "INSTANCE_COVERAGE") (ct := Xsd.tUcis) (by decide) rfl
    (by simp [Xsd.tUcis]) hv.2
  obtain ⟨i, hi⟩ := List.exists_mem_of_ne_nil _ hne
  intro hnil
  have := read_insts hr
  rw [hnil, List.map_nil] at this
  have h1 := List.map_eq_nil_iff.1 this.symm
  have h2 : (attr i "name").getD "" ∈ distinct ((within "instanceCoverages" doc).map (fun i => (attr i "name").getD "")) := by
    rw [distinct_eq, mem_firstSeen]
    exact List.mem_map_of_mem hi
  rw [h1] at h2
  cases h2

theorem mergeDb_tidy {srcs : List Database} (ht : ∀ s ∈ srcs.map (·.root), Tidy s) :
    mergeDb ⟨emptyDb, [], []⟩ srcs = .ok ⟨pMerge emptyDb (srcs.map (·.root)), [], []⟩ := by
  unfold mergeDb
  rw [tidy_merge_ok ht]
  rfl

theorem merged_insts {srcs : List Database} {s : Database} (hs : s ∈ srcs) (h : kids ST.INSTANCE s.root ≠ []) :
    kids ST.INSTANCE (pMerge emptyDb (srcs.map (·.root))) ≠ [] := by
  rw [kids_pMerge]
  obtain ⟨i, hi⟩ := List.exists_mem_of_ne_nil _ h
  have : i.name ∈ childNames ST.INSTANCE (srcs.map (·.root)) :=
    childName_iff.2 ⟨s.root, List.mem_map_of_mem hs, List.mem_map_of_mem hi⟩
  exact List.ne_nil_of_mem (List.mem_map_of_mem this)

/-- Tidy databases, one of which has an instance, can be merged and stored. -/
theorem tidy_merged_stored {env : Env} (he : GoodEnv env) {srcs : List Database} (ht : ∀ s ∈ srcs, Tidy s.root)
    (hk : ∃ s ∈ srcs, kids ST.INSTANCE s.root ≠ []) :
    ∃ out doc db', mergeDb ⟨emptyDb, [], []⟩ srcs = .ok out ∧ Xml.write env out = .ok doc ∧ throughFile env out = .ok db' := by
  have ht : ∀ s ∈ srcs.map (·.root), Tidy s := by
    intro s hs
    obtain ⟨d, hd, e⟩ := List.mem_map.1 hs
    rw [← e]
    exact ht d hd
  have hm := mergeDb_tidy ht
  obtain ⟨t1, t2⟩ := tidy_merge ht
  obtain ⟨s, hs, hki⟩ := hk
  have hk := merged_insts hs hki
  generalize pMerge emptyDb (srcs.map (·.root)) = r at hm t1 t2 hk
  obtain ⟨⟨doc, hw⟩, hr⟩ := tidy_stored he (db := ⟨r, [], []⟩) t1 t2 rfl
  obtain ⟨db', hr⟩ := hr hk
  exact ⟨_, doc, db', hm, hw, hr⟩

/-- **C79** (storing). A merge of one or more databases, each read by the library from a document without blank crossed
names, can be written as XML, and the library reads the file back. -/
theorem C79_merged_stored {env : Env} (he : GoodEnv env) {flt : FloatText} {srcs : List Database} (hne : srcs ≠ [])
    (h : ∀ s ∈ srcs, ∃ doc, factoryRead flt doc = .ok s ∧ PrintableDoc doc ∧ NoBlankCross doc) :
    ∃ out doc db', mergeDb ⟨emptyDb, [], []⟩ srcs = .ok out ∧ Xml.write env out = .ok doc ∧ throughFile env out = .ok db' := by
  obtain ⟨s, hs⟩ := List.exists_mem_of_ne_nil _ hne
  obtain ⟨_, h1, _⟩ := h s hs
  exact tidy_merged_stored he (fun s hs => (h s hs).elim (fun _ ⟨a, b, c⟩ => read_tidy a b c)) ⟨s, hs, required_insts h1⟩

/-- A coverpoint without name and a cross that names it by a blank. -/
def exBlankDb : Database where
  root := { emptyDb with children := [mkInstance "top" SrcInfo.none 1 none
    [mkCovergroup "cg" SrcInfo.none 1 [mkCoverInst "i1" SrcInfo.none 1
      [mkCoverpoint "" SrcInfo.none 1 [mkBin "x" CT.CVGBIN 1 3],
       mkCross "c" SrcInfo.none 1 [" "] [mkBin "<x>" CT.CVGBIN 1 9]]]]] }
  hist := []
  files := []

/-- Without `NoBlankCross` the second half of C79 fails: a database that the library reads from a file is merged and written,
and the file is then rejected. -/
theorem C79_blank_refuted : ∃ (env : Env) (db0 db out : Database), GoodEnv env ∧ throughFile env db0 = .ok db ∧
    mergeDb ⟨emptyDb, [], []⟩ [db] = .ok out ∧ (∃ doc, Xml.write env out = .ok doc) ∧ ∃ e, throughFile env out = .error e := by
  obtain ⟨db, h1⟩ := exists_of_isOk (x := throughFile exEnv2 exBlankDb) (by decide +kernel)
  have h2 : ((throughFile exEnv2 exBlankDb).bind (fun db => mergeDb ⟨emptyDb, [], []⟩ [db])).isOk = true := by decide +kernel
  rw [h1] at h2
  obtain ⟨out, h2⟩ := exists_of_isOk (x := mergeDb ⟨emptyDb, [], []⟩ [db]) h2
  have h3 : ((throughFile exEnv2 exBlankDb).bind (fun db => (mergeDb ⟨emptyDb, [], []⟩ [db]).bind (fun o => Xml.write exEnv2 o))).isOk = true := by
    decide +kernel
  have h4 : ((throughFile exEnv2 exBlankDb).bind (fun db => (mergeDb ⟨emptyDb, [], []⟩ [db]).bind (fun o => throughFile exEnv2 o))).isOk = false := by
    decide +kernel
  rw [h1] at h3 h4
  simp only [Except.bind, h2] at h3 h4
  refine ⟨exEnv2, exBlankDb, db, out, exEnv2_good, h1, h2, exists_of_isOk h3, ?_⟩
  cases h : throughFile exEnv2 out with
  | ok x => rw [h] at h4; cases h4
  | error e => exact ⟨e, rfl⟩

/-! ## C80 -/

namespace Spec

/-- Addresses of coverpoints and crosses of cover-instances. -/
inductive InstLeaf : Nat → Addr → Prop
  | cp (i g c n : String) : InstLeaf ST.COVERPOINT [(ST.INSTANCE, i), (ST.COVERGROUP, g), (ST.COVERINSTANCE, c), (ST.COVERPOINT, n)]
  | cross (i g c n : String) : InstLeaf ST.CROSS [(ST.INSTANCE, i), (ST.COVERGROUP, g), (ST.COVERINSTANCE, c), (ST.CROSS, n)]

/-- Every covergroup has cover-instances. -/
def Instanced (r : Scope) : Prop := ∀ i ∈ kids ST.INSTANCE r, ∀ g ∈ kids ST.COVERGROUP i, kids ST.COVERINSTANCE g ≠ []

end Spec

theorem Spec.InstLeaf.leaf {m : Nat} {p : Addr} (h : InstLeaf m p) : LeafAddr p := by
  cases h with
  | cp i g c n => exact .cp (.ci i g c) n
  | cross i g c n => exact .cross (.ci i g c) n

/-- Leaves of a group with names and bins. -/
def leafView (m : Nat) (g : Scope) : List (String × List (String × Nat × Int)) := (kids m g).map (fun c => (c.name, binTriples c))

/-- The count found in a view. -/
def viewTotal (v : List (String × List (String × List (String × List (String × List (String × Nat × Int))))))
    (i g c n : String) (k : Nat) (b : String) : Int :=
  (((((((((v.filter (fun x => x.1 = i)).flatMap (·.2)).filter (fun x => x.1 = g)).flatMap (·.2)).filter (fun x => x.1 = c)).flatMap
    (·.2)).filter (fun x => x.1 = n)).flatMap (·.2)).filter (fun t => maskHit t.2.1 k && decide (t.1 = b))).map (·.2.2) |>.sum

theorem filter_flatMap_kids {β : Type} (l : List Scope) (n : String) (f : Scope → List β) :
    ((l.map (fun s => (s.name, f s))).filter (fun x => x.1 = n)).flatMap (·.2) = (l.filter (fun s => s.name = n)).flatMap f := by
  induction l with
  | nil => rfl
  | cons a t ih =>
    by_cases h : a.name = n
    · simp only [List.map_cons, List.filter_cons, h, decide_true, if_true, List.flatMap_cons]
      rw [ih]
    · simp only [List.map_cons, List.filter_cons, h, decide_false, if_false, Bool.false_eq_true]
      exact ih

theorem childrenAt_kids (m : Nat) (n : String) (s : Scope) : childrenAt (m, n) s = (kids m s).filter (fun c => c.name = n) := by
  unfold childrenAt kids
  rw [List.filter_filter]
  apply List.filter_congr
  intro x _
  exact Bool.and_comm _ _

theorem items_binTriples {k : Nat} (hk : IsKind k) (b : String) (s : Scope) :
    ((s.items.filter (fun i => maskHit i.kind k && decide (i.name = b))).map (·.count))
      = ((binTriples s).filter (fun t => maskHit t.2.1 k && decide (t.1 = b))).map (·.2.2) := by
  unfold binTriples covBins
  rw [List.filter_map, List.map_map, List.filter_filter]
  congr 1
  apply List.filter_congr
  intro i _
  rcases hk with rfl | rfl | rfl
  · cases h : maskHit i.kind CT.CVGBIN <;> simp [h]
  · cases h : maskHit i.kind CT.IGNOREBIN <;> simp [h]
  · cases h : maskHit i.kind CT.ILLEGALBIN <;> simp [h]

theorem total_view {r : Scope} (hr : Instanced r) {k : Nat} (hk : IsKind k) (m : Nat) (i g c n b : String) :
    total [(ST.INSTANCE, i), (ST.COVERGROUP, g), (ST.COVERINSTANCE, c), (m, n)] k b r
      = viewTotal (dbView (leafView m) r) i g c n k b := by
  unfold total binsAt viewTotal dbView sumCounts
  rw [filter_flatMap_kids]
  simp only [reach, List.flatMap_singleton', childrenAt_kids]
  have h1 : ∀ x ∈ (kids ST.INSTANCE r).filter (fun s => s.name = i), (kids ST.COVERGROUP x).map (fun g => (g.name, (writtenGroups g).map (fun c => (c.name, leafView m c))))
      = (kids ST.COVERGROUP x).map (fun g => (g.name, (kids ST.COVERINSTANCE g).map (fun c => (c.name, leafView m c)))) := by
    intro x hx
    apply List.map_congr_left
    intro y hy
    rw [written_insts (hr x (List.mem_filter.1 hx).1 y hy)]
  rw [List.flatMap_congr h1, ← List.map_flatMap, filter_flatMap_kids, ← List.map_flatMap, filter_flatMap_kids]
  unfold leafView
  rw [← List.map_flatMap, filter_flatMap_kids]
  have h2 : ∀ l : List Scope, (itemsOf k b l).map (·.count) =
      ((l.flatMap binTriples).filter (fun t => maskHit t.2.1 k && decide (t.1 = b))).map (·.2.2) := by
    intro l
    unfold itemsOf
    rw [List.filter_flatMap, List.map_flatMap, List.map_flatMap]
    exact List.flatMap_congr (fun s _ => items_binTriples hk b s)
  rw [h2]
  simp only [List.filter_flatMap, List.flatMap_assoc]

theorem total_congr {r r' : Scope} {m : Nat} (h1 : Instanced r) (h2 : Instanced r') (h : dbView (leafView m) r = dbView (leafView m) r')
    {k : Nat} (hk : IsKind k) {p : Addr} (hp : InstLeaf m p) (b : String) : total p k b r = total p k b r' := by
  cases hp with
  | cp i g c n => rw [total_view h1 hk, total_view h2 hk, h]
  | cross i g c n => rw [total_view h1 hk, total_view h2 hk, h]

theorem read_instanced {flt : FloatText} {doc : Elem} {db : Database} (h : Xml.read flt doc = .ok db) : Instanced db.root := by
  intro i hi g hg
  obtain ⟨t, es, hne, _, rfl⟩ := read_group h hi hg
  rw [insts_build]
  simpa using hne

theorem merged_instanced {srcs : List Scope} (h : ∀ s ∈ srcs, Instanced s) : Instanced (pMerge emptyDb srcs) := by
  intro i hi g hg
  rw [kids_pMerge] at hi
  obtain ⟨n, hn, rfl⟩ := List.mem_map.1 hi
  rw [kids_mInst_cg] at hg
  obtain ⟨k, hk, rfl⟩ := List.mem_map.1 hg
  rw [pCovergroup_eq, kids_mCg_ci]
  obtain ⟨c, _, hc⟩ := head_pick hk
  obtain ⟨a, ha, hka, _⟩ := mem_pick hc
  obtain ⟨s, hs, hi, _⟩ := mem_pick ha
  obtain ⟨x, hx⟩ := List.exists_mem_of_ne_nil _ (h s hs a hi c hka)
  exact List.ne_nil_of_mem (List.mem_map_of_mem (childName_iff.2 ⟨c, hc, List.mem_map_of_mem hx⟩))

theorem read_ordinary {flt : FloatText} {doc : Elem} {db : Database} (h : Xml.read flt doc = .ok db) {i g c x : Scope}
    (hi : i ∈ kids ST.INSTANCE db.root) (hg : g ∈ kids ST.COVERGROUP i) (hc : c ∈ kids ST.COVERINSTANCE g) (hx : x ∈ kids ST.CROSS c) :
    ∀ b ∈ covBins x, b.kind = CT.CVGBIN := by
  obtain ⟨t, es, hne, _, rfl⟩ := read_group h hi hg
  rw [insts_build, List.map_map] at hc
  obtain ⟨e, he, rfl⟩ := List.mem_map.1 hc
  rw [Function.comp, kids_inst_cross] at hx
  obtain ⟨y, hy, rfl⟩ := List.mem_map.1 hx
  obtain ⟨z, hz, rfl⟩ := List.mem_map.1 hy
  intro b hb
  obtain ⟨w, _, rfl⟩ := List.mem_map.1 (List.mem_filter.1 hb).1
  rfl

/-- The crosses of cover-instances have ordinary bins only. -/
def Spec.OrdinaryCrosses (r : Scope) : Prop := ∀ i ∈ kids ST.INSTANCE r, ∀ g ∈ kids ST.COVERGROUP i, ∀ c ∈ kids ST.COVERINSTANCE g,
  ∀ x ∈ kids ST.CROSS c, ∀ b ∈ covBins x, b.kind = CT.CVGBIN

theorem merged_ordinaryCrosses {srcs : List Scope} (h : ∀ s ∈ srcs, OrdinaryCrosses s) : OrdinaryCrosses (pMerge emptyDb srcs) := by
  intro i hi g hg c hc x hx
  rw [kids_pMerge] at hi
  obtain ⟨n, hn, rfl⟩ := List.mem_map.1 hi
  rw [kids_mInst_cg] at hg
  obtain ⟨k, hk, rfl⟩ := List.mem_map.1 hg
  rw [pCovergroup_eq, kids_mCg_ci] at hc
  obtain ⟨q, hq, rfl⟩ := List.mem_map.1 hc
  rw [pCoverinst_eq, kids_mCi_cross] at hx
  obtain ⟨y, hy, rfl⟩ := List.mem_map.1 hx
  rw [pCross_eq]
  have hall : ∀ x ∈ pick (ST.CROSS, y) (pick (ST.COVERINSTANCE, q) (pick (ST.COVERGROUP, k) (pick (ST.INSTANCE, n) srcs))),
      ∀ b ∈ covBins x, b.kind = CT.CVGBIN := by
    intro x hx
    obtain ⟨a, ha, h1, _⟩ := mem_pick hx
    obtain ⟨b, hb, h2, _⟩ := mem_pick ha
    obtain ⟨c, hc, h3, _⟩ := mem_pick hb
    obtain ⟨s, hs, h4, _⟩ := mem_pick hc
    exact h s hs c h4 b h3 a h2 x h1
  generalize pick (ST.CROSS, y) _ = l at hall
  intro b hb
  rw [covBins_mCross] at hb
  unfold pBins at hb
  have none : ∀ k, IsKind k → maskHit CT.CVGBIN k = false → pBinsOfKind (kindItems l k) k = [] := by
    intro k hk hm
    have : kindItems l k = [] := by
      rw [List.eq_nil_iff_forall_not_mem]
      intro i hi
      obtain ⟨s, hs, hi'⟩ := mem_kindItems hk hi
      have h1 := hall s hs i hi'
      obtain ⟨s', _, hi''⟩ := List.mem_flatMap.1 hi
      have h2 := (List.mem_filter.1 hi'').2
      simp only [h1] at h2
      rw [hm] at h2
      cases h2
    rw [this]; rfl
  rw [none CT.IGNOREBIN (.inr (.inl rfl)) (by decide), none CT.ILLEGALBIN (.inr (.inr rfl)) (by decide), List.append_nil, List.append_nil] at hb
  exact (mem_pBinsOfKind (.inl rfl) hb).1

/-- C80 for inputs from anywhere whose covergroups have cover-instances with ordinary bins in their crosses. -/
theorem counts_through_files {env : Env} (he : GoodEnv env) {srcs : List Database} {out db' : Database}
    (hI : ∀ s ∈ srcs, Instanced s.root) (hC : ∀ s ∈ srcs, OrdinaryCrosses s.root) (hu : ∀ s ∈ srcs, UniqueNames s.root)
    (hm : mergeDb ⟨emptyDb, [], []⟩ srcs = .ok out) (hr : throughFile env out = .ok db')
    {m : Nat} {p : Addr} (hp : InstLeaf m p) {k : Nat} (hk : IsKind k) (b : String) :
    total p k b db'.root = (srcs.map (fun s => total p k b s.root)).sum := by
  unfold mergeDb at hm
  cases hm' : merge emptyDb (srcs.map (·.root)) with
  | error e => rw [hm'] at hm; cases hm
  | ok r =>
    rw [hm'] at hm
    cases hm
    have hsum := C01_merge_conserves_counts (srcs := srcs.map (·.root)) (by
      intro s hs
      obtain ⟨d, hd, rfl⟩ := List.mem_map.1 hs
      exact hu d hd) hm' hp.leaf hk b
    rw [List.map_map] at hsum
    refine Eq.trans ?_ hsum
    have huniq : UniqueInsts r := by
      have := (C03_merged_names_unique hm' r (mem_subtrees_self r)).1 ST.INSTANCE (by simp)
      exact this
    obtain ⟨_, hpm⟩ := Merge.merge_ok hm'
    have hin : Instanced r := by
      rw [hpm]
      refine merged_instanced (fun s hs => ?_)
      obtain ⟨d, hd, rfl⟩ := List.mem_map.1 hs
      exact hI d hd
    have hpc : OrdinaryCrosses r := by
      rw [hpm]
      refine merged_ordinaryCrosses (fun s hs => ?_)
      obtain ⟨d, hd, rfl⟩ := List.mem_map.1 hs
      exact hC d hd
    unfold throughFile at hr
    obtain ⟨doc, hw, hr⟩ := Ex.bind_ok.1 hr
    obtain ⟨_, hr⟩ := factoryRead_ok.1 hr
    refine total_congr (m := m) (read_instanced hr) hin ?_ hk hp b
    obtain ⟨_, rfl⟩ := (read_written he.envOk he.floatOk he.now hw db').1 hr
    cases hp with
    | cp i g c n => exact dbView_rDb huniq (fun _ _ _ _ c _ => cpView_pInst c)
    | cross i g c n =>
      refine dbView_rDb huniq (fun i hi g hg c hc => ?_)
      rw [written_insts (hin i hi g hg)] at hc
      unfold leafView
      rw [kids_pInst_cross, List.map_map]
      apply List.map_congr_left
      intro x hx
      simp only [Function.comp, binTriples]
      rw [covBins_pCr]
      refine Prod.ext rfl ?_
      simp only [List.map_map]
      apply List.map_congr_left
      intro b hb
      simp only [Function.comp, mkBin]
      rw [hpc i hi g hg c hc x hx b hb]

/-- **C80** Merge databases read from XML, write the result as XML and read it back: at every coverpoint and cross of a
cover-instance, the count of every bin of every kind is the sum of its counts in the inputs. -/
theorem C80_counts_through_files {env : Env} (he : GoodEnv env) {flt : FloatText} {srcs : List Database} {out db' : Database}
    (h : ∀ s ∈ srcs, ∃ doc, Xml.read flt doc = .ok s) (hu : ∀ s ∈ srcs, UniqueNames s.root)
    (hm : mergeDb ⟨emptyDb, [], []⟩ srcs = .ok out) (hr : throughFile env out = .ok db')
    {m : Nat} {p : Addr} (hp : InstLeaf m p) {k : Nat} (hk : IsKind k) (b : String) :
    total p k b db'.root = (srcs.map (fun s => total p k b s.root)).sum :=
  counts_through_files he (fun s hs => (h s hs).elim (fun _ hd => read_instanced hd))
    (fun s hs => (h s hs).elim (fun _ hd _ hi _ hg _ hc _ hx => read_ordinary hd hi hg hc hx)) hu hm hr hp hk b

/-- The hypotheses of C80 are met: a database with bins of all kinds and a cross, read from its document, merged with itself,
written and read. -/
example : ∃ (db out db' : Database), (∃ doc, Xml.read exEnv2.flt doc = .ok db) ∧ UniqueNames db.root ∧
    mergeDb ⟨emptyDb, [], []⟩ [db, db] = .ok out ∧ throughFile exEnv2 out = .ok db' ∧
    total [(ST.INSTANCE, "top"), (ST.COVERGROUP, "cg"), (ST.COVERINSTANCE, "i1"), (ST.CROSS, "ab")] CT.CVGBIN "<x,x>" db'.root = 18 := by
  obtain ⟨doc, hw⟩ := exists_of_isOk (x := Xml.write exEnv2 exSchemaDb) (by decide +kernel)
  obtain ⟨db, hr⟩ := exists_of_isOk (x := throughFile exEnv2 exSchemaDb) (by decide +kernel)
  have h1 : (throughFile exEnv2 exSchemaDb).map (fun db => decide (UniqueNames db.root)) = .ok true := by decide +kernel
  rw [hr] at h1
  have h2 : (throughFile exEnv2 exSchemaDb).bind (fun db => (mergeDb ⟨emptyDb, [], []⟩ [db, db]).bind (fun o => (throughFile exEnv2 o).map
      (fun d => total [(ST.INSTANCE, "top"), (ST.COVERGROUP, "cg"), (ST.COVERINSTANCE, "i1"), (ST.CROSS, "ab")] CT.CVGBIN "<x,x>" d.root))) = .ok 18 := by
    decide +kernel
  rw [hr] at h2
  cases hm : mergeDb ⟨emptyDb, [], []⟩ [db, db] with
  | error e => simp only [Except.bind, hm] at h2; cases h2
  | ok out =>
    simp only [Except.bind, hm] at h2
    cases hd : throughFile exEnv2 out with
    | error e => rw [hd] at h2; cases h2
    | ok db' =>
      rw [hd] at h2
      refine ⟨db, out, db', ⟨reparse doc, ?_⟩, of_decide_eq_true (Except.ok.inj h1), hm, hd, Except.ok.inj h2⟩
      unfold throughFile at hr
      rw [hw] at hr
      exact (factoryRead_ok.1 hr).2

end Verif
