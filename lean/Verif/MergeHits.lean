import Verif.MergeSeen
import Verif.MergeTogether
import Verif.MergeTypes
import Verif.YamlXml
/-!
# Merging files loses no hits (C124)

No new code.  `C124_hits_partial` with databases that have all their bins where merging looks; those read from XML and YAML do.
-/

namespace Verif
namespace Spec

/-- A coverpoint or cross: only bins, of the three kinds. -/
def NeatLeaf (c : Scope) : Prop := c.children = [] ∧ ∀ b ∈ c.items, IsKind b.kind

/-- A coverpoint or cross. -/
def LeafScope (c : Scope) : Prop := c.stype = ST.COVERPOINT ∨ c.stype = ST.CROSS

/-- A covergroup: coverpoints, crosses, and cover-instances with coverpoints and crosses only. -/
def NeatGroup (g : Scope) : Prop :=
  g.items = [] ∧ ∀ c ∈ g.children, (LeafScope c ∧ NeatLeaf c) ∨
    (c.stype = ST.COVERINSTANCE ∧ c.items = [] ∧ ∀ x ∈ c.children, LeafScope x ∧ NeatLeaf x)

/-- A database: design units without contents, and instances with covergroups only. -/
def Neat (db : Scope) : Prop :=
  db.items = [] ∧ ∀ i ∈ db.children, (i.stype = ST.DU_MODULE ∧ i.children = [] ∧ i.items = []) ∨
    (i.stype = ST.INSTANCE ∧ i.items = [] ∧ ∀ g ∈ i.children, g.stype = ST.COVERGROUP ∧ NeatGroup g)

end Spec

namespace Merge
open Spec

theorem sum_filter (p : Scope → Bool) (f : Scope → Int) (l : List Scope) :
    ((l.filter p).map f).sum = (l.map (fun c => if p c then f c else 0)).sum := by
  induction l with
  | nil => rfl
  | cons a t ih =>
    rw [List.filter_cons]
    cases h : p a <;> simp [h, ih]

theorem binHits_neat {c : Scope} (h : NeatLeaf c) : hits c = binHits c := by
  rw [hits_leaf h.1]
  have e : ∀ l : List Item, (∀ b ∈ l, IsKind b.kind) → sumCounts l =
      sumCounts (l.filter (fun i => maskHit i.kind CT.CVGBIN)) + sumCounts (l.filter (fun i => maskHit i.kind CT.IGNOREBIN)) +
        sumCounts (l.filter (fun i => maskHit i.kind CT.ILLEGALBIN)) := by
    intro l hl
    induction l with
    | nil => rfl
    | cons a t ih =>
      have := ih (fun b hb => hl b (by simp [hb]))
      rw [List.filter_cons, List.filter_cons, List.filter_cons]
      rcases hl a (by simp) with hk | hk | hk <;> rw [hk]
      · rw [if_pos (by decide), if_neg (by decide), if_neg (by decide)]
        simp only [sumCounts, List.map_cons, List.sum_cons] at this ⊢
        omega
      · rw [if_neg (by decide), if_pos (by decide), if_neg (by decide)]
        simp only [sumCounts, List.map_cons, List.sum_cons] at this ⊢
        omega
      · rw [if_neg (by decide), if_neg (by decide), if_pos (by decide)]
        simp only [sumCounts, List.map_cons, List.sum_cons] at this ⊢
        omega
  exact e _ h.2

theorem partHits_neat {c : Scope} (h : ∀ x ∈ c.children, LeafScope x ∧ NeatLeaf x) : (c.children.map hits).sum = partHits c := by
  unfold partHits kids
  rw [sum_filter, sum_filter, ← List.sum_map_add]
  congr 1
  refine List.map_congr_left (fun x hx => ?_)
  obtain ⟨h1, h2⟩ := h x hx
  rw [binHits_neat h2]
  rcases h1 with h1 | h1 <;> rw [h1]
  · rw [if_pos (by decide), if_neg (by decide), add_zero]
  · rw [if_neg (by decide), if_pos (by decide), zero_add]

theorem groupHits_neat {g : Scope} (h : NeatGroup g) : hits g = groupHits g := by
  rw [hits_eq, h.1]
  unfold groupHits partHits kids
  rw [sum_filter, sum_filter, sum_filter, ← List.sum_map_add, ← List.sum_map_add, show sumCounts [] = 0 from rfl, zero_add]
  congr 1
  refine List.map_congr_left (fun c hc => ?_)
  rcases h.2 c hc with ⟨h1 | h1, h2⟩ | ⟨h1, h2, h3⟩
  · rw [binHits_neat h2, h1, if_pos (by decide), if_neg (by decide), if_neg (by decide)]; omega
  · rw [binHits_neat h2, h1, if_neg (by decide), if_pos (by decide), if_neg (by decide)]; omega
  · rw [h1, if_neg (by decide), if_neg (by decide), if_pos (by decide), hits_eq, h2, partHits_neat h3]
    simp only [partHits, kids, show sumCounts [] = 0 from rfl]
    omega

/-- In a neat database every hit is where merging looks. -/
theorem seenHits_neat {db : Scope} (h : Neat db) : hits db = seenHits db := by
  rw [hits_eq, h.1]
  unfold seenHits
  rw [show sumCounts [] = 0 from rfl, zero_add, kids, sum_filter]
  congr 1
  refine List.map_congr_left (fun i hi => ?_)
  rcases h.2 i hi with ⟨h1, h2, h3⟩ | ⟨h1, h2, h3⟩
  · rw [h1, if_neg (by decide), hits_leaf h2, h3]; rfl
  · rw [h1, if_pos (by decide), hits_eq, h2, show sumCounts [] = 0 from rfl, zero_add, kids, sum_filter]
    congr 1
    refine List.map_congr_left (fun g hg => ?_)
    rw [(h3 g hg).1, if_pos (by decide)]
    exact groupHits_neat (h3 g hg).2

/-- **C124.** Merging databases that have all bins in covergroups of their instances loses no hits. -/
theorem C124_neat {dst : Scope} {srcs : List Scope} (hu : ∀ s ∈ srcs, UniqueNames s ∧ Neat s) {out : Scope} (h : merge dst srcs = .ok out) :
    hits out = hits dst + (srcs.map hits).sum := by
  rw [C124_hits_partial (fun s hs => (hu s hs).1) h]
  congr 2
  exact List.map_congr_left (fun s hs => (seenHits_neat (hu s hs).2).symm)

instance (k : Nat) : Decidable (IsKind k) := by unfold IsKind; infer_instance
instance (c : Scope) : Decidable (NeatLeaf c) := by unfold NeatLeaf; infer_instance
instance (c : Scope) : Decidable (LeafScope c) := by unfold LeafScope; infer_instance
instance (c : Scope) : Decidable (NeatGroup c) := by unfold NeatGroup; infer_instance
instance (c : Scope) : Decidable (Neat c) := by unfold Neat; infer_instance

/-- `C124_neat` and `C124_hits_partial` apply: 24 hits and 36 hits. -/
example : (∀ s ∈ [Ex.dbA, Ex.dbB], UniqueNames s ∧ Neat s) ∧ merge Ex.dbA [Ex.dbA, Ex.dbB] = .ok { Ex.dbA with children := Ex.dbA.children ++ Ex.out.children } ∧
    hits Ex.dbA = 24 ∧ hits Ex.dbB = 36 ∧ hits Ex.out = 60 := ⟨by decide, rfl, by decide, by decide, by decide⟩

/-- A database with an instance in an instance, and a covergroup with a hit in the inner one. -/
def Ex.dbNested : Scope := { emptyDb with children :=
  [mkInstance "i" SrcInfo.none 1 (some Ex.du) [mkInstance "j" SrcInfo.none 1 (some Ex.du) [mkCovergroup "cg" SrcInfo.none 1 [Ex.cpA]]]] }

/-- **C124**, full claim: merging loses no hits. -/
def C124_claim : Prop := ∀ (dst : Scope) (srcs : List Scope) (out : Scope), (∀ s ∈ srcs, UniqueNames s) → merge dst srcs = .ok out →
  hits out = hits dst + (srcs.map hits).sum

/-- **C124** fails: the hits of an instance in an instance are lost. -/
theorem C124_refuted : ¬ C124_claim := by
  intro h
  have := h emptyDb [Ex.dbNested] { emptyDb with children := [mkDu Ex.du.name Ex.du.src Ex.du.weight, mkInstance "i" SrcInfo.none 1 (some Ex.du) []] } (by decide) rfl
  revert this
  decide

end Merge

/-! ## Databases read from XML -/

namespace Xml
open Spec

theorem typeBins_kinds {l : List Item} (h : ∀ b ∈ l, IsKind b.kind) : ∀ b ∈ typeBins l, IsKind b.kind := by
  intro b hb
  obtain ⟨y, hy, rfl⟩ := List.mem_map.1 hb
  rw [mem_firstSeen] at hy
  obtain ⟨a, ha, hn⟩ := List.mem_map.1 hy
  simp only [mkBin]
  cases hl : l.filter (fun i => i.name = y) with
  | nil =>
    rw [List.filter_eq_nil_iff] at hl
    exact absurd (decide_eq_true hn) (hl a ha)
  | cons b t =>
    have hb : b ∈ l.filter (fun i => i.name = y) := by rw [hl]; simp
    exact h b (List.mem_filter.1 hb).1

theorem neat_inst {p : PInst} (h : KindsOk p) : ∀ x ∈ p.scope.children, LeafScope x ∧ NeatLeaf x := by
  intro x hx
  rcases List.mem_append.1 hx with hx | hx
  · obtain ⟨c, hc, rfl⟩ := List.mem_map.1 hx
    exact ⟨.inl rfl, rfl, h.1 c hc⟩
  · obtain ⟨c, hc, rfl⟩ := List.mem_map.1 hx
    exact ⟨.inr rfl, rfl, h.2 c hc⟩

theorem neat_buildGroup (t : String) {ps : List PInst} (h : ∀ p ∈ ps, KindsOk p) : NeatGroup (buildGroup t ps) := by
  refine ⟨rfl, fun c hc => ?_⟩
  have hc' := hc
  obtain ⟨s, hs, rfl⟩ := List.mem_map.1 hc
  cases s with
  | inst s =>
    have hs' := slots_inst_type ps s hs
    refine .inr ?_
    have : s ∈ kids ST.COVERINSTANCE (buildGroup t ps) := List.mem_filter.2 ⟨hc', by
      show maskHit s.stype _ = true
      rw [hs']; decide⟩
    rw [show kids ST.COVERINSTANCE (buildGroup t ps) = _ from buildGroup_insts t ps] at this
    obtain ⟨p, hp, rfl⟩ := List.mem_map.1 this
    exact ⟨rfl, rfl, neat_inst (h p hp)⟩
  | cp n =>
    refine .inl ⟨.inl rfl, rfl, ?_⟩
    have : typeCp (ps.foldl stepInst { slots := [], cpM := [], crM := [] }).cpM n ∈ kids ST.COVERPOINT (buildGroup t ps) :=
      List.mem_filter.2 ⟨hc', by simp only [typeCp, mkCoverpoint]; decide⟩
    rw [show kids ST.COVERPOINT (buildGroup t ps) = _ from buildGroup_cps t ps] at this
    obtain ⟨m, _, hm⟩ := List.mem_map.1 this
    show ∀ b ∈ (typeCp _ n).items, _
    rw [← hm]
    refine typeBins_kinds (fun b hb => ?_)
    obtain ⟨c, hc1, hb⟩ := List.mem_flatMap.1 hb
    obtain ⟨p, hp, hc1⟩ := List.mem_flatMap.1 (List.mem_filter.1 hc1).1
    exact (h p hp).1 c hc1 b hb
  | cross n l =>
    refine .inl ⟨.inr rfl, rfl, fun b hb => ?_⟩
    obtain ⟨e, _, rfl⟩ := List.mem_map.1 hb
    exact .inl rfl

/-- What the reader puts at the top. -/
def NeatTop (i : Scope) : Prop :=
  (i.stype = ST.DU_MODULE ∧ i.children = [] ∧ i.items = []) ∨ (i.stype = ST.INSTANCE ∧ i.items = [] ∧ ∀ g ∈ i.children, g.stype = ST.COVERGROUP ∧ NeatGroup g)

theorem neat_step {tops : List Scope} {d : DInst} (h : ∀ i ∈ tops, NeatTop i) (hd : ∀ g ∈ d.cgs, g.stype = ST.COVERGROUP ∧ NeatGroup g) :
    ∀ i ∈ stepD tops d, NeatTop i := by
  have h1 : ∀ i ∈ addModule d.module tops, NeatTop i := by
    unfold addModule
    intro i hi
    split at hi
    · exact h i hi
    · rcases List.mem_append.1 hi with hi | hi
      · exact h i hi
      · rw [List.mem_singleton] at hi
        subst hi
        exact .inl ⟨rfl, rfl, rfl⟩
  unfold stepD addInst
  intro i hi
  split at hi
  · obtain ⟨s, hs, rfl⟩ := List.mem_map.1 hi
    split
    · rename_i ht
      have hs' : s.stype = ST.INSTANCE := by simpa using (Bool.and_eq_true_iff.1 ht).1
      rcases h1 s hs with ⟨e, _⟩ | ⟨_, h3, h4⟩
      · rw [hs'] at e; exact absurd e (by decide)
      · refine .inr ⟨hs', h3, fun g hg => ?_⟩
        rcases List.mem_append.1 hg with hg | hg
        · exact h4 g hg
        · exact hd g hg
    · exact h1 s hs
  · rcases List.mem_append.1 hi with hi | hi
    · exact h1 i hi
    · rw [List.mem_singleton] at hi
      subst hi
      exact .inr ⟨rfl, rfl, hd⟩

/-- A database read from XML has all bins in covergroups of its instances. -/
theorem neat_read {flt : FloatText} {doc : Elem} {db : Database} (h : Xml.read flt doc = .ok db) : Neat db.root := by
  unfold Xml.read at h
  simp only [Ex.bind_ok, Ex.pure_ok, iter_within, readInsts_iff] at h
  obtain ⟨files, _, hs, _, tops, ⟨hgood, rfl⟩, rfl⟩ := h
  refine ⟨rfl, ?_⟩
  show ∀ i ∈ _, NeatTop i
  have key : ∀ (l : List Elem) (s : List Scope), (∀ i ∈ s, NeatTop i) → (∀ i ∈ l, ∀ c ∈ within "covergroupCoverage" i, ∀ g ∈ within "cgInstance" c, GoodGroup g) →
      ∀ i ∈ (l.map dI).foldl stepD s, NeatTop i := by
    intro l
    induction l with
    | nil => intro s hs _; exact hs
    | cons a t ih =>
      intro s hs hg
      refine ih _ (neat_step hs (fun g hgm => ?_)) (fun i hi => hg i (by simp [hi]))
      obtain ⟨c, hc, hgm⟩ := List.mem_flatMap.1 hgm
      obtain ⟨n, _, rfl⟩ := List.mem_map.1 hgm
      refine ⟨rfl, neat_buildGroup _ (fun p hp => ?_)⟩
      obtain ⟨e, he, rfl⟩ := List.mem_map.1 hp
      exact kindsOk_dInst (hg a (by simp) c hc e (List.mem_filter.1 he).1)
  exact key _ [] (by simp) (fun i hi => (hgood i hi).2.2)

/-- **C124.** Merging XML files loses no hits. -/
theorem C124_xml {flt : FloatText} {docs : List Elem} {dbs : List Database} (hr : docs.mapM (Xml.read flt) = .ok dbs)
    (hu : ∀ db ∈ dbs, UniqueNames db.root) {dst out : Scope} (h : Merge.merge dst (dbs.map (·.root)) = .ok out) :
    hits out = hits dst + (dbs.map (fun db => hits db.root)).sum := by
  rw [Merge.C124_neat (fun s hs => ?_) h, List.map_map]
  · rfl
  · obtain ⟨db, hdb, rfl⟩ := List.mem_map.1 hs
    obtain ⟨doc, _, hd⟩ := Ex.mapM_mem' hr hdb
    exact ⟨hu db hdb, neat_read hd⟩

/-- `C124_xml` applies: a document read twice and merged. -/
example : ∃ doc db out, [doc, doc].mapM (Xml.read exEnv2.flt) = .ok [db, db] ∧ (∀ d ∈ [db, db], UniqueNames d.root) ∧
    Merge.merge emptyDb [db.root, db.root] = .ok out ∧ hits db.root ≠ 0 ∧ hits out = 2 * hits db.root := by
  obtain ⟨doc, hw⟩ := exists_of_isOk (x := Xml.write exEnv2 exSchemaDb) (by decide +kernel)
  obtain ⟨db, hr⟩ := exists_of_isOk (x := throughFile exEnv2 exSchemaDb) (by decide +kernel)
  have h1 : (throughFile exEnv2 exSchemaDb).map (fun db => decide (UniqueNames db.root ∧ hits db.root ≠ 0)) = .ok true := by decide +kernel
  have h2 : ((throughFile exEnv2 exSchemaDb).bind (fun db => Merge.merge emptyDb [db.root, db.root])).map (fun _ => ()) = .ok () := by decide +kernel
  have hd : Xml.read exEnv2.flt (reparse doc) = .ok db := by
    have h3 := hr
    unfold throughFile at h3
    rw [hw] at h3
    exact (factoryRead_ok.1 h3).2
  rw [hr] at h1 h2
  have h1 : UniqueNames db.root ∧ hits db.root ≠ 0 := of_decide_eq_true (Except.ok.inj h1)
  cases hm : Merge.merge emptyDb [db.root, db.root] with
  | error e => simp [Except.bind, hm, Except.map] at h2
  | ok out =>
    have hmm : [reparse doc, reparse doc].mapM (Xml.read exEnv2.flt) = .ok [db, db] := by simp [hd]; rfl
    refine ⟨reparse doc, db, out, hmm, by simp [h1.1], hm, h1.2, ?_⟩
    rw [C124_xml hmm (by simp [h1.1]) hm]
    simp only [List.map_cons, List.map_nil, List.sum_cons, List.sum_nil, show hits emptyDb = 0 from by decide]
    omega

end Xml

/-! ## Databases loaded from YAML -/

namespace Yaml
open Spec

theorem neat_cp (c : YCp) : NeatLeaf (recordCp c) := by
  refine ⟨rfl, fun b hb => ?_⟩
  simp only [recordCp, mkCoverpoint, cpItems, List.mem_append, List.mem_map] at hb
  rcases hb with (⟨_, _, rfl⟩ | ⟨_, _, rfl⟩) | ⟨_, _, rfl⟩
  · exact .inl rfl
  · exact .inr (.inl rfl)
  · exact .inr (.inr rfl)

theorem neat_cross (c : YCross) : NeatLeaf (recordCross c) := by
  refine ⟨rfl, fun b hb => ?_⟩
  obtain ⟨_, _, rfl⟩ := List.mem_map.1 hb
  exact .inl rfl

/-- A database loaded from YAML has all bins in covergroups of its instance. -/
theorem neat_loaded (gs : List YCg) : Neat (loadedDb (gs.map cgScope)).root := by
  refine ⟨rfl, fun i hi => ?_⟩
  simp only [loadedDb, List.mem_cons, List.not_mem_nil, or_false] at hi
  rcases hi with rfl | rfl
  · exact .inl ⟨rfl, rfl, rfl⟩
  · refine .inr ⟨rfl, rfl, fun g hg => ?_⟩
    obtain ⟨y, _, rfl⟩ := List.mem_map.1 hg
    refine ⟨rfl, rfl, fun c hc => ?_⟩
    simp only [cgScope, mkCovergroup, List.mem_append, List.mem_map] at hc
    rcases hc with (⟨e, _, rfl⟩ | ⟨e, _, rfl⟩) | ⟨x, _, rfl⟩
    · exact .inl ⟨.inl rfl, neat_cp _⟩
    · exact .inl ⟨.inr rfl, neat_cross _⟩
    · refine .inr ⟨rfl, rfl, fun z hz => ?_⟩
      simp only [instScope, mkCoverInst, List.mem_append, List.mem_map] at hz
      rcases hz with ⟨e, _, rfl⟩ | ⟨e, _, rfl⟩
      · exact ⟨.inl rfl, neat_cp _⟩
      · exact ⟨.inr rfl, neat_cross _⟩

/-- **C124.** Merging YAML files loses no hits. -/
theorem C124_yaml {l : List (Json × YDoc)} (hs : ∀ p ∈ l, Says p.1 p.2 ∧ UniqueDoc p.2) {dbs : List Database} (hr : (l.map (·.1)).mapM Yaml.load = .ok dbs)
    {dst out : Scope} (h : Merge.merge dst (dbs.map (·.root)) = .ok out) : hits out = hits dst + (dbs.map (fun db => hits db.root)).sum := by
  rw [Merge.C124_neat (fun s hs' => ?_) h, List.map_map]
  · rfl
  · obtain ⟨db, hdb, rfl⟩ := List.mem_map.1 hs'
    obtain ⟨j, hj, hd⟩ := Ex.mapM_mem' hr hdb
    obtain ⟨p, hp, rfl⟩ := List.mem_map.1 hj
    obtain ⟨_, rfl⟩ := (load_says (hs p hp).1 db).1 hd
    exact ⟨unique_loaded (hs p hp).2, neat_loaded _⟩

/-- `C124_yaml` applies: a document with 14 hits, counting those of the type covergroup. -/
example : ∃ db out, (∀ p ∈ [(encDoc exPlain, exPlain), (encDoc exPlain, exPlain)], Says p.1 p.2 ∧ UniqueDoc p.2) ∧
    [encDoc exPlain, encDoc exPlain].mapM Yaml.load = .ok [db, db] ∧ Merge.merge emptyDb [db.root, db.root] = .ok out ∧
    hits db.root = 14 ∧ hits out = 28 := by
  have hs : ∀ p ∈ [(encDoc exPlain, exPlain), (encDoc exPlain, exPlain)], Says p.1 p.2 ∧ UniqueDoc p.2 := by
    intro p hp
    simp only [List.mem_cons, List.not_mem_nil, or_false, or_self] at hp
    subst hp
    exact ⟨says_encode _, exPlain_unique.1⟩
  have h : (loadDoc exPlain).map (fun db => hits db.root) = .ok 14 := by decide +kernel
  have h2 : ((loadDoc exPlain).bind (fun db => Merge.merge emptyDb [db.root, db.root])).map (fun _ => ()) = .ok () := by decide +kernel
  cases hd : loadDoc exPlain with
  | error e => rw [hd] at h; cases h
  | ok db =>
    rw [hd] at h h2
    cases hm : Merge.merge emptyDb [db.root, db.root] with
    | error e => simp [Except.bind, hm, Except.map] at h2
    | ok out =>
      have hl : Yaml.load (encDoc exPlain) = .ok db := (load_encode _).trans hd
      have hmm : [encDoc exPlain, encDoc exPlain].mapM Yaml.load = .ok [db, db] := by simp [hl]; rfl
      refine ⟨db, out, hs, hmm, hm, Except.ok.inj h, ?_⟩
      rw [C124_yaml hs hmm hm]
      simp only [List.map_cons, List.map_nil, List.sum_cons, List.sum_nil, show hits emptyDb = 0 from by decide, show hits db.root = 14 from Except.ok.inj h]
      rfl

end Yaml
end Verif
