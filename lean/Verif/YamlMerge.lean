import Verif.CommandErrors
import Verif.YamlXml
import Verif.MergeTogether
import Verif.MergeStages
/-!
# Which input files can be merged (C131)

No new code: the exact condition of C11 on databases that were read from XML or YAML files.
-/

namespace Verif

namespace Spec
open Yaml

/-- The covergroup of that name; of several the last counts. -/
def docGroupAt (d : YDoc) (g : String) : List YCg := ((docGroups d).filter (fun y => y.name = g)).getLast?.toList

/-- The instance of that name in the covergroup of that name; of several the last counts. -/
def docInstAt (d : YDoc) (g i : String) : List YInst :=
  (docGroupAt d g).flatMap (fun y => ((y.instances.getD []).filter (fun z => z.name = i)).getLast?.toList)

/-- The crosses of that name in that instance. -/
def docCrossesAt (d : YDoc) (g i x : String) : List YCross := (docInstAt d g i).flatMap (fun z => (YInst.crs z).filter (fun c => c.name = x))

/-- In some instance, the first cross of a name crosses a coverpoint that the instance has in none of the documents. -/
def ForeignCross (ds : List YDoc) : Prop :=
  ∃ g i x c n, (ds.flatMap (fun d => docCrossesAt d g i x)).head? = some c ∧ n ∈ c.coverpoints ∧
    ∀ d ∈ ds, ∀ z ∈ docInstAt d g i, n ∉ (YInst.cps z).map (·.name)

end Spec

namespace Yaml
open Spec Xml Merge

/-! ## Addresses in a loaded database -/

theorem getLast?_map_toList {α β : Type} (f : α → β) (l : List α) : ((l.map f).getLast?).toList = l.getLast?.toList.map f := by
  rw [List.getLast?_map]
  cases l.getLast? <;> rfl

theorem pick_single {m : Nat} {n : String} (hm : m ≠ ST.CROSS) (s : Scope) :
    pick (m, n) [s] = ((kids m s).filter (fun c => c.name = n)).getLast?.toList := by
  have : childrenAt (m, n) s = (kids m s).filter (fun c => c.name = n) := by
    unfold childrenAt kids
    rw [List.filter_filter]
    congr 1
    funext c
    rw [Bool.and_comm]
  unfold pick
  rw [if_neg hm, List.filterMap_cons, this]
  cases h : ((kids m s).filter (fun c => c.name = n)).getLast? <;> rfl

theorem pick_each {m : Nat} {n : String} (l : List Scope) : pick (m, n) l = l.flatMap (fun s => pick (m, n) [s]) := by
  induction l with
  | nil => simp [pick]
  | cons a t ih =>
    rw [List.flatMap_cons, ← ih, ← pick_append]
    rfl

theorem filter_named {α : Type} (f : α → Scope) (g : α → String) (h : ∀ a, (f a).name = g a) (l : List α) (n : String) :
    (l.map f).filter (fun c => c.name = n) = (l.filter (fun a => g a = n)).map f := by
  rw [List.filter_map]
  congr 1
  apply List.filter_congr
  intro a _
  simp [Function.comp, h]

theorem at_instance (d : YDoc) (i : String) : contrib [(ST.INSTANCE, i)] [(loadedDb ((docGroups d).map cgScope)).root] =
    if i = "cg_inst" then [defaultInst ((docGroups d).map cgScope)] else [] := by
  show pick (ST.INSTANCE, i) [_] = _
  rw [pick_single (by decide), kids_inst]
  by_cases h : i = "cg_inst"
  · subst h; rfl
  · rw [if_neg h, List.filter_cons_of_neg (fun e => h (of_decide_eq_true e).symm)]
    rfl

theorem at_group (d : YDoc) (i g : String) : contrib [(ST.INSTANCE, i), (ST.COVERGROUP, g)] [(loadedDb ((docGroups d).map cgScope)).root] =
    if i = "cg_inst" then (docGroupAt d g).map cgScope else [] := by
  rw [show [(ST.INSTANCE, i), (ST.COVERGROUP, g)] = [(ST.INSTANCE, i)] ++ [(ST.COVERGROUP, g)] from rfl, contrib_snoc, at_instance]
  by_cases h : i = "cg_inst"
  · rw [if_pos h, if_pos h, pick_single (by decide), kids_defaultInst, filter_named cgScope (·.name) (fun _ => rfl), getLast?_map_toList]
    rfl
  · rw [if_neg h, if_neg h]; rfl

theorem at_inst (d : YDoc) (i g c : String) :
    contrib [(ST.INSTANCE, i), (ST.COVERGROUP, g), (ST.COVERINSTANCE, c)] [(loadedDb ((docGroups d).map cgScope)).root] =
    if i = "cg_inst" then (docGroupAt d g).flatMap (fun y => ((y.instances.getD []).filter (fun z => z.name = c)).getLast?.toList.map (instScope (y.weight.getD 1))) else [] := by
  rw [show [(ST.INSTANCE, i), (ST.COVERGROUP, g), (ST.COVERINSTANCE, c)] = [(ST.INSTANCE, i), (ST.COVERGROUP, g)] ++ [(ST.COVERINSTANCE, c)] from rfl, contrib_snoc,
    at_group]
  by_cases h : i = "cg_inst"
  · rw [if_pos h, if_pos h, pick_each, List.flatMap_map]
    congr 1
    funext y
    rw [pick_single (by decide), kids_cg_inst, filter_named (instScope _) (·.name) (fun _ => rfl), getLast?_map_toList]
  · rw [if_neg h, if_neg h]; rfl

theorem at_cross (d : YDoc) (i g c x : String) :
    contrib [(ST.INSTANCE, i), (ST.COVERGROUP, g), (ST.COVERINSTANCE, c), (ST.CROSS, x)] [(loadedDb ((docGroups d).map cgScope)).root] =
    if i = "cg_inst" then (docCrossesAt d g c x).map recordCross else [] := by
  rw [show [(ST.INSTANCE, i), (ST.COVERGROUP, g), (ST.COVERINSTANCE, c), (ST.CROSS, x)] =
    [(ST.INSTANCE, i), (ST.COVERGROUP, g), (ST.COVERINSTANCE, c)] ++ [(ST.CROSS, x)] from rfl, contrib_snoc, at_inst]
  by_cases h : i = "cg_inst"
  · rw [if_pos h, if_pos h]
    unfold pick docCrossesAt docInstAt
    rw [if_pos rfl, List.flatMap_assoc, List.flatMap_assoc, List.map_flatMap]
    congr 1
    funext y
    rw [List.flatMap_map, List.map_flatMap]
    congr 1
    funext z
    have : childrenAt (ST.CROSS, x) (instScope (y.weight.getD 1) z) = (kids ST.CROSS (instScope (y.weight.getD 1) z)).filter (fun c => c.name = x) := by
      unfold childrenAt kids
      rw [List.filter_filter]
      congr 1
      funext c
      rw [Bool.and_comm]
    rw [this, kids_inst_cross, filter_named recordCross (·.name) (fun _ => rfl)]
    rfl
  · rw [if_neg h, if_neg h]; rfl

theorem contrib_each (p : Addr) (l : List Scope) : contrib p l = l.flatMap (fun s => contrib p [s]) := by
  have h := contrib_lists p (l.map (fun s => [s]))
  rw [flatten_singles, List.flatMap_map] at h
  exact h

theorem contrib_sub {p : Addr} {l : List Scope} {c : Scope} (h : c ∈ contrib p l) : ∃ s ∈ l, c ∈ subtrees s := by
  induction p generalizing l with
  | nil => exact ⟨c, h, mem_subtrees_self c⟩
  | cons st p ih =>
    obtain ⟨s, hs, hc⟩ := ih h
    obtain ⟨a, ha, hk, _⟩ := mem_pick (m := st.1) (n := st.2) (l := l) hs
    exact ⟨a, ha, mem_subtrees_child (List.mem_filter.1 hk).1 hc⟩

theorem set_loaded (d : YDoc) : ∀ s ∈ subtrees (loadedDb ((docGroups d).map cgScope)).root, ∀ b ∈ s.items, b.atLeast ≠ none := by
  have key := forall_loaded (gs := docGroups d) (P := fun s => ∀ b ∈ s.items, b.atLeast ≠ none)
    (by intro b hb; cases hb) (by intro b hb; cases hb) (by intro _ _ b hb; cases hb) set_recordCp set_recordCross (by intro _ _ _ _ b hb; cases hb)
  exact forall_subtrees (P := fun s => ∀ b ∈ s.items, b.atLeast ≠ none) |>.2 ⟨(by intro b hb; cases hb), key⟩

/-- Databases loaded from documents. -/
theorem unresolvable_iff {ds : List YDoc} (hl : ∀ d ∈ ds, Loadable d) :
    Unresolvable (ds.map (fun d => (loadedDb ((docGroups d).map cgScope)).root)) ↔ ForeignCross ds := by
  have hpts : ∀ g c n, (∀ d ∈ ds, ∀ z ∈ docInstAt d g c, n ∉ (YInst.cps z).map (·.name)) ↔
      contrib [(ST.INSTANCE, "cg_inst"), (ST.COVERGROUP, g), (ST.COVERINSTANCE, c), (ST.COVERPOINT, n)]
        (ds.map (fun d => (loadedDb ((docGroups d).map cgScope)).root)) = [] := by
    intro g c n
    rw [contrib_each, List.flatMap_map, List.flatMap_eq_nil_iff]
    refine forall₂_congr fun d _ => ?_
    show _ ↔ pick (ST.COVERPOINT, n) (contrib [(ST.INSTANCE, "cg_inst"), (ST.COVERGROUP, g), (ST.COVERINSTANCE, c)] _) = []
    rw [at_inst, if_pos rfl, pick_each, List.flatMap_eq_nil_iff]
    have hone : ∀ (w : Int) (z : YInst), pick (ST.COVERPOINT, n) [instScope w z] = [] ↔ n ∉ (YInst.cps z).map (·.name) := by
      intro w z
      rw [pick_single (by decide), kids_inst_cp, filter_named recordCp (·.name) (fun _ => rfl)]
      have : cpsOf z = YInst.cps z := rfl
      rw [this]
      constructor
      · intro h hn
        obtain ⟨q, hq, rfl⟩ := List.mem_map.1 hn
        cases hl : ((List.filter (fun a => decide (a.name = q.name)) (YInst.cps z)).map recordCp).getLast? with
        | some y => rw [hl] at h; cases h
        | none =>
          rw [List.getLast?_eq_none_iff, List.map_eq_nil_iff, List.filter_eq_nil_iff] at hl
          exact hl q hq (decide_eq_true rfl)
      · intro h
        rw [List.filter_eq_nil_iff.2]
        · rfl
        · intro a ha e
          exact h (List.mem_map.2 ⟨a, ha, by simpa using e⟩)
    constructor
    · intro h s hs
      obtain ⟨y, hy, hs⟩ := List.mem_flatMap.1 hs
      obtain ⟨z, hz, rfl⟩ := List.mem_map.1 hs
      exact (hone _ _).2 (h z (List.mem_flatMap.2 ⟨y, hy, hz⟩))
    · intro h z hz
      obtain ⟨y, hy, hz⟩ := List.mem_flatMap.1 hz
      exact (hone (y.weight.getD 1) _).1 (h _ (List.mem_flatMap.2 ⟨y, hy, List.mem_map.2 ⟨z, hz, rfl⟩⟩))
  constructor
  · rintro (⟨i, s, hs, hd⟩ | ⟨p, hp, x, c, hc, hbad⟩ | ⟨p, hp, k, hk, b, it, hit, hno⟩)
    · obtain ⟨r, hr, hk, _⟩ := mem_pick (m := ST.INSTANCE) (n := i) (List.mem_of_mem_head? hs)
      obtain ⟨d, _, rfl⟩ := List.mem_map.1 hr
      rw [kids_inst, List.mem_singleton] at hk
      subst hk
      cases hd
    · cases hp with
      | cg i g =>
        exfalso
        rw [contrib_snoc] at hc
        obtain ⟨s, hs, hk, _⟩ := mem_pick (List.mem_of_mem_head? hc)
        rw [contrib_each] at hs
        obtain ⟨r, hr, hs'⟩ := List.mem_flatMap.1 hs
        obtain ⟨d, hd, rfl⟩ := List.mem_map.1 hr
        rw [at_group] at hs'
        split at hs'
        swap
        · cases hs'
        obtain ⟨y, hy, rfl⟩ := List.mem_map.1 hs'
        have hyd : y ∈ docGroups d := by
          unfold docGroupAt at hy
          rw [Option.mem_toList] at hy
          exact (List.mem_filter.1 (List.mem_of_getLast? hy)).1
        obtain ⟨is, hcg⟩ := (hl d hd).2 y hyd
        obtain ⟨l, hl', hin⟩ := (linked_cg hcg).crosses c hk
        rcases hbad with hbad | ⟨l', n, e, hn, hnil⟩
        · rw [hl'] at hbad; cases hbad
        · rw [hl'] at e; cases e
          obtain ⟨q, hq, rfl⟩ := List.mem_map.1 (hin n hn)
          rw [contrib_snoc] at hnil
          rw [← contrib_each] at hs
          exact pick_of_kid hs hq hnil
      | ci i g n =>
        have hc' : (contrib [(ST.INSTANCE, i), (ST.COVERGROUP, g), (ST.COVERINSTANCE, n), (ST.CROSS, x)] (ds.map (fun d => (loadedDb ((docGroups d).map cgScope)).root))).head? = some c := hc
        rw [contrib_each, List.flatMap_map] at hc'
        simp only [at_cross] at hc'
        by_cases hi : i = "cg_inst"
        swap
        · rw [show ds.flatMap (fun d => if i = "cg_inst" then (docCrossesAt d g n x).map recordCross else []) = [] from
            List.flatMap_eq_nil_iff.2 (fun d _ => if_neg hi)] at hc'
          cases hc'
        subst hi
        simp only [if_true] at hc'
        rw [← List.map_flatMap, List.head?_map] at hc'
        cases hh : (ds.flatMap (fun d => docCrossesAt d g n x)).head? with
        | none => rw [hh] at hc'; cases hc'
        | some y =>
          rw [hh] at hc'
          cases hc'
          rcases hbad with hbad | ⟨l', m, e, hm, hnil⟩
          · cases hbad
          · cases e
            exact ⟨g, n, x, y, m, hh, hm, (hpts g n m).2 hnil⟩
    · exfalso
      have hm := List.mem_of_mem_head? hit
      obtain ⟨c, hc, hi⟩ := List.mem_flatMap.1 hm
      obtain ⟨s, hs, hsub⟩ := contrib_sub hc
      obtain ⟨d, _, rfl⟩ := List.mem_map.1 hs
      exact set_loaded d c hsub it (List.mem_filter.1 hi).1 hno
  · rintro ⟨g, i, x, c, n, hc, hn, hno⟩
    refine .inr (.inl ⟨_, .ci "cg_inst" g i, x, recordCross c, ?_, .inr ⟨c.coverpoints, n, rfl, hn, (hpts g i n).1 hno⟩⟩)
    show (contrib [(ST.INSTANCE, "cg_inst"), (ST.COVERGROUP, g), (ST.COVERINSTANCE, i), (ST.CROSS, x)] _).head? = _
    rw [contrib_each, List.flatMap_map]
    simp only [at_cross, if_true]
    rw [← List.map_flatMap, List.head?_map, hc]
    rfl

/-- Merging raises nothing but `AttributeError`. -/
theorem mergeDb_error {dst : Database} {srcs : List Database} {e : Err} :
    mergeDb dst srcs = .error e ↔ e = .attributeError ∧ Unresolvable (srcs.map (·.root)) := by
  have h := C11_merge_fails_iff dst.root (srcs.map (·.root))
  unfold mergeDb
  cases hm : merge dst.root (srcs.map (·.root)) with
  | ok out =>
    have : ¬ Unresolvable (srcs.map (·.root)) := h.2.1 ⟨out, hm⟩
    constructor
    · intro h'; cases h'
    · rintro ⟨_, h'⟩; exact absurd h' this
  | error e' =>
    have hu : Unresolvable (srcs.map (·.root)) := by
      by_contra hn
      obtain ⟨out, ho⟩ := h.2.2 hn
      rw [hm] at ho; cases ho
    have := h.1.2 hu
    rw [hm] at this
    cases this
    constructor
    · intro h'; cases h'; exact ⟨rfl, hu⟩
    · rintro ⟨rfl, _⟩; rfl

/-- **C131.** Merging databases loaded from YAML files, into any destination, fails exactly if in some instance of a covergroup the first cross of a name
crosses a coverpoint that the instance has in none of the files; the exception is an `AttributeError`. -/
theorem C131_yaml {ds : List YDoc} {srcs : List Database} (h : List.Forall₂ (fun d s => ∃ j, LoadedFrom j d s) ds srcs) (dst : Database) (e : Err) :
    mergeDb dst srcs = .error e ↔ e = .attributeError ∧ ForeignCross ds := by
  have hr : srcs.map (·.root) = ds.map (fun d => (loadedDb ((docGroups d).map cgScope)).root) ∧ ∀ d ∈ ds, Loadable d := by
    induction h with
    | nil => exact ⟨rfl, by simp⟩
    | cons h _ ih =>
      obtain ⟨j, h1, h2⟩ := h
      obtain ⟨hl, rfl⟩ := (load_says h1 _).1 h2
      exact ⟨by rw [List.map_cons, List.map_cons, ih.1], by simpa using ⟨hl, ih.2⟩⟩
  rw [mergeDb_error, hr.1, unresolvable_iff hr.2]

/-- **C131.** One file, when its names are distinct: every cross of every instance must cross coverpoints of the instance itself. -/
theorem C131_yaml_one {j : Json} {d : YDoc} {db : Database} (h : LoadedFrom j d db) (hu : UniqueDoc d)
    (hx : ∀ g ∈ docGroups d, ∀ i ∈ g.instances.getD [], ((YInst.crs i).map (·.name)).Nodup) (dst : Database) :
    (∃ out, mergeDb dst [db] = .ok out) ↔
      ∀ g ∈ docGroups d, ∀ i ∈ g.instances.getD [], ∀ x ∈ YInst.crs i, ∀ n ∈ x.coverpoints, n ∈ (YInst.cps i).map (·.name) := by
  have hf := C131_yaml (.cons ⟨j, h⟩ .nil) dst
  have hok : (∃ out, mergeDb dst [db] = .ok out) ↔ ¬ ForeignCross [d] := by
    cases hm : mergeDb dst [db] with
    | ok out => exact ⟨fun _ hfc => (by have := (hf .attributeError).2 ⟨rfl, hfc⟩; rw [hm] at this; cases this), fun _ => ⟨out, rfl⟩⟩
    | error e => exact ⟨fun ⟨_, h⟩ => (by cases h), fun hn => absurd ((hf e).1 hm).2 hn⟩
  have hlast : ∀ {α : Type} (nm : α → String) (l : List α), (l.map nm).Nodup → ∀ a ∈ l, l.filter (fun b => nm b = nm a) = [a] := by
    intro α nm l hl a ha
    induction l with
    | nil => cases ha
    | cons b t ih =>
      rw [List.map_cons, List.nodup_cons] at hl
      rcases List.mem_cons.1 ha with rfl | ha
      · rw [List.filter_cons_of_pos (by simp), List.filter_eq_nil_iff.2]
        intro c hc e
        exact hl.1 (List.mem_map.2 ⟨c, hc, by simpa using e⟩)
      · rw [List.filter_cons_of_neg, ih hl.2 ha]
        intro e
        exact hl.1 (List.mem_map.2 ⟨a, ha, (by simpa using e : nm b = nm a).symm⟩)
  have hinst : ∀ g ∈ docGroups d, ∀ i ∈ g.instances.getD [], docInstAt d g.name i.name = [i] := by
    intro g hg i hi
    unfold docInstAt docGroupAt
    rw [hlast (·.name) _ hu.groups g hg]
    show ([g].flatMap _) = _
    rw [List.flatMap_singleton, hlast (·.name) _ (hu.insts g hg) i hi]
    rfl
  rw [hok]
  constructor
  · intro hn g hg i hi x hx' n hnx
    by_contra hno
    refine hn ⟨g.name, i.name, x.name, x, n, ?_, hnx, ?_⟩
    · rw [List.flatMap_singleton]
      unfold docCrossesAt
      rw [hinst g hg i hi, List.flatMap_singleton, hlast (·.name) _ (hx g hg i hi) x hx']
      rfl
    · intro d' hd' z hz
      rw [List.mem_singleton.1 hd', hinst g hg i hi, List.mem_singleton] at hz
      rw [hz]; exact hno
  · rintro hall ⟨g, i, x, c, n, hc, hn, hno⟩
    rw [List.flatMap_singleton] at hc
    obtain ⟨z, hz, hcz⟩ := List.mem_flatMap.1 (List.mem_of_mem_head? hc)
    have hz0 := hno d (by simp) z hz
    obtain ⟨y, hy, hzy⟩ := List.mem_flatMap.1 hz
    unfold docGroupAt at hy
    rw [Option.mem_toList] at hy hzy
    exact hz0 (hall y (List.mem_filter.1 (List.mem_of_getLast? hy)).1 z (List.mem_filter.1 (List.mem_of_getLast? hzy)).1 c (List.mem_filter.1 hcz).1 n hn)

/-- **C131.** Databases read from XML can always be merged. -/
theorem C131_xml {srcs : List Database} (h : ∀ s ∈ srcs, ∃ flt doc, Xml.read flt doc = .ok s) (dst : Database) : ∃ out, mergeDb dst srcs = .ok out := by
  have hm := mergeable_resolvable (roots_mergeable h)
  cases hx : mergeDb dst srcs with
  | ok out => exact ⟨out, rfl⟩
  | error e => exact absurd (mergeDb_error.1 hx).2 hm

end Yaml

namespace Tools

/-- What `merge` and `convert` load comes from XML or YAML. -/
theorem loads_cases {x : Ext} {fmt : String} {content : Option Bytes} {db : Database} (h : Spec.Loads x fmt content db) :
    (fmt = "xml" ∧ ∃ doc, Xml.read x.env.flt doc = .ok db) ∨ (fmt = "yaml" ∧ ∃ c j d, content = some c ∧ x.parseYaml c = .ok j ∧ Verif.Spec.LoadedFrom j d db) := by
  obtain ⟨i, hi, hr⟩ := h
  rcases registered_cases hi with ⟨rfl, e⟩ | ⟨rfl, e⟩ | ⟨rfl, e⟩
  · left
    rw [e] at hr
    refine ⟨rfl, ?_⟩
    cases content with
    | none => cases hr
    | some c =>
      obtain ⟨u, hu⟩ := unpacked_some x c
      have hr' : xmlRead x (some c) = .ok db := hr
      rw [xmlRead_unpacked hu] at hr'
      obtain ⟨t, _, h1⟩ := Ex.bind_ok.1 hr'
      obtain ⟨doc, _, h2⟩ := Ex.bind_ok.1 h1
      exact ⟨doc, (factoryRead_ok.1 h2).2⟩
  · rw [e] at hr
    exact absurd hr (by intro h; cases content <;> cases h)
  · right
    rw [e] at hr
    refine ⟨rfl, ?_⟩
    cases content with
    | none => cases hr
    | some c =>
      obtain ⟨j, h1, h2⟩ := Ex.bind_ok.1 (show (x.parseYaml c >>= fun j => Yaml.load j) = .ok db from hr)
      obtain ⟨d, hd, _⟩ := (Yaml.C72_load_accepts j).1 ⟨db, h2⟩
      exact ⟨c, j, d, rfl, h1, hd, h2⟩

/-- **C131.** With XML inputs, neither command fails because of the merge. -/
theorem C131_xml_command {x : Ext} {contents : List (Option Bytes)} {dbs : List Database}
    (h : List.Forall₂ (fun c d => Spec.Loads x "xml" c d) contents dbs) : ∃ out, Merge.mergeDb ⟨emptyDb, [], []⟩ dbs = .ok out := by
  refine Yaml.C131_xml (fun s hs => ?_) _
  obtain ⟨c, _, hc⟩ := Yaml.exists_left h hs
  rcases loads_cases hc with ⟨_, doc, hd⟩ | ⟨e, _⟩
  · exact ⟨_, doc, hd⟩
  · exact absurd e (by decide)

/-- **C131.** With a YAML input whose instances cross coverpoints they do not have, `convert` to XML raises `AttributeError`, though the file can be loaded. -/
theorem C131_convert_command {x : Ext} {a : ConvertArgs} {w : World} {c : Bytes} {j : Yaml.Json} {d : Yaml.YDoc} {db : Database} (hi : a.inputFormat = some "yaml")
    (ho : a.outputFormat.getD "xml" = "xml") (hc : w.files a.input = some c) (hj : x.parseYaml c = .ok j) (hd : Verif.Spec.LoadedFrom j d db)
    (hx : Verif.Spec.ForeignCross [d]) : ∃ w', ucisConvert x a w = (.error .attributeError, w') := by
  rw [C129_convert]
  have hl : Spec.Loads x "yaml" (some c) db := ⟨_, registered_yaml x, by
    show (x.parseYaml c >>= fun j => Yaml.load j) = _
    rw [hj]; exact hd.2⟩
  refine .merge db _ (.inl ho) (by rw [hi, hc]; exact hl) ((Yaml.C131_yaml (.cons ⟨j, hd⟩ .nil) _ _).2 ⟨rfl, hx⟩)

end Tools

namespace Yaml
open Spec

/-! ## Examples -/

/-- The second instance crosses a coverpoint of the first. -/
def exForeign : YDoc := ⟨some (some [⟨"cg", none, some [
  ⟨"i1", some [⟨"a", none, [⟨"x", 1⟩], none, none⟩], none⟩,
  ⟨"i2", some [⟨"b", none, [⟨"p", 3⟩], none, none⟩], some [⟨"ab", none, ["a", "b"], none⟩]⟩]⟩])⟩

theorem exForeign_cross : ForeignCross [exForeign] :=
  ⟨"cg", "i2", "ab", ⟨"ab", none, ["a", "b"], none⟩, "a", by decide +kernel, by decide, by decide +kernel⟩

/-- The full claim: databases loaded from YAML files can be merged. -/
def C131_claim : Prop :=
  ∀ (ds : List YDoc) (srcs : List Database) (dst : Database), List.Forall₂ (fun d s => ∃ j, LoadedFrom j d s) ds srcs → ∃ out, Merge.mergeDb dst srcs = .ok out

/-- **C131 is violated** by one file. -/
theorem C131_refuted : ¬ C131_claim := by
  intro h
  have hd : (loadDoc exForeign).isOk = true := by decide +kernel
  obtain ⟨db, hd⟩ := exists_of_isOk hd
  have hl : List.Forall₂ (fun d s => ∃ j, LoadedFrom j d s) [exForeign] [db] := .cons ⟨_, says_encode _, (load_encode _).trans hd⟩ .nil
  obtain ⟨out, ho⟩ := h _ _ ⟨emptyDb, [], []⟩ hl
  rw [(C131_yaml hl _ .attributeError).2 ⟨rfl, exForeign_cross⟩] at ho
  cases ho

/-- `C131_yaml` with the failing answer: the document can be loaded, and cannot be merged. -/
example : ∃ db, LoadedFrom (encDoc exForeign) exForeign db ∧ Merge.mergeDb ⟨emptyDb, [], []⟩ [db] = .error .attributeError := by
  have h : (loadDoc exForeign).isOk = true := by decide +kernel
  obtain ⟨db, hd⟩ := exists_of_isOk h
  have hl : LoadedFrom (encDoc exForeign) exForeign db := ⟨says_encode _, (load_encode _).trans hd⟩
  exact ⟨db, hl, (C131_yaml (.cons ⟨_, hl⟩ .nil) _ _).2 ⟨rfl, exForeign_cross⟩⟩

/-- With a second file in which that instance has the coverpoint, the merge succeeds: `C131_yaml` with two files. -/
example : ∃ db db' out, LoadedFrom (encDoc exForeign) exForeign db ∧ LoadedFrom (encDoc exPlain) exPlain db' ∧
    Merge.mergeDb ⟨emptyDb, [], []⟩ [db, db'] = .ok out := by
  have h : (do let a ← loadDoc exForeign; let b ← loadDoc exPlain; Merge.mergeDb ⟨emptyDb, [], []⟩ [a, b]).isOk = true := by decide +kernel
  obtain ⟨out, h⟩ := exists_of_isOk h
  obtain ⟨db, h1, h⟩ := Ex.bind_ok.1 h
  obtain ⟨db', h2, h3⟩ := Ex.bind_ok.1 h
  exact ⟨db, db', out, ⟨says_encode _, (load_encode _).trans h1⟩, ⟨says_encode _, (load_encode _).trans h2⟩, h3⟩

/-- `C131_yaml_one` applies, with the positive answer. -/
example : ∃ db, LoadedFrom (encDoc exPlain) exPlain db ∧ UniqueDoc exPlain ∧
    ∀ g ∈ docGroups exPlain, ∀ i ∈ g.instances.getD [], ∀ x ∈ YInst.crs i, ∀ n ∈ x.coverpoints, n ∈ (YInst.cps i).map (·.name) := by
  have h : (loadDoc exPlain).isOk = true := by decide +kernel
  obtain ⟨db, hd⟩ := exists_of_isOk h
  exact ⟨db, ⟨says_encode _, (load_encode _).trans hd⟩, exPlain_unique.1, by decide +kernel⟩

end Yaml
end Verif
