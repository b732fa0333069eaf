import Verif.YamlThms3
import Verif.MergeTypes3
import Verif.MergeSingle
/-!
# From YAML files to XML files

Databases loaded from YAML documents are merged (or converted, which is a merge of one) and stored as XML: what is needed for
the file to be readable, which counts it holds (C102), and when its report shows the same figures (C103).
-/

namespace Verif

namespace Spec
open Yaml

/-- The count that a document gives for a bin: kind `k`, name `b`, in coverpoint `n` of instance `c` of covergroup `g`. -/
def docBinCount (g c n : String) (k : Nat) (b : String) (d : YDoc) : Int :=
  ((((((docGroups d).filter (fun x => x.name = g)).flatMap (fun x => x.instances.getD [])).filter (fun x => x.name = c)).flatMap
    YInst.cps).filter (fun x => x.name = n) |>.flatMap kindBins).filter (fun x => x.1 = k ∧ x.2.name = b) |>.map (·.2.count) |>.sum

/-- The count that a document gives for a bin of a cross. -/
def docCrossBinCount (g c n b : String) (d : YDoc) : Int :=
  ((((((docGroups d).filter (fun x => x.name = g)).flatMap (fun x => x.instances.getD [])).filter (fun x => x.name = c)).flatMap
    YInst.crs).filter (fun x => x.name = n) |>.flatMap (fun x => x.bins.getD [])).filter (fun x => x.name = b) |>.map (·.count) |>.sum

/-- Covergroups, the instances of a covergroup, and the coverpoints of an instance have different names. -/
structure UniqueDoc (d : YDoc) : Prop where
  groups : ((docGroups d).map (·.name)).Nodup
  insts : ∀ g ∈ docGroups d, ((g.instances.getD []).map (·.name)).Nodup
  points : ∀ g ∈ docGroups d, ∀ i ∈ g.instances.getD [], ((YInst.cps i).map (·.name)).Nodup

/-- Every covergroup has an instance. -/
def InstancedDoc (d : YDoc) : Prop := ∀ g ∈ docGroups d, g.instances.getD [] ≠ []

/-- An instance that XML can hold: representable names, a coverpoint, a bin in every coverpoint, counts not negative; crosses
name coverpoints of the same instance, not by the empty name, and still after removal of surrounding blanks. -/
structure StorableInst (i : YInst) : Prop where
  name : Printable i.name
  some : YInst.cps i ≠ []
  points : ∀ c ∈ YInst.cps i, Printable c.name ∧ kindBins c ≠ [] ∧ ∀ b ∈ kindBins c, Printable b.2.name ∧ 0 ≤ b.2.count
  crosses : ∀ x ∈ YInst.crs i, Printable x.name ∧ (∀ b ∈ x.bins.getD [], Printable b.name ∧ 0 ≤ b.count) ∧
    ∀ n ∈ x.coverpoints, n ∈ (YInst.cps i).map (·.name) ∧ n ≠ "" ∧
      String.ofList (PyNum.stripL n.toList) ∈ (YInst.cps i).map (·.name)

/-- A document whose content XML can hold. -/
def StorableDoc (d : YDoc) : Prop := ∀ g ∈ docGroups d, Printable g.name ∧ g.instances.getD [] ≠ [] ∧
  ∀ i ∈ g.instances.getD [], StorableInst i

/-- A document that uses nothing that XML or the type level of YAML cannot express: no weights and thresholds other than 1, no
ignore and illegal bins. -/
structure PlainDoc (d : YDoc) : Prop where
  weights : ∀ g ∈ docGroups d, g.weight.getD 1 = 1
  points : ∀ g ∈ docGroups d, ∀ i ∈ g.instances.getD [], ∀ c ∈ YInst.cps i,
    c.atleast.getD 1 = 1 ∧ c.ignorebins.getD [] = [] ∧ c.illegalbins.getD [] = []
  crosses : ∀ g ∈ docGroups d, ∀ i ∈ g.instances.getD [], ∀ c ∈ YInst.crs i, c.atleast.getD 1 = 1

/-- Furthermore crosses of an instance, and bins of a coverpoint or cross, have different names. -/
structure DistinctDoc (d : YDoc) : Prop extends UniqueDoc d where
  crosses : ∀ g ∈ docGroups d, ∀ i ∈ g.instances.getD [], ((YInst.crs i).map (·.name)).Nodup
  bins : ∀ g ∈ docGroups d, ∀ i ∈ g.instances.getD [], ∀ c ∈ YInst.cps i, (c.bins.map (·.name)).Nodup
  crossBins : ∀ g ∈ docGroups d, ∀ i ∈ g.instances.getD [], ∀ c ∈ YInst.crs i, ((c.bins.getD []).map (·.name)).Nodup

end Spec

namespace Yaml
open Spec Xml Merge

/-! ## Items -/

theorem items_recordCp (c : YCp) :
    (recordCp c).items = (kindBins c).map (fun x => mkBin x.2.name x.1 (c.atleast.getD 1) x.2.count) := by
  simp [recordCp, mkCoverpoint, cpItems, kindBins, Function.comp_def]

theorem items_recordCross (c : YCross) :
    (recordCross c).items = (c.bins.getD []).map (fun b => mkBin b.name CT.CVGBIN (c.atleast.getD 1) b.count) := rfl

theorem isKind_kindBins {c : YCp} {x : Nat × YBin} (h : x ∈ kindBins c) : IsKind x.1 := by
  unfold kindBins at h
  simp only [List.mem_append, List.mem_map] at h
  rcases h with (⟨b, _, rfl⟩ | ⟨b, _, rfl⟩) | ⟨b, _, rfl⟩
  · exact .inl rfl
  · exact .inr (.inl rfl)
  · exact .inr (.inr rfl)

theorem kinds_recordCp (c : YCp) : ∀ b ∈ (recordCp c).items, IsKind b.kind := by
  intro b hb
  rw [items_recordCp] at hb
  obtain ⟨x, hx, rfl⟩ := List.mem_map.1 hb
  exact isKind_kindBins hx

theorem kinds_recordCross (c : YCross) : ∀ b ∈ (recordCross c).items, b.kind = CT.CVGBIN := by
  intro b hb
  rw [items_recordCross] at hb
  obtain ⟨x, hx, rfl⟩ := List.mem_map.1 hb
  rfl

theorem covBins_recordCp (c : YCp) : covBins (recordCp c) = (recordCp c).items := Xml.covBins_all (kinds_recordCp c)

theorem covBins_recordCross (c : YCross) : covBins (recordCross c) = (recordCross c).items :=
  Xml.covBins_all (fun b hb => .inl (kinds_recordCross c b hb))

/-! ## Counts of a loaded database -/

theorem childrenAt_map {α : Type} {m : Nat} {n : String} {s : Scope} {l : List α} {f : α → Scope} {nm : α → String}
    (h : kids m s = l.map f) (hn : ∀ x, (f x).name = nm x) : childrenAt (m, n) s = (l.filter (fun x => nm x = n)).map f := by
  rw [childrenAt_kids, h, List.filter_map]
  congr 1
  apply List.filter_congr
  intro x _
  simp [hn]

theorem flatMap_map_filter {α β γ : Type} (l : List α) (f : α → List β) (p : β → Bool) (h : β → γ) :
    l.flatMap (fun x => ((f x).filter p).map h) = ((l.flatMap f).filter p).map h := by
  induction l with
  | nil => rfl
  | cons a t ih => simp [ih]

/-- The instances `c` of the covergroups `g` of a loaded database. -/
theorem reach_insts (gs : List YCg) (g c : String) :
    reach [(ST.INSTANCE, "cg_inst"), (ST.COVERGROUP, g), (ST.COVERINSTANCE, c)] (loadedDb (gs.map cgScope)).root
      = (gs.filter (fun x => x.name = g)).flatMap (fun x => ((x.instances.getD []).filter (fun i => i.name = c)).map
          (instScope (x.weight.getD 1))) := by
  have e1 : childrenAt (ST.INSTANCE, "cg_inst") (loadedDb (gs.map cgScope)).root = [defaultInst (gs.map cgScope)] := by
    rw [childrenAt_kids, kids_inst]; rfl
  have e2 : childrenAt (ST.COVERGROUP, g) (defaultInst (gs.map cgScope)) = (gs.filter (fun x => x.name = g)).map cgScope :=
    childrenAt_map (kids_defaultInst gs) (fun _ => rfl)
  have e3 : ∀ x : YCg, childrenAt (ST.COVERINSTANCE, c) (cgScope x)
      = ((x.instances.getD []).filter (fun i => i.name = c)).map (instScope (x.weight.getD 1)) :=
    fun x => childrenAt_map (kids_cg_inst x) (fun _ => rfl)
  simp only [reach, List.flatMap_singleton', e1, List.flatMap_singleton, e2, List.flatMap_map, e3]

theorem reach_snoc (p : Addr) (st : Step) (s : Scope) : reach (p ++ [st]) s = (reach p s).flatMap (childrenAt st) := by
  induction p generalizing s with
  | nil => simp [reach]
  | cons a t ih =>
    simp only [List.cons_append, reach, List.flatMap_assoc]
    exact List.flatMap_congr (fun x _ => ih x)

theorem reach_cps (gs : List YCg) (g c n : String) :
    reach [(ST.INSTANCE, "cg_inst"), (ST.COVERGROUP, g), (ST.COVERINSTANCE, c), (ST.COVERPOINT, n)] (loadedDb (gs.map cgScope)).root
      = (((((gs.filter (fun x => x.name = g)).flatMap (fun x => x.instances.getD [])).filter (fun x => x.name = c)).flatMap
          YInst.cps).filter (fun x => x.name = n)).map recordCp := by
  rw [show [(ST.INSTANCE, "cg_inst"), (ST.COVERGROUP, g), (ST.COVERINSTANCE, c), (ST.COVERPOINT, n)]
    = [(ST.INSTANCE, "cg_inst"), (ST.COVERGROUP, g), (ST.COVERINSTANCE, c)] ++ [(ST.COVERPOINT, n)] from rfl, reach_snoc, reach_insts]
  have e : ∀ (w : Int) (i : YInst), childrenAt (ST.COVERPOINT, n) (instScope w i)
      = ((YInst.cps i).filter (fun x => x.name = n)).map recordCp :=
    fun w i => childrenAt_map (kids_inst_cp w i) (fun _ => rfl)
  simp only [List.flatMap_assoc, List.flatMap_map, e, List.filter_flatMap, List.map_flatMap]

theorem reach_crosses (gs : List YCg) (g c n : String) :
    reach [(ST.INSTANCE, "cg_inst"), (ST.COVERGROUP, g), (ST.COVERINSTANCE, c), (ST.CROSS, n)] (loadedDb (gs.map cgScope)).root
      = (((((gs.filter (fun x => x.name = g)).flatMap (fun x => x.instances.getD [])).filter (fun x => x.name = c)).flatMap
          YInst.crs).filter (fun x => x.name = n)).map recordCross := by
  rw [show [(ST.INSTANCE, "cg_inst"), (ST.COVERGROUP, g), (ST.COVERINSTANCE, c), (ST.CROSS, n)]
    = [(ST.INSTANCE, "cg_inst"), (ST.COVERGROUP, g), (ST.COVERINSTANCE, c)] ++ [(ST.CROSS, n)] from rfl, reach_snoc, reach_insts]
  have e : ∀ (w : Int) (i : YInst), childrenAt (ST.CROSS, n) (instScope w i)
      = ((YInst.crs i).filter (fun x => x.name = n)).map recordCross :=
    fun w i => childrenAt_map (kids_inst_cross w i) (fun _ => rfl)
  simp only [List.flatMap_assoc, List.flatMap_map, e, List.filter_flatMap, List.map_flatMap]

/-- The counts of the coverpoint bins of a loaded database are those of the document. -/
theorem total_loaded_cp {j : Json} {d : YDoc} (hs : Says j d) {db : Database} (h : load j = .ok db) (g c n : String) {k : Nat}
    (hk : IsKind k) (b : String) :
    total [(ST.INSTANCE, "cg_inst"), (ST.COVERGROUP, g), (ST.COVERINSTANCE, c), (ST.COVERPOINT, n)] k b db.root
      = docBinCount g c n k b d := by
  obtain ⟨_, rfl⟩ := (load_says hs db).1 h
  unfold total binsAt sumCounts docBinCount itemsOf
  rw [reach_cps]
  generalize List.filter (fun x => decide (x.name = n)) (List.flatMap YInst.cps _) = l
  rw [List.flatMap_map, List.map_flatMap]
  congr 1
  rw [List.filter_flatMap, List.map_flatMap]
  apply List.flatMap_congr
  intro x _
  rw [items_recordCp, List.filter_map, List.map_map]
  congr 1
  apply List.filter_congr
  intro y hy
  have hky := isKind_kindBins hy
  simp only [Function.comp, mkBin]
  by_cases hn : y.2.name = b
  · by_cases he : y.1 = k
    · simp [hn, he, hit_self hk]
    · have : maskHit y.1 k = false := by
        cases hm : maskHit y.1 k with
        | false => rfl
        | true => exact absurd (kind_of_hit hky hk hm) he
      simp [he, this]
  · simp [hn]

/-- The counts of the cross bins of a loaded database are those of the document, all of them ordinary. -/
theorem total_loaded_cross {j : Json} {d : YDoc} (hs : Says j d) {db : Database} (h : load j = .ok db) (g c n : String) {k : Nat}
    (hk : IsKind k) (b : String) :
    total [(ST.INSTANCE, "cg_inst"), (ST.COVERGROUP, g), (ST.COVERINSTANCE, c), (ST.CROSS, n)] k b db.root
      = if k = CT.CVGBIN then docCrossBinCount g c n b d else 0 := by
  obtain ⟨_, rfl⟩ := (load_says hs db).1 h
  unfold total binsAt sumCounts docCrossBinCount itemsOf
  rw [reach_crosses]
  generalize List.filter (fun x => decide (x.name = n)) (List.flatMap YInst.crs _) = l
  rw [List.flatMap_map, List.map_flatMap]
  split
  · rename_i hkc
    congr 1
    rw [List.filter_flatMap, List.map_flatMap]
    apply List.flatMap_congr
    intro x _
    rw [items_recordCross, List.filter_map, List.map_map]
    congr 1
    apply List.filter_congr
    intro y hy
    have : maskHit CT.CVGBIN k = true := by rw [hkc]; decide
    simp [mkBin, this]
  · rename_i hkc
    have : l.flatMap (fun x => List.map (·.count) (((recordCross x).items).filter (fun i => maskHit i.kind k && decide (i.name = b)))) = [] := by
      rw [List.flatMap_eq_nil_iff]
      intro x _
      rw [List.map_eq_nil_iff, List.filter_eq_nil_iff]
      intro y hy
      rw [kinds_recordCross x y hy]
      have : maskHit CT.CVGBIN k = false := by
        cases hm : maskHit CT.CVGBIN k with
        | false => rfl
        | true => exact absurd (kind_of_hit (.inl rfl) hk hm).symm hkc
      simp [this]
    rw [this]; rfl

/-! ## Shape of a loaded database -/

/-- All scopes below the root of a loaded database. -/
theorem forall_loaded {P : Scope → Prop} {gs : List YCg} (hd : P defaultDu) (hi : P (defaultInst (gs.map cgScope)))
    (hg : ∀ g ∈ gs, P (cgScope g)) (hp : ∀ c, P (recordCp c)) (hc : ∀ c, P (recordCross c))
    (hn : ∀ g ∈ gs, ∀ i ∈ g.instances.getD [], P (instScope (g.weight.getD 1) i)) :
    ∀ c ∈ (loadedDb (gs.map cgScope)).root.children, ∀ x ∈ subtrees c, P x := by
  have hp' : ∀ c, ∀ x ∈ subtrees (recordCp c), P x := fun c => forall_subtrees.2 ⟨hp c, by intro a ha; cases ha⟩
  have hc' : ∀ c, ∀ x ∈ subtrees (recordCross c), P x := fun c => forall_subtrees.2 ⟨hc c, by intro a ha; cases ha⟩
  intro c h
  have h : c = defaultDu ∨ c = defaultInst (gs.map cgScope) := by simpa [loadedDb] using h
  rcases h with rfl | rfl
  · exact forall_subtrees.2 ⟨hd, by intro a ha; cases ha⟩
  · refine forall_subtrees.2 ⟨hi, fun a ha => ?_⟩
    obtain ⟨g, hgm, rfl⟩ := List.mem_map.1 (show a ∈ gs.map cgScope from ha)
    refine forall_subtrees.2 ⟨hg g hgm, fun b hb => ?_⟩
    rcases List.mem_append.1 hb with hb | hb
    · rcases List.mem_append.1 hb with hb | hb
      · obtain ⟨e, _, rfl⟩ := List.mem_map.1 hb; exact hp' _
      · obtain ⟨e, _, rfl⟩ := List.mem_map.1 hb; exact hc' _
    · obtain ⟨i, him, rfl⟩ := List.mem_map.1 hb
      refine forall_subtrees.2 ⟨hn g hgm i him, fun z hz => ?_⟩
      rcases List.mem_append.1 hz with hz | hz
      · obtain ⟨e, _, rfl⟩ := List.mem_map.1 hz; exact hp' _
      · obtain ⟨e, _, rfl⟩ := List.mem_map.1 hz; exact hc' _

theorem instanced_loaded {gs : List YCg} (h : ∀ g ∈ gs, g.instances.getD [] ≠ []) : Instanced (loadedDb (gs.map cgScope)).root := by
  intro i hi g hg
  rw [kids_inst, List.mem_singleton] at hi
  subst hi
  rw [kids_defaultInst] at hg
  obtain ⟨y, hy, rfl⟩ := List.mem_map.1 hg
  rw [kids_cg_inst]
  simpa using h y hy

theorem ordinary_loaded (gs : List YCg) : OrdinaryCrosses (loadedDb (gs.map cgScope)).root := by
  intro i hi g hg c hc x hx b hb
  rw [kids_inst, List.mem_singleton] at hi
  subst hi
  rw [kids_defaultInst] at hg
  obtain ⟨y, hy, rfl⟩ := List.mem_map.1 hg
  rw [kids_cg_inst] at hc
  obtain ⟨z, hz, rfl⟩ := List.mem_map.1 hc
  rw [kids_inst_cross] at hx
  obtain ⟨w, hw, rfl⟩ := List.mem_map.1 hx
  exact kinds_recordCross w b (List.mem_filter.1 hb).1

/-- The children of a leaf. -/
theorem unique_leaf {s : Scope} (h : s.children = []) : ∀ m ∈ [ST.INSTANCE, ST.COVERGROUP, ST.COVERINSTANCE, ST.COVERPOINT],
    ((s.children.filter (fun c => maskHit c.stype m)).map (·.name)).Nodup := by
  intro m _; simp [h]

theorem unique_of_types {s : Scope} (h : ∀ m ∈ [ST.INSTANCE, ST.COVERGROUP, ST.COVERINSTANCE, ST.COVERPOINT],
    kids m s = [] ∨ ((kids m s).map (·.name)).Nodup) : ∀ m ∈ [ST.INSTANCE, ST.COVERGROUP, ST.COVERINSTANCE, ST.COVERPOINT],
    ((s.children.filter (fun c => maskHit c.stype m)).map (·.name)).Nodup := by
  intro m hm
  rcases h m hm with h | h
  · have h : s.children.filter (fun c => maskHit c.stype m) = [] := h
    simp [h]
  · exact h

theorem kids_none {m : Nat} {s : Scope} (h : ∀ c ∈ s.children, maskHit c.stype m = false) : kids m s = [] := by
  unfold kids
  rw [List.filter_eq_nil_iff]
  intro c hc
  simp [h c hc]

theorem unique_loaded {d : YDoc} (h : UniqueDoc d) : UniqueNames (loadedDb ((docGroups d).map cgScope)).root := by
  intro s hs
  rw [subtrees_eq, List.mem_cons] at hs
  rcases hs with rfl | hs
  · apply unique_of_types
    intro m hm
    simp only [List.mem_cons, List.not_mem_nil, or_false] at hm
    have hc : ∀ m, m = ST.COVERGROUP ∨ m = ST.COVERINSTANCE ∨ m = ST.COVERPOINT →
        kids m (loadedDb ((docGroups d).map cgScope)).root = [] := by
      intro m hm
      apply kids_none
      intro c h
      have h : c = defaultDu ∨ c = defaultInst ((docGroups d).map cgScope) := by simpa [loadedDb] using h
      rcases h with rfl | rfl <;> simp only [defaultDu, mkDu, defaultInst, mkInstance] <;>
        rcases hm with rfl | rfl | rfl <;> decide
    rcases hm with rfl | rfl | rfl | rfl
    · right; rw [kids_inst]; simp
    · exact .inl (hc _ (.inl rfl))
    · exact .inl (hc _ (.inr (.inl rfl)))
    · exact .inl (hc _ (.inr (.inr rfl)))
  · have key := forall_loaded (gs := docGroups d) (P := fun s => ∀ m ∈ [ST.INSTANCE, ST.COVERGROUP, ST.COVERINSTANCE, ST.COVERPOINT],
      ((s.children.filter (fun c => maskHit c.stype m)).map (·.name)).Nodup)
      (unique_leaf rfl) ?_ ?_ (fun _ => unique_leaf rfl) (fun _ => unique_leaf rfl) ?_
    · have : ∀ l : List Scope, s ∈ subtreesL l → ∃ c ∈ l, s ∈ subtrees c := by
        intro l
        induction l with
        | nil => intro h; cases h
        | cons a t ih =>
          intro h
          rw [subtreesL_cons, List.mem_append] at h
          rcases h with h | h
          · exact ⟨a, by simp, h⟩
          · obtain ⟨c, hc, hx⟩ := ih h; exact ⟨c, by simp [hc], hx⟩
      obtain ⟨c, hc, hx⟩ := this _ hs
      exact key c hc s hx
    · apply unique_of_types
      intro m hm
      simp only [List.mem_cons, List.not_mem_nil, or_false] at hm
      have hc : ∀ m, m = ST.INSTANCE ∨ m = ST.COVERINSTANCE ∨ m = ST.COVERPOINT → kids m (defaultInst ((docGroups d).map cgScope)) = [] := by
        intro m hm
        apply kids_none
        intro c h
        obtain ⟨g, _, rfl⟩ := List.mem_map.1 (show c ∈ (docGroups d).map cgScope from h)
        simp only [cgScope, mkCovergroup]
        rcases hm with rfl | rfl | rfl <;> decide
      rcases hm with rfl | rfl | rfl | rfl
      · exact .inl (hc _ (.inl rfl))
      · right; rw [kids_defaultInst, List.map_map]; exact h.groups
      · exact .inl (hc _ (.inr (.inl rfl)))
      · exact .inl (hc _ (.inr (.inr rfl)))
    · intro g hg
      apply unique_of_types
      intro m hm
      simp only [List.mem_cons, List.not_mem_nil, or_false] at hm
      have hc : ∀ m, m = ST.INSTANCE ∨ m = ST.COVERGROUP → kids m (cgScope g) = [] := by
        intro m hm
        apply kids_none
        intro c h
        rcases List.mem_append.1 h with h | h
        · rcases List.mem_append.1 h with h | h
          · obtain ⟨e, _, rfl⟩ := List.mem_map.1 h; apply cp_type; rcases hm with rfl | rfl <;> decide
          · obtain ⟨e, _, rfl⟩ := List.mem_map.1 h; apply cross_type; rcases hm with rfl | rfl <;> decide
        · obtain ⟨e, _, rfl⟩ := List.mem_map.1 h; apply inst_type; rcases hm with rfl | rfl <;> decide
      rcases hm with rfl | rfl | rfl | rfl
      · exact .inl (hc _ (.inl rfl))
      · exact .inl (hc _ (.inr rfl))
      · right; rw [kids_cg_inst, List.map_map]; exact h.insts g hg
      · right; rw [kids_cg_cp, List.map_map]; exact tCps_nodup _
    · intro g hg i hi
      apply unique_of_types
      intro m hm
      simp only [List.mem_cons, List.not_mem_nil, or_false] at hm
      have hc : ∀ m, m = ST.INSTANCE ∨ m = ST.COVERGROUP ∨ m = ST.COVERINSTANCE → kids m (instScope (g.weight.getD 1) i) = [] := by
        intro m hm
        apply kids_none
        intro c h
        rcases List.mem_append.1 h with h | h
        · obtain ⟨e, _, rfl⟩ := List.mem_map.1 h; apply cp_type; rcases hm with rfl | rfl | rfl <;> decide
        · obtain ⟨e, _, rfl⟩ := List.mem_map.1 h; apply cross_type; rcases hm with rfl | rfl | rfl <;> decide
      rcases hm with rfl | rfl | rfl | rfl
      · exact .inl (hc _ (.inl rfl))
      · exact .inl (hc _ (.inr (.inl rfl)))
      · exact .inl (hc _ (.inr (.inr rfl)))
      · right; rw [kids_inst_cp, List.map_map]; exact h.points g hg i hi

/-! ## A storable document gives a database that can be merged and stored -/

theorem linked_inst {i : YInst} (h : StorableInst i) (w : Int) : Linked (instScope w i) := by
  refine ⟨?_, ?_, ?_⟩
  · intro x hx
    rw [kids_inst_cross] at hx
    obtain ⟨c, hc, rfl⟩ := List.mem_map.1 hx
    refine ⟨c.coverpoints, rfl, fun n hn => ?_⟩
    rw [kids_inst_cp, List.map_map]
    exact ((h.crosses c hc).2.2 n hn).1
  · intro x hx b hb
    rw [kids_inst_cp] at hx
    obtain ⟨c, hc, rfl⟩ := List.mem_map.1 hx
    exact set_recordCp c b (List.mem_filter.1 hb).1
  · intro x hx b hb
    rw [kids_inst_cross] at hx
    obtain ⟨c, hc, rfl⟩ := List.mem_map.1 hx
    exact set_recordCross c b (List.mem_filter.1 hb).1

theorem linked_cg {g : YCg} {is : List YInst} (h : LoadableCg g is) : Linked (cgScope g) := by
  have hi : g.instances.getD [] = is := by rw [h.insts]; rfl
  refine ⟨?_, ?_, ?_⟩
  · intro x hx
    rw [kids_cg_cross, hi] at hx
    obtain ⟨e, he, rfl⟩ := List.mem_map.1 hx
    refine ⟨e.2.coverpoints, rfl, fun n hn => ?_⟩
    rw [kids_cg_cp, hi, List.map_map]
    obtain ⟨c, hc, ec⟩ := mem_tCrs he
    rw [ec] at hn
    obtain ⟨i, him, hci⟩ := List.mem_flatMap.1 (List.mem_of_find?_eq_some hc)
    obtain ⟨pre, post, rfl⟩ := List.append_of_mem him
    obtain ⟨j, hj, hnj⟩ := h.known pre i post rfl c hci n hn
    have : n ∈ (tCps (pre ++ i :: post)).keys := by
      unfold tCps
      rw [Dict.keys_aggregate]
      have hm : n ∈ (allCps (pre ++ i :: post)).map (·.name) := by
        obtain ⟨p, hp, rfl⟩ := List.mem_map.1 hnj
        refine List.mem_map_of_mem (List.mem_flatMap.2 ⟨j, ?_, hp⟩)
        rw [List.mem_append] at hj ⊢
        rcases hj with hj | hj
        · exact .inl hj
        · exact .inr (by rw [List.mem_singleton.1 hj]; simp)
      simpa [mem_firstSeen] using hm
    exact this
  · intro x hx b hb
    rw [kids_cg_cp] at hx
    obtain ⟨c, hc, rfl⟩ := List.mem_map.1 hx
    exact set_recordCp _ b (List.mem_filter.1 hb).1
  · intro x hx b hb
    rw [kids_cg_cross] at hx
    obtain ⟨c, hc, rfl⟩ := List.mem_map.1 hx
    exact set_recordCross _ b (List.mem_filter.1 hb).1

theorem storable_inst {i : YInst} (h : StorableInst i) (w : Int) : Storable (instScope w i) := by
  refine ⟨h.name, ?_, ?_, ?_⟩
  · rw [kids_inst_cp]; simp only [ne_eq, List.map_eq_nil_iff]; exact h.some
  · intro p hp
    rw [kids_inst_cp] at hp
    obtain ⟨c, hc, rfl⟩ := List.mem_map.1 hp
    obtain ⟨h1, h2, h3⟩ := h.points c hc
    rw [covBins_recordCp, items_recordCp]
    refine ⟨h1, by simpa using h2, fun b hb => ?_⟩
    obtain ⟨x, hx, rfl⟩ := List.mem_map.1 hb
    exact ⟨(h3 x hx).1, isKind_kindBins hx, (h3 x hx).2⟩
  · intro x hx
    rw [kids_inst_cross] at hx
    obtain ⟨c, hc, rfl⟩ := List.mem_map.1 hx
    obtain ⟨h1, h2, h3⟩ := h.crosses c hc
    rw [covBins_recordCross, items_recordCross]
    refine ⟨h1, fun b hb => ?_, fun n hn => ?_⟩
    · obtain ⟨y, hy, rfl⟩ := List.mem_map.1 hb
      exact h2 y hy
    · obtain ⟨m1, m2, m3⟩ := h3 n hn
      rw [kids_inst_cp, List.map_map]
      obtain ⟨p, hp, rfl⟩ := List.mem_map.1 m1
      exact ⟨(h.points p hp).1, m2, m3⟩

theorem tidy_loaded {d : YDoc} (hl : Loadable d) (h : StorableDoc d) : Tidy (loadedDb ((docGroups d).map cgScope)).root := by
  refine ⟨?_, ?_⟩
  · intro i hi
    rw [kids_inst, List.mem_singleton] at hi
    subst hi
    refine ⟨show Printable "cg_inst" by unfold Printable; decide, by simp [defaultInst, mkInstance], fun g hg => ?_⟩
    rw [kids_defaultInst] at hg
    obtain ⟨y, hy, rfl⟩ := List.mem_map.1 hg
    obtain ⟨h1, h2, h3⟩ := h y hy
    obtain ⟨is, hc⟩ := hl.2 y hy
    refine ⟨h1, ?_, ?_⟩
    · intro c hcm
      rcases List.mem_cons.1 hcm with rfl | hcm
      · exact linked_cg hc
      · rw [kids_cg_inst] at hcm
        obtain ⟨z, hz, rfl⟩ := List.mem_map.1 hcm
        exact linked_inst (h3 z hz) _
    · intro c hcm
      have hw : writtenGroups (cgScope y) = kids ST.COVERINSTANCE (cgScope y) := by
        unfold writtenGroups
        rw [if_neg]
        rw [kids_cg_inst]
        simpa using h2
      rw [hw, kids_cg_inst] at hcm
      obtain ⟨z, hz, rfl⟩ := List.mem_map.1 hcm
      exact storable_inst (h3 z hz) _
  · have hn : OptPrintable SrcInfo.none.file := by intro s e; cases e
    have key := forall_loaded (gs := docGroups d) (P := TidyFile)
      ⟨hn, by intro x e; cases e⟩ ⟨hn, by intro x e; cases e; exact hn⟩ (fun _ _ => ⟨hn, by intro x e; cases e⟩)
      (fun _ => ⟨hn, by intro x e; cases e⟩) (fun _ => ⟨hn, by intro x e; cases e⟩) (fun _ _ _ _ => ⟨hn, by intro x e; cases e⟩)
    intro s hs
    exact (forall_subtrees.2 ⟨⟨hn, by intro x e; cases e⟩, key⟩ : ∀ x ∈ subtrees (loadedDb ((docGroups d).map cgScope)).root, TidyFile x) s
      (by rw [subtrees_eq]; exact List.mem_cons_of_mem _ hs)

/-! ## C102 -/

theorem exists_left {α β : Type} {R : α → β → Prop} {l : List α} {l' : List β} (h : List.Forall₂ R l l') {b : β} (hb : b ∈ l') :
    ∃ a ∈ l, R a b := by
  induction h with
  | nil => cases hb
  | cons h1 _ ih =>
    rcases List.mem_cons.1 hb with rfl | hb
    · exact ⟨_, List.mem_cons_self .., h1⟩
    · obtain ⟨a, ha, hr⟩ := ih hb
      exact ⟨a, List.mem_cons_of_mem _ ha, hr⟩

/-- Databases loaded from documents. -/
abbrev _root_.Verif.Spec.LoadedFrom (j : Json) (d : YDoc) (db : Database) : Prop := Says j d ∧ load j = .ok db

/-- **C102, success.** The merge of YAML files whose content XML can hold can be stored as XML and read back. -/
theorem C102_stored {env : Env} (he : GoodEnv env) {ds : List YDoc} {srcs : List Database} (hne : ds ≠ [])
    (h : List.Forall₂ (fun d s => ∃ j, LoadedFrom j d s) ds srcs) (hs : ∀ d ∈ ds, StorableDoc d) :
    ∃ out doc db', mergeDb ⟨emptyDb, [], []⟩ srcs = .ok out ∧ Xml.write env out = .ok doc ∧ throughFile env out = .ok db' := by
  have key : ∀ s ∈ srcs, Tidy s.root ∧ kids ST.INSTANCE s.root ≠ [] := by
    intro s hm
    obtain ⟨d, hd, j, hj⟩ := exists_left h hm
    obtain ⟨hl, rfl⟩ := (load_says hj.1 s).1 hj.2
    refine ⟨tidy_loaded hl (hs d hd), ?_⟩
    rw [kids_inst]; simp
  refine tidy_merged_stored he (fun s hm => (key s hm).1) ?_
  cases h with
  | nil => exact absurd rfl hne
  | cons hd tl => exact ⟨_, List.mem_cons_self .., (key _ (List.mem_cons_self ..)).2⟩

/-- **C102, coverpoints.** The stored merge of YAML files holds, for every bin of every coverpoint of an instance, the sum of the
counts the documents give for it. -/
theorem C102_counts {env : Env} (he : GoodEnv env) {ds : List YDoc} {srcs : List Database} {out db' : Database}
    (h : List.Forall₂ (fun d s => ∃ j, LoadedFrom j d s) ds srcs) (hi : ∀ d ∈ ds, InstancedDoc d) (hu : ∀ d ∈ ds, UniqueDoc d)
    (hm : mergeDb ⟨emptyDb, [], []⟩ srcs = .ok out) (hr : throughFile env out = .ok db') (g c n : String) {k : Nat} (hk : IsKind k)
    (b : String) :
    total [(ST.INSTANCE, "cg_inst"), (ST.COVERGROUP, g), (ST.COVERINSTANCE, c), (ST.COVERPOINT, n)] k b db'.root
        = (ds.map (docBinCount g c n k b)).sum ∧
    total [(ST.INSTANCE, "cg_inst"), (ST.COVERGROUP, g), (ST.COVERINSTANCE, c), (ST.CROSS, n)] k b db'.root
        = if k = CT.CVGBIN then (ds.map (docCrossBinCount g c n b)).sum else 0 := by
  have key : ∀ s ∈ srcs, Instanced s.root ∧ OrdinaryCrosses s.root ∧ UniqueNames s.root := by
    intro s hm
    obtain ⟨d, hd, j, hj⟩ := exists_left h hm
    obtain ⟨hl, rfl⟩ := (load_says hj.1 s).1 hj.2
    exact ⟨instanced_loaded (hi d hd), ordinary_loaded _, unique_loaded (hu d hd)⟩
  have hc := fun {m p} hp => counts_through_files he (fun s hs => (key s hs).1) (fun s hs => (key s hs).2.1) (fun s hs => (key s hs).2.2)
    hm hr (m := m) (p := p) hp hk b
  rw [hc (.cp "cg_inst" g c n), hc (.cross "cg_inst" g c n)]
  clear hc key hm hr hi hu
  constructor
  · induction h with
    | nil => rfl
    | cons h1 _ ih =>
      obtain ⟨j, h1⟩ := h1
      rw [List.map_cons, List.map_cons, List.sum_cons, List.sum_cons, ih, total_loaded_cp h1.1 h1.2 g c n hk b]
  · induction h with
    | nil => simp
    | cons h1 _ ih =>
      obtain ⟨j, h1⟩ := h1
      rw [List.map_cons, List.map_cons, List.sum_cons, List.sum_cons, ih, total_loaded_cross h1.1 h1.2 g c n hk b]
      split <;> simp

/-! ## C103: figures -/

theorem names_addBin (l : List YBin) (b : YBin) :
    (addBin l b).map (·.name) = if b.name ∈ l.map (·.name) then l.map (·.name) else l.map (·.name) ++ [b.name] := by
  induction l with
  | nil => simp [addBin]
  | cons a t ih =>
    unfold addBin
    by_cases h : a.name = b.name
    · simp [h]
    · have h' : ¬ b.name = a.name := fun e => h e.symm
      rw [if_neg h, List.map_cons, ih]
      simp only [List.map_cons, List.mem_cons, h', false_or]
      split <;> simp

theorem names_addBins (bs l : List YBin) (hl : (l.map (·.name)).Nodup) :
    ((bs.foldl addBin l).map (·.name)).Nodup ∧
      ∀ n, n ∈ (bs.foldl addBin l).map (·.name) ↔ n ∈ l.map (·.name) ∨ n ∈ bs.map (·.name) := by
  induction bs generalizing l with
  | nil => simpa using hl
  | cons b t ih =>
    have hn : ((addBin l b).map (·.name)).Nodup := by
      rw [names_addBin]
      split
      · exact hl
      · rename_i h
        exact List.nodup_append.2 ⟨hl, by simp, by
          intro x hx y hy e
          rw [List.mem_singleton] at hy
          exact h (hy ▸ e ▸ hx)⟩
    obtain ⟨h1, h2⟩ := ih (addBin l b) hn
    refine ⟨h1, fun n => ?_⟩
    rw [List.foldl_cons, h2 n, names_addBin, List.map_cons, List.mem_cons]
    split
    · rename_i h
      constructor
      · rintro (h3 | h3)
        · exact .inl h3
        · exact .inr (.inr h3)
      · rintro (h3 | h3 | h3)
        · exact .inl h3
        · exact .inl (h3 ▸ h)
        · exact .inr h3
    · rw [List.mem_append, List.mem_singleton, or_assoc]

/-- Names of the bins of a type coverpoint. -/
theorem names_cpAgg (cs : List YCp) (o : Option (List YBin)) (ho : ((o.getD []).map (·.name)).Nodup)
    (h : ∀ c ∈ cs, c.ignorebins.getD [] = [] ∧ c.illegalbins.getD [] = []) :
    (((Dict.aggVal cpStep o cs).getD []).map (·.name)).Nodup ∧
      ∀ n, n ∈ ((Dict.aggVal cpStep o cs).getD []).map (·.name) ↔ n ∈ (o.getD []).map (·.name) ∨ n ∈ (cs.flatMap (·.bins)).map (·.name) := by
  induction cs generalizing o with
  | nil => simpa [Dict.aggVal] using ho
  | cons c t ih =>
    have e : cpStep o c = c.bins.foldl addBin (o.getD []) := by
      unfold cpStep
      rw [(h c (by simp)).1, (h c (by simp)).2]
      rfl
    have h0 := names_addBins c.bins (o.getD []) ho
    obtain ⟨h1, h2⟩ := ih (some (cpStep o c)) (by rw [e]; exact h0.1) (fun x hx => h x (by simp [hx]))
    refine ⟨h1, fun n => ?_⟩
    show n ∈ ((Dict.aggVal cpStep (some (cpStep o c)) t).getD []).map (·.name) ↔ _
    rw [h2 n, Option.getD_some, e, h0.2 n, List.flatMap_cons, List.map_append, List.mem_append, or_assoc]

theorem instBins_cp (g : YCg) (n : String) : instBins ST.COVERPOINT (cgScope g) n = (occCps g n).flatMap (fun c => (recordCp c).items) := by
  unfold instBins occCps
  rw [kids_cg_inst, List.flatMap_map]
  simp only [kids_inst_cp]
  rw [← List.map_flatMap, List.filter_map, List.flatMap_map]
  simp only [covBins_recordCp]
  rfl

theorem instBins_cross (g : YCg) (n : String) :
    instBins ST.CROSS (cgScope g) n = (occCrosses g n).flatMap (fun c => (recordCross c).items) := by
  unfold instBins occCrosses
  rw [kids_cg_inst, List.flatMap_map]
  simp only [kids_inst_cross]
  rw [← List.map_flatMap, List.filter_map, List.flatMap_map]
  simp only [covBins_recordCross]
  rfl

theorem instBins_cp_sum (g : YCg) (n b : String) :
    (((instBins ST.COVERPOINT (cgScope g) n).filter (fun i => i.name = b)).map (·.count)).sum = docCountAny g n b := by
  rw [instBins_cp]
  unfold docCountAny
  congr 1
  rw [List.filter_flatMap, List.map_flatMap, List.filter_flatMap, List.map_flatMap]
  apply List.flatMap_congr
  intro c _
  rw [items_recordCp, List.filter_map, List.map_map]
  rfl

theorem instBins_cross_sum (g : YCg) (n b : String) :
    (((instBins ST.CROSS (cgScope g) n).filter (fun i => i.name = b)).map (·.count)).sum = docCrossCount g n b := by
  rw [instBins_cross]
  unfold docCrossCount
  congr 1
  rw [List.filter_flatMap, List.map_flatMap, List.filter_flatMap, List.map_flatMap]
  apply List.flatMap_congr
  intro c _
  rw [items_recordCross, List.filter_map, List.map_map]
  rfl

theorem names_cg_cp (g : YCg) :
    ((kids ST.COVERPOINT (cgScope g)).map (·.name)) = firstSeen (((g.instances.getD []).flatMap YInst.cps).map (·.name)) := by
  rw [kids_cg_cp, List.map_map]
  exact Dict.keys_aggregate (fun c : YCp => c.name) cpStep _

theorem names_cg_cross (g : YCg) :
    ((kids ST.CROSS (cgScope g)).map (·.name)) = firstSeen (((g.instances.getD []).flatMap YInst.crs).map (·.name)) := by
  rw [kids_cg_cross, List.map_map]
  exact Dict.keys_aggregate (fun c : YCross => c.name) crStep _

theorem typeSums_cp {g : YCg} (hp : ∀ i ∈ g.instances.getD [], ∀ c ∈ YInst.cps i, c.ignorebins.getD [] = [] ∧ c.illegalbins.getD [] = []) :
    TypeSums ST.COVERPOINT (cgScope g) := by
  have hnd : ((kids ST.COVERPOINT (cgScope g)).map (·.name)).Nodup := by rw [names_cg_cp]; exact firstSeen_nodup _
  have hocc : ∀ n, ∀ c ∈ occCps g n, c.ignorebins.getD [] = [] ∧ c.illegalbins.getD [] = [] := by
    intro n c hc
    obtain ⟨i, hi, hci⟩ := List.mem_flatMap.1 (List.mem_filter.1 hc).1
    exact hp i hi c hci
  have hit : ∀ c ∈ kids ST.COVERPOINT (cgScope g), c.items
      = ((Dict.aggVal cpStep none (occCps g c.name)).getD []).map (fun b => mkBin b.name CT.CVGBIN 1 b.count) := by
    intro c hc
    rw [← items_cg_cp, filter_named hnd hc]
    simp
  have hna := fun n => names_cpAgg (occCps g n) none (by simp) (hocc n)
  have hnm : ∀ c ∈ kids ST.COVERPOINT (cgScope g), c.items.map (·.name)
      = ((Dict.aggVal cpStep none (occCps g c.name)).getD []).map (·.name) := by
    intro c hc
    rw [hit c hc, List.map_map]
    rfl
  refine ⟨hnd, fun n => ?_, ?_, ?_, ?_⟩
  · rw [names_cg_cp, mem_firstSeen, kids_cg_inst]
    constructor
    · intro h
      obtain ⟨c, hc, rfl⟩ := List.mem_map.1 h
      obtain ⟨i, hi, hci⟩ := List.mem_flatMap.1 hc
      refine ⟨_, List.mem_map_of_mem hi, recordCp c, ?_, rfl⟩
      rw [kids_inst_cp]
      exact List.mem_map_of_mem hci
    · rintro ⟨_, hs, c, hc, rfl⟩
      obtain ⟨i, hi, rfl⟩ := List.mem_map.1 hs
      rw [kids_inst_cp] at hc
      obtain ⟨y, hy, rfl⟩ := List.mem_map.1 hc
      exact List.mem_map.2 ⟨y, List.mem_flatMap.2 ⟨i, hi, hy⟩, rfl⟩
  · intro c hc
    rw [hnm c hc]
    exact (hna c.name).1
  · intro c hc b
    rw [hnm c hc, (hna c.name).2 b, instBins_cp]
    simp only [Option.getD_none, List.map_nil, List.not_mem_nil, false_or]
    have : ((occCps g c.name).flatMap (fun c => (recordCp c).items)).map (·.name) = ((occCps g c.name).flatMap (·.bins)).map (·.name) := by
      rw [List.map_flatMap, List.map_flatMap]
      apply List.flatMap_congr
      intro x hx
      rw [items_recordCp]
      unfold kindBins
      rw [(hocc _ x hx).1, (hocc _ x hx).2]
      simp [mkBin, Function.comp_def]
    rw [this]
  · intro c hc b hb
    rw [instBins_cp_sum, ← typeCountAny_cg]
    unfold typeCountAny
    rw [filter_named hnd hc]
    simp only [List.flatMap_cons, List.flatMap_nil, List.append_nil]
    rw [filter_item (by rw [hnm c hc]; exact (hna c.name).1) hb]
    simp

theorem typeSums_cross {g : YCg} {is : List YInst} (hl : LoadableCg g is) : TypeSums ST.CROSS (cgScope g) := by
  have hnd : ((kids ST.CROSS (cgScope g)).map (·.name)).Nodup := by rw [names_cg_cross]; exact firstSeen_nodup _
  have hit : ∀ c ∈ kids ST.CROSS (cgScope g), c.items
      = (crossAgg [] ((occCrosses g c.name).flatMap (fun c => c.bins.getD []))).map (fun b => mkBin b.1 CT.CVGBIN 1 b.2) := by
    intro c hc
    rw [← crossBins_agg hl, ← items_cg_cross, filter_named hnd hc]
    simp
  have hnm : ∀ c ∈ kids ST.CROSS (cgScope g), c.items.map (·.name)
      = firstSeen (((occCrosses g c.name).flatMap (fun c => c.bins.getD [])).map (·.name)) := by
    intro c hc
    rw [hit c hc, List.map_map]
    exact Dict.keys_aggregate (fun b : YBin => b.name) (fun o b => o.getD 0 + b.count) _
  refine ⟨hnd, fun n => ?_, ?_, ?_, ?_⟩
  · rw [names_cg_cross, mem_firstSeen, kids_cg_inst]
    constructor
    · intro h
      obtain ⟨c, hc, rfl⟩ := List.mem_map.1 h
      obtain ⟨i, hi, hci⟩ := List.mem_flatMap.1 hc
      refine ⟨_, List.mem_map_of_mem hi, recordCross c, ?_, rfl⟩
      rw [kids_inst_cross]
      exact List.mem_map_of_mem hci
    · rintro ⟨_, hs, c, hc, rfl⟩
      obtain ⟨i, hi, rfl⟩ := List.mem_map.1 hs
      rw [kids_inst_cross] at hc
      obtain ⟨y, hy, rfl⟩ := List.mem_map.1 hc
      exact List.mem_map.2 ⟨y, List.mem_flatMap.2 ⟨i, hi, hy⟩, rfl⟩
  · intro c hc
    rw [hnm c hc]
    exact firstSeen_nodup _
  · intro c hc b
    rw [hnm c hc, mem_firstSeen, instBins_cross]
    have : ((occCrosses g c.name).flatMap (fun c => (recordCross c).items)).map (·.name)
        = ((occCrosses g c.name).flatMap (fun c => c.bins.getD [])).map (·.name) := by
      rw [List.map_flatMap, List.map_flatMap]
      apply List.flatMap_congr
      intro x hx
      rw [items_recordCross]
      simp [mkBin, Function.comp_def]
    rw [this]
  · intro c hc b hb
    have hk : b.kind = CT.CVGBIN := by
      rw [hit c hc] at hb
      obtain ⟨x, _, rfl⟩ := List.mem_map.1 hb
      rfl
    rw [instBins_cross_sum, ← typeCount_cross hl]
    unfold typeCount
    rw [filter_named hnd hc]
    simp only [List.flatMap_cons, List.flatMap_nil, List.append_nil]
    have : c.items.filter (fun i => i.kind = CT.CVGBIN ∧ i.name = b.name) = c.items.filter (fun i => i.name = b.name) := by
      apply List.filter_congr
      intro i hi
      have : i.kind = CT.CVGBIN := by
        rw [hit c hc] at hi
        obtain ⟨x, _, rfl⟩ := List.mem_map.1 hi
        rfl
      simp [this]
    rw [this, filter_item (by rw [hnm c hc]; exact firstSeen_nodup _) hb]
    simp

theorem leaf_recordCp {c : YCp} (h : c.atleast.getD 1 = 1 ∧ c.ignorebins.getD [] = [] ∧ c.illegalbins.getD [] = []) :
    ∀ b ∈ (recordCp c).items, IsKind b.kind ∧ b.atLeast = some 1 ∧ b.kind = CT.CVGBIN := by
  intro b hb
  rw [items_recordCp] at hb
  obtain ⟨x, hx, rfl⟩ := List.mem_map.1 hb
  unfold kindBins at hx
  rw [h.2.1, h.2.2] at hx
  simp only [List.map_nil, List.append_nil] at hx
  obtain ⟨y, _, rfl⟩ := List.mem_map.1 hx
  exact ⟨.inl rfl, by simp [mkBin, h.1], rfl⟩

theorem leaf_recordCross {c : YCross} (h : c.atleast.getD 1 = 1) :
    ∀ b ∈ (recordCross c).items, IsKind b.kind ∧ b.atLeast = some 1 ∧ b.kind = CT.CVGBIN := by
  intro b hb
  rw [items_recordCross] at hb
  obtain ⟨y, _, rfl⟩ := List.mem_map.1 hb
  exact ⟨.inl rfl, by simp [mkBin, h], rfl⟩

/-- A loaded covergroup of a plain document has the shape of one read from XML. -/
theorem readLike_cg {g : YCg} {is : List YInst} (hl : LoadableCg g is) (hi : g.instances.getD [] ≠ []) (hw : g.weight.getD 1 = 1)
    (hp : ∀ i ∈ g.instances.getD [], ∀ c ∈ YInst.cps i, c.atleast.getD 1 = 1 ∧ c.ignorebins.getD [] = [] ∧ c.illegalbins.getD [] = [])
    (hc : ∀ i ∈ g.instances.getD [], ∀ c ∈ YInst.crs i, c.atleast.getD 1 = 1) :
    ReadLike (fun _ _ => CT.CVGBIN) (cgScope g) := by
  have hk : ∀ m x b, kindOf (fun _ _ => CT.CVGBIN) m x b = CT.CVGBIN := by intro m x b; unfold kindOf; split <;> rfl
  refine ⟨?_, hw, ?_, ?_⟩
  · rw [kids_cg_inst]; simpa using hi
  · intro m hm
    simp only [List.mem_cons, List.not_mem_nil, or_false] at hm
    rcases hm with rfl | rfl
    · exact typeSums_cp (fun i hi c hc => (hp i hi c hc).2)
    · exact typeSums_cross hl
  · intro m hm c hcm x hx
    simp only [hk]
    simp only [List.mem_cons, List.not_mem_nil, or_false] at hm
    rcases List.mem_cons.1 hcm with rfl | hcm
    · rcases hm with rfl | rfl
      · rw [kids_cg_cp] at hx
        obtain ⟨e, _, rfl⟩ := List.mem_map.1 hx
        exact ⟨fun _ => rfl, leaf_recordCp ⟨rfl, rfl, rfl⟩⟩
      · rw [kids_cg_cross] at hx
        obtain ⟨e, _, rfl⟩ := List.mem_map.1 hx
        exact ⟨fun _ => rfl, leaf_recordCross rfl⟩
    · rw [kids_cg_inst] at hcm
      obtain ⟨i, him, rfl⟩ := List.mem_map.1 hcm
      rcases hm with rfl | rfl
      · rw [kids_inst_cp] at hx
        obtain ⟨e, he, rfl⟩ := List.mem_map.1 hx
        exact ⟨fun _ => rfl, leaf_recordCp (hp i him e he)⟩
      · rw [kids_inst_cross] at hx
        obtain ⟨e, he, rfl⟩ := List.mem_map.1 hx
        exact ⟨fun _ => rfl, leaf_recordCross (hc i him e he)⟩

theorem readLike_loaded {d : YDoc} (hl : Loadable d) (hi : InstancedDoc d) (hp : PlainDoc d) :
    AllReadLike (fun _ _ _ _ => CT.CVGBIN) (loadedDb ((docGroups d).map cgScope)).root := by
  intro i him g hg
  rw [kids_inst, List.mem_singleton] at him
  subst him
  rw [kids_defaultInst] at hg
  obtain ⟨y, hy, rfl⟩ := List.mem_map.1 hg
  obtain ⟨is, hc⟩ := hl.2 y hy
  exact readLike_cg hc (hi y hy) (hp.weights y hy) (hp.points y hy) (hp.crosses y hy)

/-- **C103, partial.** Missing: documents with ignore or illegal bins, or with weights or thresholds other than 1 (the property is
false there, `C103_ignore_refuted`, `C103_weight_refuted`, `C103_threshold_refuted`).  The report on the stored merge of YAML files
has the same total and, for every covergroup, the same figures as the report on the merged database. -/
theorem C103_figures_partial {env : Env} (he : GoodEnv env) {ds : List YDoc} {srcs : List Database} {out db' : Database} {r : Report.Rpt}
    (h : List.Forall₂ (fun d s => ∃ j, LoadedFrom j d s) ds srcs) (hi : ∀ d ∈ ds, InstancedDoc d) (hu : ∀ d ∈ ds, UniqueDoc d)
    (hp : ∀ d ∈ ds, PlainDoc d) (hm : mergeDb ⟨emptyDb, [], []⟩ srcs = .ok out) (hr : throughFile env out = .ok db')
    (hb : Report.build id out.root = .ok r) :
    ∃ r', Report.build id db'.root = .ok r' ∧ r'.coverage = r.coverage ∧ List.Forall₂ SameFigures r.covergroups r'.covergroups := by
  have key : ∀ s ∈ srcs, AllReadLike (fun _ _ _ _ => CT.CVGBIN) s.root ∧ UniqueNames s.root := by
    intro s hm
    obtain ⟨d, hd, j, hj⟩ := exists_left h hm
    obtain ⟨hl, rfl⟩ := (load_says hj.1 s).1 hj.2
    exact ⟨readLike_loaded hl (hi d hd) (hp d hd), unique_loaded (hu d hd)⟩
  exact merged_figures he (fun s hs => (key s hs).1) (fun s hs => (key s hs).2) hm hr hb

/-! ## Converting one document -/

theorem goal_recordCross (c : YCross) : ∀ b ∈ itemsOfKind CT.CVGBIN (recordCross c), b.goal = 1 := by
  intro b hb
  have := (List.mem_filter.1 hb).1
  rw [items_recordCross] at this
  obtain ⟨x, _, rfl⟩ := List.mem_map.1 this
  rfl

theorem nodup_kind {s : Scope} (h : (s.items.map (·.name)).Nodup) (k : Nat) : ((itemsOfKind k s).map (·.name)).Nodup :=
  h.sublist (List.Sublist.map _ List.filter_sublist)

theorem sole_cg {g : YCg} {is : List YInst} (hl : LoadableCg g is)
    (hp : ∀ i ∈ g.instances.getD [], ∀ c ∈ YInst.cps i, c.ignorebins.getD [] = [] ∧ c.illegalbins.getD [] = []) :
    SoleGroup (cgScope g) := by
  have t1 := typeSums_cp hp
  have t2 := typeSums_cross hl
  refine ⟨t1.names_nodup, t2.names_nodup, ?_, ?_⟩
  · intro x hx k _
    rcases List.mem_append.1 hx with hx | hx
    · exact nodup_kind (t1.bins_nodup x hx) k
    · exact nodup_kind (t2.bins_nodup x hx) k
  · intro x hx
    rw [kids_cg_cross] at hx
    obtain ⟨e, _, rfl⟩ := List.mem_map.1 hx
    exact goal_recordCross _

theorem sole_inst {i : YInst} (w : Int) (hn : ((YInst.cps i).map (·.name)).Nodup) (hc : ((YInst.crs i).map (·.name)).Nodup)
    (hb : ∀ c ∈ YInst.cps i, (c.bins.map (·.name)).Nodup) (hcb : ∀ c ∈ YInst.crs i, ((c.bins.getD []).map (·.name)).Nodup)
    (hp : ∀ c ∈ YInst.cps i, c.ignorebins.getD [] = [] ∧ c.illegalbins.getD [] = []) : SoleGroup (instScope w i) := by
  refine ⟨?_, ?_, ?_, ?_⟩
  · rw [kids_inst_cp, List.map_map]; exact hn
  · rw [kids_inst_cross, List.map_map]; exact hc
  · intro x hx k _
    apply nodup_kind
    rw [kids_inst_cp, kids_inst_cross] at hx
    rcases List.mem_append.1 hx with hx | hx
    · obtain ⟨c, hcm, rfl⟩ := List.mem_map.1 hx
      rw [items_recordCp]
      unfold kindBins
      rw [(hp c hcm).1, (hp c hcm).2]
      simpa [mkBin, Function.comp_def] using hb c hcm
    · obtain ⟨c, hcm, rfl⟩ := List.mem_map.1 hx
      rw [items_recordCross]
      simpa [mkBin, Function.comp_def] using hcb c hcm
  · intro x hx
    rw [kids_inst_cross] at hx
    obtain ⟨e, _, rfl⟩ := List.mem_map.1 hx
    exact goal_recordCross _

theorem sole_loaded {d : YDoc} (hl : Loadable d) (hd : DistinctDoc d) (hp : PlainDoc d) : Sole (loadedDb ((docGroups d).map cgScope)).root := by
  refine ⟨by rw [kids_inst]; simp, ?_, ?_⟩
  · intro i hi
    rw [kids_inst, List.mem_singleton] at hi
    subst hi
    rw [kids_defaultInst, List.map_map]
    exact hd.groups
  · intro i hi g hg
    rw [kids_inst, List.mem_singleton] at hi
    subst hi
    rw [kids_defaultInst] at hg
    obtain ⟨y, hy, rfl⟩ := List.mem_map.1 hg
    obtain ⟨is, hc⟩ := hl.2 y hy
    refine ⟨sole_cg hc (fun i hi c hc => (hp.points y hy i hi c hc).2), ?_, ?_⟩
    · rw [kids_cg_inst, List.map_map]
      exact hd.insts y hy
    · intro c hc
      rw [kids_cg_inst] at hc
      obtain ⟨z, hz, rfl⟩ := List.mem_map.1 hc
      refine ⟨sole_inst _ (hd.points y hy z hz) (hd.crosses y hy z hz) (hd.bins y hy z hz) (hd.crossBins y hy z hz)
        (fun c hc => (hp.points y hy z hz c hc).2), ?_⟩
      apply kids_none
      intro x hx
      rcases List.mem_append.1 hx with hx | hx
      · obtain ⟨e, _, rfl⟩ := List.mem_map.1 hx; exact cp_type (by decide)
      · obtain ⟨e, _, rfl⟩ := List.mem_map.1 hx; exact cross_type (by decide)

/-- **C103, partial**, for one file: converting a YAML file to XML does not change the figures of its report.  Missing as in
`C103_figures_partial`. -/
theorem C103_convert_partial {env : Env} (he : GoodEnv env) {j : Json} {d : YDoc} {db out db' : Database} {r : Report.Rpt}
    (h : LoadedFrom j d db) (hi : InstancedDoc d) (hd : DistinctDoc d) (hp : PlainDoc d)
    (hm : mergeDb ⟨emptyDb, [], []⟩ [db] = .ok out) (hr : throughFile env out = .ok db') (hb : Report.build id db.root = .ok r) :
    ∃ r', Report.build id db'.root = .ok r' ∧ r'.coverage = r.coverage ∧ List.Forall₂ SameFigures r.covergroups r'.covergroups := by
  have h2 : List.Forall₂ (fun d s => ∃ j, LoadedFrom j d s) [d] [db] := .cons ⟨j, h⟩ .nil
  refine C103_figures_partial he h2 (by simpa using hi) (by simpa using hd.toUniqueDoc) (by simpa using hp) hm hr ?_
  unfold mergeDb at hm
  cases hm' : merge emptyDb ([db].map (·.root)) with
  | error e => rw [hm'] at hm; cases hm
  | ok x =>
    rw [hm'] at hm
    cases hm
    obtain ⟨hl, rfl⟩ := (load_says h.1 db).1 h.2
    exact (C104_single_report (sole_loaded hl hd hp) hm' id r).2 hb

/-! ## Examples and refutations -/

/-- Converting a document and reporting before and after: overall coverage and the coverage of the first instance. -/
def exConvert (d : YDoc) : Except Err ((Rat × Rat) × (Rat × Rat)) := do
  let db ← loadDoc d
  let o ← mergeDb ⟨emptyDb, [], []⟩ [db]
  let x ← throughFile exEnv2 o
  let r ← Report.build id db.root
  let r' ← Report.build id x.root
  let fig := fun r : Report.Rpt => (r.coverage, ((r.covergroups.head?.bind (·.covergroups.head?)).map (·.coverage)).getD 0)
  return (fig r, fig r')

theorem exConvert_ok {d : YDoc} {p : (Rat × Rat) × (Rat × Rat)} (h : exConvert d = .ok p) :
    ∃ db o x r r', LoadedFrom (encDoc d) d db ∧ mergeDb ⟨emptyDb, [], []⟩ [db] = .ok o ∧ throughFile exEnv2 o = .ok x ∧
      Report.build id db.root = .ok r ∧ Report.build id x.root = .ok r' ∧ p.1.1 = r.coverage ∧ p.2.1 = r'.coverage ∧
      p.1.2 = ((r.covergroups.head?.bind (·.covergroups.head?)).map (·.coverage)).getD 0 ∧
      p.2.2 = ((r'.covergroups.head?.bind (·.covergroups.head?)).map (·.coverage)).getD 0 := by
  unfold exConvert at h
  obtain ⟨db, h1, h⟩ := Ex.bind_ok.1 h
  obtain ⟨o, h2, h⟩ := Ex.bind_ok.1 h
  obtain ⟨x, h3, h⟩ := Ex.bind_ok.1 h
  obtain ⟨r, h4, h⟩ := Ex.bind_ok.1 h
  obtain ⟨r', h5, h⟩ := Ex.bind_ok.1 h
  cases h
  exact ⟨db, o, x, r, r', ⟨says_encode d, (load_encode d).trans h1⟩, h2, h3, h4, h5, rfl, rfl, rfl, rfl⟩

/-- A plain document: two instances, a cross, one bin not hit. -/
def exPlain : YDoc := ⟨some (some [⟨"cg", none, some [
  ⟨"i1", some [⟨"a", none, [⟨"x", 1⟩, ⟨"y", 0⟩], none, none⟩, ⟨"b", some 1, [⟨"p", 2⟩], none, none⟩],
    some [⟨"ab", none, ["a", "b"], some [⟨"xp", 1⟩, ⟨"yp", 0⟩]⟩]⟩,
  ⟨"i2", some [⟨"a", none, [⟨"x", 3⟩], none, none⟩], none⟩]⟩])⟩

theorem exPlain_unique : DistinctDoc exPlain :=
  ⟨⟨by decide +kernel, by decide +kernel, by decide +kernel⟩, by decide +kernel, by decide +kernel, by decide +kernel⟩

theorem exPlain_plain : PlainDoc exPlain := ⟨by decide +kernel, by decide +kernel, by decide +kernel⟩

theorem exPlain_storable : StorableDoc exPlain := by
  have hp : ∀ s ∈ ["cg", "i1", "i2", "a", "b", "x", "y", "p", "ab", "xp", "yp"], Printable s := by unfold Printable; decide
  have sub : ∀ {l : List String} {m : List String} {x : String}, l.all (fun y => m.contains y) = true → x ∈ l → x ∈ m := by
    intro l m x h hx
    simpa using List.all_eq_true.1 h x hx
  intro g hg
  have hn : g.name = "cg" := by revert g; decide +kernel
  refine ⟨by rw [hn]; exact hp _ (by simp), by revert g; decide +kernel, fun i hi => ⟨?_, ?_, ?_, ?_⟩⟩
  · have : i.name ∈ ["i1", "i2"] := by revert g i; decide +kernel
    exact hp _ (sub (by decide) this)
  · revert g i; decide +kernel
  · intro c hc
    have h1 : c.name ∈ ["a", "b"] ∧ kindBins c ≠ [] ∧ ∀ b ∈ kindBins c, b.2.name ∈ ["x", "y", "p"] ∧ 0 ≤ b.2.count := by
      revert g i c; decide +kernel
    exact ⟨hp _ (sub (by decide) h1.1), h1.2.1, fun b hb =>
      ⟨hp _ (sub (by decide) (h1.2.2 b hb).1), (h1.2.2 b hb).2⟩⟩
  · intro c hc
    have h2 : ∀ n ∈ c.coverpoints, n ∈ (YInst.cps i).map (·.name) ∧ n ≠ "" ∧
          String.ofList (PyNum.stripL n.toList) ∈ (YInst.cps i).map (·.name) := by
      clear hn
      revert g i c; decide +kernel
    have h1 : c.name ∈ ["ab"] ∧ (∀ b ∈ c.bins.getD [], b.name ∈ ["xp", "yp"] ∧ 0 ≤ b.count) := by
      clear h2
      revert g i c; decide +kernel
    exact ⟨hp _ (sub (by decide) h1.1), fun b hb =>
      ⟨hp _ (sub (by decide) (h1.2 b hb).1), (h1.2 b hb).2⟩, h2⟩

/-- The hypotheses of C102 and C103 are met. -/
example : StorableDoc exPlain ∧ DistinctDoc exPlain ∧ PlainDoc exPlain ∧ InstancedDoc exPlain ∧
    ∃ db o x r, LoadedFrom (encDoc exPlain) exPlain db ∧ mergeDb ⟨emptyDb, [], []⟩ [db] = .ok o ∧ throughFile exEnv2 o = .ok x ∧
      Report.build id db.root = .ok r ∧ 0 < r.coverage ∧ r.coverage < 100 ∧
      docBinCount "cg" "i1" "a" CT.CVGBIN "x" exPlain = 1 ∧ docCrossBinCount "cg" "i1" "ab" "xp" exPlain = 1 := by
  refine ⟨exPlain_storable, exPlain_unique, exPlain_plain, by unfold InstancedDoc; decide +kernel, ?_⟩
  have h : (exConvert exPlain).map (fun p => decide (0 < p.1.1 ∧ p.1.1 < 100)) = .ok true := by decide +kernel
  cases h1 : exConvert exPlain with
  | error e => rw [h1] at h; cases h
  | ok p =>
    rw [h1] at h
    have hp := of_decide_eq_true (Except.ok.inj h)
    obtain ⟨db, o, x, r, r', a, b, c, e, _, f, _⟩ := exConvert_ok h1
    exact ⟨db, o, x, r, a, b, c, e, f ▸ hp.1, f ▸ hp.2, by decide +kernel, by decide +kernel⟩

/-- A document with the given weight of the first of two covergroups, threshold and ignore bins of the coverpoint of this covergroup. -/
def exOdd (w al : Option Int) (ign : Option (List YBin)) : YDoc := ⟨some (some [
  ⟨"cg", w, some [⟨"i1", some [⟨"a", al, [⟨"x", 1⟩], ign, none⟩], none⟩]⟩,
  ⟨"ch", none, some [⟨"i1", some [⟨"a", none, [⟨"x", 0⟩], none, none⟩], none⟩]⟩])⟩

/-- C103 fails for documents with ignore bins: the conversion changes the coverage. -/
theorem C103_ignore_refuted : ∃ db o x r r', LoadedFrom (encDoc (exOdd none none (some [⟨"z", 0⟩]))) (exOdd none none (some [⟨"z", 0⟩])) db ∧
    mergeDb ⟨emptyDb, [], []⟩ [db] = .ok o ∧ throughFile exEnv2 o = .ok x ∧ Report.build id db.root = .ok r ∧
    Report.build id x.root = .ok r' ∧ r.coverage = 25 ∧ r'.coverage = 50 := by
  have h : exConvert (exOdd none none (some [⟨"z", 0⟩])) = .ok ((25, 100), (50, 100)) := by decide +kernel
  obtain ⟨db, o, x, r, r', a, b, c, e, f, g, k, _⟩ := exConvert_ok h
  exact ⟨db, o, x, r, r', a, b, c, e, f, g.symm, k.symm⟩

/-- C103 fails for covergroup weights. -/
theorem C103_weight_refuted : ∃ db o x r r', LoadedFrom (encDoc (exOdd (some 3) none none)) (exOdd (some 3) none none) db ∧
    mergeDb ⟨emptyDb, [], []⟩ [db] = .ok o ∧ throughFile exEnv2 o = .ok x ∧ Report.build id db.root = .ok r ∧
    Report.build id x.root = .ok r' ∧ r.coverage = 75 ∧ r'.coverage = 50 := by
  have h : exConvert (exOdd (some 3) none none) = .ok ((75, 100), (50, 100)) := by decide +kernel
  obtain ⟨db, o, x, r, r', a, b, c, e, f, g, k, _⟩ := exConvert_ok h
  exact ⟨db, o, x, r, r', a, b, c, e, f, g.symm, k.symm⟩

/-- C103 fails for thresholds: the figures of a covergroup change. -/
theorem C103_threshold_refuted : ∃ db o x r r', LoadedFrom (encDoc (exOdd none (some 2) none)) (exOdd none (some 2) none) db ∧
    mergeDb ⟨emptyDb, [], []⟩ [db] = .ok o ∧ throughFile exEnv2 o = .ok x ∧ Report.build id db.root = .ok r ∧
    Report.build id x.root = .ok r' ∧ ((r.covergroups.head?.bind (·.covergroups.head?)).map (·.coverage)).getD 0 = 0 ∧
    ((r'.covergroups.head?.bind (·.covergroups.head?)).map (·.coverage)).getD 0 = 100 := by
  have h : exConvert (exOdd none (some 2) none) = .ok ((50, 0), (50, 100)) := by decide +kernel
  obtain ⟨db, o, x, r, r', a, b, c, e, f, _, _, g, k⟩ := exConvert_ok h
  exact ⟨db, o, x, r, r', a, b, c, e, f, g.symm, k.symm⟩

/-- C102 needs crosses of coverpoints of their own instance: a document whose cross names a coverpoint of an earlier instance loads
but cannot be converted. -/
theorem C102_cross_refuted : ∃ db, LoadedFrom (encDoc exDoc) exDoc db ∧ mergeDb ⟨emptyDb, [], []⟩ [db] = .error .attributeError := by
  obtain ⟨db, h⟩ := exDoc_loads
  refine ⟨db, ⟨says_encode _, h⟩, ?_⟩
  obtain ⟨_, rfl⟩ := (load_says (says_encode exDoc) db).1 h
  have h2 : (match mergeDb ⟨emptyDb, [], []⟩ [loadedDb ((docGroups exDoc).map cgScope)] with
      | .ok _ => none
      | .error e => some e) = some Err.attributeError := by decide +kernel
  cases h3 : mergeDb ⟨emptyDb, [], []⟩ [loadedDb ((docGroups exDoc).map cgScope)] with
  | ok _ => rw [h3] at h2; cases h2
  | error e => rw [h3] at h2; cases h2; rfl

end Yaml
end Verif
