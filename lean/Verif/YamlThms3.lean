import Verif.YamlThms2
/-!
# YAML: examples and refutations
-/

namespace Verif
namespace Yaml
open Spec Xml

theorem says_encode (d : YDoc) : Says (encDoc d) d := by
  obtain ⟨d', h⟩ := (valid_iff_says _).1 (encode_valid d)
  have := dec_says h
  rw [decode_encode] at this
  exact this ▸ h

/-- Two instances; the cross of the second names coverpoint `b`, which only the first has. -/
def exDoc : YDoc := ⟨some (some [⟨"cg", some 2, some [
  ⟨"i1", some [⟨"a", some 2, [⟨"x", 1⟩, ⟨"y", 4⟩], some [⟨"z", 5⟩], none⟩, ⟨"b", none, [⟨"p", 2⟩], none, some [⟨"bad", 0⟩]⟩],
    some [⟨"ab", none, ["a", "b"], some [⟨"xp", 1⟩, ⟨"yp", 0⟩]⟩]⟩,
  ⟨"i2", some [⟨"a", none, [⟨"x", 3⟩, ⟨"w", 1⟩], some [⟨"z", 7⟩], none⟩],
    some [⟨"ab", none, ["a", "b"], some [⟨"xp", 4⟩]⟩]⟩]⟩])⟩

theorem load_encode (d : YDoc) : load (encDoc d) = loadDoc d := by
  unfold load
  rw [if_pos (encode_valid d), decode_encode]

theorem exDoc_loads : ∃ db, load (encDoc exDoc) = .ok db := ⟨_, (load_encode _).trans rfl⟩

/-- The example meets the hypotheses of C42, C43, C44, C73, and its content is not trivial. -/
example : ∃ db s, load (encDoc exDoc) = .ok db ∧ (allCovergroups db.root)[0]? = some s ∧
    typeCount s ST.COVERPOINT "a" CT.CVGBIN "x" = 4 ∧ typeCount s ST.CROSS "ab" CT.CVGBIN "xp" = 5 := by
  obtain ⟨db, h⟩ := exDoc_loads
  have h2 := (load_says (says_encode exDoc) db).1 h
  obtain ⟨_, rfl⟩ := h2
  refine ⟨_, cgScope _, h, by rw [allCovergroups_loaded]; rfl, ?_, ?_⟩ <;> decide +kernel

/-- C43 fails for ignore bins: at type level they are ordinary bins. -/
theorem C43_kinds_refuted :
    ¬ ∀ (j : Json) (d : YDoc) (db : Database) (k : Nat) (g : YCg) (s : Scope), Says j d → load j = .ok db →
      (docGroups d)[k]? = some g → (allCovergroups db.root)[k]? = some s → DocTypeSums g s := by
  intro hall
  obtain ⟨db, h⟩ := exDoc_loads
  obtain ⟨_, rfl⟩ := (load_says (says_encode exDoc) db).1 h
  have := hall _ exDoc _ 0 _ (cgScope _) (says_encode exDoc) h rfl (by rw [allCovergroups_loaded]; rfl)
    "a" CT.IGNOREBIN "z" (.inr (.inl rfl))
  revert this
  decide +kernel

/-- C43 fails for ordinary bins too: the ignore bin `z` is counted as one. -/
theorem C43_ordinary_refuted : ∃ (g : YCg) (db : Database) (s : Scope), load (encDoc exDoc) = .ok db ∧ (docGroups exDoc)[0]? = some g ∧
    (allCovergroups db.root)[0]? = some s ∧ docCount g "a" CT.CVGBIN "z" = 0 ∧ typeCount s ST.COVERPOINT "a" CT.CVGBIN "z" = 12 := by
  obtain ⟨db, h⟩ := exDoc_loads
  obtain ⟨_, rfl⟩ := (load_says (says_encode exDoc) db).1 h
  refine ⟨_, _, cgScope _, h, rfl, by rw [allCovergroups_loaded]; rfl, ?_, ?_⟩ <;> decide +kernel

/-- The hypothesis of `C43_ordinary_partial` is met for the bin `x`. -/
example : ∀ g, (docGroups exDoc)[0]? = some g →
    ∀ c ∈ occCps g "a", ∀ x ∈ c.ignorebins.getD [] ++ c.illegalbins.getD [], x.name ≠ "x" := by
  intro g hg
  cases hg
  decide +kernel

/-- C44 fails: coverpoint `a` of the first instance has threshold 2, at type level it has 1. -/
theorem C44_thresholds_refuted :
    ¬ ∀ (j : Json) (d : YDoc) (db : Database) (k : Nat) (g : YCg) (s : Scope), Says j d → load j = .ok db →
      (docGroups d)[k]? = some g → (allCovergroups db.root)[k]? = some s → ThresholdsApply g s := by
  intro hall
  obtain ⟨db, h⟩ := exDoc_loads
  obtain ⟨_, rfl⟩ := (load_says (says_encode exDoc) db).1 h
  have := (hall _ exDoc _ 0 _ (cgScope _) (says_encode exDoc) h rfl (by rw [allCovergroups_loaded]; rfl)).1
  revert this
  rw [kids_cg_cp]
  decide +kernel

/-- A document with default thresholds, for `C44_thresholds_partial`. -/
def exDoc1 : YDoc := ⟨some (some [⟨"cg", none, some [⟨"i1", some [⟨"a", some 1, [⟨"x", 1⟩], none, none⟩, ⟨"b", none, [⟨"p", 2⟩], none, none⟩],
    some [⟨"ab", none, ["a", "b"], some [⟨"xp", 1⟩]⟩]⟩]⟩])⟩

example : (∃ db, load (encDoc exDoc1) = .ok db) ∧ ∀ g, (docGroups exDoc1)[0]? = some g →
    (∀ c ∈ (g.instances.getD []).flatMap YInst.cps, c.atleast.getD 1 = 1) ∧
    (∀ c ∈ (g.instances.getD []).flatMap YInst.crs, c.atleast.getD 1 = 1) := by
  constructor
  · exact ⟨_, (load_encode _).trans rfl⟩
  · intro g hg
    cases hg
    decide +kernel

/-- C45 fails: the document loads although the cross of the second instance names a coverpoint that
this instance does not have; the cross is bound to the coverpoint of the first instance. -/
theorem C45_own_instance_refuted : ∃ (g : YCg) (i : YInst) (c : YCross) (n : String), g ∈ docGroups exDoc ∧
    (g.instances.getD [])[1]? = some i ∧ c ∈ YInst.crs i ∧ n ∈ c.coverpoints ∧ n ∉ (YInst.cps i).map (·.name) ∧
    (∃ db, load (encDoc exDoc) = .ok db) ∧
    ∃ s, processCg' g = .ok (s, [[[1, 1]], [[2, 1]]]) := by
  refine ⟨_, _, ⟨"ab", none, ["a", "b"], some [⟨"xp", 4⟩]⟩, "b", List.mem_singleton.2 rfl, rfl, ?_, ?_, ?_, exDoc_loads, ?_⟩
  · decide +kernel
  · decide
  · decide +kernel
  · exact ⟨_, rfl⟩

/-- The hypothesis of `C45_own_instance_partial` is met by the first instance. -/
example : ∃ (g : YCg) (i : YInst), g ∈ docGroups exDoc ∧ (g.instances.getD [])[0]? = some i ∧ YInst.crs i ≠ [] ∧
    ∀ c ∈ YInst.crs i, ∀ n ∈ c.coverpoints, n ∈ (YInst.cps i).map (·.name) :=
  ⟨_, _, List.mem_singleton.2 rfl, rfl, by decide +kernel, by decide +kernel⟩

/-- A covergroup without instances. -/
def exDoc2 : YDoc := ⟨some (some [⟨"cg", none, none⟩])⟩

/-- C46: the exception is a `TypeError`. -/
theorem C46_type_error_refuted : Says (encDoc exDoc2) exDoc2 ∧ load (encDoc exDoc2) = .error .typeError :=
  ⟨says_encode _, (load_encode _).trans rfl⟩

/-- **C46** for a covergroup with an empty list of instances: it does not keep a document from being loaded, and becomes an empty
covergroup.  Missing: covergroups without a list, for which the property is false (`C46_no_instances_refuted`), and the warning, which
the model does not record. -/
theorem C46_empty_list_partial {j j' : Json} {l r : List YCg} {g : YCg} (hg : g.instances = some [])
    (hs : Says j ⟨some (some (l ++ g :: r))⟩) (hs' : Says j' ⟨some (some (l ++ r))⟩) :
    ((∃ db, load j = .ok db) ↔ ∃ db, load j' = .ok db) ∧
    ∀ db, load j = .ok db → ∃ s, (allCovergroups db.root)[l.length]? = some s ∧ s.name = g.name ∧ s.children = [] ∧ s.items = [] := by
  have e : ∀ gs, docGroups ⟨some (some gs)⟩ = gs := fun _ => rfl
  constructor
  · have key : Loadable ⟨some (some (l ++ g :: r))⟩ ↔ Loadable ⟨some (some (l ++ r))⟩ := by
      unfold Loadable
      rw [e, e]
      constructor
      · rintro ⟨_, h⟩
        exact ⟨by simp, fun x hx => h x (by
          rcases List.mem_append.1 hx with hx | hx
          · exact List.mem_append_left _ hx
          · exact List.mem_append_right _ (List.mem_cons_of_mem _ hx))⟩
      · rintro ⟨_, h⟩
        refine ⟨by simp, fun x hx => ?_⟩
        rcases List.mem_append.1 hx with hx | hx
        · exact h x (List.mem_append_left _ hx)
        · rcases List.mem_cons.1 hx with rfl | hx
          · exact ⟨[], hg, by simp, by simp⟩
          · exact h x (List.mem_append_right _ hx)
    constructor
    · rintro ⟨db, h⟩
      exact ⟨_, (load_says hs' _).2 ⟨key.1 ((load_says hs db).1 h).1, rfl⟩⟩
    · rintro ⟨db, h⟩
      exact ⟨_, (load_says hs _).2 ⟨key.2 ((load_says hs' db).1 h).1, rfl⟩⟩
  · intro db h
    have hlen : l.length < (allCovergroups db.root).length := by
      have := congrArg List.length (C42_instances_faithful hs h).2
      rw [List.length_map, List.length_map, e] at this
      rw [this]
      simp
    refine ⟨_, List.getElem?_eq_getElem hlen, ?_⟩
    obtain ⟨hc, _⟩ := group_of_load hs h (k := l.length) (g := g) (by rw [e]; simp) (List.getElem?_eq_getElem hlen)
    rw [hc]
    unfold cgScope
    rw [hg]
    exact ⟨rfl, rfl, rfl⟩

/-- `C46_empty_list_partial` on a document with three covergroups. -/
example : ∃ (l r : List YCg) (g : YCg), g.instances = some [] ∧ l ≠ [] ∧ r ≠ [] ∧ (∃ db, load (encDoc ⟨some (some (l ++ g :: r))⟩) = .ok db) :=
  ⟨docGroups exDoc, docGroups exDoc, ⟨"none", none, some []⟩, rfl, by decide, by decide, ⟨_, (load_encode _).trans rfl⟩⟩

/-- A cross that has no bins in the first instance and one in the second. -/
def exDoc3 : YDoc := ⟨some (some [⟨"cg", none, some [
  ⟨"i1", some [⟨"a", none, [⟨"x", 1⟩], none, none⟩], some [⟨"aa", none, ["a"], none⟩]⟩,
  ⟨"i2", some [⟨"a", none, [⟨"x", 1⟩], none, none⟩], some [⟨"aa", none, ["a"], some [⟨"q", 1⟩]⟩]⟩]⟩])⟩

/-- C72: the condition on bin lists is needed. -/
theorem C72_bins_refuted : Says (encDoc exDoc3) exDoc3 ∧ load (encDoc exDoc3) = .error .attributeError :=
  ⟨says_encode _, (load_encode _).trans rfl⟩

/-- C72: a document that does not satisfy the schema, here a bin without count, is rejected. -/
example : load (.obj [("coverage", .obj [("covergroups", .arr [.obj [("name", .str "cg"), ("instances", .arr [.obj [("name", .str "i"),
    ("coverpoints", .arr [.obj [("name", .str "a"), ("bins", .arr [.obj [("name", .str "x")]])]])]])]])])]) = .error .userError := by
  unfold load
  rw [if_neg]
  simp [validJ, validProps, validItems, sDoc, sCg, sInst, sCp, sBin, Dict.get?, Dict.contains]

/-- C73: both sides occur. -/
example : ((docGroups exDoc).map (fun g => g.weight.getD 1)).sum = 2 ∧ ((docGroups ⟨some none⟩).map (fun g => g.weight.getD 1)).sum = 0 ∧
    ∃ db, load (encDoc ⟨some none⟩) = .ok db :=
  ⟨rfl, rfl, _, (load_encode _).trans rfl⟩

end Yaml
end Verif
