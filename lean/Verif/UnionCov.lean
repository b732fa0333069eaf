import Verif.YamlFigures
import Verif.MergeXml2
/-!
# Type coverage as the union of the coverage of the instances

`doc/source/reference/yaml_coverage.rst:20-25` describes the coverage of a covergroup type as "the union of
coverage achieved by all instances".  Here this is stated about reports only (which bins of which lines
reach the number beside them) and checked for reports on XML files (`xml_reader.py:60-428`) and on YAML
files (`yaml_reader.py:62-350`), both made by `coverage_report_builder.py:19-158`.
-/

namespace Verif
namespace Spec
open Report (RBin RCp RCross RCg)
open Yaml (YBin YCp YCross YInst YCg YDoc)

/-- The bin of some instance with these names of coverpoint and bin satisfies `P`. -/
def SomePoint (g : RCg) (n m : String) (P : RBin → Prop) : Prop :=
  ∃ i ∈ g.covergroups, ∃ q ∈ i.coverpoints, q.name = n ∧ ∃ c ∈ q.bins, c.name = m ∧ P c

/-- Likewise for crosses. -/
def SomeCross (g : RCg) (n m : String) (P : RBin → Prop) : Prop :=
  ∃ i ∈ g.covergroups, ∃ q ∈ i.crosses, q.name = n ∧ ∃ c ∈ q.bins, c.name = m ∧ P c

/-- A bin listed for the covergroup is covered exactly if it is covered in some instance, and every bin
listed for an instance is listed for the covergroup. -/
structure UnionOf (g : RCg) : Prop where
  points : ∀ p ∈ g.coverpoints, ∀ b ∈ p.bins, (b.hit = true ↔ SomePoint g p.name b.name (fun c => c.hit = true))
  crosses : ∀ p ∈ g.crosses, ∀ b ∈ p.bins, (b.hit = true ↔ SomeCross g p.name b.name (fun c => c.hit = true))
  allPoints : ∀ i ∈ g.covergroups, ∀ q ∈ i.coverpoints, ∀ c ∈ q.bins, ∃ p ∈ g.coverpoints, p.name = q.name ∧ ∃ b ∈ p.bins, b.name = c.name
  allCrosses : ∀ i ∈ g.covergroups, ∀ q ∈ i.crosses, ∀ c ∈ q.bins, ∃ p ∈ g.crosses, p.name = q.name ∧ ∃ b ∈ p.bins, b.name = c.name

/-- No bin is an ordinary bin in one place and an ignore or illegal bin in another. -/
def OneKind (g : RCg) : Prop :=
  ∀ i ∈ g.covergroups, ∀ q ∈ i.coverpoints, ∀ j ∈ g.covergroups, ∀ q' ∈ j.coverpoints, q.name = q'.name →
    ∀ b ∈ q.bins, ∀ c ∈ q'.ignoreBins ++ q'.illegalBins, b.name ≠ c.name

/-- Names of the coverpoints and crosses with the names of their bins. -/
def layout (g : RCg) : List (String × List String) × List (String × List String) :=
  (g.coverpoints.map (fun p => (p.name, p.bins.map (·.name))), g.crosses.map (fun p => (p.name, p.bins.map (·.name))))

/-- All instances have the coverpoints, crosses and bins of the covergroup. -/
def SameLayout (g : RCg) : Prop := ∀ i ∈ g.covergroups, layout i = layout g

/-- A YAML document without ignore bins, illegal bins and negative counts. -/
structure PlainYaml (d : YDoc) : Prop where
  points : ∀ g ∈ docGroups d, ∀ i ∈ g.instances.getD [], ∀ c ∈ YInst.cps i,
    c.ignorebins.getD [] = [] ∧ c.illegalbins.getD [] = [] ∧ ∀ b ∈ c.bins, 0 ≤ b.count
  crosses : ∀ g ∈ docGroups d, ∀ i ∈ g.instances.getD [], ∀ c ∈ YInst.crs i, ∀ b ∈ c.bins.getD [], 0 ≤ b.count

/-- A YAML document that gives no threshold other than 1. -/
structure NoThreshold (d : YDoc) : Prop where
  points : ∀ g ∈ docGroups d, ∀ i ∈ g.instances.getD [], ∀ c ∈ YInst.cps i, c.atleast.getD 1 = 1
  crosses : ∀ g ∈ docGroups d, ∀ i ∈ g.instances.getD [], ∀ c ∈ YInst.crs i, c.atleast.getD 1 = 1

end Spec

namespace UnionCov
open Spec
open Xml (Elem FloatText)
open Report (RBin RCp RCross RCg Rpt build)

/-! ## Lists -/

theorem one_le_sum {l : List Int} (h : ∀ x ∈ l, 0 ≤ x) : 1 ≤ l.sum ↔ ∃ x ∈ l, 1 ≤ x := by
  induction l with
  | nil => simp
  | cons a t ih =>
    have ht : ∀ x ∈ t, 0 ≤ x := fun x hx => h x (List.mem_cons_of_mem _ hx)
    have ha := h a List.mem_cons_self
    have hs : 0 ≤ t.sum := List.sum_nonneg ht
    rw [List.sum_cons]
    constructor
    · intro h1
      by_cases h2 : 1 ≤ a
      · exact ⟨a, List.mem_cons_self, h2⟩
      · obtain ⟨x, hx, hx1⟩ := (ih ht).1 (by omega)
        exact ⟨x, List.mem_cons_of_mem _ hx, hx1⟩
    · rintro ⟨x, hx, hx1⟩
      rcases List.mem_cons.1 hx with rfl | hx
      · omega
      · have := (ih ht).2 ⟨x, hx, hx1⟩
        omega

theorem mem_distinct {n : String} {l : List String} : n ∈ distinct l ↔ n ∈ l := by
  rw [Xml.distinct_eq, mem_firstSeen]

/-! ## XML -/

abbrev XBin := String × Nat × Int

theorem mem_listed {k : Nat} {l : List XBin} {b : RBin} :
    b ∈ listed k l ↔ ∃ v ∈ l, v.2.1 = k ∧ b = ⟨v.1, 1, v.2.2⟩ := by
  unfold listed
  simp only [List.mem_map, List.mem_filter, decide_eq_true_eq]
  constructor
  · rintro ⟨v, ⟨h1, h2⟩, rfl⟩; exact ⟨v, h1, h2, rfl⟩
  · rintro ⟨v, h1, h2, rfl⟩; exact ⟨v, ⟨h1, h2⟩, rfl⟩

/-- Bins of the same name have the same kind. -/
def KindsAgree (l : List XBin) : Prop := ∀ v ∈ l, ∀ v' ∈ l, v.1 = v'.1 → (v.2.1 = CT.CVGBIN ↔ v'.2.1 = CT.CVGBIN)

theorem together_head {l : List XBin} {v : XBin} (hv : v ∈ l) :
    ∃ a ∈ l, a.1 = v.1 ∧ (((l.filter (fun b => b.1 = v.1)).map (·.2.1)).head?).getD 0 = a.2.1 := by
  cases hf : l.filter (fun x => x.1 = v.1) with
  | nil =>
    rw [List.filter_eq_nil_iff] at hf
    exact absurd (decide_eq_true rfl) (hf v hv)
  | cons a t =>
    have ha : a ∈ l.filter (fun x => x.1 = v.1) := by rw [hf]; exact List.mem_cons_self
    obtain ⟨h1, h2⟩ := List.mem_filter.1 ha
    exact ⟨a, h1, of_decide_eq_true h2, rfl⟩

theorem together_hit {l : List XBin} (hk : KindsAgree l) (h0 : ∀ v ∈ l, 0 ≤ v.2.2) {b : RBin}
    (hb : b ∈ listed CT.CVGBIN (together l)) :
    b.hit = true ↔ ∃ c ∈ listed CT.CVGBIN l, c.name = b.name ∧ c.hit = true := by
  obtain ⟨v, hv, hvk, rfl⟩ := mem_listed.1 hb
  obtain ⟨n, hn, rfl⟩ := List.mem_map.1 hv
  rw [mem_distinct] at hn
  obtain ⟨x, hx, rfl⟩ := List.mem_map.1 hn
  simp only at hvk
  obtain ⟨a, ha, hax, hak⟩ := together_head hx
  rw [hak] at hvk
  simp only [Report.RBin.hit, decide_eq_true_eq]
  rw [one_le_sum (by
    intro y hy
    obtain ⟨z, hz, rfl⟩ := List.mem_map.1 hy
    exact h0 z (List.mem_filter.1 hz).1)]
  constructor
  · rintro ⟨y, hy, hy1⟩
    obtain ⟨z, hz, rfl⟩ := List.mem_map.1 hy
    obtain ⟨hz, hzn⟩ := List.mem_filter.1 hz
    have hzn := of_decide_eq_true hzn
    exact ⟨_, mem_listed.2 ⟨z, hz, (hk a ha z hz (hax.trans hzn.symm)).1 hvk, rfl⟩, hzn, hy1⟩
  · rintro ⟨c, hc, hcn, hc1⟩
    obtain ⟨z, hz, hzk, rfl⟩ := mem_listed.1 hc
    exact ⟨z.2.2, List.mem_map.2 ⟨z, List.mem_filter.2 ⟨hz, decide_eq_true hcn⟩, rfl⟩, hc1⟩

theorem together_all {l : List XBin} (hk : KindsAgree l) {c : RBin} (hc : c ∈ listed CT.CVGBIN l) :
    ∃ b ∈ listed CT.CVGBIN (together l), b.name = c.name := by
  obtain ⟨z, hz, hzk, rfl⟩ := mem_listed.1 hc
  obtain ⟨a, ha, hax, hak⟩ := together_head hz
  refine ⟨_, mem_listed.2 ⟨_, List.mem_map.2 ⟨z.1, mem_distinct.2 (List.mem_map_of_mem hz), rfl⟩, ?_, rfl⟩, rfl⟩
  rw [hak]
  exact (hk z hz a ha hax.symm).1 hzk

/-- Lines with bins. -/
abbrev XPart := String × List XBin

def PartsAgree (L : List XPart) : Prop := ∀ q ∈ L, ∀ q' ∈ L, q.1 = q'.1 → ∀ v ∈ q.2, ∀ v' ∈ q'.2, v.1 = v'.1 →
  (v.2.1 = CT.CVGBIN ↔ v'.2.1 = CT.CVGBIN)

theorem kinds_of_parts {L : List XPart} (h : PartsAgree L) (n : String) :
    KindsAgree ((L.filter (fun p => p.1 = n)).flatMap (·.2)) := by
  intro v hv v' hv' he
  obtain ⟨q, hq, hv⟩ := List.mem_flatMap.1 hv
  obtain ⟨q', hq', hv'⟩ := List.mem_flatMap.1 hv'
  obtain ⟨hq, hn⟩ := List.mem_filter.1 hq
  obtain ⟨hq', hn'⟩ := List.mem_filter.1 hq'
  exact h q hq q' hq' ((of_decide_eq_true hn).trans (of_decide_eq_true hn').symm) v hv v' hv' he

theorem sums_hit {L : List XPart} (hk : PartsAgree L) (h0 : ∀ q ∈ L, ∀ v ∈ q.2, 0 ≤ v.2.2) {s : XPart} (hs : s ∈ sums L) {b : RBin}
    (hb : b ∈ listed CT.CVGBIN s.2) :
    b.hit = true ↔ ∃ q ∈ L, q.1 = s.1 ∧ ∃ c ∈ listed CT.CVGBIN q.2, c.name = b.name ∧ c.hit = true := by
  obtain ⟨n, hn, rfl⟩ := List.mem_map.1 hs
  rw [together_hit (kinds_of_parts hk n) (by
    intro v hv
    obtain ⟨q, hq, hv⟩ := List.mem_flatMap.1 hv
    exact h0 q (List.mem_filter.1 hq).1 v hv) hb]
  constructor
  · rintro ⟨c, hc, h1, h2⟩
    obtain ⟨v, hv, hvk, rfl⟩ := mem_listed.1 hc
    obtain ⟨q, hq, hv⟩ := List.mem_flatMap.1 hv
    obtain ⟨hq, hqn⟩ := List.mem_filter.1 hq
    exact ⟨q, hq, of_decide_eq_true hqn, _, mem_listed.2 ⟨v, hv, hvk, rfl⟩, h1, h2⟩
  · rintro ⟨q, hq, hqn, c, hc, h1, h2⟩
    obtain ⟨v, hv, hvk, rfl⟩ := mem_listed.1 hc
    exact ⟨_, mem_listed.2 ⟨v, List.mem_flatMap.2 ⟨q, List.mem_filter.2 ⟨hq, decide_eq_true hqn⟩, hv⟩, hvk, rfl⟩, h1, h2⟩

theorem sums_all {L : List XPart} (hk : PartsAgree L) {q : XPart} (hq : q ∈ L) {c : RBin} (hc : c ∈ listed CT.CVGBIN q.2) :
    ∃ s ∈ sums L, s.1 = q.1 ∧ ∃ b ∈ listed CT.CVGBIN s.2, b.name = c.name := by
  refine ⟨_, List.mem_map.2 ⟨q.1, mem_distinct.2 (List.mem_map_of_mem hq), rfl⟩, rfl, ?_⟩
  apply together_all (kinds_of_parts hk q.1)
  obtain ⟨v, hv, hvk, rfl⟩ := mem_listed.1 hc
  exact mem_listed.2 ⟨v, List.mem_flatMap.2 ⟨q, List.mem_filter.2 ⟨hq, decide_eq_true rfl⟩, hv⟩, hvk, rfl⟩

abbrev XEntry := String × List XPart × List (String × Option (List String) × List XBin)

theorem typeLine_union {p : String × List XEntry} (hk : PartsAgree (p.2.flatMap (fun e => e.2.1)))
    (hx : PartsAgree (p.2.flatMap entryCrosses))
    (h0 : ∀ e ∈ p.2, ∀ q ∈ e.2.1 ++ entryCrosses e, ∀ v ∈ q.2, 0 ≤ v.2.2) : UnionOf (typeLine p) := by
  have hsub : ∀ i, i ∈ (typeLine p).covergroups ↔ ∃ e ∈ p.2, groupLine e.1 e.2.1 (entryCrosses e) [] = i := by
    intro i; exact List.mem_map
  refine ⟨?_, ?_, ?_, ?_⟩
  · intro s hs b hb
    obtain ⟨s, hs', rfl⟩ := List.mem_map.1 (show s ∈ (sums (p.2.flatMap (fun e => e.2.1))).map pointLine from hs)
    rw [sums_hit hk (by
      intro q hq
      obtain ⟨e, he, hq⟩ := List.mem_flatMap.1 hq
      exact h0 e he q (List.mem_append_left _ hq)) hs' hb]
    constructor
    · rintro ⟨q, hq, h1, h2⟩
      obtain ⟨e, he, hq⟩ := List.mem_flatMap.1 hq
      exact ⟨_, (hsub _).2 ⟨e, he, rfl⟩, pointLine q, List.mem_map_of_mem hq, h1, h2⟩
    · rintro ⟨i, hi, q, hq, h1, h2⟩
      obtain ⟨e, he, rfl⟩ := (hsub _).1 hi
      obtain ⟨q, hq', rfl⟩ := List.mem_map.1 (show q ∈ e.2.1.map pointLine from hq)
      exact ⟨q, List.mem_flatMap.2 ⟨e, he, hq'⟩, h1, h2⟩
  · intro s hs b hb
    obtain ⟨s, hs', rfl⟩ := List.mem_map.1 (show s ∈ (sums (p.2.flatMap entryCrosses)).map crossLine from hs)
    rw [sums_hit hx (by
      intro q hq
      obtain ⟨e, he, hq⟩ := List.mem_flatMap.1 hq
      exact h0 e he q (List.mem_append_right _ hq)) hs' hb]
    constructor
    · rintro ⟨q, hq, h1, h2⟩
      obtain ⟨e, he, hq⟩ := List.mem_flatMap.1 hq
      exact ⟨_, (hsub _).2 ⟨e, he, rfl⟩, crossLine q, List.mem_map_of_mem hq, h1, h2⟩
    · rintro ⟨i, hi, q, hq, h1, h2⟩
      obtain ⟨e, he, rfl⟩ := (hsub _).1 hi
      obtain ⟨q, hq', rfl⟩ := List.mem_map.1 (show q ∈ (entryCrosses e).map crossLine from hq)
      exact ⟨q, List.mem_flatMap.2 ⟨e, he, hq'⟩, h1, h2⟩
  · intro i hi q hq c hc
    obtain ⟨e, he, rfl⟩ := (hsub _).1 hi
    obtain ⟨q, hq', rfl⟩ := List.mem_map.1 (show q ∈ e.2.1.map pointLine from hq)
    obtain ⟨s, hs, h1, h2⟩ := sums_all hk (List.mem_flatMap.2 ⟨e, he, hq'⟩) hc
    exact ⟨pointLine s, List.mem_map_of_mem hs, h1, h2⟩
  · intro i hi q hq c hc
    obtain ⟨e, he, rfl⟩ := (hsub _).1 hi
    obtain ⟨q, hq', rfl⟩ := List.mem_map.1 (show q ∈ (entryCrosses e).map crossLine from hq)
    obtain ⟨s, hs, h1, h2⟩ := sums_all hx (List.mem_flatMap.2 ⟨e, he, hq'⟩) hc
    exact ⟨crossLine s, List.mem_map_of_mem hs, h1, h2⟩

theorem docView_entry {doc : Elem} {i : String × List (String × List XEntry)} (hi : i ∈ docView doc) {p : String × List XEntry}
    (hp : p ∈ i.2) {e : XEntry} (he : e ∈ p.2) :
    ∃ x ∈ within "instanceCoverages" doc, ∃ c ∈ within "covergroupCoverage" x, ∃ g ∈ within "cgInstance" c,
      e = (cpName g, cpsOf g, docCrosses g) := by
  obtain ⟨n, _, rfl⟩ := List.mem_map.1 hi
  obtain ⟨x, hx, hp⟩ := List.mem_flatMap.1 hp
  obtain ⟨c, hc, hp⟩ := List.mem_flatMap.1 hp
  obtain ⟨t, _, rfl⟩ := List.mem_map.1 hp
  obtain ⟨g, hg, rfl⟩ := List.mem_map.1 he
  exact ⟨x, (List.mem_filter.1 hx).1, c, hc, g, (List.mem_filter.1 hg).1, rfl⟩

/-- Kinds of the report agree with kinds of the document. -/
theorem parts_of_oneKind {p : String × List XEntry} (hk : ∀ e ∈ p.2, ∀ q ∈ e.2.1, ∀ v ∈ q.2, IsKind v.2.1) (h : OneKind (typeLine p)) :
    PartsAgree (p.2.flatMap (fun e => e.2.1)) := by
  have one : ∀ q ∈ p.2.flatMap (fun e => e.2.1), ∀ q' ∈ p.2.flatMap (fun e => e.2.1), q.1 = q'.1 → ∀ v ∈ q.2, ∀ v' ∈ q'.2,
      v.1 = v'.1 → v.2.1 = CT.CVGBIN → v'.2.1 = CT.CVGBIN := by
    intro q hq q' hq' hn v hv v' hv' he hvk
    obtain ⟨e, hee, hq⟩ := List.mem_flatMap.1 hq
    obtain ⟨e', hee', hq'⟩ := List.mem_flatMap.1 hq'
    have := h _ (List.mem_map_of_mem hee) (pointLine q) (List.mem_map_of_mem hq) _ (List.mem_map_of_mem hee') (pointLine q')
      (List.mem_map_of_mem hq') hn _ (mem_listed.2 ⟨v, hv, hvk, rfl⟩)
    rcases hk e' hee' q' hq' v' hv' with h1 | h1 | h1
    · exact h1
    · exact absurd he (this _ (List.mem_append_left _ (mem_listed.2 ⟨v', hv', h1, rfl⟩)))
    · exact absurd he (this _ (List.mem_append_right _ (mem_listed.2 ⟨v', hv', h1, rfl⟩)))
  intro q hq q' hq' hn v hv v' hv' he
  exact ⟨one q hq q' hq' hn v hv v' hv' he, one q' hq' q hq hn.symm v' hv' v hv he.symm⟩

theorem entry_kinds {flt : FloatText} {doc : Elem} {db : Database} (h : Xml.read flt doc = .ok db)
    {i : String × List (String × List XEntry)} (hi : i ∈ docView doc) {p : String × List XEntry} (hp : p ∈ i.2) :
    (∀ e ∈ p.2, ∀ q ∈ e.2.1, ∀ v ∈ q.2, IsKind v.2.1) ∧ PartsAgree (p.2.flatMap entryCrosses) := by
  have hgood := ((C37_read_accepts flt doc).1 ⟨db, h⟩).2.2
  constructor
  · intro e he q hq v hv
    obtain ⟨x, hx, c, hc, g, hg, rfl⟩ := docView_entry hi hp he
    obtain ⟨y, hy, rfl⟩ := List.mem_map.1 (show q ∈ cpsOf g from hq)
    obtain ⟨b, hb, rfl⟩ := List.mem_map.1 hv
    exact Xml.kind_binOf (((hgood x hx).2.2 c hc g hg).1 y hy b hb)
  · have key : ∀ q ∈ p.2.flatMap entryCrosses, ∀ v ∈ q.2, v.2.1 = CT.CVGBIN := by
      intro q hq v hv
      obtain ⟨e, he, hq⟩ := List.mem_flatMap.1 hq
      obtain ⟨x, _, c, _, g, _, rfl⟩ := docView_entry hi hp he
      obtain ⟨z, hz, rfl⟩ := List.mem_map.1 hq
      obtain ⟨y, _, rfl⟩ := List.mem_map.1 (show z ∈ docCrosses g from hz)
      obtain ⟨b, _, rfl⟩ := List.mem_map.1 hv
      rfl
    intro q hq q' hq' _ v hv v' hv' _
    rw [key q hq v hv, key q' hq' v' hv']

/-- Counts of a schema-valid document are not negative. -/
theorem entry_counts {doc : Elem} (hv : Xsd.valid Xsd.ucisXsd doc = true) {i : String × List (String × List XEntry)} (hi : i ∈ docView doc)
    {p : String × List XEntry} (hp : p ∈ i.2) {e : XEntry} (he : e ∈ p.2) : ∀ q ∈ e.2.1 ++ entryCrosses e, ∀ v ∈ q.2, 0 ≤ v.2.2 := by
  unfold Xsd.valid at hv
  rw [Bool.and_eq_true, beq_iff_eq] at hv
  obtain ⟨htag, hv⟩ := hv
  have htag : doc.tag = "UCIS" := htag
  obtain ⟨x, hx, c, hc, g, hg, rfl⟩ := docView_entry hi hp he
  have hgd : g ∈ within "cgInstance" doc := within_trans (within_trans hx hc) hg
  have hvg : Xsd.validE Xsd.ucisXsd g "CGINSTANCE" = true := Xsd.typed_within hv (by rw [htag]; decide) (by decide +kernel) hgd
  intro q hq v hv'
  rcases List.mem_append.1 hq with hq | hq
  · obtain ⟨y, hy, rfl⟩ := List.mem_map.1 (show q ∈ cpsOf g from hq)
    obtain ⟨b, hb, rfl⟩ := List.mem_map.1 hv'
    have hvy : Xsd.validE Xsd.ucisXsd y "COVERPOINT" = true := Xsd.typed_within hvg (by rw [Xsd.tag_within hgd]; decide) (by decide +kernel) hy
    exact binOf_nonneg (Xsd.tag_within hb) (Xsd.typed_within hvy (by rw [Xsd.tag_within hy]; decide) (by decide +kernel) hb)
  · obtain ⟨z, hz, rfl⟩ := List.mem_map.1 hq
    obtain ⟨y, hy, rfl⟩ := List.mem_map.1 (show z ∈ docCrosses g from hz)
    obtain ⟨b, hb, rfl⟩ := List.mem_map.1 hv'
    have hvy : Xsd.validE Xsd.ucisXsd y "CROSS" = true := Xsd.typed_within hvg (by rw [Xsd.tag_within hgd]; decide) (by decide +kernel) hy
    exact crossBinOf_nonneg (Xsd.tag_within hb) (Xsd.typed_within hvy (by rw [Xsd.tag_within hy]; decide) (by decide +kernel) hb)

/-- C118, XML files: if no bin is an ordinary bin in one entry and an ignore or illegal bin in another,
the coverage of a covergroup type is the union of the coverage of its entries. -/
theorem C118_xml_partial {flt : FloatText} {doc : Elem} {db : Database} {r : Rpt} (h : Xml.factoryRead flt doc = .ok db)
    (hr : build id db.root = .ok r) {g : RCg} (hg : g ∈ r.covergroups) (hk : OneKind g) : UnionOf g := by
  obtain ⟨hv, hd⟩ := factoryRead_ok.1 h
  rw [(Xml.C112_report hd hr).1] at hg
  obtain ⟨i, hi, hg⟩ := List.mem_flatMap.1 hg
  obtain ⟨p, hp, rfl⟩ := List.mem_map.1 hg
  obtain ⟨h1, h2⟩ := entry_kinds hd hi hp
  exact typeLine_union (parts_of_oneKind h1 hk) h2 (fun e he => entry_counts hv hi hp he)

/-! ## Percentages -/

/-- Share of the listed bins that are covered. -/
def pct (l : List RBin) : Rat := if l = [] then 0 else 100 * ((l.filter (·.hit)).length : Rat) / (l.length : Rat)

/-- The figure of a line is the average of the shares of its coverpoints and crosses. -/
def Plain (g : RCg) : Prop := g.coverage = average (g.coverpoints.map (fun p => pct p.bins) ++ g.crosses.map (fun p => pct p.bins))

theorem percentHit_pct (l : List XBin) : percentHit l = pct (listed CT.CVGBIN l) := by
  unfold percentHit pct listed
  simp only [List.map_eq_nil_iff, List.length_map, List.filter_map]
  rfl

theorem plain_groupLine (n : String) (cps crs : List XPart) (sub : List RCg) : Plain (groupLine n cps crs sub) := by
  unfold Plain groupLine
  simp only [List.map_append, List.map_map]
  congr 2 <;> exact List.map_congr_left (fun p _ => percentHit_pct p.2)

theorem filter_le {l l' : List RBin} (h : List.Forall₂ (fun c b : RBin => c.hit = true → b.hit = true) l l') :
    (l.filter (·.hit)).length ≤ (l'.filter (·.hit)).length := by
  induction h with
  | nil => exact le_rfl
  | @cons c b t t' hcb _ ih =>
    cases hc : c.hit with
    | false =>
      rw [List.filter_cons_of_neg (by simp [hc])]
      exact ih.trans (by rw [List.filter_cons]; split <;> simp)
    | true =>
      rw [List.filter_cons_of_pos hc, List.filter_cons_of_pos (hcb hc)]
      simpa using ih

theorem pct_le {l l' : List RBin} (h : List.Forall₂ (fun c b : RBin => c.hit = true → b.hit = true) l l') : pct l ≤ pct l' := by
  have hl := h.length_eq
  have hf := filter_le h
  unfold pct
  cases l with
  | nil =>
    cases l' with
    | nil => simp
    | cons => cases hl
  | cons a t =>
    cases l' with
    | nil => cases hl
    | cons a' t' =>
      simp only [List.cons_ne_nil, if_false]
      rw [← hl]
      apply div_le_div_of_nonneg_right _ (by positivity)
      have : ((((a :: t).filter (·.hit)).length : Nat) : Rat) ≤ (((a' :: t').filter (·.hit)).length : Nat) := by exact_mod_cast hf
      linarith

theorem forall₂_names {l l' : List RBin} (h : l.map (·.name) = l'.map (·.name)) {P : RBin → RBin → Prop}
    (hp : ∀ c ∈ l, ∀ b ∈ l', b.name = c.name → P c b) : List.Forall₂ P l l' := by
  induction l generalizing l' with
  | nil =>
    cases l' with
    | nil => exact .nil
    | cons => cases h
  | cons a t ih =>
    cases l' with
    | nil => cases h
    | cons a' t' =>
      simp only [List.map_cons, List.cons.injEq] at h
      exact .cons (hp a List.mem_cons_self a' List.mem_cons_self h.1.symm)
        (ih h.2 (fun c hc b hb => hp c (List.mem_cons_of_mem _ hc) b (List.mem_cons_of_mem _ hb)))

theorem average_le {l l' : List Rat} (h : List.Forall₂ (· ≤ ·) l l') : average l ≤ average l' := by
  have hl := h.length_eq
  have hs : l.sum ≤ l'.sum := by
    induction h with
    | nil => exact le_rfl
    | cons h1 _ ih => simp only [List.sum_cons]; exact add_le_add h1 (ih (by simpa using hl))
  unfold average
  cases l with
  | nil =>
    cases l' with
    | nil => simp
    | cons => cases hl
  | cons a t =>
    cases l' with
    | nil => cases hl
    | cons a' t' =>
      simp only [List.cons_ne_nil, if_false]
      rw [← hl]
      exact div_le_div_of_nonneg_right hs (by positivity)

theorem forall₂_lines {α : Type} {f : α → String} {bs : α → List RBin} {l l' : List α}
    (h : l.map (fun p => (f p, (bs p).map (·.name))) = l'.map (fun p => (f p, (bs p).map (·.name))))
    (hp : ∀ q ∈ l, ∀ p ∈ l', f q = f p → ∀ c ∈ bs q, ∀ b ∈ bs p, b.name = c.name → c.hit = true → b.hit = true) :
    List.Forall₂ (· ≤ ·) (l.map (fun p => pct (bs p))) (l'.map (fun p => pct (bs p))) := by
  induction l generalizing l' with
  | nil =>
    cases l' with
    | nil => exact .nil
    | cons => cases h
  | cons a t ih =>
    cases l' with
    | nil => cases h
    | cons a' t' =>
      simp only [List.map_cons, List.cons.injEq, Prod.mk.injEq] at h
      refine .cons (pct_le (forall₂_names h.1.2 ?_)) (ih h.2 ?_)
      · exact hp a List.mem_cons_self a' List.mem_cons_self h.1.1
      · exact fun q hq p hp' => hp q (List.mem_cons_of_mem _ hq) p (List.mem_cons_of_mem _ hp')

theorem forall₂_append {l l' k k' : List Rat} (h : List.Forall₂ (· ≤ ·) l l') (h' : List.Forall₂ (· ≤ ·) k k') :
    List.Forall₂ (· ≤ ·) (l ++ k) (l' ++ k') := by
  induction h with
  | nil => exact h'
  | cons h1 _ ih => exact .cons h1 ih

theorem higher {g : RCg} (hu : UnionOf g) (hg : Plain g) {i : RCg} (hi : i ∈ g.covergroups) (hp : Plain i) (hs : layout i = layout g) :
    i.coverage ≤ g.coverage := by
  rw [hp, hg]
  obtain ⟨h1, h2⟩ := Prod.ext_iff.1 hs
  apply average_le
  apply forall₂_append
  · refine forall₂_lines (f := fun p : RCp => p.name) (bs := fun p => p.bins) h1 ?_
    intro q hq p hp' hn c hc b hb he hit
    exact (hu.points p hp' b hb).2 ⟨i, hi, q, hq, hn, c, hc, he.symm, hit⟩
  · refine forall₂_lines (f := fun p : RCross => p.name) (bs := fun p => p.bins) h2 ?_
    intro q hq p hp' hn c hc b hb he hit
    exact (hu.crosses p hp' b hb).2 ⟨i, hi, q, hq, hn, c, hc, he.symm, hit⟩

/-- C118, XML files: if in addition all entries list the bins of the covergroup, no entry has a higher
figure than the covergroup. -/
theorem C118_xml_highest_partial {flt : FloatText} {doc : Elem} {db : Database} {r : Rpt} (h : Xml.factoryRead flt doc = .ok db)
    (hr : build id db.root = .ok r) {g : RCg} (hg : g ∈ r.covergroups) (hk : OneKind g) (hs : SameLayout g) :
    ∀ i ∈ g.covergroups, i.coverage ≤ g.coverage := by
  have hu := C118_xml_partial h hr hg hk
  obtain ⟨_, hd⟩ := factoryRead_ok.1 h
  rw [(Xml.C112_report hd hr).1] at hg
  obtain ⟨j, hj, hg⟩ := List.mem_flatMap.1 hg
  obtain ⟨p, hp, rfl⟩ := List.mem_map.1 hg
  intro i hi
  refine higher hu (plain_groupLine ..) hi ?_ (hs i hi)
  obtain ⟨e, he, rfl⟩ := List.mem_map.1 (show i ∈ p.2.map (fun e => groupLine e.1 e.2.1 (entryCrosses e) []) from hi)
  exact plain_groupLine ..

/-! ## YAML -/

open Yaml (YBin YCp YCross YInst YCg YDoc Json)

theorem mem_shown {t : Int} {l : List YBin} {b : RBin} : b ∈ shown t l ↔ ∃ v ∈ l, b = ⟨v.name, t, v.count⟩ := by
  unfold shown
  simp only [List.mem_map, eq_comm]

theorem summed_hit {l : List YBin} (h0 : ∀ v ∈ l, 0 ≤ v.count) {b : RBin} (hb : b ∈ shown 1 (summed l)) :
    b.hit = true ↔ ∃ v ∈ l, v.name = b.name ∧ 1 ≤ v.count := by
  obtain ⟨v, hv, rfl⟩ := mem_shown.1 hb
  obtain ⟨n, hn, rfl⟩ := List.mem_map.1 hv
  simp only [Report.RBin.hit, decide_eq_true_eq]
  rw [one_le_sum (by
    intro y hy
    obtain ⟨z, hz, rfl⟩ := List.mem_map.1 hy
    exact h0 z (List.mem_filter.1 hz).1)]
  constructor
  · rintro ⟨y, hy, hy1⟩
    obtain ⟨z, hz, rfl⟩ := List.mem_map.1 hy
    obtain ⟨hz, hzn⟩ := List.mem_filter.1 hz
    exact ⟨z, hz, of_decide_eq_true hzn, hy1⟩
  · rintro ⟨z, hz, hzn, hz1⟩
    exact ⟨z.count, List.mem_map.2 ⟨z, List.mem_filter.2 ⟨hz, decide_eq_true hzn⟩, rfl⟩, hz1⟩

theorem summed_all {l : List YBin} {v : YBin} (hv : v ∈ l) : ∃ b ∈ shown 1 (summed l), b.name = v.name :=
  ⟨_, mem_shown.2 ⟨_, List.mem_map.2 ⟨v.name, mem_distinct.2 (List.mem_map_of_mem hv), rfl⟩, rfl⟩, rfl⟩

/-- Type-level coverpoints without ignore and illegal bins. -/
theorem typePoints_plain {l : List YCp} (h : ∀ c ∈ l, c.ignorebins.getD [] = [] ∧ c.illegalbins.getD [] = []) :
    typePoints l = (distinct (l.map (·.name))).map (fun n => ⟨n, none, summed ((l.filter (fun c => c.name = n)).flatMap (·.bins)), none, none⟩) := by
  unfold typePoints
  apply List.map_congr_left
  intro n _
  rw [← Yaml.C114_ordinary, List.map_flatMap]
  congr 2
  apply List.flatMap_congr
  intro c hc
  obtain ⟨h1, h2⟩ := h c (List.mem_filter.1 hc).1
  unfold marked
  rw [h1, h2]
  simp

/-- The bins of a covergroup line on a YAML document. -/
theorem yaml_line {d : YDoc} (hp : PlainYaml d) {g : YCg} (hg : g ∈ docGroups d) :
    (∀ p ∈ (yamlLine g).coverpoints, ∀ b ∈ p.bins, (b.hit = true ↔ SomePoint (yamlLine g) p.name b.name (fun c => 1 ≤ c.count))) ∧
    (∀ p ∈ (yamlLine g).crosses, ∀ b ∈ p.bins, (b.hit = true ↔ SomeCross (yamlLine g) p.name b.name (fun c => 1 ≤ c.count))) ∧
    (∀ i ∈ (yamlLine g).covergroups, ∀ q ∈ i.coverpoints, ∀ c ∈ q.bins, ∃ p ∈ (yamlLine g).coverpoints, p.name = q.name ∧ ∃ b ∈ p.bins, b.name = c.name) ∧
    (∀ i ∈ (yamlLine g).covergroups, ∀ q ∈ i.crosses, ∀ c ∈ q.bins, ∃ p ∈ (yamlLine g).crosses, p.name = q.name ∧ ∃ b ∈ p.bins, b.name = c.name) := by
  have hpt := hp.points g hg
  have hcr := hp.crosses g hg
  generalize his : g.instances.getD [] = is at hpt hcr
  have e1 : (yamlLine g).coverpoints = (typePoints (is.flatMap YInst.cps)).map yamlPoint := by rw [← his]; rfl
  have e2 : (yamlLine g).crosses = (typeCrosses (is.flatMap YInst.crs)).map yamlCross := by rw [← his]; rfl
  have e3 : (yamlLine g).covergroups = is.map (fun i => yamlGroup i.name (g.weight.getD 1) (YInst.cps i) (YInst.crs i) []) := by rw [← his]; rfl
  unfold SomePoint SomeCross
  rw [e1, e2, e3, typePoints_plain (by
    intro c hc
    obtain ⟨i, hi, hc⟩ := List.mem_flatMap.1 hc
    exact ⟨(hpt i hi c hc).1, (hpt i hi c hc).2.1⟩)]
  refine ⟨?_, ?_, ?_, ?_⟩
  · intro p hp b hb
    obtain ⟨c, hc, rfl⟩ := List.mem_map.1 hp
    obtain ⟨n, hn, rfl⟩ := List.mem_map.1 hc
    rw [summed_hit (by
      intro v hv
      obtain ⟨c, hc, hv⟩ := List.mem_flatMap.1 hv
      obtain ⟨i, hi, hc⟩ := List.mem_flatMap.1 (List.mem_filter.1 hc).1
      exact (hpt i hi c hc).2.2 v hv) (show b ∈ shown 1 (summed _) from hb)]
    constructor
    · rintro ⟨v, hv, h1, h2⟩
      obtain ⟨c, hc, hv⟩ := List.mem_flatMap.1 hv
      obtain ⟨hc, hcn⟩ := List.mem_filter.1 hc
      obtain ⟨i, hi, hc⟩ := List.mem_flatMap.1 hc
      exact ⟨_, List.mem_map_of_mem hi, yamlPoint c, List.mem_map_of_mem hc, of_decide_eq_true hcn, _, mem_shown.2 ⟨v, hv, rfl⟩, h1, h2⟩
    · rintro ⟨j, hj, q, hq, hqn, x, hx, h1, h2⟩
      obtain ⟨i, hi, rfl⟩ := List.mem_map.1 hj
      obtain ⟨c, hc, rfl⟩ := List.mem_map.1 (show q ∈ (YInst.cps i).map yamlPoint from hq)
      obtain ⟨v, hv, rfl⟩ := mem_shown.1 (show x ∈ shown _ c.bins from hx)
      exact ⟨v, List.mem_flatMap.2 ⟨c, List.mem_filter.2 ⟨List.mem_flatMap.2 ⟨i, hi, hc⟩, decide_eq_true hqn⟩, hv⟩, h1, h2⟩
  · intro p hp b hb
    obtain ⟨c, hc, rfl⟩ := List.mem_map.1 hp
    obtain ⟨n, hn, rfl⟩ := List.mem_map.1 hc
    rw [summed_hit (by
      intro v hv
      obtain ⟨c, hc, hv⟩ := List.mem_flatMap.1 hv
      obtain ⟨i, hi, hc⟩ := List.mem_flatMap.1 (List.mem_filter.1 hc).1
      exact hcr i hi c hc v hv) (show b ∈ shown 1 (summed _) from hb)]
    constructor
    · rintro ⟨v, hv, h1, h2⟩
      obtain ⟨c, hc, hv⟩ := List.mem_flatMap.1 hv
      obtain ⟨hc, hcn⟩ := List.mem_filter.1 hc
      obtain ⟨i, hi, hc⟩ := List.mem_flatMap.1 hc
      exact ⟨_, List.mem_map_of_mem hi, yamlCross c, List.mem_map_of_mem hc, of_decide_eq_true hcn, _, mem_shown.2 ⟨v, hv, rfl⟩, h1, h2⟩
    · rintro ⟨j, hj, q, hq, hqn, x, hx, h1, h2⟩
      obtain ⟨i, hi, rfl⟩ := List.mem_map.1 hj
      obtain ⟨c, hc, rfl⟩ := List.mem_map.1 (show q ∈ (YInst.crs i).map yamlCross from hq)
      obtain ⟨v, hv, rfl⟩ := mem_shown.1 (show x ∈ shown _ (c.bins.getD []) from hx)
      exact ⟨v, List.mem_flatMap.2 ⟨c, List.mem_filter.2 ⟨List.mem_flatMap.2 ⟨i, hi, hc⟩, decide_eq_true hqn⟩, hv⟩, h1, h2⟩
  · intro j hj q hq x hx
    obtain ⟨i, hi, rfl⟩ := List.mem_map.1 hj
    obtain ⟨c, hc, rfl⟩ := List.mem_map.1 (show q ∈ (YInst.cps i).map yamlPoint from hq)
    obtain ⟨v, hv, rfl⟩ := mem_shown.1 (show x ∈ shown _ c.bins from hx)
    have hc' := List.mem_flatMap.2 ⟨i, hi, hc⟩
    exact ⟨_, List.mem_map_of_mem (List.mem_map.2 ⟨c.name, mem_distinct.2 (List.mem_map_of_mem hc'), rfl⟩), rfl,
      summed_all (List.mem_flatMap.2 ⟨c, List.mem_filter.2 ⟨hc', decide_eq_true rfl⟩, hv⟩)⟩
  · intro j hj q hq x hx
    obtain ⟨i, hi, rfl⟩ := List.mem_map.1 hj
    obtain ⟨c, hc, rfl⟩ := List.mem_map.1 (show q ∈ (YInst.crs i).map yamlCross from hq)
    obtain ⟨v, hv, rfl⟩ := mem_shown.1 (show x ∈ shown _ (c.bins.getD []) from hx)
    have hc' := List.mem_flatMap.2 ⟨i, hi, hc⟩
    exact ⟨_, List.mem_map_of_mem (List.mem_map.2 ⟨c.name, mem_distinct.2 (List.mem_map_of_mem hc'), rfl⟩), rfl,
      summed_all (List.mem_flatMap.2 ⟨c, List.mem_filter.2 ⟨hc', decide_eq_true rfl⟩, hv⟩)⟩

/-- C118, YAML files with any thresholds: a bin is covered at the level of the covergroup exactly if
some instance counts at least one hit. -/
theorem C118_yaml {j : Json} {d : YDoc} (hs : Says j d) {db : Database} (h : Yaml.load j = .ok db) {r : Rpt}
    (hr : build id db.root = .ok r) (hp : PlainYaml d) {g : RCg} (hg : g ∈ r.covergroups) :
    (∀ p ∈ g.coverpoints, ∀ b ∈ p.bins, (b.hit = true ↔ SomePoint g p.name b.name (fun c => 1 ≤ c.count))) ∧
    ∀ p ∈ g.crosses, ∀ b ∈ p.bins, (b.hit = true ↔ SomeCross g p.name b.name (fun c => 1 ≤ c.count)) := by
  rw [(Yaml.C114_report hs h hr).1] at hg
  obtain ⟨y, hy, rfl⟩ := List.mem_map.1 hg
  exact ⟨(yaml_line hp hy).1, (yaml_line hp hy).2.1⟩

/-- C118, YAML files: without ignore bins, illegal bins, negative counts and thresholds above 1 the
coverage of a covergroup is the union of the coverage of its instances. -/
theorem C118_yaml_partial {j : Json} {d : YDoc} (hs : Says j d) {db : Database} (h : Yaml.load j = .ok db) {r : Rpt}
    (hr : build id db.root = .ok r) (hp : PlainYaml d) (ht : NoThreshold d) {g : RCg} (hg : g ∈ r.covergroups) : UnionOf g := by
  rw [(Yaml.C114_report hs h hr).1] at hg
  obtain ⟨y, hy, rfl⟩ := List.mem_map.1 hg
  obtain ⟨h1, h2, h3, h4⟩ := yaml_line hp hy
  refine ⟨fun p hp' b hb => (h1 p hp' b hb).trans ?_, fun p hp' b hb => (h2 p hp' b hb).trans ?_, h3, h4⟩
  · have key : ∀ i ∈ (yamlLine y).covergroups, ∀ q ∈ i.coverpoints, ∀ c ∈ q.bins, (1 ≤ c.count ↔ c.hit = true) := by
      intro i hi q hq c hc
      obtain ⟨z, hz, rfl⟩ := List.mem_map.1 hi
      obtain ⟨w, hw, rfl⟩ := List.mem_map.1 (show q ∈ (YInst.cps z).map yamlPoint from hq)
      obtain ⟨v, hv, rfl⟩ := mem_shown.1 (show c ∈ shown _ w.bins from hc)
      simp only [Report.RBin.hit, decide_eq_true_eq, ht.points y hy z hz w hw]
    constructor
    · rintro ⟨i, hi, q, hq, hn, c, hc, hm, hit⟩
      exact ⟨i, hi, q, hq, hn, c, hc, hm, (key i hi q hq c hc).1 hit⟩
    · rintro ⟨i, hi, q, hq, hn, c, hc, hm, hit⟩
      exact ⟨i, hi, q, hq, hn, c, hc, hm, (key i hi q hq c hc).2 hit⟩
  · have key : ∀ i ∈ (yamlLine y).covergroups, ∀ q ∈ i.crosses, ∀ c ∈ q.bins, (1 ≤ c.count ↔ c.hit = true) := by
      intro i hi q hq c hc
      obtain ⟨z, hz, rfl⟩ := List.mem_map.1 hi
      obtain ⟨w, hw, rfl⟩ := List.mem_map.1 (show q ∈ (YInst.crs z).map yamlCross from hq)
      obtain ⟨v, hv, rfl⟩ := mem_shown.1 (show c ∈ shown _ (w.bins.getD []) from hc)
      simp only [Report.RBin.hit, decide_eq_true_eq]
    constructor
    · rintro ⟨i, hi, q, hq, hn, c, hc, hm, hit⟩
      exact ⟨i, hi, q, hq, hn, c, hc, hm, (key i hi q hq c hc).1 hit⟩
    · rintro ⟨i, hi, q, hq, hn, c, hc, hm, hit⟩
      exact ⟨i, hi, q, hq, hn, c, hc, hm, (key i hi q hq c hc).2 hit⟩

theorem percentReached_pct (l : List YBin) : percentReached 1 l = pct (shown 1 l) := by
  unfold percentReached pct shown
  simp only [List.map_eq_nil_iff, List.length_map, List.filter_map]
  rfl

theorem plain_yamlGroup {n : String} {w : Int} {cps : List YCp} {crs : List YCross} {sub : List RCg}
    (h1 : ∀ c ∈ cps, c.atleast.getD 1 = 1) (h2 : ∀ c ∈ crs, c.atleast.getD 1 = 1) : Plain (yamlGroup n w cps crs sub) := by
  unfold Plain yamlGroup
  simp only [List.map_map]
  congr 2
  · apply List.map_congr_left
    intro c hc
    simp only [yamlPoint, Function.comp, h1 c hc]
    exact percentReached_pct c.bins
  · apply List.map_congr_left
    intro c hc
    simp only [yamlCross, Function.comp, h2 c hc]
    exact percentReached_pct (c.bins.getD [])

/-- C118, YAML files: if in addition all instances list the bins of the covergroup, no instance has a
higher figure than the covergroup. -/
theorem C118_yaml_highest_partial {j : Json} {d : YDoc} (hs : Says j d) {db : Database} (h : Yaml.load j = .ok db) {r : Rpt}
    (hr : build id db.root = .ok r) (hp : PlainYaml d) (ht : NoThreshold d) {g : RCg} (hg : g ∈ r.covergroups) (hl : SameLayout g) :
    ∀ i ∈ g.covergroups, i.coverage ≤ g.coverage := by
  have hu := C118_yaml_partial hs h hr hp ht hg
  rw [(Yaml.C114_report hs h hr).1] at hg
  obtain ⟨y, hy, rfl⟩ := List.mem_map.1 hg
  intro i hi
  refine higher hu ?_ hi ?_ (hl i hi)
  · apply plain_yamlGroup
    · intro c hc
      obtain ⟨n, _, rfl⟩ := List.mem_map.1 hc; rfl
    · intro c hc
      obtain ⟨n, _, rfl⟩ := List.mem_map.1 hc; rfl
  · obtain ⟨z, hz, rfl⟩ := List.mem_map.1 hi
    exact plain_yamlGroup (ht.points y hy z hz) (ht.crosses y hy z hz)

/-! ## Examples and counterexamples -/

instance (g : RCg) (n m : String) (P : RBin → Prop) [DecidablePred P] : Decidable (SomePoint g n m P) := by unfold SomePoint; infer_instance
instance (g : RCg) (n m : String) (P : RBin → Prop) [DecidablePred P] : Decidable (SomeCross g n m P) := by unfold SomeCross; infer_instance
instance (g : RCg) : Decidable (OneKind g) := by unfold OneKind; infer_instance
instance (g : RCg) : Decidable (SameLayout g) := by unfold SameLayout; infer_instance
instance (g : RCg) : Decidable (UnionOf g) := decidable_of_iff
  ((∀ p ∈ g.coverpoints, ∀ b ∈ p.bins, (b.hit = true ↔ SomePoint g p.name b.name (fun c => c.hit = true))) ∧
   (∀ p ∈ g.crosses, ∀ b ∈ p.bins, (b.hit = true ↔ SomeCross g p.name b.name (fun c => c.hit = true))) ∧
   (∀ i ∈ g.covergroups, ∀ q ∈ i.coverpoints, ∀ c ∈ q.bins, ∃ p ∈ g.coverpoints, p.name = q.name ∧ ∃ b ∈ p.bins, b.name = c.name) ∧
   (∀ i ∈ g.covergroups, ∀ q ∈ i.crosses, ∀ c ∈ q.bins, ∃ p ∈ g.crosses, p.name = q.name ∧ ∃ b ∈ p.bins, b.name = c.name))
  ⟨fun ⟨a, b, c, d⟩ => ⟨a, b, c, d⟩, fun ⟨a, b, c, d⟩ => ⟨a, b, c, d⟩⟩

/-- One covergroup with two instances of the coverpoint `a`, each with a threshold, bins and ignore bins. -/
def exDoc (t : Option Int) (b1 i1 b2 i2 : List YBin) : YDoc := ⟨some (some [⟨"cg", none, some [
  ⟨"i1", some [⟨"a", t, b1, some i1, none⟩], some [⟨"aa", t, ["a"], some [⟨"p", 1⟩, ⟨"q", 0⟩]⟩]⟩,
  ⟨"i2", some [⟨"a", t, b2, some i2, none⟩], some [⟨"aa", t, ["a"], some [⟨"p", 1⟩, ⟨"q", 0⟩]⟩]⟩]⟩])⟩

/-- A test of the report on a document. -/
def exRep (d : YDoc) (P : RCg → Bool) : Except Err Bool := do
  let db ← Yaml.loadDoc d
  let r ← build id db.root
  pure (r.covergroups.any P)

theorem exRep_ok {d : YDoc} {P : RCg → Bool} (h : exRep d P = .ok true) :
    ∃ j db r, Says j d ∧ Yaml.load j = .ok db ∧ build id db.root = .ok r ∧ ∃ g ∈ r.covergroups, P g = true := by
  obtain ⟨db, h1, h2⟩ := Ex.bind_ok.1 h
  obtain ⟨r, h2, h3⟩ := Ex.bind_ok.1 h2
  have h3 : r.covergroups.any P = true := Except.ok.inj h3
  obtain ⟨g, hg, hP⟩ := List.any_eq_true.1 h3
  exact ⟨_, db, r, Yaml.says_encode d, (Yaml.load_encode d).trans h1, h2, g, hg, hP⟩

/-- A test of the report on the XML file made from a document. -/
def exXml (d : YDoc) (P : RCg → Bool) : Except Err Bool := do
  let db ← Yaml.loadDoc d
  let doc ← Xml.write Xml.exEnv2 db
  let db' ← Xml.factoryRead Xml.exEnv2.flt (Xml.reparse doc)
  let r ← build id db'.root
  pure (r.covergroups.any P)

theorem exXml_ok {d : YDoc} {P : RCg → Bool} (h : exXml d P = .ok true) :
    ∃ flt doc db r, Xml.factoryRead flt doc = .ok db ∧ build id db.root = .ok r ∧ ∃ g ∈ r.covergroups, P g = true := by
  obtain ⟨_, _, h2⟩ := Ex.bind_ok.1 h
  obtain ⟨doc, _, h2⟩ := Ex.bind_ok.1 h2
  obtain ⟨db, h3, h2⟩ := Ex.bind_ok.1 h2
  obtain ⟨r, h4, h5⟩ := Ex.bind_ok.1 h2
  have h5 : r.covergroups.any P = true := Except.ok.inj h5
  obtain ⟨g, hg, hP⟩ := List.any_eq_true.1 h5
  exact ⟨_, _, db, r, h3, h4, g, hg, hP⟩

/-- The hypotheses of the theorems on YAML files are met: each instance covers another bin, the
covergroup covers both. -/
example : ∃ j d db r, Says j d ∧ Yaml.load j = .ok db ∧ build id db.root = .ok r ∧ PlainYaml d ∧ NoThreshold d ∧
    ∃ g ∈ r.covergroups, (SameLayout g ∧ g.coverage = 75 ∧ g.covergroups.map (·.coverage) = [50, 50]) := by
  obtain ⟨j, db, r, h1, h2, h3, g, hg, hP⟩ := exRep_ok (d := exDoc none [⟨"x", 3⟩, ⟨"y", 0⟩] [] [⟨"x", 0⟩, ⟨"y", 2⟩] [])
    (P := fun g => decide (SameLayout g ∧ g.coverage = 75 ∧ g.covergroups.map (·.coverage) = [50, 50])) (by decide +kernel)
  exact ⟨j, _, db, r, h1, h2, h3, by constructor <;> decide +kernel, by constructor <;> decide +kernel, g, hg, of_decide_eq_true hP⟩

/-- The hypotheses of the theorems on XML files are met. -/
example : ∃ flt doc db r, Xml.factoryRead flt doc = .ok db ∧ build id db.root = .ok r ∧
    ∃ g ∈ r.covergroups, (OneKind g ∧ SameLayout g ∧ g.coverage = 75 ∧ g.covergroups.map (·.coverage) = [50, 50]) := by
  obtain ⟨flt, doc, db, r, h1, h2, g, hg, hP⟩ := exXml_ok (d := exDoc none [⟨"x", 3⟩, ⟨"y", 0⟩] [⟨"z", 1⟩] [⟨"x", 0⟩, ⟨"y", 2⟩] [⟨"z", 4⟩])
    (P := fun g => decide (OneKind g ∧ SameLayout g ∧ g.coverage = 75 ∧ g.covergroups.map (·.coverage) = [50, 50])) (by decide +kernel)
  exact ⟨flt, doc, db, r, h1, h2, g, hg, of_decide_eq_true hP⟩

/-- C118 fails for YAML files with thresholds: no instance covers any bin of the coverpoint, and the
covergroup covers it fully. -/
theorem C118_threshold_refuted : ∃ j d db r, Says j d ∧ Yaml.load j = .ok db ∧ build id db.root = .ok r ∧ PlainYaml d ∧
    ∃ g ∈ r.covergroups, (SameLayout g ∧ ¬ UnionOf g ∧ g.coverpoints.map (·.coverage) = [100] ∧
      ∀ i ∈ g.covergroups, i.coverpoints.map (·.coverage) = [0]) := by
  obtain ⟨j, db, r, h1, h2, h3, g, hg, hP⟩ := exRep_ok (d := exDoc (some 2) [⟨"x", 1⟩] [] [⟨"x", 1⟩] [])
    (P := fun g => decide (SameLayout g ∧ ¬ UnionOf g ∧ g.coverpoints.map (·.coverage) = [100] ∧
      ∀ i ∈ g.covergroups, i.coverpoints.map (·.coverage) = [0])) (by decide +kernel)
  exact ⟨j, _, db, r, h1, h2, h3, by constructor <;> decide +kernel, g, hg, of_decide_eq_true hP⟩

/-- With the threshold 0 the instances have higher figures than the covergroup. -/
theorem C118_highest_refuted : ∃ j d db r, Says j d ∧ Yaml.load j = .ok db ∧ build id db.root = .ok r ∧ PlainYaml d ∧
    ∃ g ∈ r.covergroups, (SameLayout g ∧ g.covergroups ≠ [] ∧ ∀ i ∈ g.covergroups, g.coverage < i.coverage) := by
  obtain ⟨j, db, r, h1, h2, h3, g, hg, hP⟩ := exRep_ok (d := exDoc (some 0) [⟨"x", 0⟩] [] [⟨"x", 0⟩] [])
    (P := fun g => decide (SameLayout g) && !g.covergroups.isEmpty && decide (∀ i ∈ g.covergroups, g.coverage < i.coverage)) (by decide +kernel)
  simp only [Bool.and_eq_true, decide_eq_true_eq, Bool.not_eq_true', List.isEmpty_eq_false_iff] at hP
  exact ⟨j, _, db, r, h1, h2, h3, by constructor <;> decide +kernel, g, hg, hP.1.1, hP.1.2, hP.2⟩

/-- The loader accepts documents whose instances list different bins, contrary to the description of
the format; then an instance can have a higher figure than the covergroup although the union holds. -/
theorem C118_layout_needed : ∃ j d db r, Says j d ∧ Yaml.load j = .ok db ∧ build id db.root = .ok r ∧ PlainYaml d ∧ NoThreshold d ∧
    ∃ g ∈ r.covergroups, (¬ SameLayout g ∧ UnionOf g ∧ ∃ i ∈ g.covergroups, g.coverage < i.coverage) := by
  obtain ⟨j, db, r, h1, h2, h3, g, hg, hP⟩ := exRep_ok (d := exDoc none [⟨"x", 1⟩] [] [⟨"y", 0⟩] [])
    (P := fun g => decide (¬ SameLayout g ∧ UnionOf g ∧ ∃ i ∈ g.covergroups, g.coverage < i.coverage)) (by decide +kernel)
  exact ⟨j, _, db, r, h1, h2, h3, by constructor <;> decide +kernel, by constructor <;> decide +kernel, g, hg, of_decide_eq_true hP⟩

/-- C118 fails for YAML files with ignore bins: an ignore bin is covered at the level of the
covergroup, and no instance lists it among its bins. -/
theorem C118_ignore_refuted : ∃ j d db r, Says j d ∧ Yaml.load j = .ok db ∧ build id db.root = .ok r ∧ NoThreshold d ∧
    ∃ g ∈ r.covergroups, (OneKind g ∧ ¬ UnionOf g) := by
  obtain ⟨j, db, r, h1, h2, h3, g, hg, hP⟩ := exRep_ok (d := exDoc none [⟨"x", 1⟩] [⟨"z", 1⟩] [⟨"x", 1⟩] [])
    (P := fun g => decide (OneKind g ∧ ¬ UnionOf g)) (by decide +kernel)
  exact ⟨j, _, db, r, h1, h2, h3, by constructor <;> decide +kernel, g, hg, of_decide_eq_true hP⟩

/-- C118 fails for XML files with a bin that is an ignore bin in one entry and an ordinary bin in
another: the covergroup does not list it. -/
theorem C118_xml_refuted : ∃ flt doc db r, Xml.factoryRead flt doc = .ok db ∧ build id db.root = .ok r ∧
    ∃ g ∈ r.covergroups, ((∃ i ∈ g.covergroups, ∃ q ∈ i.coverpoints, ∃ b ∈ q.bins, b.name = "z" ∧ b.hit = true) ∧
      ∀ p ∈ g.coverpoints, ∀ b ∈ p.bins, b.name ≠ "z") := by
  obtain ⟨flt, doc, db, r, h1, h2, g, hg, hP⟩ := exXml_ok (d := exDoc none [⟨"x", 1⟩] [⟨"z", 1⟩] [⟨"z", 1⟩] [])
    (P := fun g => decide ((∃ i ∈ g.covergroups, ∃ q ∈ i.coverpoints, ∃ b ∈ q.bins, b.name = "z" ∧ b.hit = true) ∧
      ∀ p ∈ g.coverpoints, ∀ b ∈ p.bins, b.name ≠ "z")) (by decide +kernel)
  exact ⟨flt, doc, db, r, h1, h2, g, hg, of_decide_eq_true hP⟩

end UnionCov
end Verif
