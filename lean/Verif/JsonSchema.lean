import Verif.YamlDoc
import Verif.FormatThms2

/-!
# Property C109: JSON reports and the published schema

`schema/covreport.json` ("Validation schema for the PyUCIS machine-readable coverage report") is shipped with the library, is the reference
documentation of the JSON report (`doc/source/reference/coverage_report_json.rst`), and is what `FormatRptJson` builds its classes from
(`format_rpt_json.py:59-75`).  The written document does not satisfy it: the schema wants the report under the key `covreport` and forbids
other keys, the code writes the report at the root.
-/

namespace Verif
namespace Format
open Report
open Yaml (Json)

/-! ## The schema -/

/-- The JSON Schema (draft 4) keywords of `schema/covreport.json`: `type`, `properties`, `additionalProperties: false`, `items`.  All `items` are
references into `defs`. -/
inductive RSchema where
  | string
  | integer
  | number
  | array (ref : String)
  | object (typed : Bool) (props : List (String × RSchema)) (closed : Bool)

mutual
/-- `jsonschema.validate` for these keywords; `defs` resolves references.  Without `type`, values that are not objects are accepted
(`typed = false`).  Objects list every key once, so going through the members of the instance is going through `properties`. -/
def fits (defs : String → RSchema) : Json → RSchema → Bool
  | .str _, .string => true
  | .int _, .integer => true
  | .int _, .number => true
  | .num _, .number => true
  | .arr l, .array r => fitsAll defs l (defs r)
  | .obj m, .object _ ps c => fitsMembers defs m ps c
  | _, .object typed _ _ => !typed
  | _, _ => false
termination_by structural j => j
/-- `items` -/
def fitsAll (defs : String → RSchema) : List Json → RSchema → Bool
  | [], _ => true
  | j :: t, s => fits defs j s && fitsAll defs t s
termination_by structural l => l
/-- `properties`, `additionalProperties` -/
def fitsMembers (defs : String → RSchema) : List (String × Json) → List (String × RSchema) → Bool → Bool
  | [], _, _ => true
  | p :: t, ps, c => fitsMember defs p ps c && fitsMembers defs t ps c
termination_by structural l => l
def fitsMember (defs : String → RSchema) : String × Json → List (String × RSchema) → Bool → Bool
  | (k, j), ps, c => match ps.find? (fun e => e.1 == k) with
    | some e => fits defs j e.2
    | none => !c
termination_by structural p => p
end

/-- `#/defs/coverBinType`, `covreport.json:135-154`. -/
def rBin : RSchema := .object true [("name", .string), ("goal", .integer), ("count", .integer)] false
/-- `#/defs/coverpointType`, `covreport.json:83-113`. -/
def rCp : RSchema := .object true [("name", .string), ("coverage", .number), ("bins", .array "coverBinType"), ("ignorebins", .array "coverBinType"),
  ("illegalbins", .array "coverBinType")] false
/-- `#/defs/crossType`, `covreport.json:114-134`. -/
def rCross : RSchema := .object true [("name", .string), ("coverage", .number), ("bins", .array "coverBinType")] false
/-- `#/defs/instCovergroupType`, `covreport.json:52-82`. -/
def rInstCg : RSchema := .object true [("name", .string), ("coverage", .number), ("coverpoints", .array "coverpointType"), ("crosses", .array "crossType"),
  ("covergroups", .array "instCovergroupType")] false
/-- `#/defs/typeCovergroupType`, `covreport.json:27-51`; it has no `type`. -/
def rTypeCg : RSchema := .object false [("name", .string), ("coverage", .number), ("coverpoints", .array "coverpointType"),
  ("covergroups", .array "instCovergroupType")] false

/-- `defs`, `covreport.json:26-155`. -/
def rDefs (n : String) : RSchema :=
  if n = "typeCovergroupType" then rTypeCg else if n = "instCovergroupType" then rInstCg else if n = "coverpointType" then rCp
  else if n = "crossType" then rCross else rBin

/-- `#/properties/covreport`, `covreport.json:8-23`. -/
def rReport : RSchema := .object true [("covergroups", .array "typeCovergroupType"), ("coverage", .number)] false
/-- The whole schema, `covreport.json:6-25`. -/
def rRoot : RSchema := .object true [("covreport", rReport)] true

/-! ## The document -/

/-- A member that is present if it has a value. -/
def member {α : Type} (k : String) (f : α → Json) : Option α → List (String × Json)
  | none => []
  | some a => [(k, f a)]

/-- `as_dict()` of the objects (`format_rpt_json.py:56`): members without value are left out.  The order of the members is that of the schema. -/
def encJBin (b : JBin) : Json := .obj [("name", .str b.name), ("count", .int b.count)]
def encJCp (c : JCp) : Json :=
  .obj (member "name" .str c.name ++ [("coverage", .num c.coverage)] ++ member "bins" (fun l => .arr (l.map encJBin)) c.bins
    ++ member "ignorebins" (fun l => .arr (l.map encJBin)) c.ignorebins ++ member "illegalbins" (fun l => .arr (l.map encJBin)) c.illegalbins)
def encJCross (c : JCross) : Json :=
  .obj ([("name", .str c.name), ("weight", .int c.weight)] ++ member "bins" (fun l => .arr (l.map encJBin)) c.bins)
mutual
def encJCg : JCg → Json
  | ⟨name, coverage, cps, crs, cgs⟩ =>
    .obj ([("name", .str name), ("coverage", .num coverage)] ++ member "coverpoints" (fun l => .arr (l.map encJCp)) cps
      ++ member "crosses" (fun l => .arr (l.map encJCross)) crs ++ encJSub cgs)
termination_by structural g => g
def encJSub : Option (List JCg) → List (String × Json)
  | none => []
  | some l => [("covergroups", .arr (encJCgs l))]
termination_by structural o => o
def encJCgs : List JCg → List Json
  | [] => []
  | g :: t => encJCg g :: encJCgs t
termination_by structural l => l
end
/-- The document that `json.dump` writes (`format_rpt_json.py:56`): the report object itself is the root. -/
def encJRpt (j : JRpt) : Json := .obj ([("coverage", .num j.coverage)] ++ encJSub j.covergroups)

/-! ## C109 -/

theorem fitsMembers_append (defs : String → RSchema) (a b : List (String × Json)) (ps : List (String × RSchema)) (c : Bool) :
    fitsMembers defs (a ++ b) ps c = (fitsMembers defs a ps c && fitsMembers defs b ps c) := by
  induction a with
  | nil => simp [fitsMembers]
  | cons x t ih => simp [fitsMembers, ih, Bool.and_assoc]

theorem fitsAll_map {α : Type} (defs : String → RSchema) (f : α → Json) (s : RSchema) (h : ∀ a, fits defs (f a) s = true) (l : List α) :
    fitsAll defs (l.map f) s = true := by
  induction l with
  | nil => rfl
  | cons a t ih => simp [fitsAll, h, ih]

theorem fits_bin (b : JBin) : fits rDefs (encJBin b) rBin = true := by
  simp [encJBin, rBin, fits, fitsMembers, fitsMember]

theorem member_fits {α : Type} {k : String} {f : α → Json} {ps : List (String × RSchema)} {c : Bool} {s : RSchema}
    (hk : ps.find? (fun e => e.1 == k) = some (k, s)) (hf : ∀ a, fits rDefs (f a) s = true) (o : Option α) :
    fitsMembers rDefs (member k f o) ps c = true := by
  cases o with
  | none => rfl
  | some a => simp [member, fitsMembers, fitsMember, hk, hf]

theorem bins_fit (l : List JBin) : fits rDefs (.arr (l.map encJBin)) (.array "coverBinType") = true := by
  rw [fits]
  exact fitsAll_map _ _ _ fits_bin l

theorem fits_cp (c : JCp) : fits rDefs (encJCp c) rCp = true := by
  unfold encJCp rCp
  rw [fits]
  simp only [fitsMembers_append, Bool.and_eq_true]
  refine ⟨⟨⟨⟨?_, ?_⟩, ?_⟩, ?_⟩, ?_⟩
  · exact member_fits (s := .string) rfl (fun _ => rfl) _
  · simp [fitsMembers, fitsMember, fits]
  · exact member_fits (s := .array "coverBinType") rfl bins_fit _
  · exact member_fits (s := .array "coverBinType") rfl bins_fit _
  · exact member_fits (s := .array "coverBinType") rfl bins_fit _

theorem fits_cross (c : JCross) : fits rDefs (encJCross c) rCross = true := by
  unfold encJCross rCross
  rw [fits]
  simp only [fitsMembers_append, Bool.and_eq_true]
  refine ⟨by simp [fitsMembers, fitsMember, fits], ?_⟩
  exact member_fits (s := .array "coverBinType") rfl bins_fit _

mutual
theorem fits_cg : ∀ g : JCg, fits rDefs (encJCg g) rInstCg = true ∧ fits rDefs (encJCg g) rTypeCg = true
  | ⟨name, coverage, cps, crs, cgs⟩ => by
    have hs := fits_sub cgs
    have hcp : ∀ l : List JCp, fits rDefs (.arr (l.map encJCp)) (.array "coverpointType") = true := fun l => by
      rw [fits]; exact fitsAll_map _ _ _ fits_cp l
    have hcr : ∀ l : List JCross, fits rDefs (.arr (l.map encJCross)) (.array "crossType") = true := fun l => by
      rw [fits]; exact fitsAll_map _ _ _ fits_cross l
    unfold encJCg rInstCg rTypeCg
    rw [fits, fits]
    simp only [fitsMembers_append, Bool.and_eq_true]
    refine ⟨⟨⟨⟨by simp [fitsMembers, fitsMember, fits], member_fits (s := .array "coverpointType") rfl hcp _⟩,
      member_fits (s := .array "crossType") rfl hcr _⟩, ?_⟩,
      ⟨⟨⟨by simp [fitsMembers, fitsMember, fits], member_fits (s := .array "coverpointType") rfl hcp _⟩, ?_⟩, ?_⟩⟩
    · cases cgs with
      | none => rfl
      | some l => simpa [encJSub, fitsMembers, fitsMember, fits, rDefs] using hs.1
    · cases crs <;> simp [member, fitsMembers, fitsMember]
    · cases cgs with
      | none => rfl
      | some l => simpa [encJSub, fitsMembers, fitsMember, fits, rDefs] using hs.1
theorem fits_sub : ∀ o : Option (List JCg), fitsAll rDefs (encJCgs (o.getD [])) rInstCg = true ∧ fitsAll rDefs (encJCgs (o.getD [])) rTypeCg = true
  | none => ⟨rfl, rfl⟩
  | some l => fits_cgs l
theorem fits_cgs : ∀ l : List JCg, fitsAll rDefs (encJCgs l) rInstCg = true ∧ fitsAll rDefs (encJCgs l) rTypeCg = true
  | [] => ⟨rfl, rfl⟩
  | g :: t => by
    have h1 := fits_cg g
    have h2 := fits_cgs t
    simp [encJCgs, fitsAll, h1, h2]
end

theorem fits_rpt (j : JRpt) : fits rDefs (encJRpt j) rReport = true := by
  cases j with
  | mk c o =>
    cases o with
    | none => simp [encJRpt, encJSub, rReport, fits, fitsMembers, fitsMember]
    | some l =>
      have h := (fits_cgs l).2
      simp [encJRpt, encJSub, rReport, fits, fitsMembers, fitsMember, rDefs, h]

/-- The full claim of **C109**: what the JSON report format writes satisfies the schema published for it. -/
def C109_claim : Prop := ∀ (rd : Rat → Rat) (details : Bool) (db : Scope) (j : JRpt), jReport rd details db = .ok j →
  fits rDefs (encJRpt j) rRoot = true

/-- **C109** fails for every database: no JSON report satisfies the schema. -/
theorem C109_never (rd : Rat → Rat) (details : Bool) (db : Scope) (j : JRpt) (_h : jReport rd details db = .ok j) :
    fits rDefs (encJRpt j) rRoot = false := by
  simp [encJRpt, rRoot, fits, fitsMembers, fitsMember]

/-- **C109**, what holds: the written document satisfies the part of the schema that describes the report, at every level; put under the key
`covreport` it satisfies the whole schema.  Missing: that key (`C109_never`). -/
theorem C109_partial (rd : Rat → Rat) (details : Bool) (db : Scope) (j : JRpt) (_h : jReport rd details db = .ok j) :
    fits rDefs (encJRpt j) rReport = true ∧ fits rDefs (.obj [("covreport", encJRpt j)]) rRoot = true := by
  refine ⟨fits_rpt j, ?_⟩
  have := fits_rpt j
  simp [rRoot, fits, fitsMembers, fitsMember, this]

/-! ## What a reader of the document finds -/

end Format

namespace Spec
open Format
open Yaml (Json)

/-- The member `k` of an object. -/
def val? (j : Json) (k : String) : Option Json := match j with
  | .obj m => (m.find? (fun e => e.1 == k)).map (·.2)
  | _ => none

/-- The list under key `k`; no such key is an empty list. -/
def listAt (j : Json) (k : String) (l : List Json) : Prop := val? j k = some (.arr l) ∨ (val? j k = none ∧ l = [])

/-- A bin of the document. -/
def saysBin (j : Json) (b : String × Int) : Prop := val? j "name" = some (.str b.1) ∧ val? j "count" = some (.int b.2)

/-- A list of bins of the document. -/
def saysBins (j : Json) (k : String) (bs : List (String × Int)) : Prop := ∃ l, listAt j k l ∧ List.Forall₂ saysBin l bs

/-- A coverpoint of the document. -/
def saysCp (j : Json) (c : CpView) : Prop := val? j "coverage" = some (.num c.coverage) ∧ saysBins j "bins" c.bins ∧
  saysBins j "ignorebins" c.ignoreBins ∧ saysBins j "illegalbins" c.illegalBins

mutual
/-- A covergroup of the document, with everything below it. -/
def saysCg : Json → GroupView → Prop
  | j, .mk n c cps gs => val? j "name" = some (.str n) ∧ val? j "coverage" = some (.num c) ∧
    (∃ l, listAt j "coverpoints" l ∧ List.Forall₂ saysCp l cps) ∧ ∃ l, listAt j "covergroups" l ∧ saysCgs l gs
termination_by structural _ g => g
def saysCgs : List Json → List GroupView → Prop
  | l, [] => l = []
  | l, g :: t => ∃ a b, l = a :: b ∧ saysCg a g ∧ saysCgs b t
termination_by structural _ l => l
end

/-- The document says: this coverage, these covergroups. -/
def saysReport (j : Json) (coverage : Rat) (gs : List GroupView) : Prop :=
  val? j "coverage" = some (.num coverage) ∧ ∃ l, listAt j "covergroups" l ∧ saysCgs l gs

theorem listAt_unique {j : Json} {k : String} {l l' : List Json} (h : listAt j k l) (h' : listAt j k l') : l = l' := by
  rcases h with h | ⟨h, rfl⟩ <;> rcases h' with h' | ⟨h', rfl⟩ <;> simp_all

theorem forall₂_unique {α β : Type} {R : α → β → Prop} (hR : ∀ a b b', R a b → R a b' → b = b') :
    ∀ {l : List α} {m m' : List β}, List.Forall₂ R l m → List.Forall₂ R l m' → m = m'
  | [], _, _, .nil, .nil => rfl
  | _ :: _, _, _, .cons h t, .cons h' t' => by rw [hR _ _ _ h h', forall₂_unique hR t t']

theorem saysBin_unique (j : Json) (b b' : String × Int) (h : saysBin j b) (h' : saysBin j b') : b = b' := by
  have h1 := h.1.symm.trans h'.1
  have h2 := h.2.symm.trans h'.2
  simp only [Option.some.injEq, Json.str.injEq, Json.int.injEq] at h1 h2
  exact Prod.ext h1 h2

theorem saysBins_unique {j : Json} {k : String} {b b' : List (String × Int)} (h : saysBins j k b) (h' : saysBins j k b') : b = b' := by
  obtain ⟨l, hl, hb⟩ := h
  obtain ⟨l', hl', hb'⟩ := h'
  obtain rfl := listAt_unique hl hl'
  exact forall₂_unique saysBin_unique hb hb'

theorem saysCp_unique (j : Json) (c c' : CpView) (h : saysCp j c) (h' : saysCp j c') : c = c' := by
  obtain ⟨a, b, d, e⟩ := h
  obtain ⟨a', b', d', e'⟩ := h'
  have h1 := a.symm.trans a'
  simp only [Option.some.injEq, Json.num.injEq] at h1
  have h2 := saysBins_unique b b'
  have h3 := saysBins_unique d d'
  have h4 := saysBins_unique e e'
  cases c; cases c'
  simp only at h1 h2 h3 h4
  rw [h1, h2, h3, h4]

mutual
theorem saysCg_unique : ∀ (j : Json) (g g' : GroupView), saysCg j g → saysCg j g' → g = g'
  | j, .mk n c cps gs, .mk n' c' cps' gs', h, h' => by
    rw [saysCg] at h h'
    obtain ⟨a, b, ⟨l, hl, hc⟩, ⟨k, hk, hg⟩⟩ := h
    obtain ⟨a', b', ⟨l', hl', hc'⟩, ⟨k', hk', hg'⟩⟩ := h'
    have h1 := a.symm.trans a'
    have h2 := b.symm.trans b'
    simp only [Option.some.injEq, Json.str.injEq, Json.num.injEq] at h1 h2
    obtain rfl := listAt_unique hl hl'
    obtain rfl := listAt_unique hk hk'
    rw [h1, h2, forall₂_unique saysCp_unique hc hc', saysCgs_unique k gs gs' hg hg']
theorem saysCgs_unique : ∀ (l : List Json) (g g' : List GroupView), saysCgs l g → saysCgs l g' → g = g'
  | l, [], [], _, _ => rfl
  | l, [], _ :: _, h, h' => by
    change l = [] at h
    obtain ⟨a, b, e, _⟩ := h'
    rw [h] at e; exact absurd e (by simp)
  | l, _ :: _, [], h, h' => by
    change l = [] at h'
    obtain ⟨a, b, e, _⟩ := h
    rw [h'] at e; exact absurd e (by simp)
  | l, x :: xs, y :: ys, h, h' => by
    rw [saysCgs] at h h'
    obtain ⟨a, b, e, h1, h2⟩ := h
    obtain ⟨a', b', e', h1', h2'⟩ := h'
    rw [e] at e'
    obtain ⟨rfl, rfl⟩ := List.cons.inj e'
    rw [saysCg_unique a x y h1 h1', saysCgs_unique b xs ys h2 h2']
end

end Spec

namespace Format
open Report Spec
open Yaml (Json)

theorem says_bins_list (l : List JBin) : List.Forall₂ saysBin (l.map encJBin) (l.map (fun b => (b.name, b.count))) := by
  induction l with
  | nil => exact .nil
  | cons a t ih => exact .cons ⟨rfl, rfl⟩ ih

theorem says_bins {j : Json} {k : String} {o : Option (List JBin)} (h : val? j k = o.map (fun l => .arr (l.map encJBin))) :
    saysBins j k (jBinView o) := by
  cases o with
  | none => exact ⟨[], .inr ⟨h, rfl⟩, .nil⟩
  | some l => exact ⟨_, .inl h, says_bins_list l⟩

theorem says_cp (c : JCp) : saysCp (encJCp c) ⟨c.coverage, jBinView c.bins, jBinView c.ignorebins, jBinView c.illegalbins⟩ := by
  obtain ⟨n, cov, a, b, d⟩ := c
  refine ⟨?_, says_bins ?_, says_bins ?_, says_bins ?_⟩ <;> cases n <;> cases a <;> cases b <;> cases d <;> rfl

theorem says_cps_list (l : List JCp) : List.Forall₂ saysCp (l.map encJCp)
    (l.map (fun c => ⟨c.coverage, jBinView c.bins, jBinView c.ignorebins, jBinView c.illegalbins⟩)) := by
  induction l with
  | nil => exact .nil
  | cons a t ih => exact .cons (says_cp a) ih

mutual
theorem says_cg : ∀ g : JCg, saysCg (encJCg g) (viewJ g)
  | ⟨name, coverage, cps, crs, cgs⟩ => by
    rw [viewJ, saysCg]
    refine ⟨rfl, rfl, ?_, ?_⟩
    · cases cps with
      | none => exact ⟨[], .inr ⟨by cases crs <;> cases cgs <;> rfl, rfl⟩, .nil⟩
      | some l => exact ⟨_, .inl rfl, says_cps_list l⟩
    · cases cgs with
      | none => exact ⟨[], .inr ⟨by cases crs <;> cases cps <;> rfl, rfl⟩, rfl⟩
      | some l => exact ⟨_, .inl (by cases crs <;> cases cps <;> rfl), says_cgs l⟩
theorem says_cgs : ∀ l : List JCg, saysCgs (encJCgs l) (viewJL l)
  | [] => rfl
  | g :: t => ⟨_, _, rfl, says_cg g, says_cgs t⟩
end

/-- **C109**, what a reader finds: when no cross is involved (with one, no document is written: `C30_json_partial`), the document is written, and
under the keys the schema gives it says, for every covergroup of the report at every depth, the name, the coverage, its coverpoints with their
coverage, and every bin with its count; and it says nothing else: another set of figures is not what this document says. -/
theorem C109_reads (rd : Rat → Rat) (db : Scope) (r : Rpt) (h : build rd db = .ok r) (hc : crossesOfL r.covergroups = []) :
    ∃ j, jReport rd true db = .ok j ∧ ∀ c gs, saysReport (encJRpt j) c gs ↔ c = r.coverage ∧ gs = viewRL r.covergroups := by
  obtain ⟨j, hj, h1, h2⟩ := (C30_json_partial rd db).1 r h hc
  refine ⟨j, hj, ?_⟩
  have hs : saysReport (encJRpt j) r.coverage (viewRL r.covergroups) := by
    rw [← h1, ← h2]
    refine ⟨rfl, ?_⟩
    obtain ⟨c, o⟩ := j
    cases o with
    | none => exact ⟨[], .inr ⟨rfl, rfl⟩, rfl⟩
    | some l => exact ⟨_, .inl rfl, says_cgs l⟩
  intro c gs
  constructor
  · intro h'
    obtain ⟨a, l, hl, hg⟩ := hs
    obtain ⟨a', l', hl', hg'⟩ := h'
    have e := a'.symm.trans a
    simp only [Option.some.injEq, Json.num.injEq] at e
    obtain rfl := listAt_unique hl hl'
    exact ⟨e, saysCgs_unique _ _ _ hg' hg⟩
  · rintro ⟨rfl, rfl⟩
    exact hs

/-- A reader who follows the schema, and so looks under `covreport`, finds nothing in any report. -/
theorem C109_key_absent (j : JRpt) : val? (encJRpt j) "covreport" = none := by
  obtain ⟨c, o⟩ := j
  cases o <;> rfl

theorem C109_refuted : ¬ C109_claim := by
  intro h
  obtain ⟨j, hj, _⟩ := C109_reads id Ex.jdb _ Ex.build_jdb (by decide +kernel)
  have h1 := h id true Ex.jdb j hj
  rw [C109_never id true Ex.jdb j hj] at h1
  exact absurd h1 (by decide)

/-- The hypotheses of `C109_reads` and of `C109_partial` hold of a database with a coverpoint and a cover-instance with two, and the document
has groups in it. -/
example : ∃ j, jReport id true Ex.jdb = .ok j ∧ fits rDefs (encJRpt j) rReport = true ∧
    saysReport (encJRpt j) (pRpt id Ex.jdb).coverage (viewRL (pRpt id Ex.jdb).covergroups) ∧ (pRpt id Ex.jdb).covergroups.length = 1 := by
  obtain ⟨j, hj, h⟩ := C109_reads id Ex.jdb _ Ex.build_jdb (by decide +kernel)
  exact ⟨j, hj, (C109_partial id true Ex.jdb j hj).1, (h _ _).2 ⟨rfl, rfl⟩, by decide +kernel⟩

/-- The schema rejects something: a bin count that is a text. -/
example : fits rDefs (.obj [("covreport", .obj [("covergroups", .arr [.obj [("coverpoints", .arr [.obj [("bins", .arr [.obj [("count",
    .str "1")]])]])]])])]) rRoot = false := by decide +kernel

end Format
end Verif
