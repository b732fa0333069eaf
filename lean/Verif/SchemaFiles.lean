import Verif.YamlThms
import Verif.JsonSchema
import Mathlib.Data.List.Nodup

/-!
# The JSON schema files and what they accept

`schema/coverage.json` and `schema/covreport.json` as the values a JSON parser makes of them, and validity against a schema given as such
a value (`Spec.Conforms`), written down from JSON Schema draft 4 (which is what both files name in `$schema`, and so what
`jsonschema.validate` applies) without regard to the model.  The theorems show that the checkers of the model, which work on transcribed schemas,
decide exactly that: `Yaml.validJ_iff` for coverage documents, `Format.fits_iff` for reports.
-/

namespace Verif
namespace Spec
open Yaml (Json)

/-! ## Validity in draft 4 -/

/-- The parts of a text between its `/`. -/
def pathParts : List Char → List (List Char)
  | [] => [[]]
  | c :: t => if c = '/' then [] :: pathParts t else
    match pathParts t with
    | [] => [[c]]
    | s :: r => (c :: s) :: r

/-- Following the keys of a path. -/
def follow : Json → List (List Char) → Option Json
  | j, [] => some j
  | j, p :: r => (j.prop (String.ofList p)).bind (follow · r)

/-- A reference `#/a/b` within the same document. -/
def pointTo (root : Json) (r : String) : Option Json :=
  match r.toList with
  | '#' :: t => follow root (pathParts t).tail
  | _ => none

/-- `type` (draft 4, validation, 5.5.2); a Boolean is no number, and a number with a fraction is no integer. -/
def HasType (t : String) (j : Json) : Prop :=
  (t = "string" ∧ ∃ s, j = .str s) ∨ (t = "integer" ∧ ∃ z, j = .int z) ∨ (t = "number" ∧ ((∃ z, j = .int z) ∨ ∃ q, j = .num q)) ∨
  (t = "array" ∧ ∃ l, j = .arr l) ∨ (t = "object" ∧ ∃ m, j = .obj m) ∨ (t = "boolean" ∧ ∃ b, j = .bool b) ∨ (t = "null" ∧ j = .null)

/-- `j` is valid against the schema `s` of the document `root`.  A schema with a reference is its target, other members are ignored.  The keywords
of the two files are covered; `items` is one schema for all elements, `type` one name. -/
inductive Conforms (root : Json) : Json → Json → Prop
  | ref {s t j : Json} {r : String} : s.prop "$ref" = some (.str r) → pointTo root r = some t → Conforms root t j → Conforms root s j
  | keywords {s j : Json} : s.prop "$ref" = none →
      (∀ t, s.prop "type" = some (.str t) → HasType t j) →
      (∀ ps k sk v, s.prop "properties" = some ps → ps.prop k = some sk → j.prop k = some v → Conforms root sk v) →
      (∀ l k, s.prop "required" = some (.arr l) → .str k ∈ l → (∃ m, j = .obj m) → ∃ v, j.prop k = some v) →
      (∀ si l v, s.prop "items" = some si → j = .arr l → v ∈ l → Conforms root si v) →
      (s.prop "additionalProperties" = some (.bool false) → ∀ k v, j.prop k = some v → ∃ ps sk, s.prop "properties" = some ps ∧ ps.prop k = some sk) →
      Conforms root s j

theorem conforms_ref {root s j : Json} {r : String} (h : s.prop "$ref" = some (.str r)) :
    Conforms root s j ↔ ∃ t, pointTo root r = some t ∧ Conforms root t j := by
  constructor
  · intro c
    cases c with
    | ref h1 h2 h3 => rw [h] at h1; cases h1; exact ⟨_, h2, h3⟩
    | keywords h1 => rw [h] at h1; cases h1
  · rintro ⟨t, h1, h2⟩
    exact .ref h h1 h2

theorem conforms_keywords {root s j : Json} (h : s.prop "$ref" = none) :
    Conforms root s j ↔ (∀ t, s.prop "type" = some (.str t) → HasType t j) ∧
      (∀ ps k sk v, s.prop "properties" = some ps → ps.prop k = some sk → j.prop k = some v → Conforms root sk v) ∧
      (∀ l k, s.prop "required" = some (.arr l) → .str k ∈ l → (∃ m, j = .obj m) → ∃ v, j.prop k = some v) ∧
      (∀ si l v, s.prop "items" = some si → j = .arr l → v ∈ l → Conforms root si v) ∧
      (s.prop "additionalProperties" = some (.bool false) → ∀ k v, j.prop k = some v → ∃ ps sk, s.prop "properties" = some ps ∧ ps.prop k = some sk) := by
  constructor
  · intro c
    cases c with
    | ref h1 => rw [h] at h1; cases h1
    | keywords _ a b c d e => exact ⟨a, b, c, d, e⟩
  · rintro ⟨a, b, c, d, e⟩
    exact .keywords h a b c d e

end Spec

/-! ## The files -/

namespace Yaml

/-- `schema/coverage.json:1-143`. -/
def coverageJson : Json :=
  .obj [
    ("$schema", .str "http://json-schema.org/draft-04/schema#"),
    ("$id", .str "https://fvutils.github.io/pyucis/coverage.json"),
    ("title", .str "Coverage Data"),
    ("description", .str "PyUCIS JSON Coverage Data"),
    ("type", .str "object"),
    ("properties", .obj [
      ("coverage", .obj [
        ("type", .str "object"),
        ("properties", .obj [
          ("covergroups", .obj [
            ("type", .str "array"),
            ("items", .obj [("$ref", .str "#/defs/covergroupType")]),
            ("description", .str "List of covergroup types")])])])]),
    ("defs", .obj [
      ("covergroupType", .obj [
        ("$$target", .str "#/defs/covergroupType"),
        ("title", .str "Type Covergroup"),
        ("type", .str "object"),
        ("description", .str "Holds data about a single covergroup type"),
        ("properties", .obj [
          ("name", .obj [("type", .str "string"), ("description", .str "Type name of the covergroup")]),
          ("weight", .obj [("type", .str "integer"), ("description", .str "Weight this covergroup is given against the others")]),
          ("instances", .obj [
            ("type", .str "array"),
            ("items", .obj [("$ref", .str "#/defs/covergroupInstType")]),
            ("description", .str "List of covergroup instances of this type")])]),
        ("required", .arr [.str "name"])]),
      ("covergroupInstType", .obj [
        ("$$target", .str "#/defs/covergroupInstType"),
        ("title", .str "Inst Covergroup"),
        ("type", .str "object"),
        ("description", .str "Holds data about a single covergroup instance"),
        ("properties", .obj [
          ("name", .obj [("type", .str "string"), ("description", .str "Instance name of this covergroup")]),
          ("coverpoints", .obj [
            ("type", .str "array"),
            ("items", .obj [("$ref", .str "#/defs/coverpointType")]),
            ("description", .str "List of coverpoints")]),
          ("crosses", .obj [
            ("type", .str "array"),
            ("items", .obj [("$ref", .str "#/defs/crossType")]),
            ("description", .str "List of crosses")])]),
        ("required", .arr [.str "name"])]),
      ("coverpointType", .obj [
        ("$$target", .str "#/defs/coverpointType"),
        ("title", .str "Coverpoint"),
        ("type", .str "object"),
        ("description", .str "Holds data about a single instance coverpoint"),
        ("properties", .obj [
          ("name", .obj [("type", .str "string"), ("description", .str "Name of the coverpoint")]),
          ("atleast", .obj [("type", .str "integer"), ("description", .str "Number of bin hits required for coverage (default=1)")]),
          ("bins", .obj [
            ("type", .str "array"),
            ("items", .obj [("$ref", .str "#/defs/coverBinType")]),
            ("description", .str "List of coverage bins")]),
          ("ignorebins", .obj [
            ("type", .str "array"),
            ("items", .obj [("$ref", .str "#/defs/coverBinType")]),
            ("description", .str "List of ignore bins")]),
          ("illegalbins", .obj [
            ("type", .str "array"),
            ("items", .obj [("$ref", .str "#/defs/coverBinType")]),
            ("description", .str "List of illegal bins")])]),
        ("required", .arr [.str "name", .str "bins"])]),
      ("crossType", .obj [
        ("$$target", .str "#/defs/crossType"),
        ("title", .str "Cross"),
        ("type", .str "object"),
        ("properties", .obj [
          ("name", .obj [("type", .str "string"), ("description", .str "Cross name")]),
          ("atleast", .obj [("type", .str "integer"), ("description", .str "Number of bin hits required for coverage (default=1)")]),
          ("coverpoints", .obj [
            ("type", .str "array"),
            ("items", .obj [("type", .str "string")]),
            ("description", .str "List of coverpoint members of this cross")]),
          ("bins", .obj [
            ("type", .str "array"),
            ("items", .obj [("$ref", .str "#/defs/coverBinType")]),
            ("description", .str "List of cross bins")])]),
        ("required", .arr [.str "name", .str "coverpoints"])]),
      ("coverBinType", .obj [
        ("$$target", .str "#/defs/coverBinType"),
        ("title", .str "Coverage Bin"),
        ("type", .str "object"),
        ("properties", .obj [
          ("name", .obj [("type", .str "string"), ("description", .str "Bin name")]),
          ("count", .obj [("type", .str "integer"), ("description", .str "Hits in this bin")])]),
        ("required", .arr [.str "name", .str "count"])])])]

/-! ## Coverage documents -/

/-- A text among the values. -/
def textOf : Json → Option String
  | .str s => some s
  | _ => none

/-- All values, or nothing. -/
def optMap {α β : Type} (f : α → Option β) : List α → Option (List β)
  | [] => some []
  | a :: t => match f a, optMap f t with
    | some b, some r => some (b :: r)
    | _, _ => none

/-- Schema in the terms of `validJ` from the value in the file; the number bounds the depth of references and nesting. -/
def compile (root : Json) : Nat → Json → Option JSchema
  | 0, _ => none
  | n + 1, s =>
    match s.prop "$ref" with
    | some (.str r) => (Spec.pointTo root r).bind (compile root n)
    | some _ => none
    | none =>
      match s.prop "additionalProperties", s.prop "type" with
      | none, some (.str "string") => some .string
      | none, some (.str "integer") => some .integer
      | none, some (.str "array") => (s.prop "items").bind (fun i => (compile root n i).map .array)
      | none, some (.str "object") =>
        match s.prop "properties", ((s.prop "required").getD (.arr [])) with
        | some (.obj ps), .arr l =>
          if (ps.map (·.1)).Nodup then
            match optMap (fun p => (compile root n p.2).map (fun S => (p.1, S))) ps, optMap textOf l with
            | some ps', some req => some (.object ps' req)
            | _, _ => none
          else none
        | _, _ => none
      | _, _ => none

/-- The transcription says what the file says. -/
theorem sDoc_is_file : compile coverageJson 20 coverageJson = some sDoc := by rfl

theorem validItems_each (s : JSchema) (l : List Json) : validItems s l = true ↔ ∀ v ∈ l, validJ s v = true := by
  induction l with
  | nil => simp [validItems]
  | cons a t ih => simp [validItems, ih]

theorem validProps_each (ps : List (String × JSchema)) (m : List (String × Json)) :
    validProps ps m = true ↔ ∀ k S v, (k, S) ∈ ps → Dict.get? m k = some v → validJ S v = true := by
  induction ps with
  | nil => simp [validProps]
  | cons p t ih =>
    obtain ⟨k, S⟩ := p
    rw [validProps, Bool.and_eq_true, ih]
    constructor
    · rintro ⟨h1, h2⟩ k' S' v hm hv
      rcases List.mem_cons.1 hm with e | e
      · cases e; rw [hv] at h1; exact h1
      · exact h2 k' S' v e hv
    · intro h
      refine ⟨?_, fun k' S' v hm => h k' S' v (List.mem_cons_of_mem _ hm)⟩
      cases e : Dict.get? m k with
      | none => rfl
      | some v => exact h k S v (List.mem_cons_self ..) e

theorem optMap_mem {α β : Type} {f : α → Option β} : ∀ {l : List α} {r : List β}, optMap f l = some r → ∀ b, b ∈ r ↔ ∃ a ∈ l, f a = some b
  | [], r, h, b => by simp only [optMap, Option.some.injEq] at h; subst h; simp
  | a :: t, r, h, b => by
    rw [optMap] at h
    split at h
    · next b' r' h1 h2 =>
      cases h
      rw [List.mem_cons, optMap_mem h2]
      constructor
      · rintro (rfl | ⟨a', ha, hb⟩)
        · exact ⟨a, List.mem_cons_self .., h1⟩
        · exact ⟨a', List.mem_cons_of_mem _ ha, hb⟩
      · rintro ⟨a', ha, hb⟩
        rcases List.mem_cons.1 ha with e | e
        · subst e; rw [h1] at hb; cases hb; exact Or.inl rfl
        · exact Or.inr ⟨a', e, hb⟩
    · cases h

theorem optMap_total {α β : Type} {f : α → Option β} : ∀ {l : List α} {r : List β}, optMap f l = some r → ∀ a ∈ l, ∃ b, f a = some b
  | [], _, _, a, ha => by cases ha
  | x :: t, r, h, a, ha => by
    rw [optMap] at h
    split at h
    · next b' r' h1 h2 =>
      rcases List.mem_cons.1 ha with e | e
      · subst e; exact ⟨_, h1⟩
      · exact optMap_total h2 a e
    · cases h

theorem getSome_mem {α : Type} : ∀ {d : List (String × α)} {k : String} {v : α}, Dict.get? d k = some v → (k, v) ∈ d
  | [], _, _, h => by cases h
  | (k', v') :: t, k, v, h => by
    rw [Dict.get?] at h
    split at h
    · next e => cases h; subst e; exact List.mem_cons_self ..
    · exact List.mem_cons_of_mem _ (getSome_mem h)

theorem mem_getSome {α : Type} : ∀ {d : List (String × α)} {k : String} {v : α}, (d.map (·.1)).Nodup → (k, v) ∈ d → Dict.get? d k = some v
  | [], _, _, _, h => by cases h
  | (k', v') :: t, k, v, hn, h => by
    rw [List.map_cons, List.nodup_cons] at hn
    rw [Dict.get?]
    rcases List.mem_cons.1 h with e | e
    · cases e; rw [if_pos rfl]
    · rw [if_neg ?_]
      · exact mem_getSome hn.2 e
      · rintro rfl
        exact hn.1 (List.mem_map.2 ⟨_, e, rfl⟩)

/-- A schema that can be brought into the terms of `validJ` accepts the values that `validJ` accepts. -/
theorem compile_iff {root : Json} : ∀ (n : Nat) {s : Json} {S : JSchema}, compile root n s = some S →
    ∀ j, Spec.Conforms root s j ↔ validJ S j = true
  | 0, s, S, h, j => by cases h
  | n + 1, s, S, h, j => by
    rw [compile] at h
    split at h
    · next r hr =>
      obtain ⟨t, ht, hc⟩ := Option.bind_eq_some_iff.1 h
      rw [Spec.conforms_ref hr]
      constructor
      · rintro ⟨t', h1, h2⟩
        rw [ht] at h1; cases h1
        exact (compile_iff n hc j).1 h2
      · intro hv
        exact ⟨t, ht, (compile_iff n hc j).2 hv⟩
    · cases h
    · next hr =>
      rw [Spec.conforms_keywords hr]
      split at h
      · next ha ht =>
        cases h
        rw [ha, ht]
        cases j <;> simp [validJ, Spec.HasType, Json.prop]
      · next ha ht =>
        cases h
        rw [ha, ht]
        cases j <;> simp [validJ, Spec.HasType, Json.prop]
      · next ha ht =>
        obtain ⟨i, hi, hc⟩ := Option.bind_eq_some_iff.1 h
        obtain ⟨I, hI, rfl⟩ := Option.map_eq_some_iff.1 hc
        rw [ha, ht, hi]
        cases j with
        | arr l =>
          simp only [validJ, validItems_each, ← compile_iff n hI]
          constructor
          · rintro ⟨-, -, -, h, -⟩ v hv
            exact h i l v rfl rfl hv
          · intro h
            refine ⟨?_, ?_, ?_, ?_, ?_⟩
            · intro t e; cases e; simp [Spec.HasType]
            · intro ps k sk v _ _ e; cases e
            · rintro l' k _ _ ⟨m, e⟩; cases e
            · intro si l' v e1 e2 hv; cases e1; cases e2; exact h v hv
            · intro e; cases e
        | _ => simp [validJ, Spec.HasType]
      · next ha ht =>
        split at h
        · next ps l hp hl =>
          split at h
          · next hn =>
            split at h
            · next ps' req h1 h2 =>
              cases h
              rw [ha, ht, hp]
              cases j with
              | obj m =>
                rw [validJ, Bool.and_eq_true, List.all_eq_true, validProps_each]
                constructor
                · rintro ⟨-, h3, h4, -, -⟩
                  refine ⟨?_, ?_⟩
                  · intro k hk
                    obtain ⟨x, hx, e⟩ := (optMap_mem h2 k).1 hk
                    cases x with
                    | str t =>
                      cases e
                      cases hq : s.prop "required" with
                      | none => rw [hq] at hl; cases hl; cases hx
                      | some y =>
                        rw [hq] at hl
                        obtain ⟨v, hv⟩ := h4 l _ (by rw [hq]; exact congrArg some hl) hx ⟨m, rfl⟩
                        rw [Json.prop] at hv
                        rw [Dict.contains, hv]
                        rfl
                    | _ => cases e
                  · intro k S v hm hv
                    obtain ⟨⟨k', sk⟩, hx, e⟩ := (optMap_mem h1 _).1 hm
                    obtain ⟨S', hS, e'⟩ := Option.map_eq_some_iff.1 e
                    cases e'
                    exact (compile_iff n hS v).1 (h3 _ _ sk v rfl (mem_getSome hn hx) hv)
                · rintro ⟨h3, h4⟩
                  refine ⟨?_, ?_, ?_, ?_, ?_⟩
                  · intro t e; cases e; simp [Spec.HasType]
                  · intro ps2 k sk v e1 e2 e3
                    cases e1
                    have hx := getSome_mem e2
                    obtain ⟨⟨k', S⟩, hS⟩ := optMap_total h1 _ hx
                    obtain ⟨S', hS', e'⟩ := Option.map_eq_some_iff.1 hS
                    cases e'
                    exact (compile_iff n hS' v).2 (h4 k _ v ((optMap_mem h1 _).2 ⟨_, hx, hS⟩) e3)
                  · intro l' k e1 e2 _
                    rw [e1] at hl
                    cases hl
                    have := h3 k ((optMap_mem h2 k).2 ⟨_, e2, rfl⟩)
                    rw [Dict.contains] at this
                    exact Option.isSome_iff_exists.1 this
                  · intro si l' v _ e; cases e
                  · intro e; cases e
              | _ => simp [validJ, Spec.HasType]
            · cases h
          · cases h
        · cases h
      · cases h

/-- What `jsonschema.validate` accepts with the file as schema is what `validJ` accepts. -/
theorem validJ_iff (j : Json) : Spec.Conforms coverageJson coverageJson j ↔ validJ sDoc j = true := compile_iff 20 sDoc_is_file j

/-- The documents valid against the file are those with a content, the ones `C42`, `C72`, `C114` speak of. -/
theorem conforms_iff_says (j : Json) : Spec.Conforms coverageJson coverageJson j ↔ ∃ d, Spec.Says j d := (validJ_iff j).trans (valid_iff_says j)

/-- **C72**, refusal: a document that is not valid against the file is not loaded. -/
theorem invalid_refused {j : Json} (h : ¬ Spec.Conforms coverageJson coverageJson j) : load j = .error .userError := by
  rw [validJ_iff] at h
  unfold load
  rw [if_neg h]

/-- Not vacuous: a document with a covergroup is valid, one with a covergroup without name is not. -/
example : Spec.Conforms coverageJson coverageJson (.obj [("coverage", .obj [("covergroups", .arr [.obj [("name", .str "cg"), ("instances", .arr [])]])])]) := by
  rw [validJ_iff]
  simp [validJ, validProps, validItems, sDoc, sCg, Dict.get?, Dict.contains]

example : ¬ Spec.Conforms coverageJson coverageJson (.obj [("coverage", .obj [("covergroups", .arr [.obj [("instances", .arr [])]])])]) := by
  rw [validJ_iff]
  simp [validJ, validProps, validItems, sDoc, sCg, Dict.get?, Dict.contains]

end Yaml

namespace Format
open Yaml (Json)

/-- `schema/covreport.json:1-156`. -/
def covreportJson : Json :=
  .obj [
    ("$schema", .str "http://json-schema.org/draft-04/schema#"),
    ("$id", .str "https://fvutils.github.io/pyucis/covreport.json"),
    ("title", .str "PyUCIS JSON Coverage Report"),
    ("description", .str "Validation schema for the PyUCIS machine-readable coverage report"),
    ("type", .str "object"),
    ("properties", .obj [
      ("covreport", .obj [
        ("title", .str "Coverage Report"),
        ("description", .str "Root of the coverage report"),
        ("type", .str "object"),
        ("properties", .obj [
          ("covergroups", .obj [
            ("description", .str "List of (type) covergroups"),
            ("type", .str "array"),
            ("items", .obj [("$ref", .str "#/defs/typeCovergroupType")])]),
          ("coverage", .obj [("description", .str "Coverage percentage achieved by all covergroups"), ("type", .str "number")])])])]),
    ("additionalProperties", .bool false),
    ("defs", .obj [
      ("typeCovergroupType", .obj [
        ("description", .str "Contains information about a type covergroup"),
        ("title", .str "Covergroup Type"),
        ("$$target", .str "#/defs/typeCovergroupType"),
        ("properties", .obj [
          ("name", .obj [("description", .str "Type name of the covergroup"), ("type", .str "string")]),
          ("coverage", .obj [("description", .str "Coverage percentage achieved by this covergroup type"), ("type", .str "number")]),
          ("coverpoints", .obj [
            ("description", .str "List of coverpoints"),
            ("type", .str "array"),
            ("items", .obj [("$ref", .str "#/defs/coverpointType")])]),
          ("covergroups", .obj [
            ("description", .str "List of instance covergroups"),
            ("type", .str "array"),
            ("items", .obj [("$ref", .str "#/defs/instCovergroupType")])])])]),
      ("instCovergroupType", .obj [
        ("description", .str "Contains information about an instance covergroup"),
        ("title", .str "Covergroup Inst"),
        ("$$target", .str "#/defs/instCovergroupType"),
        ("type", .str "object"),
        ("properties", .obj [
          ("name", .obj [("description", .str "Instance name of this covergroup"), ("type", .str "string")]),
          ("coverage", .obj [("description", .str "Coverage percentage achieved by this covergroup type"), ("type", .str "number")]),
          ("coverpoints", .obj [
            ("description", .str "List of coverpoints"),
            ("type", .str "array"),
            ("items", .obj [("$ref", .str "#/defs/coverpointType")])]),
          ("crosses", .obj [
            ("description", .str "List of cross coverpoints"),
            ("type", .str "array"),
            ("items", .obj [("$ref", .str "#/defs/crossType")])]),
          ("covergroups", .obj [
            ("description", .str "List of instance covergroups"),
            ("type", .str "array"),
            ("items", .obj [("$ref", .str "#/defs/instCovergroupType")])])])]),
      ("coverpointType", .obj [
        ("description", .str "Coverage information about a coverpoint"),
        ("title", .str "Coverpoint"),
        ("$$target", .str "#/defs/coverpointType"),
        ("type", .str "object"),
        ("properties", .obj [
          ("name", .obj [("type", .str "string"), ("description", .str "Leaf name of the coverpoint")]),
          ("coverage", .obj [("description", .str "Coverage achieved by this cross"), ("type", .str "number")]),
          ("bins", .obj [
            ("description", .str "List of coverage bins"),
            ("type", .str "array"),
            ("items", .obj [("$ref", .str "#/defs/coverBinType")])]),
          ("ignorebins", .obj [
            ("description", .str "List of ignored coverage bins"),
            ("type", .str "array"),
            ("items", .obj [("$ref", .str "#/defs/coverBinType")])]),
          ("illegalbins", .obj [
            ("description", .str "List of illegal coverage bins"),
            ("type", .str "array"),
            ("items", .obj [("$ref", .str "#/defs/coverBinType")])])])]),
      ("crossType", .obj [
        ("description", .str "Coverage information about a cross coverpoint"),
        ("title", .str "Cross"),
        ("$$target", .str "#/defs/crossType"),
        ("type", .str "object"),
        ("properties", .obj [
          ("name", .obj [("type", .str "string"), ("description", .str "Leaf name of the cross")]),
          ("coverage", .obj [("description", .str "Coverage achieved by this cross"), ("type", .str "number")]),
          ("bins", .obj [
            ("description", .str "List of coverage bins"),
            ("type", .str "array"),
            ("items", .obj [("$ref", .str "#/defs/coverBinType")])])])]),
      ("coverBinType", .obj [
        ("title", .str "Cover Bin"),
        ("description", .str "Coverpoint or cross bin"),
        ("$$target", .str "#/defs/coverBinType"),
        ("type", .str "object"),
        ("properties", .obj [
          ("name", .obj [("type", .str "string"), ("description", .str "Name of the bin")]),
          ("goal", .obj [("type", .str "integer"), ("description", .str "Number of bin hits required to claim coverage")]),
          ("count", .obj [("type", .str "integer"), ("description", .str "Number of hits the bin has")])])])])]

/-! ## Reports -/

/-- Mappings list every key once, as those of Python do. -/
inductive _root_.Verif.Spec.Keyed : Json → Prop
  | null : Spec.Keyed .null
  | bool (b : Bool) : Spec.Keyed (.bool b)
  | int (z : Int) : Spec.Keyed (.int z)
  | num (q : Rat) : Spec.Keyed (.num q)
  | str (t : String) : Spec.Keyed (.str t)
  | arr (l : List Json) : (∀ v ∈ l, Spec.Keyed v) → Spec.Keyed (.arr l)
  | obj (m : List (String × Json)) : (m.map (·.1)).Nodup → (∀ p ∈ m, Spec.Keyed p.2) → Spec.Keyed (.obj m)

/-- `additionalProperties` is absent or false. -/
def closedOf : Option Json → Option Bool
  | none => some false
  | some (.bool false) => some true
  | _ => none

/-- The members of an object schema. -/
def objectR (f : Json → Option RSchema) (typed : Bool) (s : Json) : Option RSchema :=
  match s.prop "properties", closedOf (s.prop "additionalProperties") with
  | some (.obj ps), some c => (Yaml.optMap (fun p => (f p.2).map (fun S => (p.1, S))) ps).map (fun ps' => .object typed ps' c)
  | _, _ => none

/-- Schema in the terms of `fits` from the value in the file; `known` gives the names of the references, the number bounds the nesting. -/
def compileR (known : List (String × String)) : Nat → Json → Option RSchema
  | 0, _ => none
  | n + 1, s =>
    match s.prop "$ref", s.prop "required" with
    | none, none =>
      match s.prop "type", s.prop "items" with
      | some (.str "string"), none => some .string
      | some (.str "integer"), none => some .integer
      | some (.str "number"), none => some .number
      | some (.str "array"), some i =>
        match i.prop "$ref" with
        | some (.str r) => (Dict.get? known r).map .array
        | _ => none
      | some (.str "object"), none => objectR (compileR known n) true s
      | none, none => objectR (compileR known n) false s
      | _, _ => none
    | _, _ => none

/-- The references in the file. -/
def reportRefs : List (String × String) :=
  [("#/defs/typeCovergroupType", "typeCovergroupType"), ("#/defs/instCovergroupType", "instCovergroupType"), ("#/defs/coverpointType", "coverpointType"),
   ("#/defs/crossType", "crossType"), ("#/defs/coverBinType", "coverBinType")]

/-- The transcription says what the file says. -/
theorem rRoot_is_file : compileR reportRefs 9 covreportJson = some rRoot := by rfl
theorem rTypeCg_is_file : (Spec.pointTo covreportJson "#/defs/typeCovergroupType").bind (compileR reportRefs 9) = some rTypeCg := by rfl
theorem rInstCg_is_file : (Spec.pointTo covreportJson "#/defs/instCovergroupType").bind (compileR reportRefs 9) = some rInstCg := by rfl
theorem rCp_is_file : (Spec.pointTo covreportJson "#/defs/coverpointType").bind (compileR reportRefs 9) = some rCp := by rfl
theorem rCross_is_file : (Spec.pointTo covreportJson "#/defs/crossType").bind (compileR reportRefs 9) = some rCross := by rfl
theorem rBin_is_file : (Spec.pointTo covreportJson "#/defs/coverBinType").bind (compileR reportRefs 9) = some rBin := by rfl

theorem refs_known : ∀ r x, Dict.get? reportRefs r = some x →
    ∃ t, Spec.pointTo covreportJson r = some t ∧ compileR reportRefs 9 t = some (rDefs x) := by
  intro r x h
  have hm := Yaml.getSome_mem h
  simp only [reportRefs, List.mem_cons, Prod.mk.injEq, List.not_mem_nil, or_false] at hm
  rcases hm with ⟨rfl, rfl⟩ | ⟨rfl, rfl⟩ | ⟨rfl, rfl⟩ | ⟨rfl, rfl⟩ | ⟨rfl, rfl⟩
  · exact Option.bind_eq_some_iff.1 rTypeCg_is_file
  · exact Option.bind_eq_some_iff.1 rInstCg_is_file
  · exact Option.bind_eq_some_iff.1 rCp_is_file
  · exact Option.bind_eq_some_iff.1 rCross_is_file
  · exact Option.bind_eq_some_iff.1 rBin_is_file

theorem fitsAll_iff (defs : String → RSchema) (l : List Json) (S : RSchema) : fitsAll defs l S = true ↔ ∀ v ∈ l, fits defs v S = true := by
  induction l with
  | nil => simp [fitsAll]
  | cons a t ih => simp [fitsAll, ih]

theorem fitsMembers_iff (defs : String → RSchema) (m : List (String × Json)) (ps : List (String × RSchema)) (c : Bool) :
    fitsMembers defs m ps c = true ↔ ∀ p ∈ m, fitsMember defs p ps c = true := by
  induction m with
  | nil => simp [fitsMembers]
  | cons a t ih => simp [fitsMembers, ih]

/-- What a key finds in the transcribed members, from what it finds in the file. -/
theorem optMap_find {f : Json → Option RSchema} : ∀ {ps : List (String × Json)} {ps' : List (String × RSchema)},
    Yaml.optMap (fun p => (f p.2).map (fun S => (p.1, S))) ps = some ps' → ∀ k,
    (Dict.get? ps k = none ∧ ps'.find? (fun e => e.1 == k) = none) ∨
    ∃ sk S, Dict.get? ps k = some sk ∧ f sk = some S ∧ ps'.find? (fun e => e.1 == k) = some (k, S)
  | [], ps', h, k => by cases h; exact Or.inl ⟨rfl, rfl⟩
  | (k', s') :: t, ps', h, k => by
    rw [Yaml.optMap] at h
    split at h
    · next b r h1 h2 =>
      cases h
      obtain ⟨S, hS, rfl⟩ := Option.map_eq_some_iff.1 h1
      by_cases e : k' = k
      · subst e
        exact Or.inr ⟨s', S, by simp [Dict.get?], hS, by simp⟩
      · have := optMap_find h2 k
        simpa [Dict.get?, e] using this
    · cases h

/-- Object schemas. -/
theorem objectR_iff {root : Json} {defs : String → RSchema} {f : Json → Option RSchema} {typed : Bool} {s : Json} {S : RSchema} {m : List (String × Json)}
    (hn : (m.map (·.1)).Nodup) (hr : s.prop "$ref" = none) (hq : s.prop "required" = none) (hi : s.prop "items" = none)
    (ht : s.prop "type" = none ∨ s.prop "type" = some (.str "object"))
    (ih : ∀ p ∈ m, ∀ sk S, f sk = some S → (Spec.Conforms root sk p.2 ↔ fits defs p.2 S = true)) (h : objectR f typed s = some S) :
    Spec.Conforms root s (.obj m) ↔ fits defs (.obj m) S = true := by
  rw [Spec.conforms_keywords hr, hq, hi]
  rw [objectR] at h
  split at h
  · next ps c hp hc =>
    obtain ⟨ps', h1, rfl⟩ := Option.map_eq_some_iff.1 h
    rw [fits, fitsMembers_iff, hp]
    constructor
    · rintro ⟨-, h3, -, -, h5⟩ ⟨k, v⟩ hm
      rw [fitsMember]
      rcases optMap_find h1 k with ⟨e1, e2⟩ | ⟨sk, S, e1, e2, e3⟩
      · rw [e2]
        cases c with
        | false => rfl
        | true =>
          have ha : s.prop "additionalProperties" = some (.bool false) := by
            revert hc
            rcases s.prop "additionalProperties" with _ | (_ | (_ | _) | _ | _ | _ | _ | _) <;> simp [closedOf]
          obtain ⟨ps2, sk, e3, e4⟩ := h5 ha k v (Yaml.mem_getSome hn hm)
          cases e3
          rw [Json.prop] at e4
          rw [e1] at e4
          cases e4
      · rw [e3]
        exact (ih _ hm sk S e2).1 (h3 _ k sk v rfl e1 (Yaml.mem_getSome hn hm))
    · intro h3
      refine ⟨?_, ?_, ?_, ?_, ?_⟩
      · intro t e
        rcases ht with ht | ht <;> rw [ht] at e <;> cases e
        simp [Spec.HasType]
      · intro ps2 k sk v e1 e2 e3
        cases e1
        have hm := Yaml.getSome_mem e3
        have := h3 _ hm
        rw [fitsMember] at this
        rcases optMap_find h1 k with ⟨e4, -⟩ | ⟨sk', S, e4, e5, e6⟩
        · rw [Json.prop, e4] at e2; cases e2
        · rw [Json.prop, e4] at e2
          cases e2
          rw [e6] at this
          exact (ih _ hm sk S e5).2 this
      · intro l k e; cases e
      · intro si l v e; cases e
      · intro ha k v e
        have hm := Yaml.getSome_mem e
        have := h3 _ hm
        rw [fitsMember] at this
        rcases optMap_find h1 k with ⟨e4, e5⟩ | ⟨sk, S, e4, -, -⟩
        · rw [e5] at this
          rw [ha] at hc
          cases hc
          cases this
        · exact ⟨_, sk, rfl, e4⟩
  · cases h

/-- Object schemas and values that are no objects. -/
theorem objectR_other {root : Json} {defs : String → RSchema} {f : Json → Option RSchema} {typed : Bool} {s j : Json} {S : RSchema}
    (hj : ∀ m, j ≠ .obj m) (hr : s.prop "$ref" = none) (hi : s.prop "items" = none)
    (ht : (typed = false ∧ s.prop "type" = none) ∨ (typed = true ∧ s.prop "type" = some (.str "object"))) (h : objectR f typed s = some S) :
    Spec.Conforms root s j ↔ fits defs j S = true := by
  rw [Spec.conforms_keywords hr, hi]
  have hp : ∀ k, j.prop k = none := by
    intro k
    cases j with
    | obj m => exact absurd rfl (hj m)
    | _ => rfl
  rw [objectR] at h
  split at h
  · next ps c hp' hc =>
    obtain ⟨ps', h1, rfl⟩ := Option.map_eq_some_iff.1 h
    have hf : fits defs j (.object typed ps' c) = !typed := by
      cases j with
      | obj m => exact absurd rfl (hj m)
      | _ => rfl
    rw [hf]
    rcases ht with ⟨rfl, ht⟩ | ⟨rfl, ht⟩ <;> rw [ht]
    · simp [hp, hj]
    · simp [Spec.HasType, hj]
  · cases h

/-- A schema that can be brought into the terms of `fits` accepts the values that `fits` accepts. -/
theorem compileR_iff {root : Json} {known : List (String × String)} {defs : String → RSchema} {n₀ : Nat}
    (hk : ∀ r x, Dict.get? known r = some x → ∃ t, Spec.pointTo root r = some t ∧ compileR known n₀ t = some (defs x)) {j : Json} (hj : Spec.Keyed j) :
    ∀ (n : Nat) (s : Json) (S : RSchema), compileR known n s = some S → (Spec.Conforms root s j ↔ fits defs j S = true) := by
  induction hj with
  | arr l _ ih =>
    intro n s S h
    cases n with
    | zero => cases h
    | succ n =>
      rw [compileR] at h
      split at h
      · next hr hq =>
        split at h
        case h_4 i ht hi =>
          split at h
          · next r hir =>
            obtain ⟨x, hx, rfl⟩ := Option.map_eq_some_iff.1 h
            obtain ⟨t, h1, h2⟩ := hk r x hx
            rw [Spec.conforms_keywords hr, ht, hq, hi, fits, fitsAll_iff]
            constructor
            · rintro ⟨-, -, -, h3, -⟩ v hv
              have := h3 i l v rfl rfl hv
              rw [Spec.conforms_ref hir] at this
              obtain ⟨t', e1, e2⟩ := this
              rw [h1] at e1
              cases e1
              exact (ih v hv _ _ _ h2).1 e2
            · intro h3
              refine ⟨?_, ?_, ?_, ?_, ?_⟩
              · intro t e; cases e; simp [Spec.HasType]
              · intro ps k sk v _ _ e; cases e
              · intro l k e; cases e
              · intro si l' v e1 e2 hv
                cases e1; cases e2
                exact (Spec.conforms_ref hir).2 ⟨t, h1, (ih v hv _ _ _ h2).2 (h3 v hv)⟩
              · intro _ k v e; cases e
          · cases h
        case h_5 ht hi => exact objectR_other (fun m e => by cases e) hr hi (Or.inr ⟨rfl, ht⟩) h
        case h_6 ht hi => exact objectR_other (fun m e => by cases e) hr hi (Or.inl ⟨rfl, ht⟩) h
        case h_7 => cases h
        all_goals
          next ht hi =>
          cases h
          rw [Spec.conforms_keywords hr, ht]
          simp [Spec.HasType, fits]
      · cases h
  | obj m hn _ ih =>
    intro n s S h
    cases n with
    | zero => cases h
    | succ n =>
      rw [compileR] at h
      split at h
      · next hr hq =>
        split at h
        case h_4 i ht hi =>
          split at h
          · obtain ⟨x, hx, rfl⟩ := Option.map_eq_some_iff.1 h
            rw [Spec.conforms_keywords hr, ht]
            simp [Spec.HasType, fits]
          · cases h
        case h_5 ht hi => exact objectR_iff hn hr hq hi (Or.inr ht) (fun p hp sk S e => ih p hp n sk S e) h
        case h_6 ht hi => exact objectR_iff hn hr hq hi (Or.inl ht) (fun p hp sk S e => ih p hp n sk S e) h
        case h_7 => cases h
        all_goals
          next ht hi =>
          cases h
          rw [Spec.conforms_keywords hr, ht]
          simp [Spec.HasType, fits]
      · cases h
  | _ =>
    intro n s S h
    cases n with
    | zero => cases h
    | succ n =>
      rw [compileR] at h
      split at h
      · next hr hq =>
        split at h
        case h_4 i ht hi =>
          split at h
          · obtain ⟨x, hx, rfl⟩ := Option.map_eq_some_iff.1 h
            rw [Spec.conforms_keywords hr, ht]
            simp [Spec.HasType, fits]
          · cases h
        case h_5 ht hi => exact objectR_other (fun m e => by cases e) hr hi (Or.inr ⟨rfl, ht⟩) h
        case h_6 ht hi => exact objectR_other (fun m e => by cases e) hr hi (Or.inl ⟨rfl, ht⟩) h
        case h_7 => cases h
        all_goals
          next ht hi =>
          cases h
          rw [Spec.conforms_keywords hr, ht, hi, hq]
          simp [Spec.HasType, fits, Json.prop]
      · cases h

/-- What `jsonschema.validate` accepts with the file as schema is what `fits` accepts. -/
theorem fits_iff {j : Json} (hj : Spec.Keyed j) : Spec.Conforms covreportJson covreportJson j ↔ fits rDefs j rRoot = true :=
  compileR_iff refs_known hj 9 _ _ rRoot_is_file

theorem keyed_map {α : Type} (f : α → Json) (h : ∀ a, Spec.Keyed (f a)) (l : List α) : Spec.Keyed (.arr (l.map f)) := by
  refine .arr _ fun v hv => ?_
  obtain ⟨a, -, rfl⟩ := List.mem_map.1 hv
  exact h a

theorem keyed_bin (b : JBin) : Spec.Keyed (encJBin b) := by
  refine .obj _ (by simp) ?_
  simp only [List.forall_mem_cons, List.not_mem_nil, false_implies, implies_true, and_true]
  exact ⟨.str _, .int _⟩

theorem keyed_cp (c : JCp) : Spec.Keyed (encJCp c) := by
  obtain ⟨n, w, b1, b2, b3⟩ := c
  cases n <;> cases b1 <;> cases b2 <;> cases b3 <;>
    refine .obj _ (by simp [member]) ?_ <;>
    simp [member, keyed_map encJBin keyed_bin, Spec.Keyed.str, Spec.Keyed.num]

theorem keyed_cross (c : JCross) : Spec.Keyed (encJCross c) := by
  obtain ⟨n, w, b⟩ := c
  cases b <;>
    refine .obj _ (by simp [member]) ?_ <;>
    simp [member, keyed_map encJBin keyed_bin, Spec.Keyed.str, Spec.Keyed.int]

mutual
theorem keyed_cg : ∀ g : JCg, Spec.Keyed (encJCg g)
  | ⟨n, c, cps, crs, cgs⟩ => by
    rw [encJCg]
    have h := keyed_sub cgs
    cases cps <;> cases crs <;> cases cgs <;>
      refine .obj _ (by simp [member, encJSub]) ?_ <;>
      simp_all [member, encJSub, keyed_map encJCp keyed_cp, keyed_map encJCross keyed_cross, Spec.Keyed.str, Spec.Keyed.num]
theorem keyed_sub : ∀ o : Option (List JCg), ∀ p ∈ encJSub o, Spec.Keyed p.2
  | none, p, hp => by cases hp
  | some l, p, hp => by
    rw [encJSub, List.mem_singleton] at hp
    subst hp
    exact .arr _ (keyed_cgs l)
theorem keyed_cgs : ∀ l : List JCg, ∀ v ∈ encJCgs l, Spec.Keyed v
  | [], v, hv => by cases hv
  | g :: t, v, hv => by
    rw [encJCgs, List.mem_cons] at hv
    rcases hv with rfl | h
    · exact keyed_cg g
    · exact keyed_cgs t v h
end

theorem keyed_rpt (j : JRpt) : Spec.Keyed (encJRpt j) := by
  obtain ⟨c, o⟩ := j
  have h := keyed_sub o
  cases o <;>
    refine .obj _ (by simp [encJSub]) ?_ <;>
    simp_all [encJSub, Spec.Keyed.num]

/-- **C109**, in terms of the file: no report that is written is valid against `schema/covreport.json`. -/
theorem C109_never_file (rd : Rat → Rat) (details : Bool) (db : Scope) (j : JRpt) (h : jReport rd details db = .ok j) :
    ¬ Spec.Conforms covreportJson covreportJson (encJRpt j) := by
  rw [fits_iff (keyed_rpt j), C109_never rd details db j h]
  simp

/-- **C109**, in terms of the file, what holds: put under the key `covreport` it would be valid. -/
theorem C109_file_partial (rd : Rat → Rat) (details : Bool) (db : Scope) (j : JRpt) (h : jReport rd details db = .ok j) :
    Spec.Conforms covreportJson covreportJson (.obj [("covreport", encJRpt j)]) := by
  rw [fits_iff (.obj _ (by simp) (by simpa using keyed_rpt j))]
  exact (C109_partial rd details db j h).2

/-- Not vacuous: a report is written for the database of `Ex.jdb`. -/
example : ∃ j, jReport id true Ex.jdb = .ok j ∧ ¬ Spec.Conforms covreportJson covreportJson (encJRpt j) := by
  obtain ⟨j, hj, _⟩ := C109_reads id Ex.jdb _ Ex.build_jdb (by decide +kernel)
  exact ⟨j, hj, C109_never_file id true Ex.jdb j hj⟩

end Format
end Verif
