import Verif.XsdDates
/-!
# What schema validity means (C40, C71)

No new code: validity as the XML Schema recommendation describes it (content models as languages, attributes, simple types), and the proof that the checker of the
model (`Xsd.lean`), which walks the children once from left to right, decides it.
-/

namespace Verif
namespace Spec
open Xsd (Simple Occ CType Schema)
open Xml (Elem)

/-- The texts of `xsd:integer`, with their values. -/
def XsdInteger (l : List Char) (v : Int) : Prop :=
  ∃ a s g b n, l = a ++ (s ++ g) ++ b ∧ (∀ c ∈ a, Blank c) ∧ (∀ c ∈ b, Blank c) ∧ Num g n ∧ (s = ['-'] ∧ v = -(n : Int) ∨ (s = [] ∨ s = ['+']) ∧ v = n)

/-- The texts of the simple types in use. -/
def SimpleText : Simple → String → Prop
  | .str, _ => True
  | .integer, s => ∃ v, XsdInteger s.toList v
  | .nonNeg, s => ∃ v, XsdInteger s.toList v ∧ 0 ≤ v
  | .pos, s => ∃ v, XsdInteger s.toList v ∧ 0 < v
  | .bool, s => ∃ a m b, s.toList = a ++ m ++ b ∧ (∀ c ∈ a, Blank c) ∧ (∀ c ∈ b, Blank c) ∧
      (m = ['t', 'r', 'u', 'e'] ∨ m = ['f', 'a', 'l', 's', 'e'] ∨ m = ['1'] ∨ m = ['0'])
  | .double, s => XsdDouble s.toList
  | .decimal, s => XsdDecimal s.toList
  | .dateTime, s => XsdDate s.toList
  | .enum l, s => s ∈ l

/-- The built-in types elements are declared with. -/
inductive BuiltIn : String → Simple → Prop
  | string : BuiltIn "xsd:string" .str
  | integer : BuiltIn "xsd:integer" .integer
  | nonNegative : BuiltIn "xsd:nonNegativeInteger" .nonNeg

/-- The words (tags with the types their elements must have) of a choice: a number within the bounds of elements of one of its particles. -/
def PartWord (p : List Occ) (w : List (String × String)) : Prop :=
  ∃ o ∈ p, (∀ q ∈ w, q = (o.name, o.type)) ∧ o.min ≤ w.length ∧ ∀ m, o.max = some m → w.length ≤ m

/-- The words of a sequence: one word of each part, in order. -/
def SeqWord : List (List Occ) → List (String × String) → Prop
  | [], w => w = []
  | p :: ps, w => ∃ u v, w = u ++ v ∧ PartWord p u ∧ SeqWord ps v

/-- Every attribute is declared and has a text of its type, and the required ones are there. -/
def AttrsValid (ct : CType) (as : List (String × String)) : Prop :=
  (∀ p ∈ as, ∃ d ∈ ct.attrs, d.name = p.1 ∧ SimpleText d.type p.2) ∧ ∀ d ∈ ct.attrs, d.required = true → ∃ p ∈ as, p.1 = d.name

/-- Text: anything in mixed content, nothing in empty content, otherwise white space. -/
def TextValid (ct : CType) (tx : Option String) : Prop :=
  ct.mixed = true ∨ (ct.parts = [] ∧ tx = none) ∨ (ct.parts ≠ [] ∧ ∀ s, tx = some s → ∀ c ∈ s.toList, Blank c)

/-- The element is valid for the type of that name. -/
inductive ValidElem (S : Schema) : Elem → String → Prop
  | simple {e : Elem} {ty : String} {t : Simple} (h : BuiltIn ty t) (ha : e.attrs = []) (hc : e.children = []) (ht : SimpleText t (e.text.getD "")) : ValidElem S e ty
  | complex {e : Elem} {ty : String} {ct : CType} (h : (ty, ct) ∈ S.types) (ha : AttrsValid ct e.attrs) (ht : TextValid ct e.text) (w : List (String × String))
      (hw : SeqWord ct.parts w) (htags : e.children.map (·.tag) = w.map (·.1)) (hc : ∀ q ∈ e.children.zip (w.map (·.2)), ValidElem S q.1 q.2) : ValidElem S e ty

/-- The document is valid: the root element is the declared one, and valid. -/
def ValidDoc (S : Schema) (doc : Elem) : Prop := doc.tag = S.root ∧ ValidElem S doc S.rootType

/-- Deterministic content: no tag occurs in two particles of a type, no attribute and no type is declared twice, none has the name of a built-in type. -/
def Deterministic (S : Schema) : Prop :=
  (S.types.map (·.1)).Nodup ∧ ∀ t ∈ S.types, (t.2.parts.flatten.map (·.name)).Nodup ∧ (t.2.attrs.map (·.name)).Nodup ∧
    t.1 ∉ ["xsd:string", "xsd:integer", "xsd:nonNegativeInteger"]

instance (S : Schema) : Decidable (Deterministic S) := by unfold Deterministic; infer_instance

end Spec

namespace Xsd
open Spec DateTime
open Xml (Elem)

theorem integerVal_iff (l : List Char) (v : Int) : integerVal l = some v ↔ XsdInteger l v := by
  constructor
  · intro h
    obtain ⟨a, b, e, ha, hb⟩ := trim_decomp l
    have hA : ∀ c ∈ a, Blank c := fun c hc => (xmlSpace_iff c).1 (ha c hc)
    have hB : ∀ c ∈ b, Blank c := fun c hc => (xmlSpace_iff c).1 (hb c hc)
    unfold integerVal at h
    split at h
    · rename_i t ht
      split at h
      · rename_i hd
        obtain ⟨h1, h2⟩ := digits_spec hd
        rw [ht] at e
        exact ⟨a, ['-'], t, b, _, e, hA, hB, ⟨h1, h2, rfl⟩, .inl ⟨rfl, by cases h; rfl⟩⟩
      · cases h
    · rename_i t ht
      split at h
      · rename_i hd
        obtain ⟨h1, h2⟩ := digits_spec hd
        rw [ht] at e
        exact ⟨a, ['+'], t, b, _, e, hA, hB, ⟨h1, h2, rfl⟩, .inr ⟨.inr rfl, by cases h; rfl⟩⟩
      · cases h
    · split at h
      · rename_i hd
        obtain ⟨h1, h2⟩ := digits_spec hd
        exact ⟨a, [], _, b, _, e, hA, hB, ⟨h1, h2, rfl⟩, .inr ⟨.inl rfl, by cases h; rfl⟩⟩
      · cases h
  · rintro ⟨a, s, g, b, n, rfl, hA, hB, hg, hs⟩
    have hd := (digits_iff g).2 ⟨n, hg⟩
    have hn := hg.2.2
    obtain ⟨c, t, rfl⟩ := List.exists_cons_of_ne_nil hg.1
    have hc := numeral_char (.inl (hg.2.1 c (by simp)))
    have htr : trim (a ++ (s ++ c :: t) ++ b) = s ++ c :: t := by
      refine trim_pad (fun c hc => (xmlSpace_iff c).2 (hA c hc)) (fun c hc => (xmlSpace_iff c).2 (hB c hc)) ?_ (last_append (last_digit hg))
      rcases hs with ⟨rfl, _⟩ | ⟨rfl | rfl, _⟩
      · exact ⟨'-', rfl, by decide⟩
      · exact ⟨c, rfl, hc.2.2.1⟩
      · exact ⟨'+', rfl, by decide⟩
    unfold integerVal
    rw [htr]
    rcases hs with ⟨rfl, rfl⟩ | ⟨rfl | rfl, rfl⟩
    · simp [hd, hn]
    · simp only [List.nil_append]
      split
      · rename_i e; simp only [List.cons.injEq] at e; exact absurd e.1 hc.1
      · rename_i e; simp only [List.cons.injEq] at e; exact absurd e.1 hc.2.1
      · rw [if_pos hd, hn]
    · simp [hd, hn]

theorem simple_valid_iff (t : Simple) (s : String) : t.valid s = true ↔ SimpleText t s := by
  cases t with
  | str => simp [Simple.valid, SimpleText]
  | integer =>
    simp only [Simple.valid, SimpleText, Option.isSome_iff_exists]
    exact exists_congr fun v => integerVal_iff _ _
  | nonNeg =>
    simp only [Simple.valid, SimpleText]
    constructor
    · intro h
      split at h
      · rename_i z hz; exact ⟨z, (integerVal_iff _ _).1 hz, by simpa using h⟩
      · cases h
    · rintro ⟨v, h1, h2⟩
      rw [(integerVal_iff _ _).2 h1]
      simpa using h2
  | pos =>
    simp only [Simple.valid, SimpleText]
    constructor
    · intro h
      split at h
      · rename_i z hz; exact ⟨z, (integerVal_iff _ _).1 hz, by simpa using h⟩
      · cases h
    · rintro ⟨v, h1, h2⟩
      rw [(integerVal_iff _ _).2 h1]
      simpa using h2
  | bool =>
    simp only [Simple.valid, SimpleText]
    have key : (["true", "false", "1", "0"].contains (String.ofList (trim s.toList)) = true) ↔ (trim s.toList = ['t', 'r', 'u', 'e'] ∨
        trim s.toList = ['f', 'a', 'l', 's', 'e'] ∨ trim s.toList = ['1'] ∨ trim s.toList = ['0']) := by
      have h : ∀ (l m : List Char), String.ofList l = String.ofList m ↔ l = m := fun l m => String.ofList_inj
      rw [List.contains_iff_mem]
      simp only [List.mem_cons, List.not_mem_nil, or_false]
      rw [← h _ ['t', 'r', 'u', 'e'], ← h _ ['f', 'a', 'l', 's', 'e'], ← h _ ['1'], ← h _ ['0']]
    rw [key]
    constructor
    · intro h
      obtain ⟨a, b, e, ha, hb⟩ := trim_decomp s.toList
      exact ⟨a, _, b, e, fun c hc => (xmlSpace_iff c).1 (ha c hc), fun c hc => (xmlSpace_iff c).1 (hb c hc), h⟩
    · rintro ⟨a, m, b, e, ha, hb, hm⟩
      have : trim s.toList = m := by
        rw [e]
        refine trim_pad (fun c hc => (xmlSpace_iff c).2 (ha c hc)) (fun c hc => (xmlSpace_iff c).2 (hb c hc)) ?_ ?_
        · rcases hm with rfl | rfl | rfl | rfl
          · exact ⟨'t', rfl, by decide⟩
          · exact ⟨'f', rfl, by decide⟩
          · exact ⟨'1', rfl, by decide⟩
          · exact ⟨'0', rfl, by decide⟩
        · rcases hm with rfl | rfl | rfl | rfl
          · exact ⟨'e', rfl, by decide⟩
          · exact ⟨'e', rfl, by decide⟩
          · exact ⟨'1', rfl, by decide⟩
          · exact ⟨'0', rfl, by decide⟩
      rw [this]
      exact hm
  | double => exact isDouble_iff _
  | decimal => exact isDecimal_iff _
  | dateTime => exact isDateTime_iff _
  | enum l => simp [Simple.valid, SimpleText]

/-! ## Content models -/

theorem matchPart_word {p : List Occ} {tags tys rest : List String} (h : matchPart p tags = some (tys, rest)) :
    ∃ w, PartWord p w ∧ tags = w.map (·.1) ++ rest ∧ tys = w.map (·.2) := by
  have ht := matchPart_typed h
  unfold matchPart at h
  split at h
  · rename_i o ho
    rw [matchOcc_eq] at h
    split at h
    · rename_i hc
      simp only [Option.some.injEq, Prod.mk.injEq] at h
      obtain ⟨h1, h2⟩ := h
      generalize hn : (tags.takeWhile (fun t => t = o.name)).length = n at hc h1 h2
      refine ⟨List.replicate n (o.name, o.type), ⟨o, List.mem_of_find?_eq_some ho, fun q hq => List.eq_of_mem_replicate hq, ?_, ?_⟩, ?_, ?_⟩
      · unfold Occ.allows at hc
        simp only [Bool.and_eq_true, decide_eq_true_eq] at hc
        simpa using hc.1
      · intro m hm
        unfold Occ.allows at hc
        rw [hm] at hc
        simp only [Bool.and_eq_true, decide_eq_true_eq] at hc
        simpa using hc.2
      · rw [List.map_replicate]
        have h3 : tags.takeWhile (fun t => t = o.name) = List.replicate n o.name := by
          rw [List.eq_replicate_iff]
          exact ⟨hn, fun b hb => by simpa using List.mem_takeWhile_imp hb⟩
        rw [← h2, ← h3, ← hn]
        conv_lhs => rw [← List.takeWhile_append_dropWhile (p := fun t => decide (t = o.name)) (l := tags)]
        congr 1
        have h4 : (tags.takeWhile (fun t => t = o.name) ++ tags.dropWhile (fun t => t = o.name)).drop
          (tags.takeWhile (fun t => t = o.name)).length = tags.dropWhile (fun t => t = o.name) := List.drop_left
        rw [List.takeWhile_append_dropWhile] at h4
        exact h4.symm
      · rw [← h1, List.map_replicate]
    · cases h
  · split at h
    · rename_i hc
      simp only [Option.some.injEq, Prod.mk.injEq] at h
      obtain ⟨rfl, rfl⟩ := h
      obtain ⟨o, ho, hm⟩ := List.any_eq_true.1 hc
      exact ⟨[], ⟨o, ho, by simp, by simp only [decide_eq_true_eq] at hm; simp [hm], by simp⟩, by simp, by simp⟩
    · cases h

theorem seqWord_names : ∀ {ps : List (List Occ)} {w : List (String × String)}, SeqWord ps w → ∀ t ∈ w.map (·.1), t ∈ ps.flatten.map (·.name) := by
  intro ps
  induction ps with
  | nil => intro w h t ht; rw [SeqWord] at h; subst h; simp at ht
  | cons p ps ih =>
    rintro w ⟨u, v, rfl, ⟨o, ho, h1, _⟩, h2⟩ t ht
    rw [List.map_append, List.mem_append] at ht
    rw [List.flatten_cons, List.map_append, List.mem_append]
    rcases ht with ht | ht
    · obtain ⟨q, hq, rfl⟩ := List.mem_map.1 ht
      rw [h1 q hq]
      exact .inl (List.mem_map_of_mem ho)
    · exact .inr (ih h2 t ht)

/-- Walking once from left to right finds the word. -/
theorem matchPart_complete {p : List Occ} {w : List (String × String)} {rest : List String} (hn : (p.map (·.name)).Nodup) (hw : PartWord p w)
    (hr : ∀ t, rest.head? = some t → t ∉ p.map (·.name)) : matchPart p (w.map (·.1) ++ rest) = some (w.map (·.2), rest) := by
  obtain ⟨o, ho, h1, h2, h3⟩ := hw
  have hrep : w = List.replicate w.length (o.name, o.type) := List.eq_replicate_iff.2 ⟨rfl, h1⟩
  unfold matchPart
  cases w with
  | nil =>
    have hf : p.find? (fun o => ([] ++ rest).head? = some o.name) = none := by
      rw [List.find?_eq_none]
      intro x hx
      simp only [List.nil_append, decide_eq_true_eq]
      intro h
      exact hr _ h (List.mem_map_of_mem hx)
    simp only [List.map_nil]
    rw [hf]
    simp only
    rw [if_pos]
    · rfl
    · exact List.any_eq_true.2 ⟨o, ho, by simpa using h2⟩
  | cons a t =>
    have ha : a = (o.name, o.type) := h1 a (by simp)
    have hf : p.find? (fun x => ((a :: t).map (·.1) ++ rest).head? = some x.name) = some o := by
      have : ∃ x, p.find? (fun x => ((a :: t).map (·.1) ++ rest).head? = some x.name) = some x := by
        rw [← Option.isSome_iff_exists, List.find?_isSome]
        exact ⟨o, ho, by simp [ha]⟩
      obtain ⟨x, hx⟩ := this
      have hx1 := List.find?_some hx
      have hx2 := List.mem_of_find?_eq_some hx
      have e : x.name = o.name := by
        simp only [List.map_cons, List.cons_append, List.head?_cons, ha, decide_eq_true_eq, Option.some.injEq] at hx1
        exact hx1.symm
      rw [hx, List.inj_on_of_nodup_map hn hx2 ho e]
    rw [hf]
    simp only
    have hlen : (((a :: t).map (·.1) ++ rest).takeWhile (fun t => t = o.name)).length = (a :: t).length := by
      rw [List.takeWhile_append_of_pos]
      · have : rest.takeWhile (fun t => t = o.name) = [] := by
          cases rest with
          | nil => rfl
          | cons r rs =>
            rw [List.takeWhile_cons_of_neg]
            intro h
            simp only [decide_eq_true_eq] at h
            exact hr r rfl (h ▸ List.mem_map_of_mem ho)
        rw [this, List.append_nil, List.length_map]
      · intro x hx
        obtain ⟨q, hq, rfl⟩ := List.mem_map.1 hx
        rw [h1 q hq]
        simp
    rw [matchOcc_eq, hlen, if_pos]
    · congr 2
      · conv_rhs => rw [hrep]
        rw [List.map_replicate]
      · exact List.drop_left' (by simp)
    · unfold Occ.allows
      rw [Bool.and_eq_true]
      refine ⟨by simpa using h2, ?_⟩
      split
      · rfl
      · rename_i m hm
        simpa using h3 m hm

theorem matchParts_iff : ∀ (ps : List (List Occ)), (ps.flatten.map (·.name)).Nodup → ∀ (tags tys : List String),
    matchParts ps tags = some tys ↔ ∃ w, SeqWord ps w ∧ tags = w.map (·.1) ∧ tys = w.map (·.2) := by
  intro ps
  induction ps with
  | nil =>
    intro _ tags tys
    rw [matchParts]
    constructor
    · intro h
      split at h
      · rename_i e; cases h; exact ⟨[], rfl, by simpa using e, rfl⟩
      · cases h
    · rintro ⟨w, h, rfl, rfl⟩
      rw [SeqWord] at h
      subst h
      rfl
  | cons p ps ih =>
    intro hn tags tys
    rw [List.flatten_cons, List.map_append] at hn
    have hn1 := (List.nodup_append.1 hn).1
    have hn2 := (List.nodup_append.1 hn).2.1
    have hn3 := (List.nodup_append.1 hn).2.2
    rw [matchParts]
    constructor
    · intro h
      split at h
      · cases h
      · rename_i ts rest hp
        obtain ⟨u, hu, rfl, rfl⟩ := matchPart_word hp
        cases hr : matchParts ps rest with
        | none => rw [hr] at h; cases h
        | some tys' =>
          rw [hr] at h
          cases h
          obtain ⟨v, hv, rfl, rfl⟩ := (ih hn2 _ _).1 hr
          exact ⟨u ++ v, ⟨u, v, rfl, hu, hv⟩, by simp, by simp⟩
    · rintro ⟨w, ⟨u, v, rfl, hu, hv⟩, rfl, rfl⟩
      rw [List.map_append, matchPart_complete hn1 hu]
      · simp only
        rw [(ih hn2 _ _).2 ⟨v, hv, rfl, rfl⟩]
        simp
      · intro t ht hm
        have h1 : t ∈ v.map (·.1) := List.mem_of_head? ht
        exact hn3 t hm t (seqWord_names hv t h1) rfl

/-! ## Elements -/

theorem attrsOk_iff {ct : CType} (hn : (ct.attrs.map (·.name)).Nodup) (as : List (String × String)) : attrsOk ct as = true ↔ AttrsValid ct as := by
  unfold attrsOk AttrsValid
  rw [Bool.and_eq_true, List.all_eq_true, List.all_eq_true]
  refine and_congr (forall₂_congr fun p _ => ?_) (forall₂_congr fun d _ => ?_)
  · constructor
    · intro h
      split at h
      · rename_i d hd
        exact ⟨d, List.mem_of_find?_eq_some hd, by simpa using List.find?_some hd, (simple_valid_iff _ _).1 h⟩
      · cases h
    · rintro ⟨d, hd, h1, h2⟩
      have : ct.attrs.find? (fun d => d.name = p.1) = some d := by
        have : ∃ x, ct.attrs.find? (fun d => d.name = p.1) = some x := by
          rw [← Option.isSome_iff_exists, List.find?_isSome]
          exact ⟨d, hd, by simpa using h1⟩
        obtain ⟨x, hx⟩ := this
        have hx1 : x.name = p.1 := by simpa using List.find?_some hx
        rw [hx, List.inj_on_of_nodup_map hn (List.mem_of_find?_eq_some hx) hd (hx1.trans h1.symm)]
      rw [this]
      exact (simple_valid_iff _ _).2 h2
  · rw [Bool.or_eq_true, List.any_eq_true]
    cases hd : d.required with
    | false => simp
    | true =>
      simp only [Bool.not_true, Bool.false_eq_true, false_or, forall_const, decide_eq_true_eq]

theorem textOk_iff (ct : CType) (tx : Option String) : textOk ct tx = true ↔ TextValid ct tx := by
  unfold textOk TextValid
  rw [Bool.or_eq_true]
  refine or_congr Iff.rfl ?_
  cases hp : ct.parts with
  | nil =>
    simp
  | cons a t =>
    simp only [List.isEmpty_cons, Bool.false_eq_true, if_false, List.all_eq_true, reduceCtorEq, false_and, false_or, ne_eq, not_false_eq_true, true_and]
    cases tx with
    | none => simp
    | some s =>
      simp only [Option.getD_some, Option.some.injEq, forall_eq']
      exact forall₂_congr fun c _ => xmlSpace_iff c

theorem simpleOf_iff (ty : String) (t : Simple) : simpleOf ty = some t ↔ BuiltIn ty t := by
  constructor
  · intro h
    unfold simpleOf at h
    split at h
    · rename_i e; cases h; subst e; exact .string
    · split at h
      · rename_i e; cases h; subst e; exact .integer
      · split at h
        · rename_i e; cases h; subst e; exact .nonNegative
        · cases h
  · rintro (_ | _ | _) <;> rfl

theorem get?_of_mem {α : Type} {d : Dict α} {k : String} {v : α} (hn : (d.map (·.1)).Nodup) (h : (k, v) ∈ d) : Dict.get? d k = some v := by
  induction d with
  | nil => cases h
  | cons a t ih =>
    obtain ⟨x, y⟩ := a
    rw [List.map_cons, List.nodup_cons] at hn
    rw [Dict.get?]
    rcases List.mem_cons.1 h with h | h
    · cases h; simp
    · rw [if_neg]
      · exact ih hn.2 h
      · rintro rfl
        exact hn.1 (List.mem_map_of_mem (f := (·.1)) h)

theorem simpleOf_none {S : Schema} (hd : Deterministic S) {ty : String} {ct : CType} (h : (ty, ct) ∈ S.types) : simpleOf ty = none := by
  have := (hd.2 _ h).2.2
  simp only [List.mem_cons, List.not_mem_nil, or_false, not_or] at this
  unfold simpleOf
  rw [if_neg this.1, if_neg this.2.1, if_neg this.2.2]

mutual
theorem validE_iff {S : Schema} (hd : Deterministic S) : ∀ (e : Elem) (ty : String), validE S e ty = true ↔ ValidElem S e ty
  | ⟨tag, as, tx, ch⟩, ty => by
    constructor
    · intro h
      rw [validE] at h
      cases hs : simpleOf ty with
      | some t =>
        rw [hs] at h
        simp only [Bool.and_eq_true, List.isEmpty_iff] at h
        exact .simple ((simpleOf_iff _ _).1 hs) h.1.1 h.1.2 ((simple_valid_iff _ _).1 h.2)
      | none =>
        rw [hs] at h
        simp only at h
        cases ht : Dict.get? S.types ty with
        | none => rw [ht] at h; cases h
        | some ct =>
          rw [ht] at h
          have hm := mem_of_get? ht
          obtain ⟨d1, d2, _⟩ := hd.2 _ hm
          simp only [Bool.and_eq_true] at h
          obtain ⟨⟨h1, h2⟩, h3⟩ := h
          split at h3
          · cases h3
          · rename_i tys hp
            obtain ⟨w, hw, ht1, rfl⟩ := (matchParts_iff _ d1 _ _).1 hp
            exact .complex hm ((attrsOk_iff d2 _).1 h1) ((textOk_iff _ _).1 h2) w hw ht1 ((validL_iff hd ch _ (by simpa using congrArg List.length ht1)).1 h3)
    · intro h
      rw [validE]
      cases h with
      | simple h ha hc ht =>
        rw [(simpleOf_iff _ _).2 h]
        simp only at ha hc ht
        subst ha hc
        simpa using (simple_valid_iff _ _).2 ht
      | complex h ha ht w hw htags hc =>
        rw [simpleOf_none hd h]
        simp only
        rw [get?_of_mem hd.1 h]
        obtain ⟨d1, d2, _⟩ := hd.2 _ h
        simp only
        rw [(attrsOk_iff d2 _).2 ha, (textOk_iff _ _).2 ht, (matchParts_iff _ d1 _ _).2 ⟨w, hw, htags, rfl⟩]
        simp only [Bool.and_self, Bool.true_and]
        exact (validL_iff hd ch _ (by simpa using congrArg List.length htags)).2 hc
termination_by structural e => e
theorem validL_iff {S : Schema} (hd : Deterministic S) : ∀ (l : List Elem) (tys : List String), l.length = tys.length →
    (validL S l tys = true ↔ ∀ q ∈ l.zip tys, ValidElem S q.1 q.2)
  | [], tys, hl => by
    cases tys with
    | nil => rw [validL]; simp
    | cons _ _ => cases hl
  | e :: r, tys, hl => by
    cases tys with
    | nil => cases hl
    | cons ty ts =>
      rw [validL]
      simp only [Bool.and_eq_true, List.zip_cons_cons, List.forall_mem_cons]
      rw [validE_iff hd e ty, validL_iff hd r ts (by simpa using hl)]
termination_by structural l => l
end

/-- The schema of the library is deterministic. -/
theorem ucisXsd_deterministic : Deterministic ucisXsd := by decide +kernel

/-- **C71, C40** The checker of the model decides validity as the recommendation describes it. -/
theorem valid_iff (doc : Elem) : valid ucisXsd doc = true ↔ ValidDoc ucisXsd doc := by
  unfold valid ValidDoc
  rw [Bool.and_eq_true, beq_iff_eq, validE_iff ucisXsd_deterministic]

/-- A valid element in terms of the description. -/
example : ValidElem ucisXsd ⟨"historyNodes", [], none, []⟩ "HISTORY_NODE" → False := by
  rw [← validE_iff ucisXsd_deterministic]
  decide +kernel
example : ValidElem ucisXsd ⟨"sourceFiles", [("fileName", "a.sv"), ("id", " +1 ")], none, []⟩ "SOURCE_FILE" := by
  rw [← validE_iff ucisXsd_deterministic]
  decide +kernel

end Xsd
end Verif
