import Verif.XsdThms
import Verif.XmlThms5
import Verif.XmlFactory
/-!
# C71: schema-valid documents and the reader; examples and refutations for C40
-/

namespace Verif
namespace Xsd
open Xml Spec PyNum

/-! ## Integers of the schema are integers for `int()` -/

theorem isSpace_xmlSpace {c : Char} (h : xmlSpace c = true) : isSpace c = true := by
  unfold xmlSpace at h
  simp only [Bool.or_eq_true, beq_iff_eq] at h
  rcases h with ((rfl | rfl) | rfl) | rfl <;> decide

theorem trim_decomp (l : List Char) : ∃ a b, l = a ++ trim l ++ b ∧ (∀ c ∈ a, xmlSpace c = true) ∧ ∀ c ∈ b, xmlSpace c = true := by
  refine ⟨l.takeWhile xmlSpace, ((l.dropWhile xmlSpace).reverse.takeWhile xmlSpace).reverse, ?_, ?_, ?_⟩
  · unfold trim
    rw [List.append_assoc, ← List.reverse_append, List.takeWhile_append_dropWhile, List.reverse_reverse, List.takeWhile_append_dropWhile]
  · intro c hc; exact List.mem_takeWhile_imp hc
  · intro c hc; exact List.mem_takeWhile_imp (List.mem_reverse.1 hc)

theorem stripL_of_trim {l : List Char} (h1 : ∀ c, (trim l).head? = some c → isSpace c = false)
    (h2 : ∀ c, (trim l).getLast? = some c → isSpace c = false) (hne : trim l ≠ []) : stripL l = trim l := by
  obtain ⟨a, b, hl, ha, hb⟩ := trim_decomp l
  have hd : ∀ {l : List Char}, (∀ c, l.head? = some c → isSpace c = false) → l ≠ [] → ∀ r, (l ++ r).dropWhile isSpace = l ++ r := by
    intro l h hn r
    cases l with
    | nil => exact absurd rfl hn
    | cons x t => rw [List.cons_append, List.dropWhile_cons, h x rfl]; simp
  unfold stripL
  conv_lhs => rw [hl]
  rw [List.append_assoc, List.dropWhile_append_of_pos (fun c hc => isSpace_xmlSpace (ha c hc)), hd h1 hne, List.reverse_append,
    List.dropWhile_append_of_pos (fun c hc => isSpace_xmlSpace (hb c (List.mem_reverse.1 hc)))]
  have := hd (l := (trim l).reverse) (by rw [List.head?_reverse]; exact h2) (by simpa using hne) []
  rw [List.append_nil] at this
  rw [this, List.reverse_reverse]

theorem digits_spec {l : List Char} (h : digits l = true) : l ≠ [] ∧ ∀ c ∈ l, c.isDigit = true := by
  unfold digits at h
  simpa using h

theorem parseIntL_of_integerVal {l : List Char} {z : Int} (h : integerVal l = some z) : parseIntL l = some z := by
  have hstrip : stripL l = trim l := by
    have key : ∀ (t : List Char), digits t = true → ∀ (s : List Char), (∀ c ∈ s, isSpace c = false) →
        trim l = s ++ t → stripL l = trim l := by
      intro t ht s hs e
      obtain ⟨hne, hd⟩ := digits_spec ht
      have hall : ∀ c ∈ trim l, isSpace c = false := by
        rw [e]
        intro c hc
        rcases List.mem_append.1 hc with hc | hc
        · exact hs c hc
        · exact isSpace_digit (hd c hc)
      exact stripL_of_trim (fun c hc => hall c (List.mem_of_head? hc)) (fun c hc => hall c (List.mem_of_getLast? hc))
        (by rw [e]; simp [hne])
    unfold integerVal at h
    split at h
    · rename_i t e
      split at h
      · rename_i hd; exact key t hd ['-'] (by simp; decide) e
      · cases h
    · rename_i t e
      split at h
      · rename_i hd; exact key t hd ['+'] (by simp; decide) e
      · cases h
    · split at h
      · rename_i hd; exact key _ hd [] (by simp) rfl
      · cases h
  unfold parseIntL
  rw [hstrip]
  unfold integerVal at h
  split at h
  · rename_i t e
    split at h
    · rename_i hd
      obtain ⟨hne, hd⟩ := digits_spec hd
      cases h
      simp only [e]
      rw [digitsVal_digits t hd 0 false (.inr hne)]; rfl
    · cases h
  · rename_i t e
    split at h
    · rename_i hd
      obtain ⟨hne, hd⟩ := digits_spec hd
      cases h
      simp only [e]
      rw [digitsVal_digits t hd 0 false (.inr hne)]; rfl
    · cases h
  · rename_i h1 h2
    split at h
    · rename_i hd
      obtain ⟨hne, hd⟩ := digits_spec hd
      cases h
      split
      · rename_i t e; exact absurd e (h1 t)
      · rename_i t e; exact absurd e (h2 t)
      · rw [digitsVal_digits _ hd 0 false (.inr hne)]; rfl
    · cases h

/-! ## Types of the elements of a valid document -/

theorem matchOcc_eq (o : Occ) (tags : List String) : matchOcc o tags =
    if o.allows (tags.takeWhile (fun t => t = o.name)).length then
      some (List.replicate (tags.takeWhile (fun t => t = o.name)).length o.type, tags.drop (tags.takeWhile (fun t => t = o.name)).length)
    else none := rfl

theorem matchPart_typed {p : List Occ} {tags tys rest : List String} (h : matchPart p tags = some (tys, rest)) :
    ∃ o ∈ p, ∃ n, tags = List.replicate n o.name ++ rest ∧ tys = List.replicate n o.type ∧ o.min ≤ n := by
  unfold matchPart at h
  split at h
  · rename_i o ho
    refine ⟨o, List.mem_of_find?_eq_some ho, (tags.takeWhile (fun t => t = o.name)).length, ?_⟩
    rw [matchOcc_eq] at h
    split at h
    · rename_i hc
      unfold Occ.allows at hc
      simp only [Option.some.injEq, Prod.mk.injEq] at h
      obtain ⟨rfl, rfl⟩ := h
      refine ⟨?_, rfl, by simp only [Bool.and_eq_true, decide_eq_true_eq] at hc; exact hc.1⟩
      have h1 : tags.takeWhile (fun t => t = o.name) = List.replicate (tags.takeWhile (fun t => t = o.name)).length o.name := by
        rw [List.eq_replicate_iff]
        exact ⟨rfl, fun b hb => by simpa using List.mem_takeWhile_imp hb⟩
      conv_lhs => rw [← List.takeWhile_append_dropWhile (p := fun t => decide (t = o.name)) (l := tags), h1]
      congr 1
      have h2 : (tags.takeWhile (fun t => t = o.name) ++ tags.dropWhile (fun t => t = o.name)).drop
          (tags.takeWhile (fun t => t = o.name)).length = tags.dropWhile (fun t => t = o.name) := List.drop_left
      rw [List.takeWhile_append_dropWhile] at h2
      exact h2.symm
    · cases h
  · split at h
    · rename_i hc
      simp only [Option.some.injEq, Prod.mk.injEq] at h
      obtain ⟨rfl, rfl⟩ := h
      obtain ⟨o, ho, hm⟩ := List.any_eq_true.1 hc
      exact ⟨o, ho, 0, by simp, by simp, by simpa using hm⟩
    · cases h

/-- The tags and types assigned by a sequence belong to its particles. -/
theorem matchParts_typed : ∀ (ps : List (List Occ)) (tags tys : List String), matchParts ps tags = some tys →
    tys.length = tags.length ∧ ∀ q ∈ tags.zip tys, ∃ o ∈ ps.flatten, o.name = q.1 ∧ o.type = q.2 := by
  intro ps
  induction ps with
  | nil =>
    intro tags tys h
    rw [matchParts] at h
    split at h
    · rename_i e; cases h; subst e; simp
    · cases h
  | cons p ps ih =>
    intro tags tys h
    rw [matchParts] at h
    split at h
    · cases h
    · rename_i ts rest hp
      cases hr : matchParts ps rest with
      | none => rw [hr] at h; cases h
      | some tys' =>
        rw [hr] at h
        cases h
        obtain ⟨o, ho, n, rfl, rfl, _⟩ := matchPart_typed hp
        obtain ⟨hl, hq⟩ := ih rest tys' hr
        refine ⟨by simp [hl], ?_⟩
        intro q hq'
        rw [List.zip_append (by simp)] at hq'
        rcases List.mem_append.1 hq' with h1 | h1
        · obtain ⟨a, b⟩ := q
          have := List.of_mem_zip h1
          exact ⟨o, List.mem_flatten.2 ⟨p, by simp, ho⟩, (List.eq_of_mem_replicate this.1).symm, (List.eq_of_mem_replicate this.2).symm⟩
        · obtain ⟨o', ho', e⟩ := hq q h1
          exact ⟨o', by rw [List.flatten_cons]; exact List.mem_append.2 (.inr ho'), e⟩

/-- A part that cannot be empty has an element. -/
theorem matchParts_min : ∀ (ps : List (List Occ)) (tags tys : List String), matchParts ps tags = some tys →
    ∀ p ∈ ps, (∀ o ∈ p, 1 ≤ o.min) → ∃ o ∈ p, o.name ∈ tags := by
  intro ps
  induction ps with
  | nil => intro _ _ _ p hp; simp at hp
  | cons q ps ih =>
    intro tags tys h p hp hm
    rw [matchParts] at h
    split at h
    · cases h
    · rename_i ts rest hq
      obtain ⟨o, ho, n, rfl, rfl, hn⟩ := matchPart_typed hq
      cases hr : matchParts ps rest with
      | none => rw [hr] at h; cases h
      | some tys' =>
        rcases List.mem_cons.1 hp with rfl | hp
        · have := hm o ho
          exact ⟨o, ho, List.mem_append.2 (.inl (List.mem_replicate.2 ⟨by omega, rfl⟩))⟩
        · obtain ⟨o', ho', hm'⟩ := ih rest tys' hr p hp hm
          exact ⟨o', ho', List.mem_append.2 (.inr hm')⟩

theorem validL_mem {S : Schema} : ∀ (ch : List Elem) (tys : List String), validL S ch tys = true →
    ∀ q ∈ ch.zip tys, validE S q.1 q.2 = true := by
  intro ch
  induction ch with
  | nil => intro tys _ q hq; simp at hq
  | cons e r ih =>
    intro tys h q hq
    cases tys with
    | nil => simp at hq
    | cons ty ts =>
      rw [validL] at h
      have h' : (validE S e ty && validL S r ts) = true := h
      rw [Bool.and_eq_true] at h'
      rw [List.zip_cons_cons] at hq
      rcases List.mem_cons.1 hq with rfl | hq
      · exact h'.1
      · exact ih ts h'.2 q hq

/-- What validity for a complex type says. -/
theorem valid_inv {S : Schema} {ty : String} {ct : CType} (hs : simpleOf ty = none) (ht : Dict.get? S.types ty = some ct) {e : Elem}
    (h : validE S e ty = true) :
    attrsOk ct e.attrs = true ∧ (∀ c ∈ e.children, ∃ o ∈ ct.parts.flatten, o.name = c.tag ∧ validE S c o.type = true) ∧
      ∀ p ∈ ct.parts, (∀ o ∈ p, 1 ≤ o.min) → ∃ o ∈ p, ∃ c ∈ e.children, c.tag = o.name := by
  obtain ⟨tag, as, tx, ch⟩ := e
  rw [validE_complex hs ht] at h
  simp only [Bool.and_eq_true] at h
  obtain ⟨⟨h1, _⟩, h3⟩ := h
  refine ⟨h1, ?_⟩
  split at h3
  · cases h3
  · rename_i tys hm
    obtain ⟨hl, hq⟩ := matchParts_typed _ _ _ hm
    rw [List.length_map] at hl
    constructor
    · intro c hc
      obtain ⟨k, hk, rfl⟩ := List.mem_iff_getElem.1 hc
      have hk' : k < tys.length := by rw [hl]; exact hk
      obtain ⟨o, ho, e1, e2⟩ := hq (ch[k].tag, tys[k]) (by
        rw [List.mem_iff_getElem]
        exact ⟨k, by simpa [hl] using hk, by simp⟩)
      refine ⟨o, ho, e1, ?_⟩
      rw [e2]
      exact validL_mem _ _ h3 (ch[k], tys[k]) (by
        rw [List.mem_iff_getElem]
        exact ⟨k, by simpa [hl] using hk, by simp⟩)
    · intro p hp hmin
      obtain ⟨o, ho, hm'⟩ := matchParts_min _ _ _ hm p hp hmin
      obtain ⟨c, hc, e⟩ := List.mem_map.1 hm'
      exact ⟨o, ho, c, hc, e⟩

/-- All particles of a schema. -/
def occs (S : Schema) : List Occ := S.types.flatMap (fun t => t.2.parts.flatten)

theorem mem_of_get? {α : Type} {d : Dict α} {k : String} {v : α} (h : Dict.get? d k = some v) : (k, v) ∈ d := by
  induction d with
  | nil => cases h
  | cons a t ih =>
    obtain ⟨x, y⟩ := a
    rw [Dict.get?] at h
    split at h
    · rename_i e; cases h; subst e; simp
    · exact List.mem_cons_of_mem _ (ih h)

theorem children_typed {S : Schema} {e : Elem} {ty : String} (h : validE S e ty = true) :
    ∀ c ∈ e.children, ∃ o ∈ occs S, o.name = c.tag ∧ validE S c o.type = true := by
  cases hs : simpleOf ty with
  | some t =>
    obtain ⟨tag, as, tx, ch⟩ := e
    rw [validE] at h
    simp only [hs, Bool.and_eq_true, List.isEmpty_iff] at h
    intro c hc
    have : ch = [] := h.1.2
    rw [show (Elem.mk tag as tx ch).children = ch from rfl, this] at hc
    simp at hc
  | none =>
    cases ht : Dict.get? S.types ty with
    | none =>
      obtain ⟨tag, as, tx, ch⟩ := e
      rw [validE] at h
      simp only [hs, ht] at h
      cases h
    | some ct =>
      intro c hc
      obtain ⟨o, ho, e1⟩ := (valid_inv hs ht h).2.1 c hc
      exact ⟨o, List.mem_flatMap.2 ⟨(ty, ct), mem_of_get? ht, ho⟩, e1⟩

mutual
theorem typed : ∀ (e : Elem) {S : Schema} {ty : String}, validE S e ty = true →
    ∀ x ∈ preorder e, x = e ∨ ∃ o ∈ occs S, o.name = x.tag ∧ validE S x o.type = true
  | ⟨tag, as, tx, ch⟩, S, ty, h, x, hx => by
    rw [preorder] at hx
    rcases List.mem_cons.1 hx with rfl | hx
    · exact .inl rfl
    · exact .inr (typedL ch (children_typed h) x hx)
termination_by structural e => e
theorem typedL : ∀ (l : List Elem) {S : Schema}, (∀ c ∈ l, ∃ o ∈ occs S, o.name = c.tag ∧ validE S c o.type = true) →
    ∀ x ∈ preorderL l, ∃ o ∈ occs S, o.name = x.tag ∧ validE S x o.type = true
  | [], _, _, x, hx => by rw [preorderL] at hx; simp at hx
  | e :: t, S, h, x, hx => by
    rw [preorderL] at hx
    rw [List.forall_mem_cons] at h
    rcases List.mem_append.1 hx with hx | hx
    · obtain ⟨o, ho, e1, e2⟩ := h.1
      rcases typed e e2 x hx with rfl | hh
      · exact ⟨o, ho, e1, e2⟩
      · exact hh
    · exact typedL t h.2 x hx
termination_by structural l => l
end

theorem typed_within {S : Schema} {e : Elem} {ty t ty' : String} (h : validE S e ty = true) (hne : e.tag ≠ t)
    (hty : ∀ o ∈ occs S, o.name = t → o.type = ty') {x : Elem} (hx : x ∈ within t e) : validE S x ty' = true := by
  unfold within at hx
  rw [List.mem_filter, decide_eq_true_eq] at hx
  rcases typed e h x hx.1 with rfl | ⟨o, ho, e1, e2⟩
  · exact absurd hx.2 hne
  · rwa [hty o ho (e1.trans hx.2)] at e2

theorem tag_within {t : String} {e x : Elem} (h : x ∈ within t e) : x.tag = t := by
  unfold within at h
  simpa using (List.mem_filter.1 h).2

/-! ## Attributes of valid elements -/

theorem attr_required {ct : CType} {e : Elem} (h : attrsOk ct e.attrs = true) {n : String} (hr : ct.attrs.any (fun d => d.name = n && d.required) = true) :
    attr e n ≠ none := by
  rw [attrsOk_eq, Bool.and_eq_true] at h
  obtain ⟨d, hd, hn⟩ := List.any_eq_true.1 hr
  rw [Bool.and_eq_true, decide_eq_true_eq] at hn
  have := List.all_eq_true.1 h.2 d hd
  rw [hn.2, Bool.not_true, Bool.false_or, hn.1] at this
  unfold attr
  intro hc
  rw [Option.map_eq_none_iff, List.find?_eq_none] at hc
  obtain ⟨p, hp, hp'⟩ := List.any_eq_true.1 this
  exact hc p hp hp'

theorem attr_valid {ct : CType} {e : Elem} (h : attrsOk ct e.attrs = true) {n v : String} {t : Simple}
    (hf : (ct.attrs.find? (fun d => d.name = n)).map (·.type) = some t) (hv : attr e n = some v) : t.valid v = true := by
  rw [attrsOk_eq, Bool.and_eq_true] at h
  unfold attr at hv
  obtain ⟨p, hp, rfl⟩ := Option.map_eq_some_iff.1 hv
  have hpn : p.1 = n := by simpa using List.find?_some hp
  have := List.all_eq_true.1 h.1 p (List.mem_of_find?_eq_some hp)
  unfold attrOk at this
  rw [hpn] at this
  cases hd : ct.attrs.find? (fun d => d.name = n) with
  | none => rw [hd] at hf; cases hf
  | some d =>
    rw [hd] at hf this
    cases hf
    exact this

/-- The integer types. -/
def Simple.IsInt (t : Simple) : Prop := t = .integer ∨ t = .nonNeg ∨ t = .pos

theorem parseInt_of_valid {t : Simple} (ht : t.IsInt) {v : String} (h : t.valid v = true) : ∃ z, parseInt v = .ok z := by
  have : ∃ z, integerVal v.toList = some z := by
    cases hz : integerVal v.toList with
    | some z => exact ⟨z, rfl⟩
    | none => rcases ht with rfl | rfl | rfl <;> simp [Simple.valid, hz] at h
  obtain ⟨z, hz⟩ := this
  refine ⟨z, ?_⟩
  unfold parseInt
  rw [parseIntL_of_integerVal hz]

theorem intAttr_valid {ct : CType} {e : Elem} (h : attrsOk ct e.attrs = true) {n : String} {t : Simple} (ht : t.IsInt)
    (hf : (ct.attrs.find? (fun d => d.name = n)).map (·.type) = some t)
    (hr : ct.attrs.any (fun d => d.name = n && d.required) = true) : IntAttr e n := by
  obtain ⟨v, hv⟩ := Option.ne_none_iff_exists'.1 (attr_required h hr)
  obtain ⟨z, hz⟩ := parseInt_of_valid ht (attr_valid h hf hv)
  exact ⟨v, z, hv, hz⟩

theorem mem_within_child {t : String} {e c : Elem} (hc : c ∈ e.children) (ht : c.tag = t) : c ∈ within t e := by
  unfold within
  rw [List.mem_filter]
  refine ⟨?_, by simpa using ht⟩
  obtain ⟨tag, as, tx, ch⟩ := e
  rw [preorder]
  refine List.mem_cons_of_mem _ ?_
  have self : ∀ x : Elem, x ∈ preorder x := by
    intro x; obtain ⟨_, _, _, _⟩ := x; rw [preorder]; simp
  have : ∀ l : List Elem, c ∈ l → c ∈ preorderL l := by
    intro l
    induction l with
    | nil => simp
    | cons a r ih =>
      intro h
      rw [preorderL]
      rcases List.mem_cons.1 h with rfl | h
      · exact List.mem_append.2 (.inl (self _))
      · exact List.mem_append.2 (.inr (ih h))
  exact this ch hc

theorem contents_good {e : Elem} {ty : String} {ct : CType} (hs : simpleOf ty = none) (ht : Dict.get? ucisXsd.types ty = some ct)
    (hp : [(⟨"contents", "BIN_CONTENTS", 1, some 1⟩ : Occ)] ∈ ct.parts) (hne : e.tag ≠ "contents") (h : validE ucisXsd e ty = true) :
    ∃ c, (within "contents" e).head? = some c ∧ IntAttr c "coverageCount" := by
  obtain ⟨_, _, h3⟩ := valid_inv hs ht h
  obtain ⟨o, ho, c, hc, e1⟩ := h3 _ hp (by simp)
  rw [List.mem_singleton] at ho
  subst ho
  have hm := mem_within_child hc e1
  cases hw : within "contents" e with
  | nil => rw [hw] at hm; simp at hm
  | cons x r =>
    refine ⟨x, rfl, ?_⟩
    have hv : validE ucisXsd x "BIN_CONTENTS" = true :=
      typed_within h hne (by decide +kernel) (hw ▸ List.mem_cons_self)
    have := (valid_inv (ct := tBinContents) (by decide) rfl hv).1
    exact intAttr_valid (t := .nonNeg) this (.inr (.inl rfl)) (by decide) (by decide)

theorem bin_good {b : Elem} (ht : b.tag = "coverpointBin") (h : validE ucisXsd b "COVERPOINT_BIN" = true) : GoodBin b := by
  obtain ⟨h1, _, h3⟩ := valid_inv (ct := tCoverpointBin) (by decide) rfl h
  constructor
  · obtain ⟨v, hv⟩ := Option.ne_none_iff_exists'.1 (attr_required (n := "type") h1 (by decide))
    have := attr_valid (t := .enum ["bins", "default", "ignore", "illegal"]) h1 (by decide) hv
    rw [hv, Option.getD_some]
    simpa [Simple.valid] using this
  · have hseq : ∀ s ∈ within "sequence" b, ∃ c, (within "contents" s).head? = some c ∧ IntAttr c "coverageCount" := by
      intro s hs
      have := typed_within h (by rw [ht]; decide) (t := "sequence") (ty' := "SEQUENCE") (by decide +kernel) hs
      exact contents_good (ct := tSequence) (by decide) rfl (by simp [tSequence]) (by rw [tag_within hs]; decide) this
    have hrng : ∀ s ∈ within "range" b, ∃ c, (within "contents" s).head? = some c ∧ IntAttr c "coverageCount" := by
      intro s hs
      have := typed_within h (by rw [ht]; decide) (t := "range") (ty' := "RANGE_VALUE") (by decide +kernel) hs
      exact contents_good (ct := tRangeValue) (by decide) rfl (by simp [tRangeValue]) (by rw [tag_within hs]; decide) this
    unfold binContents
    cases hq : within "sequence" b with
    | cons s r =>
      obtain ⟨c, hc, hi⟩ := hseq s (hq ▸ List.mem_cons_self)
      exact ⟨c, by simpa using hc, hi⟩
    | nil =>
      cases hr : within "range" b with
      | cons s r =>
        obtain ⟨c, hc, hi⟩ := hrng s (hr ▸ List.mem_cons_self)
        exact ⟨c, by simpa using hc, hi⟩
      | nil =>
        obtain ⟨o, ho, c, hc, e1⟩ := h3 [⟨"range", "RANGE_VALUE", 1, none⟩, ⟨"sequence", "SEQUENCE", 1, none⟩] (by simp [tCoverpointBin]) (by simp)
        simp only [List.mem_cons, List.not_mem_nil, or_false] at ho
        rcases ho with rfl | rfl
        · have := mem_within_child hc e1; rw [hr] at this; simp at this
        · have := mem_within_child hc e1; rw [hq] at this; simp at this

end Xsd

open Xml Spec

/-- What the schema leaves open for the reader: dates without fraction and time zone, numbers `float`
accepts, declared file ids, and crosses that name coverpoints of their own covergroup instance. -/
structure Spec.Residual (flt : FloatText) (doc : Elem) : Prop where
  dates : ∀ h ∈ within "historyNodes" doc, ∀ s, attr h "date" = some s → ∃ t, DateTime.strptime DateTime.isoFmt s.toList = .ok t
  numbers : ∀ h ∈ within "historyNodes" doc, ∀ n ∈ ["simtime", "cpuTime", "cost"], FloatAttr flt h n
  files : ∀ i ∈ within "instanceCoverages" doc, ∀ d ∈ within "id" i,
    intAttr d "file" ∈ (within "sourceFiles" doc).map (fun f => intAttr f "id")
  crosses : ∀ i ∈ within "instanceCoverages" doc, ∀ c ∈ within "covergroupCoverage" i, ∀ g ∈ within "cgInstance" c,
    ∀ x ∈ within "cross" g, ∀ e ∈ within "crossExpr" x, e.text ≠ none ∧ crossed e ∈ (within "coverpoint" g).map cpName

/-- C71: a schema-valid document can be read exactly if the residual conditions hold. -/
theorem C71_valid_readable {flt : FloatText} {doc : Elem} (hv : Xsd.valid Xsd.ucisXsd doc = true) :
    (∃ db, Xml.read flt doc = .ok db) ↔ Residual flt doc := by
  rw [C37_read_accepts]
  unfold Xsd.valid at hv
  rw [Bool.and_eq_true, beq_iff_eq] at hv
  obtain ⟨htag, hv⟩ := hv
  have htag : doc.tag = "UCIS" := htag
  have hinst : ∀ i ∈ within "instanceCoverages" doc, Xsd.validE Xsd.ucisXsd i "INSTANCE_COVERAGE" = true := fun i hi =>
    Xsd.typed_within hv (by rw [htag]; decide) (by decide +kernel) hi
  have hhist : ∀ i ∈ within "historyNodes" doc, Xsd.validE Xsd.ucisXsd i "HISTORY_NODE" = true := fun i hi =>
    Xsd.typed_within hv (by rw [htag]; decide) (by decide +kernel) hi
  have hfile : ∀ i ∈ within "sourceFiles" doc, Xsd.validE Xsd.ucisXsd i "SOURCE_FILE" = true := fun i hi =>
    Xsd.typed_within hv (by rw [htag]; decide) (by decide +kernel) hi
  constructor
  · rintro ⟨_, h2, h3⟩
    refine ⟨?_, fun h hh => (h2 h hh).2.2.1, fun i hi d hd => ((h3 i hi).2.1 d hd).2.2.2, fun i hi c hc g hg x hx e he =>
      (((h3 i hi).2.2 c hc g hg).2 x hx).1 e he⟩
    intro h hh s hs
    obtain ⟨s', t, hs', ht⟩ := (h2 h hh).2.1
    rw [hs] at hs'
    cases hs'
    exact ⟨t, ht⟩
  · rintro ⟨r1, r2, r3, r4⟩
    refine ⟨?_, ?_, ?_⟩
    · intro f hf
      have := (Xsd.valid_inv (ct := Xsd.tSourceFile) (by decide) rfl (hfile f hf)).1
      exact Xsd.intAttr_valid (t := .pos) this (.inr (.inr rfl)) (by decide) (by decide)
    · intro h hh
      have ha := (Xsd.valid_inv (ct := Xsd.tHistoryNode) (by decide) rfl (hhist h hh)).1
      refine ⟨?_, ?_, r2 h hh, ?_⟩
      · intro n hn
        apply Xsd.attr_required ha
        revert n
        decide
      · obtain ⟨s, hs⟩ := Option.ne_none_iff_exists'.1 (Xsd.attr_required (n := "date") ha (by decide))
        obtain ⟨t, ht⟩ := r1 h hh s hs
        exact ⟨s, t, hs, ht⟩
      · intro v hv'
        obtain ⟨z, hz⟩ := Xsd.parseInt_of_valid (t := .nonNeg) (.inr (.inl rfl)) (Xsd.attr_valid ha (by decide) hv')
        exact ⟨v, z, hv', hz⟩
    · intro i hi
      have hvi := hinst i hi
      have hti := Xsd.tag_within hi
      have ha := (Xsd.valid_inv (ct := Xsd.tInstanceCoverage) (by decide) rfl hvi).1
      refine ⟨Xsd.attr_required ha (by decide), ?_, ?_⟩
      · intro d hd
        have hvd : Xsd.validE Xsd.ucisXsd d "STATEMENT_ID" = true := Xsd.typed_within hvi (by rw [hti]; decide) (by decide +kernel) hd
        have had := (Xsd.valid_inv (ct := Xsd.tStatementId) (by decide) rfl hvd).1
        exact ⟨Xsd.intAttr_valid (t := .pos) had (.inr (.inr rfl)) (by decide) (by decide),
          Xsd.intAttr_valid (t := .pos) had (.inr (.inr rfl)) (by decide) (by decide),
          Xsd.intAttr_valid (t := .pos) had (.inr (.inr rfl)) (by decide) (by decide), r3 i hi d hd⟩
      · intro c hc g hg
        have hvc : Xsd.validE Xsd.ucisXsd c "COVERGROUP_COVERAGE" = true := Xsd.typed_within hvi (by rw [hti]; decide) (by decide +kernel) hc
        have hvg : Xsd.validE Xsd.ucisXsd g "CGINSTANCE" = true :=
          Xsd.typed_within hvc (by rw [Xsd.tag_within hc]; decide) (by decide +kernel) hg
        constructor
        · intro p hp b hb
          have hvp : Xsd.validE Xsd.ucisXsd p "COVERPOINT" = true :=
            Xsd.typed_within hvg (by rw [Xsd.tag_within hg]; decide) (by decide +kernel) hp
          have hvb : Xsd.validE Xsd.ucisXsd b "COVERPOINT_BIN" = true :=
            Xsd.typed_within hvp (by rw [Xsd.tag_within hp]; decide) (by decide +kernel) hb
          exact Xsd.bin_good (Xsd.tag_within hb) hvb
        · intro x hx
          refine ⟨r4 i hi c hc g hg x hx, ?_⟩
          intro b hb
          have hvx : Xsd.validE Xsd.ucisXsd x "CROSS" = true :=
            Xsd.typed_within hvg (by rw [Xsd.tag_within hg]; decide) (by decide +kernel) hx
          have hvb : Xsd.validE Xsd.ucisXsd b "CROSS_BIN" = true :=
            Xsd.typed_within hvx (by rw [Xsd.tag_within hx]; decide) (by decide +kernel) hb
          exact Xsd.contents_good (ct := Xsd.tCrossBin) (by decide) rfl (by simp [Xsd.tCrossBin]) (by rw [Xsd.tag_within hb]; decide) hvb

theorem factoryRead_ok {flt : FloatText} {doc : Elem} {db : Database} :
    factoryRead flt doc = .ok db ↔ Xsd.valid Xsd.ucisXsd doc = true ∧ Xml.read flt doc = .ok db := by
  unfold factoryRead
  split
  · rename_i h; simp [h]
  · rename_i h; simp [h]

/-- C71: the library reads exactly the schema-valid documents that meet the residual conditions. -/
theorem C71_library_reads {flt : FloatText} {doc : Elem} :
    (∃ db, factoryRead flt doc = .ok db) ↔ Xsd.valid Xsd.ucisXsd doc = true ∧ Residual flt doc := by
  simp only [factoryRead_ok]
  constructor
  · rintro ⟨db, h1, h2⟩; exact ⟨h1, (C71_valid_readable h1).1 ⟨db, h2⟩⟩
  · rintro ⟨h1, h2⟩
    obtain ⟨db, hd⟩ := (C71_valid_readable h1).2 h2
    exact ⟨db, h1, hd⟩

/-- C40: a database survives a file exactly if it can be written, its document conforms to the
schema, and its crosses name coverpoints of their group. -/
theorem C40_through_file_partial {env : Env} (he : GoodEnv env) {db : Database} {doc : Elem} (hw : write env db = .ok doc) :
    (∃ db', throughFile env db = .ok db') ↔ SchemaReady env.flt db ∧
      ∀ i ∈ kids ST.INSTANCE db.root, ∀ g ∈ kids ST.COVERGROUP i, ∀ c ∈ writtenGroups g, ∀ cr ∈ kids ST.CROSS c,
        ∀ n ∈ cr.cps.getD [], n ≠ "" ∧ String.ofList (PyNum.stripL n.toList) ∈ (kids ST.COVERPOINT c).map (·.name) := by
  unfold throughFile
  rw [hw]
  show (∃ db', factoryRead env.flt (reparse doc) = .ok db') ↔ _
  simp only [factoryRead_ok]
  rw [← C40_schema_partial he hw, ← C31_reads_back he hw]
  exact ⟨fun ⟨d, a, b⟩ => ⟨a, d, b⟩, fun ⟨a, d, b⟩ => ⟨d, a, b⟩⟩

/-! ## Examples and refutations -/

namespace Xml
open PyNum

/-- Integers as such, other numbers as fractions. -/
def decText : FloatText where
  show_ q := if q.den = 1 then strInt q.num else fracText.show_ q
  read s := if '/' ∈ s.toList then fracText.read s else (parseIntL s.toList).map (fun z => (z : Rat))

theorem decText_round (q : Rat) : decText.read (decText.show_ q) = some q := by
  unfold decText
  simp only
  by_cases h : q.den = 1
  · rw [if_pos h]
    have hs : '/' ∉ (strInt q.num).toList := by
      unfold strInt
      rw [String.toList_ofList]
      intro hm
      exact intL_ne_slash _ _ hm rfl
    rw [if_neg hs]
    unfold strInt
    rw [String.toList_ofList, parseIntL_intL]
    exact congrArg some ((Rat.den_eq_one_iff q).1 h)
  · rw [if_neg h]
    have hs : '/' ∈ (fracText.show_ q).toList := by
      unfold fracText
      rw [String.toList_ofList]
      simp
    rw [if_pos hs, fracText_round]

def exEnv2 : Env := ⟨"user", "2026-11-16T00:00:00", "2026-11-16T01:02:03", decText⟩

theorem exEnv2_good : GoodEnv exEnv2 where
  user := by unfold Printable; decide
  today := ⟨⟨2026, 11, 16, 0, 0, 0⟩, by decide, by decide⟩
  now := ⟨⟨2026, 11, 16, 1, 2, 3⟩, by decide, by decide⟩
  round := decText_round
  zero := by decide

end Xml

/-- Two cover-instances with bins of all kinds and a cross; a history node with times and a cost. -/
def exSchemaDb : Database where
  root := { emptyDb with children :=
    [mkInstance "top" ⟨some "b.sv", 3, 0⟩ 1 none
      [mkCovergroup "cg" ⟨some "a.sv", 7, 0⟩ 2
        [mkCoverInst "i1" SrcInfo.none 1
          [mkCoverpoint "a" SrcInfo.none 1 [mkBin "x" CT.CVGBIN 1 3, mkBin "y" CT.IGNOREBIN 1 2],
           mkCoverpoint "b" SrcInfo.none 1 [mkBin "x" CT.ILLEGALBIN 1 0],
           mkCross "ab" SrcInfo.none 1 ["a", "b"] [mkBin "<x,x>" CT.CVGBIN 1 9]],
         mkCoverInst "i2" SrcInfo.none 1 [mkCoverpoint "a" SrcInfo.none 1 [mkBin "x" CT.CVGBIN 1 5]]]]] }
  hist := [{ Hist.create 0 (some "t1") none (some "k") with date := .text "20240229235959", simTime := 12, cost := 5 }]
  files := []

/-- The hypotheses and both sides of `C40_schema_partial` and `C40_through_file_partial` are met. -/
example : (throughFile exEnv2 exSchemaDb).isOk = true ∧ (write exEnv2 exSchemaDb).isOk = true := by decide +kernel

example : SchemaReady exEnv2.flt exSchemaDb := by
  obtain ⟨doc, hw⟩ := exists_of_isOk (x := write exEnv2 exSchemaDb) (by decide +kernel)
  exact ((C40_through_file_partial exEnv2_good hw).1 (exists_of_isOk (by decide +kernel))).1

/-- A schema-valid and readable document (`C71_valid_readable`, `C71_library_reads`). -/
example : ∃ doc, Xsd.valid Xsd.ucisXsd doc = true ∧ Residual decText doc := by
  obtain ⟨doc, hw⟩ := exists_of_isOk (x := write exEnv2 exSchemaDb) (by decide +kernel)
  refine ⟨reparse doc, C71_library_reads.1 ?_⟩
  have : (throughFile exEnv2 exSchemaDb).isOk = true := by decide +kernel
  obtain ⟨db', h⟩ := exists_of_isOk this
  refine ⟨db', ?_⟩
  unfold throughFile at h
  rw [hw] at h
  exact h

/-- C40 fails as stated: the document of the empty database has no instance and is rejected, although
the writer produces it and the reader alone accepts it. -/
theorem C40_schema_refuted : ¬ ∀ (env : Env) (db : Database) (doc : Elem), GoodEnv env → write env db = .ok doc →
    Xsd.valid Xsd.ucisXsd (reparse doc) = true := by
  intro h
  obtain ⟨doc, hw⟩ := exists_of_isOk (x := write exEnv2 ⟨emptyDb, [], []⟩) (by decide +kernel)
  have := (C40_schema_partial exEnv2_good hw).1 (h exEnv2 _ doc exEnv2_good hw)
  exact this.insts (by decide +kernel)

/-- The same for a coverpoint without bins. -/
def exNoBinsDb : Database where
  root := { emptyDb with children := [mkInstance "top" SrcInfo.none 1 none
    [mkCovergroup "cg" SrcInfo.none 1 [mkCoverpoint "a" SrcInfo.none 1 []]]] }
  hist := []
  files := []

theorem C40_no_bins_refuted : ∃ (env : Env) (db : Database) (doc : Elem), GoodEnv env ∧ write env db = .ok doc ∧
    kids ST.INSTANCE db.root ≠ [] ∧ Xsd.valid Xsd.ucisXsd (reparse doc) = false := by
  obtain ⟨doc, hw⟩ := exists_of_isOk (x := write exEnv2 exNoBinsDb) (by decide +kernel)
  refine ⟨exEnv2, exNoBinsDb, doc, exEnv2_good, hw, by decide +kernel, ?_⟩
  cases hv : Xsd.valid Xsd.ucisXsd (reparse doc) with
  | false => rfl
  | true =>
    have := ((C40_schema_partial exEnv2_good hw).1 hv).groups
    revert this
    decide +kernel

/-- C71 fails without the residual conditions: a time zone in the date of a history node is valid for
the schema and raises `ValueError` in the reader. -/
theorem C71_refuted : ∃ doc, Xsd.valid Xsd.ucisXsd doc = true ∧ Xml.read decText doc = .error .valueError := by
  let env : Env := ⟨"user", "2026-11-16T00:00:00", "2026-11-16T01:02:03Z", decText⟩
  let db : Database := { exSchemaDb with hist := [] }
  obtain ⟨doc, hw⟩ := exists_of_isOk (x := write env db) (by decide +kernel)
  have h1 : (write env db).map (fun d => Xsd.valid Xsd.ucisXsd (reparse d)) = .ok true := by decide +kernel
  have h2 : throughFile env db = .error .valueError := by
    have : (throughFile env db).map (fun _ => ()) = .error .valueError := by decide +kernel
    cases h : throughFile env db with
    | ok x => rw [h] at this; cases this
    | error e => rw [h] at this; cases this; rfl
  rw [hw] at h1
  have h1 : Xsd.valid Xsd.ucisXsd (reparse doc) = true := Except.ok.inj h1
  refine ⟨reparse doc, h1, ?_⟩
  unfold throughFile at h2
  rw [hw] at h2
  have h2 : factoryRead decText (reparse doc) = .error .valueError := h2
  unfold factoryRead at h2
  rwa [if_pos h1] at h2

end Verif
