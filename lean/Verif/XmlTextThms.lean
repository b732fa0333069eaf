import Verif.XmlText

/-! # The parser finds the element in each of its texts -/

namespace Verif
namespace Xml
namespace Text
open Spec

/-! ## Lists -/

theorem takeWhile_stop {p : Char → Bool} {a r : List Char} {c : Char} (ha : ∀ x ∈ a, p x = true) (hc : p c = false) :
    (a ++ c :: r).takeWhile p = a := by
  induction a with
  | nil => simp [hc]
  | cons x a ih =>
    have hx := ha x (by simp)
    simp [hx, ih fun y hy => ha y (by simp [hy])]

theorem dropWhile_stop {p : Char → Bool} {a r : List Char} {c : Char} (ha : ∀ x ∈ a, p x = true) (hc : p c = false) :
    (a ++ c :: r).dropWhile p = c :: r := by
  induction a with
  | nil => simp [hc]
  | cons x a ih =>
    have hx := ha x (by simp)
    simp [hx, ih fun y hy => ha y (by simp [hy])]

theorem blank_space {l : List Char} (h : BlankText l) : ∀ x ∈ l, Text.space x = true := by
  intro x hx
  rcases h x hx with h | h | h <;> subst h <;> rfl

theorem name_chars {l : List Char} (h : NameText l) : ∀ x ∈ l, Text.nameChar x = true := by
  intro x hx
  rcases h.2 x hx with h | h | h | h | h
  · simp [Text.nameChar, h]
  all_goals subst h; rfl

theorem nameChar_notSpace {c : Char} (h : Text.nameChar c = true) : Text.space c = false := by
  cases hs : Text.space c with
  | false => rfl
  | true =>
    exfalso
    simp only [Text.space, Bool.or_eq_true, beq_iff_eq] at hs
    rcases hs with ((hs | hs) | hs) | hs <;> subst hs <;> exact absurd h (by decide)

/-! ## References -/

theorem numVal_append {b : Nat} {dg : Char → Option Nat} : ∀ (l : List Char) (c : Char) (n m d : Nat), numVal b dg l n = some m → dg c = some d →
    numVal b dg (l ++ [c]) n = some (m * b + d)
  | [], c, n, m, d, h, hd => by
    simp only [numVal, Option.some.injEq] at h
    subst h
    simp [numVal, hd]
  | x :: l, c, n, m, d, h, hd => by
    simp only [numVal, List.cons_append] at h ⊢
    cases hx : dg x with
    | none => simp [hx] at h
    | some v =>
      simp only [hx] at h ⊢
      exact numVal_append l c _ m d h hd

theorem numeral_val {b : Nat} {tbl : List (Char × Nat)} {dg : Char → Option Nat} (ht : ∀ p ∈ tbl, dg p.1 = some p.2) {n : Nat} {ds : List Char}
    (h : Numeral b tbl n ds) : numVal b dg ds 0 = some n := by
  induction h with
  | one hc => simp [numVal, ht _ hc]
  | more _ hc ih => exact numVal_append _ _ _ _ _ ih (ht _ hc)

theorem numeral_ne {b : Nat} {tbl : List (Char × Nat)} {n : Nat} {ds : List Char} (h : Numeral b tbl n ds) : ds ≠ [] := by
  cases h <;> simp

theorem numeral_mem {b : Nat} {tbl : List (Char × Nat)} {n : Nat} {ds : List Char} (h : Numeral b tbl n ds) : ∀ c ∈ ds, ∃ d, (c, d) ∈ tbl := by
  induction h with
  | one hc => intro c h; simp only [List.mem_singleton] at h; subst h; exact ⟨_, hc⟩
  | more _ hc ih =>
    intro c h
    rcases List.mem_append.1 h with h | h
    · exact ih c h
    · simp only [List.mem_singleton] at h
      subst h
      exact ⟨_, hc⟩

theorem decimal_digit : ∀ p ∈ decimalDigits, decDigit p.1 = some p.2 := by decide
theorem hex_digit : ∀ p ∈ hexDigits, hexDigit p.1 = some p.2 := by decide

theorem charOf_toNat {c : Char} (h : xmlChar c = true) : charOf c.toNat = some c := by
  simp [charOf, h]

theorem digit_char {tbl : List (Char × Nat)} (ht : tbl = decimalDigits ∨ tbl = hexDigits) {c : Char} (h : ∃ d, (c, d) ∈ tbl) :
    c ≠ ';' ∧ c ≠ '<' ∧ c ≠ '"' ∧ c ≠ 'x' ∧ c ≠ '\r' := by
  obtain ⟨d, h⟩ := h
  have hh : (c, d) ∈ hexDigits := by
    rcases ht with ht | ht <;> subst ht
    · exact List.mem_append_left _ h
    · exact h
  exact (show ∀ p ∈ hexDigits, p.1 ≠ ';' ∧ p.1 ≠ '<' ∧ p.1 ≠ '"' ∧ p.1 ≠ 'x' ∧ p.1 ≠ '\r' by decide) _ hh

theorem refChar_decimal {c : Char} {ds : List Char} (hc : xmlChar c = true) (h : Numeral 10 decimalDigits c.toNat ds) : refChar ('#' :: ds) = some c := by
  have hv := numeral_val decimal_digit h
  have hn := numeral_ne h
  have hm := numeral_mem h
  match ds, hn, hm, hv with
  | x :: ds, _, hm, hv =>
    have hx := (digit_char (.inl rfl) (hm x (by simp))).2.2.2.1
    rw [refChar]
    · simp [hv, charOf_toNat hc]
    · intro ds' he
      simp at he
      exact hx he.1

theorem refChar_hex {c : Char} {ds : List Char} (hc : xmlChar c = true) (h : Numeral 16 hexDigits c.toNat ds) : refChar ('#' :: 'x' :: ds) = some c := by
  have hv := numeral_val hex_digit h
  have hn := numeral_ne h
  simp [refChar, hv, hn, charOf_toNat hc]

theorem dec_ref {attr : Bool} {u : List Char} : ∀ (r acc : List Char), ';' ∉ r → ∀ {x : Char}, refChar (acc.reverse ++ r) = some x →
    dec attr (some acc) (r ++ ';' :: u) = (dec attr none u).map (x :: ·)
  | [], acc, _, x, h => by
    simp only [List.append_nil] at h
    simp [dec, h]
  | c :: r, acc, hr, x, h => by
    simp only [List.mem_cons, not_or] at hr
    have hc : c ≠ ';' := fun he => hr.1 he.symm
    simp only [List.cons_append, dec, hc, if_false]
    exact dec_ref r (c :: acc) hr.2 (by simpa using h)

theorem dec_char {attr : Bool} {c : Char} {t u : List Char} (hc : xmlChar c = true) (h : CharText attr c t) :
    dec attr none (t ++ u) = (dec attr none u).map (c :: ·) := by
  cases h with
  | plain h1 h2 h3 h4 =>
    have : (if (attr && space c) = true then ' ' else c) = c := by
      by_cases ha : attr = true
      · by_cases hb : c = ' '
        · subst hb; simp
        · have := h4 ha
          simp [space, hb, this.2.1, this.2.2, h3]
      · simp [ha]
    simp only [Bool.and_eq_true] at this
    simp [dec, h1, h2, hc, this]
  | @entity n hn =>
    have h1 : ∀ p ∈ predefined, ';' ∉ p.1 ∧ refChar p.1 = some p.2 := by decide
    obtain ⟨h2, h3⟩ := h1 _ hn
    rw [List.append_assoc]
    simp only [List.cons_append, dec, if_true, List.nil_append]
    exact dec_ref n [] h2 (by simpa using h3)
  | @decimal ds hd =>
    rw [List.append_assoc]
    simp only [List.cons_append, List.nil_append]
    rw [dec, if_pos rfl]
    refine dec_ref ('#' :: ds) [] ?_ (by simpa using refChar_decimal hc hd)
    simp only [List.mem_cons, not_or]
    exact ⟨by decide, fun h => (digit_char (.inl rfl) (numeral_mem hd _ h)).1 rfl⟩
  | @hex ds hd =>
    rw [List.append_assoc]
    simp only [List.cons_append, List.nil_append]
    rw [dec, if_pos rfl]
    refine dec_ref ('#' :: 'x' :: ds) [] ?_ (by simpa using refChar_hex hc hd)
    simp only [List.mem_cons, not_or]
    exact ⟨by decide, by decide, fun h => (digit_char (.inr rfl) (numeral_mem hd _ h)).1 rfl⟩

/-- Text is read back as it was. -/
theorem dec_str {attr : Bool} {s t : List Char} (h : StrText attr s t) : dec attr none t = some s := by
  induction h with
  | nil => rfl
  | cons hc ht _ ih => simp [dec_char hc ht, ih]

theorem charText_mem {attr : Bool} {c : Char} {t : List Char} (h : CharText attr c t) : ∀ x ∈ t, x ≠ '<' ∧ x ≠ '\r' ∧ (attr = true → x ≠ '"') := by
  intro x hx
  cases h with
  | plain h1 h2 h3 h4 =>
    simp only [List.mem_singleton] at hx
    subst hx
    exact ⟨h1, h3, fun ha => (h4 ha).1⟩
  | @entity n hn =>
    have h1 : ∀ p ∈ predefined, ∀ x ∈ p.1, x ≠ '<' ∧ x ≠ '\r' ∧ x ≠ '"' := by decide
    simp only [List.cons_append, List.mem_cons, List.mem_append, List.not_mem_nil, or_false] at hx
    rcases hx with hx | hx | hx
    · subst hx; exact ⟨by decide, by decide, fun _ => by decide⟩
    · have := h1 _ hn x hx
      exact ⟨this.1, this.2.1, fun _ => this.2.2⟩
    · subst hx; exact ⟨by decide, by decide, fun _ => by decide⟩
  | @decimal ds hd =>
    simp only [List.cons_append, List.mem_cons, List.mem_append, List.not_mem_nil, or_false] at hx
    rcases hx with hx | hx | hx | hx
    · subst hx; exact ⟨by decide, by decide, fun _ => by decide⟩
    · subst hx; exact ⟨by decide, by decide, fun _ => by decide⟩
    · have := digit_char (.inl rfl) (numeral_mem hd x hx)
      exact ⟨this.2.1, this.2.2.2.2, fun _ => this.2.2.1⟩
    · subst hx; exact ⟨by decide, by decide, fun _ => by decide⟩
  | @hex ds hd =>
    simp only [List.cons_append, List.mem_cons, List.mem_append, List.not_mem_nil, or_false] at hx
    rcases hx with hx | hx | hx | hx | hx
    · subst hx; exact ⟨by decide, by decide, fun _ => by decide⟩
    · subst hx; exact ⟨by decide, by decide, fun _ => by decide⟩
    · subst hx; exact ⟨by decide, by decide, fun _ => by decide⟩
    · have := digit_char (.inr rfl) (numeral_mem hd x hx)
      exact ⟨this.2.1, this.2.2.2.2, fun _ => this.2.2.1⟩
    · subst hx; exact ⟨by decide, by decide, fun _ => by decide⟩

theorem strText_mem {attr : Bool} {s t : List Char} (h : StrText attr s t) : ∀ x ∈ t, x ≠ '<' ∧ x ≠ '\r' ∧ (attr = true → x ≠ '"') := by
  induction h with
  | nil => simp
  | cons _ ht _ ih =>
    intro x hx
    rcases List.mem_append.1 hx with hx | hx
    · exact charText_mem ht x hx
    · exact ih x hx

/-! ## Tags -/

theorem name_head {n : List Char} (h : NameText n) : ∃ c r, n = c :: r ∧ nameChar c = true := by
  match n, h with
  | c :: r, h => exact ⟨c, r, rfl, (name_chars h) c (by simp)⟩
  | [], h => exact absurd rfl h.1

theorem nameChar_ne {c : Char} (h : nameChar c = true) : c ≠ '/' ∧ c ≠ '>' ∧ c ≠ '=' ∧ c ≠ '<' ∧ c ≠ '"' ∧ c ≠ '\r' := by
  refine ⟨?_, ?_, ?_, ?_, ?_, ?_⟩ <;> intro he <;> subst he <;> exact absurd h (by decide)

/-- One attribute or declaration. -/
theorem pAttrs_one {ws n t u : List Char} {v : List Char} {k : Nat} (hw : ws ≠ []) (hb : BlankText ws) (hn : NameText n) (ht : StrText true v t) :
    pAttrs (k + 1) (ws ++ (n ++ '=' :: '"' :: (t ++ '"' :: u))) =
      (pAttrs k u).map fun p => (if declares n then p.1 else (String.ofList n, String.ofList v) :: p.1, p.2) := by
  obtain ⟨c, r, rfl, hc⟩ := name_head hn
  have h1 : (ws ++ (c :: r ++ '=' :: '"' :: (t ++ '"' :: u))).dropWhile space = c :: r ++ '=' :: '"' :: (t ++ '"' :: u) := by
    exact dropWhile_stop (blank_space hb) (nameChar_notSpace hc)
  have h2 : (c :: r ++ '=' :: '"' :: (t ++ '"' :: u)).takeWhile nameChar = c :: r := takeWhile_stop (name_chars hn) (by decide)
  have h3 : (c :: r ++ '=' :: '"' :: (t ++ '"' :: u)).dropWhile nameChar = '=' :: '"' :: (t ++ '"' :: u) := dropWhile_stop (name_chars hn) (by decide)
  have hl : (c :: r ++ '=' :: '"' :: (t ++ '"' :: u)).length ≠ (ws ++ (c :: r ++ '=' :: '"' :: (t ++ '"' :: u))).length := by
    have := List.length_pos_of_ne_nil hw
    simp only [List.length_append]
    omega
  have hq : ∀ x ∈ t, (x != '"') = true := by
    intro x hx
    simpa using (strText_mem ht x hx).2.2 rfl
  have h4 : (t ++ '"' :: u).takeWhile (· != '"') = t := takeWhile_stop hq (by decide)
  have h5 : (t ++ '"' :: u).dropWhile (· != '"') = '"' :: u := dropWhile_stop hq (by decide)
  have hne := nameChar_ne hc
  have h6 : ('=' :: '"' :: (t ++ '"' :: u)).dropWhile space = '=' :: '"' :: (t ++ '"' :: u) := by
    simp [space]
  have h7 : ('"' :: (t ++ '"' :: u)).dropWhile space = '"' :: (t ++ '"' :: u) := by
    simp [space]
  rw [pAttrs, h1]
  simp only [List.cons_append] at h2 h3 hl ⊢
  split
  · rename_i heq
    simp only [List.cons.injEq] at heq
    exact absurd heq.1 hne.1
  · rename_i heq
    simp only [List.cons.injEq] at heq
    exact absurd heq.1 hne.2.1
  · rw [if_neg (by rw [h2]; simp only [List.isEmpty_cons, Bool.false_eq_true, or_false]; exact hl), h3, h6]
    simp only [h7, true_or, if_true, h4, h5, dec_str ht, h2]
    cases pAttrs k u with
    | none => rfl
    | some p => rfl

theorem pAttrs_text {as : List (String × String)} {u : List Char} (h : AttrsText as u) : ∀ (k : Nat) (ws rest : List Char) (c : Char), u.length < k → BlankText ws →
    (c = '/' ∨ c = '>') → pAttrs k (u ++ (ws ++ c :: rest)) = some (as, c :: rest) := by
  induction h with
  | nil =>
    intro k ws rest c hk hb hc
    match k, hk with
    | k + 1, _ =>
      have : ([] ++ (ws ++ c :: rest)).dropWhile space = c :: rest := by
        refine dropWhile_stop (blank_space hb) ?_
        rcases hc with hc | hc <;> subst hc <;> rfl
      rw [pAttrs, this]
      rcases hc with hc | hc <;> subst hc <;> rfl
  | @attr n v as ws t u hw hb hn hd ht _ ih =>
    intro k ws' rest c hk hb' hc
    match k, hk with
    | k + 1, hk =>
      have := @pAttrs_one ws n.toList t (u ++ (ws' ++ c :: rest)) v.toList k hw hb hn ht
      simp only [List.append_assoc, List.cons_append] at this ⊢
      rw [this, ih k ws' rest c (by simp only [List.length_append, List.length_cons] at hk; omega) hb' hc]
      simp [hd]
  | @decl n v as ws t u hw hb hn hd ht _ ih =>
    intro k ws' rest c hk hb' hc
    match k, hk with
    | k + 1, hk =>
      have := @pAttrs_one ws n t (u ++ (ws' ++ c :: rest)) v k hw hb hn ht
      simp only [List.append_assoc, List.cons_append] at this ⊢
      rw [this, ih k ws' rest c (by simp only [List.length_append, List.length_cons] at hk; omega) hb' hc]
      simp [hd]

theorem localName_tag {tag : String} {tt : List Char} (h : TagText tag tt) : String.ofList (localName tt) = tag := by
  obtain ⟨_, h2, h3⟩ := h
  rcases h3 with h3 | ⟨p, hp, h3⟩
  · have : tt.dropWhile (· != ':') = [] := by
      rw [List.dropWhile_eq_nil_iff]
      intro x hx
      rw [h3] at hx
      simp only [bne_iff_ne, ne_eq]
      intro he
      exact h2 (he ▸ hx)
    rw [localName, this, h3, String.ofList_toList]
  · have : tt.dropWhile (· != ':') = ':' :: tag.toList := by
      rw [h3]
      refine dropWhile_stop ?_ (by decide)
      intro x hx
      simp only [bne_iff_ne, ne_eq]
      intro he
      exact hp (he ▸ hx)
    rw [localName, this, String.ofList_toList]

/-- The first character after a name in a start tag. -/
theorem attrs_head {as : List (String × String)} {u ws r : List Char} {c : Char} (h : AttrsText as u) (hb : BlankText ws) (hc : c = '/' ∨ c = '>') :
    ∃ x y, u ++ (ws ++ c :: r) = x :: y ∧ nameChar x = false := by
  have hsp : ∀ (ws l : List Char), ws ≠ [] → BlankText ws → ∃ x y, ws ++ l = x :: y ∧ nameChar x = false := by
    intro ws l hw hb
    match ws, hw with
    | x :: ws, _ =>
      refine ⟨x, ws ++ l, rfl, ?_⟩
      rcases hb x (by simp) with h | h | h <;> subst h <;> rfl
  cases h with
  | nil =>
    by_cases hw : ws = []
    · subst hw
      refine ⟨c, r, rfl, ?_⟩
      rcases hc with hc | hc <;> subst hc <;> rfl
    · exact hsp ws _ hw hb
  | attr hw hb' => rw [List.append_assoc]; exact hsp _ _ hw hb'
  | decl hw hb' => rw [List.append_assoc]; exact hsp _ _ hw hb'

theorem pEnd_text {tt ws2 rest : List Char} (hn : NameText tt) (hb : BlankText ws2) : pEnd tt ('<' :: '/' :: (tt ++ (ws2 ++ '>' :: rest))) = some rest := by
  have hx : ∃ x y, ws2 ++ '>' :: rest = x :: y ∧ nameChar x = false := by
    have := @attrs_head [] [] ws2 rest '>' .nil hb (.inr rfl)
    simpa using this
  obtain ⟨x, y, hxy, hx⟩ := hx
  have h1 : (tt ++ (ws2 ++ '>' :: rest)).takeWhile nameChar = tt := by rw [hxy]; exact takeWhile_stop (name_chars hn) hx
  have h2 : (tt ++ (ws2 ++ '>' :: rest)).dropWhile nameChar = ws2 ++ '>' :: rest := by rw [hxy]; exact dropWhile_stop (name_chars hn) hx
  have h3 : (ws2 ++ '>' :: rest).dropWhile space = '>' :: rest := dropWhile_stop (blank_space hb) (by decide)
  simp [pEnd, h1, h2, h3]

/-! ## Elements -/

theorem elem_head {e : Elem} {t : List Char} (h : ElemText e t) : ∃ c r, t = '<' :: c :: r ∧ nameChar c = true := by
  cases h with
  | empty ht =>
    obtain ⟨c, r, h, hc⟩ := name_head ht.1
    exact ⟨c, _, by rw [h]; rfl, hc⟩
  | full ht =>
    obtain ⟨c, r, h, hc⟩ := name_head ht.1
    exact ⟨c, _, by rw [h]; rfl, hc⟩

theorem kids_head {ch : List Elem} {v : List Char} (h : KidsText ch v) (r : List Char) : ∃ r', v ++ '<' :: r = '<' :: r' := by
  cases h with
  | nil => exact ⟨r, rfl⟩
  | cons he =>
    obtain ⟨c, r1, h1, _⟩ := elem_head he
    exact ⟨_, by rw [h1]; rfl⟩

theorem text_split {s t l r : List Char} (h : StrText false s t) (hl : l = '<' :: r) :
    (t ++ l).takeWhile (· != '<') = t ∧ (t ++ l).dropWhile (· != '<') = l := by
  subst hl
  have : ∀ x ∈ t, (x != '<') = true := by
    intro x hx
    simpa using (strText_mem h x hx).1
  exact ⟨takeWhile_stop this (by decide), dropWhile_stop this (by decide)⟩

mutual
theorem pElem_text : ∀ {e : Elem} {t : List Char}, ElemText e t → ∀ (n : Nat) (rest : List Char), t.length ≤ n → pElem n (t ++ rest) = some (e, rest)
  | _, _, .empty (tag := tag) (as := as) (tt := tt) (u := u) (ws := ws) ht ha hd hb, n, rest, hn => by
    match n, hn with
    | n + 1, hn =>
      obtain ⟨x, y, hxy, hx⟩ := @attrs_head as u ws ('>' :: rest) '/' ha hb (.inl rfl)
      have he : '<' :: (tt ++ (u ++ (ws ++ ['/', '>']))) ++ rest = '<' :: (tt ++ (u ++ (ws ++ '/' :: '>' :: rest))) := by simp
      have h1 : (tt ++ (u ++ (ws ++ '/' :: '>' :: rest))).takeWhile nameChar = tt := by rw [hxy]; exact takeWhile_stop (name_chars ht.1) hx
      have h2 : (tt ++ (u ++ (ws ++ '/' :: '>' :: rest))).dropWhile nameChar = u ++ (ws ++ '/' :: '>' :: rest) := by
        rw [hxy]; exact dropWhile_stop (name_chars ht.1) hx
      rw [he, pElem, h1, h2, if_neg (by simpa using ht.1.1),
        pAttrs_text ha _ ws ('>' :: rest) '/' (by simp only [List.length_append]; omega) hb (.inl rfl)]
      simp [hd, localName_tag ht]
  | _, _, .full (tag := tag) (as := as) (s := s) (ch := ch) (tt := tt) (u := u) (ws := ws) (t := t) (v := v) (ws2 := ws2) ht ha hd hb hs hk hb2, n, rest, hn => by
    match n, hn with
    | n + 1, hn =>
      have he : '<' :: (tt ++ (u ++ (ws ++ '>' :: (t ++ (v ++ '<' :: '/' :: (tt ++ (ws2 ++ ['>']))))))) ++ rest =
          '<' :: (tt ++ (u ++ (ws ++ '>' :: (t ++ (v ++ '<' :: '/' :: (tt ++ (ws2 ++ '>' :: rest))))))) := by simp
      obtain ⟨x, y, hxy, hx⟩ := @attrs_head as u ws (t ++ (v ++ '<' :: '/' :: (tt ++ (ws2 ++ '>' :: rest)))) '>' ha hb (.inr rfl)
      have h1 : (tt ++ (u ++ (ws ++ '>' :: (t ++ (v ++ '<' :: '/' :: (tt ++ (ws2 ++ '>' :: rest))))))).takeWhile nameChar = tt := by
        rw [hxy]; exact takeWhile_stop (name_chars ht.1) hx
      have h2 : (tt ++ (u ++ (ws ++ '>' :: (t ++ (v ++ '<' :: '/' :: (tt ++ (ws2 ++ '>' :: rest))))))).dropWhile nameChar =
          u ++ (ws ++ '>' :: (t ++ (v ++ '<' :: '/' :: (tt ++ (ws2 ++ '>' :: rest))))) := by
        rw [hxy]; exact dropWhile_stop (name_chars ht.1) hx
      obtain ⟨r', hr'⟩ := kids_head hk ('/' :: (tt ++ (ws2 ++ '>' :: rest)))
      obtain ⟨h3, h4⟩ := text_split hs hr'
      have hkk := pKids_text hk n (tt ++ (ws2 ++ '>' :: rest)) (by simp only [List.length_append, List.length_cons] at hn; omega)
      rw [he, pElem, h1, h2, if_neg (by simpa using ht.1.1),
        pAttrs_text ha _ ws _ '>' (by simp only [List.length_append]; omega) hb (.inr rfl)]
      simp only [hd, if_true, h3, h4, dec_str hs, hkk, pEnd_text ht.1 hb2, localName_tag ht]
theorem pKids_text : ∀ {ch : List Elem} {v : List Char}, KidsText ch v → ∀ (n : Nat) (rest : List Char), v.length < n →
    pKids n (v ++ '<' :: '/' :: rest) = some (ch, '<' :: '/' :: rest)
  | _, _, .nil, n, rest, hn => by
    match n, hn with
    | n + 1, _ => rfl
  | _, _, .cons (e := e) (r := r) (s := s) (t := t) (u := u) (v := v) he hs hk, n, rest, hn => by
    match n, hn with
    | n + 1, hn =>
      simp only [List.length_append] at hn
      have h1 := pElem_text he n (u ++ (v ++ '<' :: '/' :: rest)) (by omega)
      obtain ⟨c, r0, ht, hc⟩ := elem_head he
      have hpos : 0 < t.length := by rw [ht]; simp
      have h2 := pKids_text hk n rest (by omega)
      obtain ⟨r', hr'⟩ := kids_head hk ('/' :: rest)
      obtain ⟨h3, h4⟩ := text_split hs hr'
      have hex : t ++ (u ++ v) ++ '<' :: '/' :: rest = t ++ (u ++ (v ++ '<' :: '/' :: rest)) := by simp
      rw [hex, pKids]
      · simp only [h1, h3, h4, dec_str hs, h2]
      · intro r1 hr1
        rw [ht] at hr1
        simp only [List.cons_append, List.cons.injEq, true_and] at hr1
        exact (nameChar_ne hc).1 hr1.1
end

/-- The parser finds the element in every text that stands for it. -/
theorem parse_text {e : Elem} {t : List Char} (h : DocText e t) : parse t = some e := by
  obtain ⟨b, ws, hb, hw, rfl⟩ := h
  have := pElem_text hb (b ++ ws).length ws (by simp)
  rw [parse, this]
  have : ws.all space = true := by
    rw [List.all_eq_true]
    exact blank_space hw
  simp [this]

/-! ## No carriage returns -/

theorem blank_noCR {l : List Char} (h : BlankText l) : '\r' ∉ l := fun hc => by
  rcases h _ hc with h | h | h <;> exact absurd h (by decide)

theorem name_noCR {l : List Char} (h : NameText l) : '\r' ∉ l := fun hc => (nameChar_ne (name_chars h _ hc)).2.2.2.2.2 rfl

theorem str_noCR {attr : Bool} {s t : List Char} (h : StrText attr s t) : '\r' ∉ t := fun hc => (strText_mem h _ hc).2.1 rfl

theorem attrs_noCR {as : List (String × String)} {u : List Char} (h : AttrsText as u) : '\r' ∉ u := by
  induction h with
  | nil => simp
  | attr _ hb hn _ ht _ ih => simp [blank_noCR hb, name_noCR hn, str_noCR ht, ih]
  | decl _ hb hn _ ht _ ih => simp [blank_noCR hb, name_noCR hn, str_noCR ht, ih]

mutual
theorem elem_noCR : ∀ {e : Elem} {t : List Char}, ElemText e t → '\r' ∉ t
  | _, _, .empty ht ha _ hb => by simp [name_noCR ht.1, attrs_noCR ha, blank_noCR hb]
  | _, _, .full ht ha _ hb hs hk hb2 => by
    simp [name_noCR ht.1, attrs_noCR ha, blank_noCR hb, str_noCR hs, kids_noCR hk, blank_noCR hb2]
theorem kids_noCR : ∀ {l : List Elem} {t : List Char}, KidsText l t → '\r' ∉ t
  | _, _, .nil => by simp
  | _, _, .cons he hs hk => by simp [elem_noCR he, str_noCR hs, kids_noCR hk]
end

/-- The text has no carriage return, so that reading a file in text mode does not change it. -/
theorem doc_noCR {e : Elem} {t : List Char} (h : DocText e t) : '\r' ∉ t := by
  obtain ⟨b, ws, hb, hw, rfl⟩ := h
  simp [elem_noCR hb, blank_noCR hw]

theorem doc_head {e : Elem} {t : List Char} (h : DocText e t) : ∃ r, t = '<' :: r := by
  obtain ⟨b, ws, hb, hw, rfl⟩ := h
  obtain ⟨c, r, rfl, _⟩ := elem_head hb
  exact ⟨_, rfl⟩

end Text
end Xml
end Verif
