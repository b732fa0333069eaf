import Verif.JsonText
import Verif.XmlTextThms
import Verif.PipeReport
import Verif.PipelineThms

/-! # C133: the text of a JSON report -/

namespace Verif
namespace JsonText
open Yaml (Json)
open Spec
open Xml.Text (takeWhile_stop dropWhile_stop hexDigit hex_digit)

/-! ## Strings -/

theorem jws_of {l : List Char} (h : JWs l) : ∀ c ∈ l, jws c = true := by
  intro c hc
  rcases h c hc with h | h | h | h <;> subst h <;> rfl

theorem scan_hex {a : Char} {x : Nat} (h : (a, x) ∈ hexDigits) : hexDigit a = some x := hex_digit _ h

theorem scan_quad {n : Nat} {t r : List Char} {hi : Option Nat} (h : Quad n t) : scan (.hex 4 0 hi) (t ++ r) =
    match hi with
    | none =>
      if 0xD800 ≤ n ∧ n < 0xDC00 then scan (.high n false) r
      else if 0xDC00 ≤ n ∧ n < 0xE000 then none
      else (scan .plain r).map fun p => (Char.ofNat n :: p.1, p.2)
    | some h =>
      if 0xDC00 ≤ n ∧ n < 0xE000 then
        (scan .plain r).map fun p => (Char.ofNat (0x10000 + (h - 0xD800) * 0x400 + (n - 0xDC00)) :: p.1, p.2)
      else none := by
  obtain ⟨a, b, c, d, x, y, z, w, rfl, h1, h2, h3, h4, rfl⟩ := h
  simp only [List.cons_append, List.nil_append]
  rw [scan, scan_hex h1]
  simp only [show (1 : Nat) < 4 by decide, if_true, show 4 - 1 = 3 from rfl]
  rw [scan, scan_hex h2]
  simp only [show (1 : Nat) < 3 by decide, if_true, show 3 - 1 = 2 from rfl]
  rw [scan, scan_hex h3]
  simp only [show (1 : Nat) < 2 by decide, if_true, show 2 - 1 = 1 from rfl]
  rw [scan, scan_hex h4]
  simp only [show ¬ (1 : Nat) < 1 by decide, if_false, Nat.zero_mul, Nat.zero_add]
  cases hi <;> rfl

theorem char_range (c : Char) : c.toNat < 0xD800 ∨ 0xE000 ≤ c.toNat ∧ c.toNat < 0x110000 := by
  rcases c.valid with h | h
  · exact .inl h
  · exact .inr ⟨by have := h.1; show 0xE000 ≤ c.val.toNat; omega, h.2⟩

theorem scan_char {c : Char} {t r : List Char} (h : JChar c t) : scan .plain (t ++ r) = (scan .plain r).map fun p => (c :: p.1, p.2) := by
  cases h with
  | plain h1 h2 h3 =>
    have : ¬ c.toNat < 32 := by omega
    simp [scan, h1, h2, this]
  | short hs =>
    have : ∀ p ∈ shortEscapes, p.1 ≠ 'u' ∧ short p.1 = some p.2 := by decide
    obtain ⟨h1, h2⟩ := this _ hs
    simp only at h1 h2
    simp only [List.cons_append, List.nil_append]
    rw [scan, if_neg (by decide), if_pos rfl, scan, if_neg h1, h2]
  | unit hq =>
    simp only [List.cons_append]
    rw [scan, if_neg (by decide), if_pos rfl, scan, if_pos rfl, scan_quad hq]
    have hr := char_range c
    simp only
    rw [if_neg (by omega), if_neg (by omega), Char.ofNat_toNat]
  | pair h1 h2 h3 h4 hc hq hq2 =>
    simp only [List.cons_append, List.append_assoc]
    rw [scan, if_neg (by decide), if_pos rfl, scan, if_pos rfl, scan_quad hq]
    simp only
    rw [if_pos ⟨h1, h2⟩, scan, if_pos rfl, scan, if_pos rfl, scan_quad hq2]
    simp only
    rw [if_pos ⟨h3, h4⟩, ← hc, Char.ofNat_toNat]

theorem scan_str {s t r : List Char} (h : JStr s t) : scan .plain (t ++ '"' :: r) = some (s, r) := by
  induction h with
  | nil => rfl
  | cons hc _ ih => rw [List.append_assoc, scan_char hc, ih]; rfl

/-! ## Numbers -/

theorem digit_num {c : Char} (h : c.isDigit = true) : numChar c = true := by simp [numChar, h]

theorem number_chars {t : List Char} (h : NumberText t) : t ≠ [] ∧ ∀ c ∈ t, numChar c = true := by
  obtain ⟨m, i, f, e, rfl, hm, hi, _, hf, he⟩ := h
  refine ⟨?_, ?_⟩
  · have := hi.1
    simp [this]
  · intro c hc
    simp only [List.mem_append] at hc
    rcases hc with hc | hc | hc | hc
    · rcases hm with rfl | rfl
      · simp at hc
      · simp at hc; subst hc; rfl
    · exact digit_num (hi.2 c hc)
    · rcases hf with rfl | ⟨d, rfl, hd⟩
      · simp at hc
      · rcases List.mem_cons.1 hc with rfl | hc
        · rfl
        · exact digit_num (hd.2 c hc)
    · rcases he with rfl | ⟨x, s, d, rfl, hx, hs, hd⟩
      · simp at hc
      · rcases List.mem_cons.1 hc with rfl | hc
        · rcases hx with rfl | rfl <;> rfl
        · rcases List.mem_append.1 hc with hc | hc
          · rcases hs with rfl | rfl | rfl
            · simp at hc
            · simp at hc; subst hc; rfl
            · simp at hc; subst hc; rfl
          · exact digit_num (hd.2 c hc)

/-- A number starts with a digit or a minus sign. -/
theorem number_head {t : List Char} (h : NumberText t) : ∃ c r, t = c :: r ∧ (c.isDigit = true ∨ c = '-') := by
  obtain ⟨m, i, f, e, rfl, hm, hi, _, _, _⟩ := h
  rcases hm with rfl | rfl
  · match i, hi with
    | c :: i, hi => exact ⟨c, _, rfl, .inl (hi.2 c (by simp))⟩
    | [], hi => exact absurd rfl hi.1
  · exact ⟨'-', _, rfl, .inr rfl⟩

/-! ## Values -/

/-- What may follow a number. -/
def Ends (r : List Char) : Prop := r.head?.all (fun c => !numChar c) = true

/-- The first character of a value. -/
theorem text_head {val : List Char → Option Rat} {v : JVal} {t : List Char} (h : JText val v t) :
    ∃ c r, t = c :: r ∧ jws c = false ∧ c ≠ ']' ∧ c ≠ '}' := by
  cases h with
  | num hn _ =>
    obtain ⟨c, r, rfl, hc⟩ := number_head hn
    refine ⟨c, r, rfl, ?_⟩
    rcases hc with hc | rfl
    · refine ⟨?_, ?_, ?_⟩
      · cases hw : jws c with
        | false => rfl
        | true =>
          exfalso
          simp only [jws, Bool.or_eq_true, beq_iff_eq] at hw
          rcases hw with ((hw | hw) | hw) | hw <;> subst hw <;> exact absurd hc (by decide)
      · rintro rfl; exact absurd hc (by decide)
      · rintro rfl; exact absurd hc (by decide)
    · exact ⟨by decide, by decide, by decide⟩
  | _ => exact ⟨_, _, rfl, by decide, by decide, by decide⟩

theorem num_case {val : List Char → Option Rat} {q : Rat} {t rest : List Char} {n : Nat} (hn : NumberText t) (hv : val t = some q) (he : Ends rest) :
    pVal val (n + 1) (t ++ rest) = some (.num q, rest) := by
  obtain ⟨c, r, rfl, hc⟩ := number_head hn
  have hne : c ≠ '"' ∧ c ≠ '[' ∧ c ≠ '{' ∧ c ≠ 'n' ∧ c ≠ 't' ∧ c ≠ 'f' := by
    rcases hc with hc | rfl
    · refine ⟨?_, ?_, ?_, ?_, ?_, ?_⟩ <;> rintro rfl <;> exact absurd hc (by decide)
    · decide
  have h12 : ((c :: r) ++ rest).takeWhile numChar = c :: r ∧ ((c :: r) ++ rest).dropWhile numChar = rest := by
    have hall := (number_chars hn).2
    cases rest with
    | nil =>
      rw [List.append_nil, List.takeWhile_eq_self_iff.2 hall, List.dropWhile_eq_nil_iff.2 hall]
      exact ⟨rfl, rfl⟩
    | cons x rest =>
      have hx : numChar x = false := by simpa [Ends] using he
      exact ⟨takeWhile_stop hall hx, dropWhile_stop hall hx⟩
  rw [pVal]
  · rw [h12.1, h12.2, hv]; rfl
  all_goals
    intro x heq
    simp only [List.cons_append, List.cons.injEq] at heq
    obtain ⟨h1, h2, h3, h4, h5, h6⟩ := hne
    first | exact h1 heq.1 | exact h2 heq.1 | exact h3 heq.1 | exact h4 heq.1 | exact h5 heq.1 | exact h6 heq.1

theorem ends_ws {w r : List Char} (h : JWs w) (hr : Ends r) : Ends (w ++ r) := by
  cases w with
  | nil => exact hr
  | cons c w =>
    have := h c (by simp)
    rcases this with rfl | rfl | rfl | rfl <;> rfl

theorem drop_ws {w r : List Char} {c : Char} (h : JWs w) (hc : jws c = false) : (w ++ c :: r).dropWhile jws = c :: r :=
  dropWhile_stop (jws_of h) hc

theorem items_head {val : List Char → Option Rat} {l : List JVal} {t : List Char} (h : JItems val l t) (r : List Char) :
    ∃ w c x, t ++ r = w ++ c :: x ∧ JWs w ∧ jws c = false ∧ c ≠ ']' := by
  cases h with
  | last hw ht =>
    obtain ⟨c, y, rfl, h1, h2, _⟩ := text_head ht
    exact ⟨_, c, _, by rw [List.append_assoc]; rfl, hw, h1, h2⟩
  | cons hw ht =>
    obtain ⟨c, y, rfl, h1, h2, _⟩ := text_head ht
    exact ⟨_, c, _, by rw [List.append_assoc]; rfl, hw, h1, h2⟩

theorem members_head {val : List Char → Option Rat} {m : List (String × JVal)} {t : List Char} (h : JMembers val m t) (r : List Char) :
    ∃ w x, t ++ r = w ++ '"' :: x ∧ JWs w := by
  cases h with
  | last hw => exact ⟨_, _, by rw [List.append_assoc]; rfl, hw⟩
  | cons hw => exact ⟨_, _, by rw [List.append_assoc]; rfl, hw⟩

mutual
theorem pVal_text {val : List Char → Option Rat} : ∀ {v : JVal} {t : List Char}, JText val v t → ∀ (n : Nat) (rest : List Char), t.length ≤ n → Ends rest →
    pVal val n (t ++ rest) = some (v, rest)
  | _, _, .null, n, rest, hn, _ => by
    match n, hn with
    | n + 1, _ => rfl
  | _, _, .true, n, rest, hn, _ => by
    match n, hn with
    | n + 1, _ => rfl
  | _, _, .false, n, rest, hn, _ => by
    match n, hn with
    | n + 1, _ => rfl
  | _, t, .num hq hv, n, rest, hn, he => by
    match n, hn with
    | n + 1, _ => exact num_case hq hv he
    | 0, hn => exact absurd (List.length_eq_zero_iff.1 (Nat.le_zero.1 hn)) (number_chars hq).1
  | _, _, .str (s := s) (t := t) hs, n, rest, hn, _ => by
    match n, hn with
    | n + 1, _ =>
      have : '"' :: (t ++ ['"']) ++ rest = '"' :: (t ++ '"' :: rest) := by simp
      rw [this, pVal, scan_str hs]
      simp
  | _, _, .arr0 (w := w) hw, n, rest, hn, _ => by
    match n, hn with
    | n + 1, _ =>
      have : '[' :: (w ++ [']']) ++ rest = '[' :: (w ++ ']' :: rest) := by simp
      rw [this, pVal, drop_ws hw (by decide)]
      rfl
  | _, _, .arr (l := l) (t := t) hl, n, rest, hn, _ => by
    match n, hn with
    | n + 1, hn =>
      have h1 : '[' :: (t ++ [']']) ++ rest = '[' :: (t ++ ']' :: rest) := by simp
      obtain ⟨w, c, x, hx, hw, hc, hb⟩ := items_head hl (']' :: rest)
      have h2 := pItems_text hl n rest (by simp only [List.length_cons, List.length_append] at hn; omega)
      rw [h1, pVal, h2]
      rw [hx, drop_ws hw hc]
      split
      · rename_i heq; simp only [List.cons.injEq] at heq; exact absurd heq.1 hb
      · rfl
  | _, _, .obj0 (w := w) hw, n, rest, hn, _ => by
    match n, hn with
    | n + 1, _ =>
      have : '{' :: (w ++ ['}']) ++ rest = '{' :: (w ++ '}' :: rest) := by simp
      rw [this, pVal, drop_ws hw (by decide)]
      rfl
  | _, _, .obj (m := m) (t := t) hm, n, rest, hn, _ => by
    match n, hn with
    | n + 1, hn =>
      have h1 : '{' :: (t ++ ['}']) ++ rest = '{' :: (t ++ '}' :: rest) := by simp
      obtain ⟨w, x, hx, hw⟩ := members_head hm ('}' :: rest)
      have h2 := pMembers_text hm n rest (by simp only [List.length_cons, List.length_append] at hn; omega)
      rw [h1, pVal, h2]
      rw [hx, drop_ws hw (by decide)]
      rfl
theorem pItems_text {val : List Char → Option Rat} : ∀ {l : List JVal} {t : List Char}, JItems val l t → ∀ (n : Nat) (rest : List Char), t.length < n →
    pItems val n (t ++ ']' :: rest) = some (l, rest)
  | _, _, .last (w := w) (t := t) (w2 := w2) hw ht hw2, n, rest, hn => by
    match n, hn with
    | n + 1, hn =>
      simp only [List.length_append] at hn
      have h1 := pVal_text ht n (w2 ++ ']' :: rest) (by omega) (ends_ws hw2 rfl)
      obtain ⟨c, x, rfl, hc, _⟩ := text_head ht
      have h2 : w ++ (c :: x ++ w2) ++ ']' :: rest = w ++ c :: (x ++ (w2 ++ ']' :: rest)) := by simp
      rw [h2, pItems, drop_ws hw hc]
      rw [List.cons_append] at h1
      rw [h1]
      simp only
      rw [drop_ws hw2 (by decide)]
      rfl
  | _, _, .cons (w := w) (t := t) (w2 := w2) (u := u) hw ht hw2 hl, n, rest, hn => by
    match n, hn with
    | n + 1, hn =>
      simp only [List.length_append, List.length_cons] at hn
      have h1 := pVal_text ht n (w2 ++ ',' :: (u ++ ']' :: rest)) (by omega) (ends_ws hw2 rfl)
      have h3 := pItems_text hl n rest (by omega)
      obtain ⟨c, x, rfl, hc, _⟩ := text_head ht
      have h2 : w ++ (c :: x ++ (w2 ++ ',' :: u)) ++ ']' :: rest = w ++ c :: (x ++ (w2 ++ ',' :: (u ++ ']' :: rest))) := by simp
      rw [h2, pItems, drop_ws hw hc]
      rw [List.cons_append] at h1
      rw [h1]
      simp only
      rw [drop_ws hw2 (by decide)]
      simp only [h3]
      rfl
theorem pMembers_text {val : List Char → Option Rat} : ∀ {m : List (String × JVal)} {t : List Char}, JMembers val m t → ∀ (n : Nat) (rest : List Char), t.length < n →
    pMembers val n (t ++ '}' :: rest) = some (m, rest)
  | _, _, .last (k := k) (w := w) (n := nm) (w2 := w2) (w3 := w3) (t := t) (w4 := w4) hw hk hw2 hw3 ht hw4, n, rest, hn => by
    match n, hn with
    | n + 1, hn =>
      simp only [List.length_append, List.length_cons] at hn
      have h1 := pVal_text ht n (w4 ++ '}' :: rest) (by omega) (ends_ws hw4 rfl)
      obtain ⟨c, x, rfl, hc, _⟩ := text_head ht
      have h2 : w ++ ('"' :: (nm ++ '"' :: (w2 ++ ':' :: (w3 ++ (c :: x ++ w4))))) ++ '}' :: rest =
          w ++ '"' :: (nm ++ '"' :: (w2 ++ ':' :: (w3 ++ c :: (x ++ (w4 ++ '}' :: rest))))) := by simp
      rw [h2, pMembers, drop_ws hw (by decide)]
      simp only [scan_str hk]
      rw [drop_ws hw2 (by decide)]
      simp only
      rw [drop_ws hw3 hc]
      rw [List.cons_append] at h1
      rw [h1]
      simp only
      rw [drop_ws hw4 (by decide)]
      simp
  | _, _, .cons (k := k) (w := w) (n := nm) (w2 := w2) (w3 := w3) (t := t) (w4 := w4) (u := u) hw hk hw2 hw3 ht hw4 hm, n, rest, hn => by
    match n, hn with
    | n + 1, hn =>
      simp only [List.length_append, List.length_cons] at hn
      have h1 := pVal_text ht n (w4 ++ ',' :: (u ++ '}' :: rest)) (by omega) (ends_ws hw4 rfl)
      have h3 := pMembers_text hm n rest (by omega)
      obtain ⟨c, x, rfl, hc, _⟩ := text_head ht
      have h2 : w ++ ('"' :: (nm ++ '"' :: (w2 ++ ':' :: (w3 ++ (c :: x ++ (w4 ++ ',' :: u)))))) ++ '}' :: rest =
          w ++ '"' :: (nm ++ '"' :: (w2 ++ ':' :: (w3 ++ c :: (x ++ (w4 ++ ',' :: (u ++ '}' :: rest)))))) := by simp
      rw [h2, pMembers, drop_ws hw (by decide)]
      simp only [scan_str hk]
      rw [drop_ws hw2 (by decide)]
      simp only
      rw [drop_ws hw3 hc]
      rw [List.cons_append] at h1
      rw [h1]
      simp only
      rw [drop_ws hw4 (by decide)]
      simp only [h3]
      simp
end

/-- The parser finds the value in every text that stands for it. -/
theorem parse_text {val : List Char → Option Rat} {v : JVal} {t : List Char} (h : JDoc val v t) : parse val t = some v := by
  obtain ⟨w, b, w2, hw, hb, hw2, rfl⟩ := h
  have h1 := pVal_text hb ((w ++ (b ++ w2)).length + 1) w2 (by simp only [List.length_append]; omega)
    (by have := ends_ws (r := []) hw2 rfl; rwa [List.append_nil] at this)
  obtain ⟨c, x, rfl, hc, _⟩ := text_head hb
  rw [parse]
  rw [show w ++ (c :: x ++ w2) = w ++ c :: (x ++ w2) by simp] at h1 ⊢
  rw [drop_ws hw hc]
  rw [List.cons_append] at h1
  rw [h1]
  have : w2.all jws = true := List.all_eq_true.2 (jws_of hw2)
  simp [this]

/-! ## What is written -/

theorem hexChar_mem {d : Nat} (h : d < 16) : (hexChar d, d) ∈ hexDigits := by
  have : ∀ d : Fin 16, (hexChar d, d.val) ∈ hexDigits := by decide
  exact this ⟨d, h⟩

theorem hex4_quad {n : Nat} (h : n < 65536) : ∃ t, hex4 n = '\\' :: 'u' :: t ∧ Quad n t :=
  ⟨_, rfl, _, _, _, _, n / 4096, n / 256 % 16, n / 16 % 16, n % 16, rfl, hexChar_mem (by omega), hexChar_mem (by omega), hexChar_mem (by omega),
    hexChar_mem (by omega), by omega⟩

theorem escape_char (c : Char) : JChar c (escape c) := by
  unfold escape
  split; · subst c; exact .short (by decide)
  split; · subst c; exact .short (by decide)
  split; · subst c; exact .short (by decide)
  split; · subst c; exact .short (by decide)
  split; · subst c; exact .short (by decide)
  split; · subst c; exact .short (by decide)
  split; · subst c; exact .short (by decide)
  rename_i h1 h2 _ _ _ _ _
  split
  · rename_i h; exact .plain h1 h2 h.1
  split
  · rename_i h
    obtain ⟨t, ht, hq⟩ := hex4_quad h
    rw [ht]
    exact .unit hq
  · have hr := char_range c
    obtain ⟨t, ht, hq⟩ := hex4_quad (n := 0xD800 + (c.toNat - 0x10000) / 0x400) (by omega)
    obtain ⟨u, hu, hq2⟩ := hex4_quad (n := 0xDC00 + (c.toNat - 0x10000) % 0x400) (by omega)
    rw [ht, hu]
    exact .pair (by omega) (by omega) (by omega) (by omega) (by omega) hq hq2

theorem escape_str (l : List Char) : JStr l (l.flatMap escape) := by
  induction l with
  | nil => exact .nil
  | cons c l ih => exact .cons (escape_char c) ih

theorem newLine_ws (lv : Nat) : JWs (newLine lv) := by
  intro c hc
  rcases List.mem_cons.1 hc with rfl | hc
  · exact .inr (.inr (.inl rfl))
  · exact .inl (List.eq_of_mem_replicate hc)

theorem natL_digits (n : Nat) : Digits (PyNum.natL n) := ⟨PyNum.natL_ne_nil n, fun _ hc => PyNum.natL_digit hc⟩

theorem natL_zero {n : Nat} (h : (PyNum.natL n).head? = some '0') : PyNum.natL n = ['0'] := by
  by_cases hn : n < 10
  · have : ∀ n : Fin 10, (PyNum.natL n).head? = some '0' → PyNum.natL n = ['0'] := by decide
    exact this ⟨n, hn⟩ h
  · exfalso
    revert h
    induction n using Nat.strongRecOn with
    | _ n ih =>
      intro h
      have e : PyNum.natL n = PyNum.natL (n / 10) ++ [Nat.digitChar (n % 10)] := Nat.toDigits_of_base_le (by decide) (by omega)
      rw [e, List.head?_append_of_ne_nil _ (PyNum.natL_ne_nil _)] at h
      by_cases h10 : n / 10 < 10
      · have : ∀ n : Fin 10, (PyNum.natL n).head? = some '0' → n.val = 0 := by decide
        have := this ⟨n / 10, h10⟩ h
        simp only at this
        omega
      · exact ih (n / 10) (by omega) h10 h

theorem strInt_number (z : Int) : NumberText (PyNum.strInt z).toList := by
  cases z with
  | ofNat n => exact ⟨[], PyNum.natL n, [], [], by simp [PyNum.strInt, PyNum.intL], .inl rfl, natL_digits n, natL_zero, .inl rfl, .inl rfl⟩
  | negSucc n => exact ⟨['-'], PyNum.natL (n + 1), [], [], by simp [PyNum.strInt, PyNum.intL], .inr rfl, natL_digits _, natL_zero, .inl rfl, .inl rfl⟩

theorem digitsValue_natL (n : Nat) : digitsValue (PyNum.natL n) = n := by
  have : ∀ (l : List Char) (a : Nat), l.foldl (fun a c => 10 * a + (c.toNat - 48)) a = Nat.ofDigitChars 10 l a := by
    intro l
    induction l with
    | nil => intro a; rfl
    | cons c l ih => intro a; rw [List.foldl_cons, Nat.ofDigitChars_cons]; exact ih _
  rw [digitsValue, this]
  exact Nat.ofDigitChars_ten_toDigits

theorem unsigned_natL (n : Nat) : unsignedValue (PyNum.natL n) = some (n : Rat) := by
  have h : ∀ c ∈ PyNum.natL n, Char.isDigit c = true := fun _ hc => PyNum.natL_digit hc
  have h1 : (PyNum.natL n).dropWhile Char.isDigit = [] := List.dropWhile_eq_nil_iff.2 h
  have h2 : (PyNum.natL n).takeWhile Char.isDigit = PyNum.natL n := List.takeWhile_eq_self_iff.2 h
  unfold unsignedValue
  rw [h1, h2]
  simp [exponentValue, digitsValue_natL]

theorem decimal_natL (n : Nat) : decimalValue (PyNum.natL n) = some (n : Rat) := by
  unfold decimalValue
  split
  · rename_i t h
    exact absurd (PyNum.natL_digit (n := n) (c := '-') (by rw [h]; simp)) (by decide)
  · exact unsigned_natL n

/-- Integers are read exactly, whatever floats there are. -/
theorem number_strInt (rd : Rat → Rat) (z : Int) : numberValue rd (PyNum.strInt z).toList = some (z : Rat) := by
  have hp : ∀ n : Nat, (PyNum.natL n).any (fun c => c == '.' || c == 'e' || c == 'E') = false := by
    intro n
    rw [List.any_eq_false]
    intro c hc h
    have hd := PyNum.natL_digit hc
    simp only [Bool.or_eq_true, beq_iff_eq] at h
    rcases h with (h | h) | h <;> subst h <;> exact absurd hd (by decide)
  cases z with
  | ofNat n =>
    simp only [PyNum.strInt, PyNum.intL, String.toList_ofList, numberValue, hp]
    simp [decimal_natL]
  | negSucc n =>
    simp only [PyNum.strInt, PyNum.intL, String.toList_ofList, numberValue, List.any_cons, hp]
    simp [decimalValue, unsigned_natL, Int.negSucc_eq]

mutual
theorem dump_text {rd : Rat → Rat} {sh : Rat → List Char} : ∀ (j : Json) (lv : Nat), (∀ q ∈ floats j, NumberText (sh q) ∧ numberValue rd (sh q) = some q) →
    JText (numberValue rd) (toVal j) (dump sh lv j)
  | .null, _, _ => .null
  | .bool true, _, _ => .true
  | .bool false, _, _ => .false
  | .int z, _, _ => .num (strInt_number z) (number_strInt rd z)
  | .num q, _, h => .num (h q (by simp [floats])).1 (h q (by simp [floats])).2
  | .str s, _, _ => .str (escape_str _)
  | .arr [], _, _ => .arr0 (w := []) (by simp [JWs])
  | .arr (j :: l), lv, h => by
    have h1 := dump_text j (lv + 1) (fun q hq => h q (by simp [floats, floatsL, hq]))
    exact .arr (dumpItems_text l lv (fun q hq => h q (by simp [floats, floatsL, hq])) _ _ h1)
  | .obj [], _, _ => .obj0 (w := []) (by simp [JWs])
  | .obj ((k, j) :: m), lv, h => by
    have h1 := dump_text j (lv + 1) (fun q hq => h q (by simp [floats, floatsM, hq]))
    exact .obj (dumpMembers_text m lv (fun q hq => h q (by simp [floats, floatsM, hq])) _ _ _ h1)
theorem dumpItems_text {rd : Rat → Rat} {sh : Rat → List Char} : ∀ (l : List Json) (lv : Nat), (∀ q ∈ floatsL l, NumberText (sh q) ∧ numberValue rd (sh q) = some q) →
    ∀ v t, JText (numberValue rd) v t → JItems (numberValue rd) (v :: toVals l) (newLine (lv + 1) ++ (t ++ dumpItems sh lv l))
  | [], lv, _, _, _, ht => .last (newLine_ws _) ht (newLine_ws lv)
  | j :: l, lv, h, _, _, ht => by
    have h1 := dump_text j (lv + 1) (fun q hq => h q (by simp [floatsL, hq]))
    exact .cons (w2 := []) (newLine_ws _) ht (by simp [JWs]) (dumpItems_text l lv (fun q hq => h q (by simp [floatsL, hq])) _ _ h1)
theorem dumpMembers_text {rd : Rat → Rat} {sh : Rat → List Char} : ∀ (m : List (String × Json)) (lv : Nat),
    (∀ q ∈ floatsM m, NumberText (sh q) ∧ numberValue rd (sh q) = some q) →
    ∀ (k : String) v t, JText (numberValue rd) v t →
      JMembers (numberValue rd) ((k, v) :: toMembers m) (newLine (lv + 1) ++ (quoted k ++ ':' :: ' ' :: (t ++ dumpMembers sh lv m)))
  | [], lv, _, k, _, t, ht => by
    have := JMembers.last (w2 := []) (w3 := [' ']) (newLine_ws (lv + 1)) (escape_str k.toList) (by simp [JWs]) (by simp [JWs]) ht (newLine_ws lv)
    simpa [quoted, dumpMembers, toMembers] using this
  | (k', j) :: m, lv, h, k, _, t, ht => by
    have h1 := dump_text j (lv + 1) (fun q hq => h q (by simp [floatsM, hq]))
    have := JMembers.cons (w2 := []) (w3 := [' ']) (w4 := []) (newLine_ws (lv + 1)) (escape_str k.toList) (by simp [JWs]) (by simp [JWs]) ht (by simp [JWs])
      (dumpMembers_text m lv (fun q hq => h q (by simp [floatsM, hq])) k' _ _ h1)
    simpa [quoted, dumpMembers, toMembers] using this
end

/-! ## Only ASCII -/

def Ascii (l : List Char) : Prop := ∀ c ∈ l, c.toNat < 128

theorem ascii_append {a b : List Char} : Ascii (a ++ b) ↔ Ascii a ∧ Ascii b := by
  simp only [Ascii, List.mem_append]
  exact ⟨fun h => ⟨fun c hc => h c (.inl hc), fun c hc => h c (.inr hc)⟩, fun h c hc => hc.elim (h.1 c) (h.2 c)⟩

theorem ascii_cons {a : Char} {b : List Char} : Ascii (a :: b) ↔ a.toNat < 128 ∧ Ascii b := by simp [Ascii]

theorem ascii_nil : Ascii [] := by simp [Ascii]

theorem numChar_ascii {c : Char} (h : numChar c = true) : c.toNat < 128 := by
  simp only [numChar, Bool.or_eq_true, beq_iff_eq] at h
  rcases h with ((((h | h) | h) | h) | h) | h
  · unfold Char.isDigit at h
    simp only [Bool.and_eq_true, decide_eq_true_eq] at h
    have h2 : c.toNat ≤ 57 := h.2
    omega
  all_goals subst h; decide

theorem number_ascii {t : List Char} (h : NumberText t) : Ascii t := fun c hc => numChar_ascii ((number_chars h).2 c hc)

theorem hexChar_ascii (d : Nat) : (hexChar d).toNat < 128 := by
  by_cases h : d < 16
  · have : ∀ d : Fin 16, (hexChar d).toNat < 128 := by decide
    exact this ⟨d, h⟩
  · rw [hexChar, List.getD_eq_getElem?_getD, List.getElem?_eq_none (by simp; omega)]
    decide

theorem hex4_ascii (n : Nat) : Ascii (hex4 n) := by
  simp only [hex4, ascii_cons]
  exact ⟨by decide, by decide, hexChar_ascii _, hexChar_ascii _, hexChar_ascii _, hexChar_ascii _, ascii_nil⟩

theorem escape_ascii (c : Char) : Ascii (escape c) := by
  unfold escape
  split; · simp [Ascii]
  split; · simp [Ascii]
  split; · simp [Ascii]
  split; · simp [Ascii]
  split; · simp [Ascii]
  split; · simp [Ascii]
  split; · simp [Ascii]
  split
  · rename_i h; simp only [Ascii, List.mem_singleton, forall_eq]; omega
  split
  · exact hex4_ascii _
  · exact ascii_append.2 ⟨hex4_ascii _, hex4_ascii _⟩

theorem quoted_ascii (s : String) : Ascii (quoted s) := by
  refine ascii_cons.2 ⟨by decide, ascii_append.2 ⟨?_, by simp [Ascii]⟩⟩
  intro c hc
  obtain ⟨x, _, hx⟩ := List.mem_flatMap.1 hc
  exact escape_ascii x c hx

theorem newLine_ascii (lv : Nat) : Ascii (newLine lv) := by
  intro c hc
  rcases newLine_ws lv c hc with rfl | rfl | rfl | rfl <;> decide

mutual
theorem dump_ascii {sh : Rat → List Char} : ∀ (j : Json) (lv : Nat), (∀ q ∈ floats j, NumberText (sh q)) → Ascii (dump sh lv j)
  | .null, _, _ => by simp [dump, Ascii]
  | .bool true, _, _ => by simp [dump, Ascii]
  | .bool false, _, _ => by simp [dump, Ascii]
  | .int z, _, _ => number_ascii (strInt_number z)
  | .num q, _, h => number_ascii (h q (by simp [floats]))
  | .str s, _, _ => quoted_ascii s
  | .arr [], _, _ => by simp [dump, Ascii]
  | .arr (j :: l), lv, h => by
    have h1 := dump_ascii j (lv + 1) (fun q hq => h q (by simp [floats, floatsL, hq]))
    have h2 := dumpItems_ascii l lv (fun q hq => h q (by simp [floats, floatsL, hq]))
    rw [dump]
    simp only [ascii_cons, ascii_append]
    exact ⟨by decide, ⟨newLine_ascii _, h1, h2⟩, by decide, ascii_nil⟩
  | .obj [], _, _ => by simp [dump, Ascii]
  | .obj ((k, j) :: m), lv, h => by
    have h1 := dump_ascii j (lv + 1) (fun q hq => h q (by simp [floats, floatsM, hq]))
    have h2 := dumpMembers_ascii m lv (fun q hq => h q (by simp [floats, floatsM, hq]))
    rw [dump]
    simp only [ascii_cons, ascii_append]
    exact ⟨by decide, ⟨newLine_ascii _, quoted_ascii k, by decide, by decide, h1, h2⟩, by decide, ascii_nil⟩
theorem dumpItems_ascii {sh : Rat → List Char} : ∀ (l : List Json) (lv : Nat), (∀ q ∈ floatsL l, NumberText (sh q)) → Ascii (dumpItems sh lv l)
  | [], lv, _ => newLine_ascii lv
  | j :: l, lv, h => by
    have h1 := dump_ascii j (lv + 1) (fun q hq => h q (by simp [floatsL, hq]))
    have h2 := dumpItems_ascii l lv (fun q hq => h q (by simp [floatsL, hq]))
    rw [dumpItems]
    simp only [ascii_cons, ascii_append]
    exact ⟨by decide, newLine_ascii _, h1, h2⟩
theorem dumpMembers_ascii {sh : Rat → List Char} : ∀ (m : List (String × Json)) (lv : Nat), (∀ q ∈ floatsM m, NumberText (sh q)) → Ascii (dumpMembers sh lv m)
  | [], lv, _ => newLine_ascii lv
  | (k, j) :: m, lv, h => by
    have h1 := dump_ascii j (lv + 1) (fun q hq => h q (by simp [floatsM, hq]))
    have h2 := dumpMembers_ascii m lv (fun q hq => h q (by simp [floatsM, hq]))
    rw [dumpMembers]
    simp only [ascii_cons, ascii_append]
    exact ⟨by decide, newLine_ascii _, quoted_ascii k, by decide, by decide, h1, h2⟩
end

/-! ## C133 -/

/-- The text of every float in a document is a JSON number that is read as this float. -/
def Floats (rd : Rat → Rat) (sh : Rat → List Char) (j : Json) : Prop := ∀ q ∈ floats j, NumberText (sh q) ∧ numberValue rd (sh q) = some q

/-- **C133**: what is written for a document is a JSON text that stands for it, and for nothing else; it has only ASCII characters. -/
theorem C133_text {rd : Rat → Rat} {sh : Rat → List Char} {j : Json} (h : Floats rd sh j) :
    JDoc (numberValue rd) (toVal j) (dump sh 0 j ++ ['\n']) ∧ (∀ v, JDoc (numberValue rd) v (dump sh 0 j ++ ['\n']) → v = toVal j) ∧
      ∀ c ∈ dump sh 0 j ++ ['\n'], c.toNat < 128 := by
  have h1 : JDoc (numberValue rd) (toVal j) (dump sh 0 j ++ ['\n']) := ⟨[], dump sh 0 j, ['\n'], by simp [JWs], dump_text j 0 h, by simp [JWs], rfl⟩
  refine ⟨h1, ?_, ascii_append.2 ⟨dump_ascii j 0 (fun q hq => (h q hq).1), by simp [Ascii]⟩⟩
  intro v hv
  have := (parse_text hv).symm.trans (parse_text h1)
  exact Option.some.inj this

/-- **C133**: a text stands for one value at most. -/
theorem C133_unique {val : List Char → Option Rat} {v v' : JVal} {t : List Char} (h : JDoc val v t) (h' : JDoc val v' t) : v = v' :=
  Option.some.inj ((parse_text h).symm.trans (parse_text h'))

/-! ### The document determines the report -/

open Format Report

theorem toVals_map {α : Type} {f : α → Json} (hf : ∀ a b, toVal (f a) = toVal (f b) → a = b) : ∀ a b : List α, toVals (a.map f) = toVals (b.map f) → a = b
  | [], [], _ => rfl
  | [], _ :: _, h => by simp [toVals] at h
  | _ :: _, [], h => by simp [toVals] at h
  | x :: a, y :: b, h => by
    simp only [List.map_cons, toVals, List.cons.injEq] at h
    rw [hf _ _ h.1, toVals_map hf a b h.2]

theorem bin_inj (a b : JBin) (h : toVal (encJBin a) = toVal (encJBin b)) : a = b := by
  obtain ⟨n, c⟩ := a
  obtain ⟨n', c'⟩ := b
  simp [encJBin, toVal, toMembers] at h
  simp [h]

theorem bins_inj (a b : List JBin) (h : toVals (a.map encJBin) = toVals (b.map encJBin)) : a = b := toVals_map bin_inj a b h

theorem toMembers_append (a b : List (String × Json)) : toMembers (a ++ b) = toMembers a ++ toMembers b := by
  induction a with
  | nil => rfl
  | cons x a ih => simp [toMembers, ih]

theorem cp_inj (a b : JCp) (h : toVal (encJCp a) = toVal (encJCp b)) : a = b := by
  obtain ⟨n, c, x, y, z⟩ := a
  obtain ⟨n', c', x', y', z'⟩ := b
  have hb := bins_inj
  cases n <;> cases n' <;> cases x <;> cases x' <;> cases y <;> cases y' <;> cases z <;> cases z' <;>
    simp [encJCp, toVal, toMembers, member] at h ⊢ <;>
    (repeat' constructor) <;> first | (exact h.1) | (exact hb _ _ (by simp [h])) | simp [h]

theorem cross_inj (a b : JCross) (h : toVal (encJCross a) = toVal (encJCross b)) : a = b := by
  obtain ⟨n, c, x⟩ := a
  obtain ⟨n', c', x'⟩ := b
  have hb := bins_inj
  cases x <;> cases x' <;> simp [encJCross, toVal, toMembers, member] at h ⊢ <;> (repeat' constructor) <;> first | (exact hb _ _ (by simp [h])) | simp [h]

mutual
theorem cg_inj : ∀ a b : JCg, toVal (encJCg a) = toVal (encJCg b) → a = b
  | ⟨n, c, x, y, z⟩, ⟨n', c', x', y', z'⟩, h => by
    have hs := sub_inj z z'
    have hx := toVals_map cp_inj
    have hy := toVals_map cross_inj
    have hz : toMembers (encJSub z) = toMembers (encJSub z') ∧ n = n' ∧ c = c' ∧ x = x' ∧ y = y' := by
      cases x <;> cases x' <;> cases y <;> cases y' <;> cases z <;> cases z' <;> simp [encJCg, encJSub, toVal, toMembers, member] at h ⊢ <;>
        (repeat' constructor) <;> first | (exact hx _ _ (by simp [h])) | (exact hy _ _ (by simp [h])) | simp [h]
    obtain ⟨h1, h2, h3, h4, h5⟩ := hz
    rw [hs h1, h2, h3, h4, h5]
theorem sub_inj : ∀ a b : Option (List JCg), toMembers (encJSub a) = toMembers (encJSub b) → a = b
  | none, none, _ => rfl
  | none, some _, h => by simp [encJSub, toMembers] at h
  | some _, none, h => by simp [encJSub, toMembers] at h
  | some a, some b, h => by
    simp only [encJSub, toMembers, toVal, List.cons.injEq, Prod.mk.injEq, JVal.arr.injEq, true_and, and_true] at h
    rw [cgs_inj a b h]
theorem cgs_inj : ∀ a b : List JCg, toVals (encJCgs a) = toVals (encJCgs b) → a = b
  | [], [], _ => rfl
  | [], _ :: _, h => by simp [encJCgs, toVals] at h
  | _ :: _, [], h => by simp [encJCgs, toVals] at h
  | x :: a, y :: b, h => by
    simp only [encJCgs, toVals, List.cons.injEq] at h
    rw [cg_inj x y h.1, cgs_inj a b h.2]
end

theorem rpt_inj {a b : JRpt} (h : toVal (encJRpt a) = toVal (encJRpt b)) : a = b := by
  obtain ⟨c, x⟩ := a
  obtain ⟨c', x'⟩ := b
  simp only [encJRpt, toVal, List.singleton_append, toMembers, JVal.obj.injEq, List.cons.injEq, Prod.mk.injEq, JVal.num.injEq, true_and] at h
  rw [h.1, sub_inj x x' h.2]

/-- **C133** for a report: the text that is written stands for one value, and this value for one report; the figures in it are those of the report.
Another report, also one that was written with other texts for the floats, has another text. -/
theorem C133_report {rd : Rat → Rat} {sh : Rat → List Char} {db : Scope} {r : Rpt} (hb : build rd db = .ok r)
    (hc : Verif.Spec.crossesOfL r.covergroups = []) (hf : ∀ j, jReport rd true db = .ok j → Floats rd sh (encJRpt j)) :
    ∃ j, jReport rd true db = .ok j ∧ JDoc (numberValue rd) (toVal (encJRpt j)) (reportText sh j) ∧
      (∀ c ∈ reportText sh j, c.toNat < 128) ∧
      (∀ c gs, saysReport (encJRpt j) c gs ↔ c = r.coverage ∧ gs = Verif.Spec.viewRL r.covergroups) ∧
      ∀ j', JDoc (numberValue rd) (toVal (encJRpt j')) (reportText sh j) → j' = j := by
  obtain ⟨j, hj, hs⟩ := C109_reads rd db r hb hc
  obtain ⟨h1, h2, h3⟩ := C133_text (hf j hj)
  exact ⟨j, hj, h1, h3, hs, fun j' h => rpt_inj (h2 _ h)⟩

/-! ### There are such texts -/

/-- A number as an integer times a power of ten. -/
def expText (z : Int) (k : Nat) : List Char := (PyNum.strInt z).toList ++ 'e' :: '-' :: PyNum.natL k

theorem expText_number (z : Int) (k : Nat) : NumberText (expText z k) := by
  have he : ∃ x s d, 'e' :: '-' :: PyNum.natL k = x :: (s ++ d) ∧ (x = 'e' ∨ x = 'E') ∧ (s = [] ∨ s = ['+'] ∨ s = ['-']) ∧ Digits d :=
    ⟨'e', ['-'], _, rfl, .inl rfl, .inr (.inr rfl), natL_digits k⟩
  cases z with
  | ofNat n => exact ⟨[], PyNum.natL n, [], _, by simp [expText, PyNum.strInt, PyNum.intL], .inl rfl, natL_digits n, natL_zero, .inl rfl, .inr he⟩
  | negSucc n => exact ⟨['-'], PyNum.natL (n + 1), [], _, by simp [expText, PyNum.strInt, PyNum.intL], .inr rfl, natL_digits _, natL_zero, .inl rfl, .inr he⟩

theorem unsigned_exp (n k : Nat) : unsignedValue (PyNum.natL n ++ 'e' :: '-' :: PyNum.natL k) = some ((n : Rat) * (10 : Rat) ^ (-(k : Int))) := by
  have h : ∀ c ∈ PyNum.natL n, Char.isDigit c = true := fun _ hc => PyNum.natL_digit hc
  unfold unsignedValue
  rw [dropWhile_stop h (by decide), takeWhile_stop h (by decide)]
  simp [exponentValue, digitsValue_natL]

theorem expText_value (rd : Rat → Rat) (z : Int) (k : Nat) : numberValue rd (expText z k) = some (rd ((z : Rat) * (10 : Rat) ^ (-(k : Int)))) := by
  have hp : (expText z k).any (fun c => c == '.' || c == 'e' || c == 'E') = true := by simp [expText]
  rw [numberValue, if_pos hp]
  have : decimalValue (expText z k) = some ((z : Rat) * (10 : Rat) ^ (-(k : Int))) := by
    cases z with
    | ofNat n =>
      have h1 : expText (Int.ofNat n) k = PyNum.natL n ++ 'e' :: '-' :: PyNum.natL k := by simp [expText, PyNum.strInt, PyNum.intL]
      rw [h1]
      unfold decimalValue
      split
      · rename_i t h
        exfalso
        have hne := PyNum.natL_ne_nil n
        cases hn : PyNum.natL n with
        | nil => exact hne hn
        | cons c l =>
          rw [hn, List.cons_append, List.cons.injEq] at h
          exact absurd (PyNum.natL_digit (n := n) (c := c) (by rw [hn]; simp)) (by rw [h.1]; decide)
      · exact unsigned_exp n k
    | negSucc n =>
      have h1 : expText (Int.negSucc n) k = '-' :: (PyNum.natL (n + 1) ++ 'e' :: '-' :: PyNum.natL k) := by simp [expText, PyNum.strInt, PyNum.intL]
      rw [h1, decimalValue, unsigned_exp, Option.map_some, Int.cast_negSucc]
      congr 1
      ring
  rw [this, Option.map_some]

/-- The hypothesis of `C133_report` can be met for every document whose floats are finite decimals, as all floats of Python are. -/
theorem C133_floats {rd : Rat → Rat} {j : Json} (h : ∀ q ∈ floats j, rd q = q ∧ ∃ (z : Int) (k : Nat), q = (z : Rat) * (10 : Rat) ^ (-(k : Int))) :
    ∃ sh, Floats rd sh j := by
  classical
  refine ⟨fun q => if hq : ∃ (z : Int) (k : Nat), q = (z : Rat) * (10 : Rat) ^ (-(k : Int)) then expText hq.choose hq.choose_spec.choose else [], ?_⟩
  intro q hq
  obtain ⟨h1, h2⟩ := h q hq
  simp only [dif_pos h2]
  refine ⟨expText_number _ _, ?_⟩
  rw [expText_value, ← h2.choose_spec.choose_spec, h1]

end JsonText

namespace Tools
open Format Report JsonText
open Yaml (Json)

/-- **C133** for the command `report -of json`: the file that it makes is a JSON text in ASCII that stands for one report, with the figures of the report. -/
theorem C133_file {x : Ext} {sh : Rat → List Char} (hx : ∀ j, x.showJson j = Spec.utf8 (reportText sh j))
    {a : ReportArgs} {w w' : World} (hf : a.outputFormat = some "json")
    (hsh : ∀ i d j, Spec.Registered (defaultRgy x) (a.inputFormat.getD "xml") i → i.fmtIf.read (w.files a.db) = .ok d →
      jReport x.rd true d.root = .ok j → Floats x.rd sh (encJRpt j))
    (h : ucisReport x a w = (.ok (), w')) :
    ∃ i d r j t, Spec.Registered (defaultRgy x) (a.inputFormat.getD "xml") i ∧ i.fmtIf.read (w.files a.db) = .ok d ∧ build x.rd d.root = .ok r ∧
      w' = Spec.Reported w a.db a.out (Spec.utf8 t) ∧ (∀ c ∈ t, c.toNat < 128) ∧
      (∀ v, Verif.Spec.JDoc (Verif.Spec.numberValue x.rd) v t ↔ v = toVal (encJRpt j)) ∧
      ∀ c gs, Verif.Spec.saysReport (encJRpt j) c gs ↔ c = r.coverage ∧ gs = Verif.Spec.viewRL r.covergroups := by
  obtain ⟨i, d, j, h1, h2, h3, _, h4⟩ := (report_json_ok x a w hf w').1 h
  obtain ⟨c1, c2, c3⟩ := C30_json_partial x.rd d.root
  cases hb : build x.rd d.root with
  | error e => rw [c3 e hb] at h3; cases h3
  | ok r =>
    by_cases hc : Verif.Spec.crossesOfL r.covergroups = []
    · obtain ⟨j', hj, t1, t2, t3, t4⟩ := C133_report hb hc (fun j => hsh i d j h1 h2)
      cases h3.symm.trans hj
      exact ⟨i, d, r, j, reportText sh j, h1, h2, hb, by rw [h4, hx], t2, fun v => ⟨fun hv => C133_unique hv t1, fun hv => hv ▸ t1⟩, t3⟩
    · rw [c2 r hb hc] at h3; cases h3

/-! ### Examples -/

/-- The texts of numbers with one decimal. -/
def tenthText (q : Rat) : List Char := expText (q * 10).num 1

theorem tenthText_floats {j : Json} (h : (floats j).all (fun q => (q * 10).den == 1) = true) : Floats id tenthText j := by
  intro q hq
  have hd : (q * 10).den = 1 := by simpa using List.all_eq_true.1 h q hq
  refine ⟨expText_number _ _, ?_⟩
  rw [tenthText, expText_value]
  have : ((q * 10).num : Rat) = q * 10 := Rat.coe_int_num_of_den_eq_one hd
  rw [this]
  simp

/-- `C133_report`: a database with a coverpoint and a cover-instance with two. -/
example : ∃ j, jReport id true Ex.jdb = .ok j ∧ Floats id tenthText (encJRpt j) := by
  obtain ⟨j, hj, _⟩ := C109_reads id Ex.jdb _ Ex.build_jdb (by decide +kernel)
  have h : (jReport id true Ex.jdb).map (fun j => (floats (encJRpt j)).all (fun q => (q * 10).den == 1)) = .ok true := by
    decide +kernel
  rw [hj] at h
  exact ⟨j, hj, tenthText_floats (Except.ok.inj h)⟩

/-- An environment in which the report is written as modelled; the file `in.yaml` has a covergroup whose name is a control character. -/
def jsonExt : Ext := { exExt with showJson := fun j => Spec.utf8 (reportText tenthText j) }

theorem jsonExt_read : ∃ d j, (yamlIf jsonExt).read (exWorld.files "in.yaml") = .ok d ∧ jReport id true d.root = .ok j ∧ Floats id tenthText (encJRpt j) := by
  have h : ∃ d, Yaml.load (Yaml.encDoc badDoc) = .ok d ∧
      (jReport id true d.root).map (fun j => (floats (encJRpt j)).all (fun q => (q * 10).den == 1)) = .ok true :=
    ⟨_, (Yaml.load_encode _).trans rfl, by decide +kernel⟩
  obtain ⟨d, hd, h⟩ := h
  cases hj : jReport id true d.root with
  | error e => rw [hj] at h; cases h
  | ok j => rw [hj] at h; exact ⟨d, j, hd, hj, tenthText_floats (Except.ok.inj h)⟩

/-- `C133_file`: the report on that file. -/
example : (∀ j, jsonExt.showJson j = Spec.utf8 (reportText tenthText j)) ∧
    (∃ w', ucisReport jsonExt ⟨some "yaml", some "json", "in.yaml", some "out.json"⟩ exWorld = (.ok (), w')) ∧
    ∀ i d j, Spec.Registered (defaultRgy jsonExt) "yaml" i → i.fmtIf.read (exWorld.files "in.yaml") = .ok d →
      jReport jsonExt.rd true d.root = .ok j → Floats jsonExt.rd tenthText (encJRpt j) := by
  obtain ⟨d, j, h1, h2, h3⟩ := jsonExt_read
  have hr : Spec.Registered (defaultRgy jsonExt) "yaml" ⟨"yaml", 6, "Reads coverage data from a YAML file", yamlIf jsonExt⟩ := rfl
  refine ⟨fun _ => rfl, ⟨_, (report_json_ok jsonExt _ exWorld rfl _).2 ⟨_, d, j, hr, h1, h2, fun _ _ => rfl, rfl⟩⟩, ?_⟩
  intro i d' j' hi hd hj
  cases hi.symm.trans hr
  cases hd.symm.trans h1
  cases hj.symm.trans h2
  exact h3

/-- What is written for names with quotes, a line break and characters outside ASCII. -/
example : dump tenthText 0 (.obj [("a\"b", .arr [.int (-3), .str "é\n😀"])]) =
    "{\n    \"a\\\"b\": [\n        -3,\n        \"\\u00e9\\n\\ud83d\\ude00\"\n    ]\n}".toList := by decide +kernel

end Tools
end Verif
