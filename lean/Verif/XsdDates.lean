import Verif.DateForms
import Verif.XsdThms2
/-!
# The dates of the schema and the dates of the reader (C71, C128)

No new code: an independent description of the texts of `xsd:dateTime`, and which of them the reader accepts.
-/

namespace Verif
namespace Spec

def TwoDigits (f : List Char) (v : Nat) : Prop := Num f v ∧ f.length = 2

/-- A fraction of a second, or nothing. -/
def Fraction (f : List Char) : Prop := f = [] ∨ ∃ g v, f = '.' :: g ∧ Num g v

/-- A time zone, or nothing. -/
def ZoneText (z : List Char) : Prop :=
  z = [] ∨ z = ['Z'] ∨ ∃ s h m vh vm, z = s :: h ++ ':' :: m ∧ (s = '+' ∨ s = '-') ∧ TwoDigits h vh ∧ TwoDigits m vm ∧ (vh < 14 ∧ vm < 60 ∨ vh = 14 ∧ vm = 0)

def Blank (c : Char) : Prop := c = ' ' ∨ c = '\t' ∨ c = '\n' ∨ c = '\r'

/-- The texts of `xsd:dateTime` in XML Schema 1.0: `[-]y-mm-ddThh:mm:ss[.f][zone]`, a year of at least four digits, not 0 and without leading zeros if longer, a day of
the calendar, a time of the day or `24:00:00`. -/
def XsdDate (l : List Char) : Prop :=
  ∃ a sgn y mo d h mi se fr z b vy vmo vd vh vmi vse n, l = a ++ (sgn ++ (y ++ '-' :: (mo ++ '-' :: (d ++ 'T' :: (h ++ ':' :: (mi ++ ':' :: (se ++ (fr ++ z)))))))) ++ b ∧
    (∀ c ∈ a, Blank c) ∧ (∀ c ∈ b, Blank c) ∧ (sgn = [] ∨ sgn = ['-']) ∧
    Num y vy ∧ vy ≠ 0 ∧ (y.length = 4 ∨ 4 < y.length ∧ y.head? ≠ some '0') ∧ TwoDigits mo vmo ∧ TwoDigits d vd ∧ TwoDigits h vh ∧ TwoDigits mi vmi ∧ TwoDigits se vse ∧
    1 ≤ vmo ∧ (monthDays vy)[vmo - 1]? = some n ∧ 1 ≤ vd ∧ vd ≤ n ∧ (vh < 24 ∧ vmi < 60 ∧ vse < 60 ∨ vh = 24 ∧ vmi = 0 ∧ vse = 0) ∧ Fraction fr ∧ ZoneText z

/-- Digits with at most one point, and at least one digit. -/
def Unsigned (l : List Char) : Prop :=
  ∃ i f, (l = i ∧ i ≠ [] ∧ f = [] ∨ l = i ++ '.' :: f ∧ (i ≠ [] ∨ f ≠ [])) ∧ (∀ c ∈ i, c.isDigit = true) ∧ ∀ c ∈ f, c.isDigit = true

def Sign (l : List Char) : Prop := l = [] ∨ l = ['-'] ∨ l = ['+']

/-- The texts of `xsd:double` in XML Schema 1.0. -/
def XsdDouble (l : List Char) : Prop :=
  ∃ a m b, l = a ++ m ++ b ∧ (∀ c ∈ a, Blank c) ∧ (∀ c ∈ b, Blank c) ∧
    (m = ['I', 'N', 'F'] ∨ m = ['-', 'I', 'N', 'F'] ∨ m = ['N', 'a', 'N'] ∨
      ∃ s u x, m = s ++ (u ++ x) ∧ Sign s ∧ Unsigned u ∧ (x = [] ∨ ∃ e t g v, x = e :: (t ++ g) ∧ (e = 'e' ∨ e = 'E') ∧ Sign t ∧ Num g v))

/-- The texts of `xsd:decimal`. -/
def XsdDecimal (l : List Char) : Prop :=
  ∃ a s u b, l = a ++ (s ++ u) ++ b ∧ (∀ c ∈ a, Blank c) ∧ (∀ c ∈ b, Blank c) ∧ Sign s ∧ Unsigned u

end Spec

namespace Xsd
open Spec DateTime

theorem xmlSpace_iff (c : Char) : xmlSpace c = true ↔ Blank c := by
  unfold xmlSpace Blank
  simp only [Bool.or_eq_true, beq_iff_eq]
  tauto

theorem month_iff (y m n : Nat) : (1 ≤ m ∧ (monthDays y)[m - 1]? = some n) ↔ 1 ≤ m ∧ m ≤ 12 ∧ n = daysIn y m := by
  have hl : daysIn y 2 = if LeapYear y then 29 else 28 := by
    unfold daysIn
    rw [if_pos rfl]
    by_cases h : LeapYear y
    · rw [if_pos h, if_pos ((isLeap_iff _).2 h)]
    · rw [if_neg h, if_neg (fun h' => h ((isLeap_iff _).1 h'))]
  have key : ∀ m, 1 ≤ m → m ≤ 12 → (monthDays y)[m - 1]? = some (daysIn y m) := by
    intro m h1 h2
    interval_cases m <;> try rfl
    rw [hl]; rfl
  constructor
  · rintro ⟨h3, hn⟩
    have h4 : m ≤ 12 := by
      have := (List.getElem?_eq_some_iff.1 hn).1
      simp only [monthDays, List.length_cons, List.length_nil] at this
      omega
    rw [key _ h3 h4] at hn
    cases hn
    exact ⟨h3, h4, rfl⟩
  · rintro ⟨h3, h4, rfl⟩
    exact ⟨h3, key _ h3 h4⟩

theorem dd_mem {v : Nat} {r s : List Char} (h : (v, r) ∈ dd s) : ∃ f, s = f ++ r ∧ TwoDigits f v := by
  obtain ⟨f, h1, h2, h3⟩ := m2_mem h (fun _ h => h) (fun _ h => h)
  exact ⟨f, h1, h3, h2⟩

theorem two_cases {f : List Char} {v : Nat} (h : TwoDigits f v) : ∃ i j, i < 10 ∧ j < 10 ∧ f = [Nat.digitChar i, Nat.digitChar j] ∧ v = 10 * i + j := by
  rcases short_cases ⟨h.1, by rw [h.2]⟩ with ⟨i, _, e, _⟩ | h'
  · have := h.2; rw [e] at this; cases this
  · exact h'

theorem runFmt_two {f : List Char} {v : Nat} (h : TwoDigits f v) (fs : List Tok) (r : List Char) :
    runFmt (.field dd :: fs) (f ++ r) = (runFmt fs r).map (fun q => (v :: q.1, q.2)) := by
  obtain ⟨i, j, hi, hj, rfl, rfl⟩ := two_cases h
  have : dd ([Nat.digitChar i, Nat.digitChar j] ++ r) = [(10 * i + j, r)] := by
    have h1 : ∀ k, k < 10 → (Nat.digitChar k).isDigit = true ∧ digitVal (Nat.digitChar k) = k := by decide
    simp only [List.cons_append, List.nil_append, dd, m2, (h1 i hi).1, (h1 j hj).1, (h1 i hi).2, (h1 j hj).2, Bool.and_self, if_true]
  rw [runFmt, this]
  simp

theorem zoneOk_iff (z : List Char) : zoneOk z = true ↔ ZoneText z := by
  constructor
  · intro h
    unfold zoneOk at h
    split at h
    · exact .inl rfl
    · exact .inr (.inl rfl)
    · rename_i s t _
      rw [Bool.and_eq_true] at h
      obtain ⟨h1, h2⟩ := h
      refine .inr (.inr ?_)
      split at h2
      · rename_i vh vm hr
        have hm : ([vh, vm], []) ∈ runFmt [.field dd, .lit ':', .field dd] t := by rw [hr]; simp
        obtain ⟨_, _, _, a1, q1, e⟩ := field_mem hm
        obtain ⟨f, rfl, a2⟩ := dd_mem a1
        obtain ⟨_, rfl, q2⟩ := lit_mem q1
        obtain ⟨_, _, _, b1, q3, rfl⟩ := field_mem q2
        obtain ⟨g, rfl, b2⟩ := dd_mem b1
        simp only [runFmt, List.mem_singleton, Prod.mk.injEq] at q3
        obtain ⟨rfl, rfl⟩ := q3
        simp only [List.cons.injEq, and_true] at e
        obtain ⟨rfl, rfl⟩ := e
        refine ⟨s, f, g, _, _, by simp, by simpa using h1, a2, b2, by simpa using h2⟩
      · cases h2
  · rintro (rfl | rfl | ⟨s, f, g, vh, vm, rfl, h1, h2, h3, h4⟩)
    · rfl
    · rfl
    · unfold zoneOk
      split
      · rfl
      · rfl
      · rename_i s' t _ e
        simp only [List.cons_append, List.cons.injEq] at e
        obtain ⟨rfl, rfl⟩ := e
        rw [runFmt_two h2, runFmt_lit]
        have := runFmt_two h3 [] []
        rw [List.append_nil] at this
        rw [this]
        simp only [runFmt, List.map_cons, List.map_nil]
        simpa using ⟨h1, h4⟩

theorem zone_no_point {z : List Char} (h : ZoneText z) : ∀ t, z ≠ '.' :: t := by
  rintro t rfl
  rcases h with h | h | ⟨s, _, _, _, _, h, h1, _⟩
  · cases h
  · cases h
  · simp only [List.cons_append, List.cons.injEq] at h
    rw [← h.1] at h1
    revert h1; decide

theorem zone_head {z : List Char} (h : ZoneText z) : ∀ c, z.head? = some c → c.isDigit = false := by
  intro c hc
  rcases h with rfl | rfl | ⟨s, _, _, _, _, rfl, h1, _⟩
  · cases hc
  · cases hc; decide
  · simp only [List.cons_append, List.head?_cons, Option.some.injEq] at hc
    subst hc
    rcases h1 with rfl | rfl <;> decide

theorem digits_split (t : List Char) : ∃ g r, t = g ++ r ∧ (∀ c ∈ g, c.isDigit = true) ∧ t.takeWhile Char.isDigit = g ∧ t.dropWhile Char.isDigit = r :=
  ⟨_, _, (List.takeWhile_append_dropWhile (p := Char.isDigit)).symm, fun _ h => List.mem_takeWhile_imp h, rfl, rfl⟩

theorem takeWhile_digits {g r : List Char} (h : ∀ c ∈ g, c.isDigit = true) (hr : ∀ c, r.head? = some c → c.isDigit = false) :
    (g ++ r).takeWhile Char.isDigit = g ∧ (g ++ r).dropWhile Char.isDigit = r := by
  rw [List.takeWhile_append_of_pos h, List.dropWhile_append_of_pos h]
  cases r with
  | nil => simp
  | cons c t =>
    have := hr c rfl
    rw [List.takeWhile_cons_of_neg (by simp [this]), List.dropWhile_cons_of_neg (by simp [this])]
    simp

theorem fractionOk_iff (r : List Char) : fractionOk r = true ↔ ∃ fr z, r = fr ++ z ∧ Fraction fr ∧ ZoneText z := by
  constructor
  · intro h
    unfold fractionOk at h
    split at h
    · rename_i t
      obtain ⟨g, q, rfl, h1, h2, h3⟩ := digits_split t
      rw [h2, h3, Bool.and_eq_true] at h
      refine ⟨'.' :: g, q, by simp, .inr ⟨g, _, rfl, ?_, h1, rfl⟩, (zoneOk_iff q).1 h.2⟩
      rintro rfl
      simp at h
    · exact ⟨[], r, rfl, .inl rfl, (zoneOk_iff r).1 h⟩
  · rintro ⟨fr, z, rfl, rfl | ⟨g, v, rfl, hg⟩, hz⟩
    · unfold fractionOk
      split
      · rename_i e
        exact absurd e (zone_no_point hz _)
      · exact (zoneOk_iff z).2 hz
    · obtain ⟨h2, h3⟩ := takeWhile_digits hg.2.1 (zone_head hz)
      unfold fractionOk
      simp only [List.cons_append]
      rw [h2, h3, (zoneOk_iff z).2 hz, Bool.and_true]
      have := hg.1
      cases g with
      | nil => exact absurd rfl this
      | cons _ _ => rfl

theorem trim_pad {a m b : List Char} (ha : ∀ c ∈ a, xmlSpace c = true) (hb : ∀ c ∈ b, xmlSpace c = true) (h1 : ∃ c, m.head? = some c ∧ xmlSpace c = false)
    (h2 : ∃ c, m.getLast? = some c ∧ xmlSpace c = false) : trim (a ++ m ++ b) = m := by
  obtain ⟨x, h1, hx⟩ := h1
  obtain ⟨y, h2, hy⟩ := h2
  unfold trim
  rw [List.append_assoc, List.dropWhile_append_of_pos ha]
  have e1 : (m ++ b).dropWhile xmlSpace = m ++ b := by
    cases m with
    | nil => cases h1
    | cons c t =>
      simp only [List.head?_cons, Option.some.injEq] at h1
      subst h1
      rw [List.cons_append, List.dropWhile_cons_of_neg (by simp [hx])]
  rw [e1, List.reverse_append, List.dropWhile_append_of_pos (by simpa using hb)]
  have e2 : m.reverse.dropWhile xmlSpace = m.reverse := by
    rw [← List.head?_reverse] at h2
    cases hm : m.reverse with
    | nil => rw [hm] at h2; cases h2
    | cons c t =>
      rw [hm] at h2
      simp only [List.head?_cons, Option.some.injEq] at h2
      subst h2
      rw [List.dropWhile_cons_of_neg (by simp [hy])]
  rw [e2, List.reverse_reverse]

theorem digit_not_blank {c : Char} (h : c.isDigit = true) : xmlSpace c = false := by
  obtain ⟨k, hk, rfl⟩ := digit_of h
  revert k
  decide

theorem last_digit {f : List Char} {v : Nat} (h : Num f v) : ∃ c, f.getLast? = some c ∧ xmlSpace c = false := by
  cases hl : f.getLast? with
  | none => exact absurd (List.getLast?_eq_none_iff.1 hl) h.1
  | some c => exact ⟨c, rfl, digit_not_blank (h.2.1 c (List.mem_of_getLast? hl))⟩

theorem last_append {f g : List Char} (h : ∃ c, g.getLast? = some c ∧ xmlSpace c = false) : ∃ c, (f ++ g).getLast? = some c ∧ xmlSpace c = false := by
  obtain ⟨c, h1, h2⟩ := h
  exact ⟨c, by rw [List.getLast?_append, h1]; rfl, h2⟩

theorem last_cons {x : Char} {g : List Char} (h : ∃ c, g.getLast? = some c ∧ xmlSpace c = false) : ∃ c, (x :: g).getLast? = some c ∧ xmlSpace c = false :=
  last_append (f := [x]) h

/-- The types of the schema model describe `xsd:dateTime`. -/
theorem isDateTime_iff (l : List Char) : isDateTime l = true ↔ XsdDate l := by
  constructor
  · intro h
    obtain ⟨a, b, e, ha, hb⟩ := trim_decomp l
    unfold isDateTime at h
    simp only [Bool.and_eq_true, Bool.or_eq_true, decide_eq_true_eq, bne_iff_ne] at h
    obtain ⟨⟨⟨h1, h2⟩, h3⟩, h4⟩ := h
    obtain ⟨sgn, hs, hsgn⟩ : ∃ sgn, trim l = sgn ++ unminus (trim l) ∧ (sgn = [] ∨ sgn = ['-']) := by
      unfold unminus
      split
      · exact ⟨['-'], by simp_all, .inr rfl⟩
      · exact ⟨[], rfl, .inl rfl⟩
    obtain ⟨y, q, hu, y1, y2, y3⟩ := digits_split (unminus (trim l))
    rw [y2] at h1 h2 h3 h4
    rw [y3] at h4
    split at h4
    · rename_i vmo vd vh vmi vse r hr
      have hm : ([vmo, vd, vh, vmi, vse], r) ∈ runFmt [.lit '-', .field dd, .lit '-', .field dd, .lit 'T', .field dd, .lit ':', .field dd, .lit ':', .field dd] q := by
        rw [hr]; simp
      obtain ⟨_, rfl, q1⟩ := lit_mem hm
      obtain ⟨_, _, _, a1, q2, e1⟩ := field_mem q1
      obtain ⟨mo, rfl, a2⟩ := dd_mem a1
      obtain ⟨_, rfl, q3⟩ := lit_mem q2
      obtain ⟨_, _, _, b1, q4, rfl⟩ := field_mem q3
      obtain ⟨d, rfl, b2⟩ := dd_mem b1
      obtain ⟨_, rfl, q5⟩ := lit_mem q4
      obtain ⟨_, _, _, c1, q6, rfl⟩ := field_mem q5
      obtain ⟨hh, rfl, c2⟩ := dd_mem c1
      obtain ⟨_, rfl, q7⟩ := lit_mem q6
      obtain ⟨_, _, _, d1, q8, rfl⟩ := field_mem q7
      obtain ⟨mi, rfl, d2⟩ := dd_mem d1
      obtain ⟨_, rfl, q9⟩ := lit_mem q8
      obtain ⟨_, _, _, f1, q10, rfl⟩ := field_mem q9
      obtain ⟨se, rfl, f2⟩ := dd_mem f1
      simp only [runFmt, List.mem_singleton, Prod.mk.injEq] at q10
      obtain ⟨rfl, rfl⟩ := q10
      simp only [List.cons.injEq, and_true] at e1
      obtain ⟨rfl, rfl, rfl, rfl, rfl⟩ := e1
      rw [Bool.and_eq_true, decide_eq_true_eq] at h4
      obtain ⟨⟨k1, k2, k3, k4, k5⟩, k6⟩ := h4
      obtain ⟨fr, z, rfl, hf, hz⟩ := (fractionOk_iff _).1 k6
      have hn := (month_iff (Nat.ofDigitChars 10 y 0) _ _).2 ⟨k1, k2, rfl⟩
      refine ⟨a, sgn, y, mo, d, hh, mi, se, fr, z, b, _, _, _, _, _, _, _, ?_, fun c hc => (xmlSpace_iff c).1 (ha c hc), fun c hc => (xmlSpace_iff c).1 (hb c hc), hsgn,
        ⟨?_, y1, rfl⟩, h3, ?_, a2, b2, c2, d2, f2, k1, hn.2, k3, k4, k5, hf, hz⟩
      · rw [← hu, ← hs]; exact e
      · rintro rfl; simp at h1
      · rcases h2 with h2 | h2
        · exact .inl h2
        · by_cases h5 : y.length = 4
          · exact .inl h5
          · exact .inr ⟨by omega, h2⟩
    · cases h4
  · rintro ⟨a, sgn, y, mo, d, h, mi, se, fr, z, b, vy, vmo, vd, vh, vmi, vse, n, rfl, ha, hb, hsgn, hy, hy0, hy4, hmo, hd, hh, hmi, hse, k1, kn, k3, k4, k5, hf, hz⟩
    obtain ⟨m1, m2, rfl⟩ := (month_iff vy vmo n).1 ⟨k1, kn⟩
    have hlast : ∃ c, (se ++ (fr ++ z)).getLast? = some c ∧ xmlSpace c = false := by
      rcases hz with rfl | rfl | ⟨s, f, g, u, v, rfl, _, _, hg, _⟩
      · rcases hf with rfl | ⟨g, v, rfl, hg⟩
        · simpa using last_digit hse.1
        · rw [List.append_nil]; exact last_append (last_cons (last_digit hg))
      · exact last_append (last_append ⟨'Z', rfl, by decide⟩)
      · exact last_append (last_append (last_append (last_cons (last_digit hg.1))))
    have hu : ∀ q, unminus (sgn ++ (y ++ q)) = y ++ q := by
      intro q
      rcases hsgn with rfl | rfl
      · obtain ⟨c, t, rfl⟩ := List.exists_cons_of_ne_nil hy.1
        have := hy.2.1 c (by simp)
        simp only [List.nil_append, List.cons_append]
        unfold unminus
        split
        · rename_i e
          simp only [List.cons.injEq] at e
          rw [e.1] at this
          exact absurd this (by decide)
        · rfl
      · rfl
    have hhead : ∀ q, ∃ c, (sgn ++ (y ++ q)).head? = some c ∧ xmlSpace c = false := by
      intro q
      rcases hsgn with rfl | rfl
      · obtain ⟨c, t, rfl⟩ := List.exists_cons_of_ne_nil hy.1
        exact ⟨c, rfl, digit_not_blank (hy.2.1 c (by simp))⟩
      · exact ⟨'-', rfl, by decide⟩
    unfold isDateTime
    rw [trim_pad (fun c hc => (xmlSpace_iff c).2 (ha c hc)) (fun c hc => (xmlSpace_iff c).2 (hb c hc)) (hhead _)
      (last_append (last_append (last_cons (last_append (last_cons (last_append (last_cons (last_append (last_cons (last_append (last_cons hlast))))))))))), hu]
    obtain ⟨t1, t2⟩ := takeWhile_digits (r := '-' :: (mo ++ '-' :: (d ++ 'T' :: (h ++ ':' :: (mi ++ ':' :: (se ++ (fr ++ z))))))) hy.2.1
      (by intro c hc; cases hc; decide)
    simp only [t1, t2, hy.2.2]
    rw [runFmt_lit, runFmt_two hmo, runFmt_lit, runFmt_two hd, runFmt_lit, runFmt_two hh, runFmt_lit, runFmt_two hmi, runFmt_lit, runFmt_two hse]
    simp only [runFmt, List.map_cons, List.map_nil]
    rw [(fractionOk_iff _).2 ⟨fr, z, rfl, hf, hz⟩]
    simp only [Bool.and_true, Bool.and_eq_true, Bool.or_eq_true, decide_eq_true_eq, bne_iff_ne]
    refine ⟨⟨⟨by omega, ?_⟩, hy0⟩, m1, m2, k3, k4, k5⟩
    rcases hy4 with h | h
    · exact .inl h
    · exact .inr h.2

theorem unsignedDecimal_iff (l : List Char) : unsignedDecimal l = true ↔ Unsigned l := by
  constructor
  · intro h
    obtain ⟨g, q, e, h1, h2, h3⟩ := digits_split l
    unfold unsignedDecimal at h
    simp only [h2, h3] at h
    split at h
    · refine ⟨g, [], .inl ⟨by simpa using e, ?_, rfl⟩, h1, by simp⟩
      rintro rfl; simp at h
    · rename_i t
      simp only [Bool.and_eq_true, Bool.or_eq_true, List.all_eq_true, Bool.not_eq_true', List.isEmpty_eq_false_iff] at h
      exact ⟨g, t, .inr ⟨e, h.2⟩, h1, h.1⟩
    · cases h
  · rintro ⟨i, f, ⟨rfl, h1, rfl⟩ | ⟨rfl, h1⟩, h2, h3⟩
    · have := takeWhile_digits (r := []) h2 (by simp)
      rw [List.append_nil] at this
      unfold unsignedDecimal
      simp only [this.1, this.2]
      simpa using h1
    · have := takeWhile_digits (r := '.' :: f) h2 (by intro c hc; cases hc; decide)
      unfold unsignedDecimal
      simp only [this.1, this.2]
      simp only [Bool.and_eq_true, Bool.or_eq_true, List.all_eq_true, Bool.not_eq_true', List.isEmpty_eq_false_iff]
      exact ⟨h3, h1⟩

theorem unsign_split (l : List Char) : ∃ s, l = s ++ unsign l ∧ Sign s := by
  unfold unsign
  split
  · exact ⟨['-'], rfl, .inr (.inl rfl)⟩
  · exact ⟨['+'], rfl, .inr (.inr rfl)⟩
  · exact ⟨[], rfl, .inl rfl⟩

/-- A text that begins with a digit or a point has no sign. -/
theorem unsign_sign {s t : List Char} (hs : Sign s) (ht : ∃ c, t.head? = some c ∧ c ≠ '-' ∧ c ≠ '+') : unsign (s ++ t) = t := by
  obtain ⟨c, hc, h1, h2⟩ := ht
  cases t with
  | nil => cases hc
  | cons x r =>
    simp only [List.head?_cons, Option.some.injEq] at hc
    subst hc
    rcases hs with rfl | rfl | rfl
    · simp only [List.nil_append]
      unfold unsign
      split
      · rename_i e; simp only [List.cons.injEq] at e; exact absurd e.1 h1
      · rename_i e; simp only [List.cons.injEq] at e; exact absurd e.1 h2
      · rfl
    · rfl
    · rfl

theorem unsigned_chars {u : List Char} (h : Unsigned u) : ∀ c ∈ u, c.isDigit = true ∨ c = '.' := by
  obtain ⟨i, f, ⟨rfl, _, rfl⟩ | ⟨rfl, _⟩, h2, h3⟩ := h
  · exact fun c hc => .inl (h2 c hc)
  · intro c hc
    simp only [List.mem_append, List.mem_cons] at hc
    rcases hc with hc | hc | hc
    · exact .inl (h2 c hc)
    · exact .inr hc
    · exact .inl (h3 c hc)

theorem unsigned_ne {u : List Char} (h : Unsigned u) : u ≠ [] := by
  obtain ⟨i, f, ⟨rfl, h1, rfl⟩ | ⟨rfl, h1⟩, h2, h3⟩ := h
  · exact h1
  · simp

/-- No sign, no blank, no `e`. -/
theorem numeral_char {c : Char} (h : c.isDigit = true ∨ c = '.') : c ≠ '-' ∧ c ≠ '+' ∧ xmlSpace c = false ∧ (c != 'e' && c != 'E') = true := by
  rcases h with h | rfl
  · obtain ⟨k, hk, rfl⟩ := digit_of h
    revert k
    decide
  · decide

theorem unsigned_head {u : List Char} (h : Unsigned u) (r : List Char) : ∃ c, (u ++ r).head? = some c ∧ (c.isDigit = true ∨ c = '.') := by
  obtain ⟨c, t, rfl⟩ := List.exists_cons_of_ne_nil (unsigned_ne h)
  exact ⟨c, rfl, unsigned_chars h c (by simp)⟩

theorem unsigned_last {u : List Char} (h : Unsigned u) : ∃ c, u.getLast? = some c ∧ xmlSpace c = false := by
  cases hl : u.getLast? with
  | none => exact absurd (List.getLast?_eq_none_iff.1 hl) (unsigned_ne h)
  | some c => exact ⟨c, rfl, (numeral_char (unsigned_chars h c (List.mem_of_getLast? hl))).2.2.1⟩

theorem sign_head {s t : List Char} (hs : Sign s) (ht : ∃ c, t.head? = some c ∧ xmlSpace c = false) : ∃ c, (s ++ t).head? = some c ∧ xmlSpace c = false := by
  rcases hs with rfl | rfl | rfl
  · exact ht
  · exact ⟨'-', rfl, by decide⟩
  · exact ⟨'+', rfl, by decide⟩

/-- The types of the schema model describe `xsd:decimal`. -/
theorem isDecimal_iff (l : List Char) : isDecimal l = true ↔ XsdDecimal l := by
  unfold isDecimal
  rw [unsignedDecimal_iff]
  constructor
  · intro h
    obtain ⟨a, b, e, ha, hb⟩ := trim_decomp l
    obtain ⟨s, hs, hs'⟩ := unsign_split (trim l)
    exact ⟨a, s, _, b, by rw [← hs]; exact e, fun c hc => (xmlSpace_iff c).1 (ha c hc), fun c hc => (xmlSpace_iff c).1 (hb c hc), hs', h⟩
  · rintro ⟨a, s, u, b, rfl, ha, hb, hs, hu⟩
    obtain ⟨c, hc, hd⟩ := unsigned_head hu []
    rw [List.append_nil] at hc
    have hd := numeral_char hd
    rw [trim_pad (fun c hc => (xmlSpace_iff c).2 (ha c hc)) (fun c hc => (xmlSpace_iff c).2 (hb c hc)) (sign_head hs ⟨c, hc, hd.2.2.1⟩)
      (last_append (unsigned_last hu)), unsign_sign hs ⟨c, hc, hd.1, hd.2.1⟩]
    exact hu

theorem digits_iff (g : List Char) : digits g = true ↔ ∃ v, Num g v := by
  constructor
  · intro h
    obtain ⟨h1, h2⟩ := digits_spec h
    exact ⟨_, h1, h2, rfl⟩
  · rintro ⟨v, h1, h2, _⟩
    unfold digits
    simp only [Bool.and_eq_true, List.all_eq_true, Bool.not_eq_true', List.isEmpty_eq_false_iff]
    exact ⟨h1, h2⟩

/-- The types of the schema model describe `xsd:double`. -/
theorem isDouble_iff (l : List Char) : isDouble l = true ↔ XsdDouble l := by
  constructor
  · intro h
    obtain ⟨a, b, e, ha, hb⟩ := trim_decomp l
    refine ⟨a, trim l, b, e, fun c hc => (xmlSpace_iff c).1 (ha c hc), fun c hc => (xmlSpace_iff c).1 (hb c hc), ?_⟩
    unfold isDouble at h
    simp only [Bool.or_eq_true, beq_iff_eq] at h
    rcases h with ((h | h) | h) | h
    · exact .inl h
    · exact .inr (.inl h)
    · exact .inr (.inr (.inl h))
    refine .inr (.inr (.inr ?_))
    obtain ⟨s, hs, hs'⟩ := unsign_split (trim l)
    have hu := (List.takeWhile_append_dropWhile (p := fun c => c != 'e' && c != 'E') (l := unsign (trim l))).symm
    split at h
    · rename_i h0
      rw [h0] at hu
      exact ⟨s, _, [], by rw [← hu]; exact hs, hs', (unsignedDecimal_iff _).1 h, .inl rfl⟩
    · rename_i c x h0
      rw [h0] at hu
      rw [Bool.and_eq_true] at h
      obtain ⟨t, ht, ht'⟩ := unsign_split x
      obtain ⟨v, hv⟩ := (digits_iff _).1 h.2
      refine ⟨s, _, c :: x, by rw [← hu]; exact hs, hs', (unsignedDecimal_iff _).1 h.1, .inr ⟨c, t, _, v, by rw [← ht], ?_, ht', hv⟩⟩
      have := List.head?_dropWhile_not (fun c => c != 'e' && c != 'E') (unsign (trim l))
      rw [h0] at this
      simp only [List.head?_cons, Bool.and_eq_false_iff, bne_eq_false_iff_eq] at this
      exact this
  · rintro ⟨a, m, b, rfl, ha, hb, hm⟩
    have hends : (∃ c, m.head? = some c ∧ xmlSpace c = false) ∧ ∃ c, m.getLast? = some c ∧ xmlSpace c = false := by
      rcases hm with rfl | rfl | rfl | ⟨s, u, x, rfl, hs, hu, hx⟩
      · exact ⟨⟨'I', rfl, by decide⟩, 'F', rfl, by decide⟩
      · exact ⟨⟨'-', rfl, by decide⟩, 'F', rfl, by decide⟩
      · exact ⟨⟨'N', rfl, by decide⟩, 'N', rfl, by decide⟩
      · constructor
        · obtain ⟨c, hc, hd⟩ := unsigned_head hu x
          exact sign_head hs ⟨c, hc, (numeral_char hd).2.2.1⟩
        · rcases hx with rfl | ⟨e, t, g, v, rfl, _, _, hg⟩
          · rw [List.append_nil]; exact last_append (unsigned_last hu)
          · exact last_append (last_append (last_cons (last_append (last_digit hg))))
    unfold isDouble
    rw [trim_pad (fun c hc => (xmlSpace_iff c).2 (ha c hc)) (fun c hc => (xmlSpace_iff c).2 (hb c hc)) hends.1 hends.2]
    simp only [Bool.or_eq_true, beq_iff_eq]
    rcases hm with h | h | h | ⟨s, u, x, rfl, hs, hu, hx⟩
    · exact .inl (.inl (.inl h))
    · exact .inl (.inl (.inr h))
    · exact .inl (.inr h)
    refine .inr ?_
    obtain ⟨c, hc, hd⟩ := unsigned_head hu x
    have hd := numeral_char hd
    rw [unsign_sign hs ⟨c, hc, hd.1, hd.2.1⟩]
    have hall : ∀ c ∈ u, (c != 'e' && c != 'E') = true := fun c hc => (numeral_char (unsigned_chars hu c hc)).2.2.2
    rw [List.takeWhile_append_of_pos hall, List.dropWhile_append_of_pos hall]
    rcases hx with rfl | ⟨e, t, g, v, rfl, he, ht, hg⟩
    · simpa using (unsignedDecimal_iff u).2 hu
    · have : (e != 'e' && e != 'E') = false := by rcases he with rfl | rfl <;> decide
      rw [List.takeWhile_cons_of_neg (by simp [this]), List.dropWhile_cons_of_neg (by simp [this])]
      simp only [List.append_nil, Bool.and_eq_true]
      refine ⟨(unsignedDecimal_iff u).2 hu, ?_⟩
      obtain ⟨c, r, rfl⟩ := List.exists_cons_of_ne_nil hg.1
      have hn := numeral_char (.inl (hg.2.1 c (by simp)))
      rw [unsign_sign ht ⟨c, rfl, hn.1, hn.2.1⟩]
      exact (digits_iff _).2 ⟨v, hg⟩

/-- **C71** Of the texts of `xsd:dateTime` the reader accepts exactly those of 19 characters (no sign, no longer year, no fraction, no time zone, no white space
around) whose hour is not 24. -/
theorem C71_dates {s : List Char} (hx : isDateTime s = true) :
    (∃ d, strptime isoFmt s = .ok d) ↔ s.length = 19 ∧ (s.drop 11).take 2 ≠ ['2', '4'] := by
  obtain ⟨a, sgn, y, mo, d, h, mi, se, fr, z, b, vy, vmo, vd, vh, vmi, vse, n, rfl, ha, hb, hsgn, hy, hy0, hy4, hmo, hd, hh, hmi, hse, k1, kn, k3, k4, k5, hf, hz⟩ :=
    (isDateTime_iff s).1 hx
  clear hx
  have l1 := hmo.2
  have l2 := hd.2
  have l3 := hh.2
  have l4 := hmi.2
  have l5 := hse.2
  generalize hs : a ++ (sgn ++ (y ++ '-' :: (mo ++ '-' :: (d ++ 'T' :: (h ++ ':' :: (mi ++ ':' :: (se ++ (fr ++ z)))))))) ++ b = s
  have hlen : s.length = a.length + sgn.length + y.length + 15 + fr.length + z.length + b.length := by
    rw [← hs]
    simp only [List.length_append, List.length_cons, l1, l2, l3, l4, l5]
    omega
  have hshape : s.length = 19 → s = y ++ '-' :: (mo ++ '-' :: (d ++ 'T' :: (h ++ ':' :: (mi ++ ':' :: se)))) ∧ y.length = 4 := by
    intro hl
    have e1 : a = [] := List.eq_nil_of_length_eq_zero (by omega)
    have e2 : sgn = [] := List.eq_nil_of_length_eq_zero (by omega)
    have e3 : fr = [] := List.eq_nil_of_length_eq_zero (by omega)
    have e4 : z = [] := List.eq_nil_of_length_eq_zero (by omega)
    have e5 : b = [] := List.eq_nil_of_length_eq_zero (by omega)
    subst e1 e2 e3 e4 e5
    exact ⟨by rw [← hs]; simp, by omega⟩
  have hhour : ∀ {y' mo' d' t h' r : List Char} {c1 c2 c3 : Char}, y'.length = 4 → mo'.length = 2 → d'.length = 2 → h'.length = 2 →
      ((y' ++ c1 :: (mo' ++ c2 :: (d' ++ c3 :: (h' ++ r)))).drop 11).take 2 = h' := by
    intro y' mo' d' t h' r c1 c2 c3 e1 e2 e3 e4
    have : y' ++ c1 :: (mo' ++ c2 :: (d' ++ c3 :: (h' ++ r))) = (y' ++ c1 :: (mo' ++ c2 :: (d' ++ [c3]))) ++ (h' ++ r) := by simp
    rw [this, List.drop_left' (by simp [e1, e2, e3]), List.take_left' e4]
  constructor
  · rintro ⟨dt, hdt⟩
    obtain ⟨⟨y', m', d', t', h', mi', se', hform, y1, y2, m1, d1, _, h1, mi1, se1⟩, hcal⟩ := (C128_read s dt).1 hdt
    have d2 : d'.length ≤ 2 := by rcases d1 with d1 | ⟨c, rfl, _⟩; exact d1.2; simp
    have m2 := m1.2
    have h2 := h1.2
    have mi2 := mi1.2
    have se2 := se1.2
    have hlen' : s.length = y'.length + m'.length + d'.length + h'.length + mi'.length + se'.length + 5 := by
      rw [hform]
      simp only [List.length_append, List.length_cons]
      omega
    have hy5 : 4 ≤ y.length := by omega
    have h19 : s.length = 19 := by omega
    refine ⟨h19, fun h24 => ?_⟩
    have e1 : m'.length = 2 := by omega
    have e2 : d'.length = 2 := by omega
    have e3 : h'.length = 2 := by omega
    have : s = y' ++ '-' :: (m' ++ '-' :: (d' ++ t' :: (h' ++ (':' :: mi' ++ ':' :: se')))) := by rw [hform]; simp
    rw [this, hhour (t := []) y2 e1 e2 e3] at h24
    have hv := h1.1.2.2
    rw [h24] at hv
    have h3 := hcal.times.1
    rw [← hv] at h3
    revert h3; decide
  · rintro ⟨h19, h24⟩
    obtain ⟨hs', hy5⟩ := hshape h19
    refine ⟨⟨vy, vmo, vd, vh, vmi, vse⟩, (C128_read s _).2 ⟨⟨y, mo, d, 'T', h, mi, se, by rw [hs']; simp, hy, hy5, ⟨hmo.1, by omega⟩, .inl ⟨hd.1, by omega⟩, .inl rfl,
      ⟨hh.1, by omega⟩, ⟨hmi.1, by omega⟩, hse.1, by omega⟩, ⟨by simp only; omega, ?_⟩, ⟨k3, n, ⟨k1, kn⟩, k4⟩, ?_⟩⟩
    · obtain ⟨c1, c2, c3, c4, rfl⟩ : ∃ c1 c2 c3 c4, y = [c1, c2, c3, c4] := by
        match y, hy5 with
        | [c1, c2, c3, c4], _ => exact ⟨c1, c2, c3, c4, rfl⟩
      have hv := hy.2.2
      have hq := hy.2.1
      obtain ⟨i1, p1, rfl⟩ := digit_of (hq c1 (by simp))
      obtain ⟨i2, p2, rfl⟩ := digit_of (hq c2 (by simp))
      obtain ⟨i3, p3, rfl⟩ := digit_of (hq c3 (by simp))
      obtain ⟨i4, p4, rfl⟩ := digit_of (hq c4 (by simp))
      have hdv : ∀ k, k < 10 → (Nat.digitChar k).toNat - '0'.toNat = k := by decide
      simp only [Nat.ofDigitChars_cons, Nat.ofDigitChars_nil, hdv i1 p1, hdv i2 p2, hdv i3 p3, hdv i4 p4] at hv
      simp only
      omega
    · rcases k5 with k5 | ⟨e1, e2, e3⟩
      · exact k5
      · exfalso
        apply h24
        rw [hs', hhour (t := []) hy5 l1 l2 l3]
        obtain ⟨i, j, hi, hj, rfl, e4⟩ := two_cases hh
        have e5 : i = 2 := by omega
        have e6 : j = 4 := by omega
        subst e5 e6
        rfl

end Xsd

open Xml Spec

/-- **C71** In a schema-valid document the condition on the dates is one on their length and their hour. -/
theorem C71_dates_document {doc : Elem} (hv : Xsd.valid Xsd.ucisXsd doc = true) :
    (∀ h ∈ within "historyNodes" doc, ∀ s, attr h "date" = some s → ∃ t, DateTime.strptime DateTime.isoFmt s.toList = .ok t) ↔
      ∀ h ∈ within "historyNodes" doc, ∀ s, attr h "date" = some s → s.length = 19 ∧ (s.toList.drop 11).take 2 ≠ ['2', '4'] := by
  unfold Xsd.valid at hv
  rw [Bool.and_eq_true, beq_iff_eq] at hv
  obtain ⟨htag, hv⟩ := hv
  have htag : doc.tag = "UCIS" := htag
  refine forall₂_congr fun h hh => forall₂_congr fun s hs => ?_
  have hval : Xsd.validE Xsd.ucisXsd h "HISTORY_NODE" = true := Xsd.typed_within hv (by rw [htag]; decide) (by decide +kernel) hh
  have ha := (Xsd.valid_inv (ct := Xsd.tHistoryNode) (by decide) rfl hval).1
  have hd : Xsd.isDateTime s.toList = true := Xsd.attr_valid (t := .dateTime) ha (by decide) hs
  rw [Xsd.C71_dates hd, String.length_toList]

/-- `C71_dates` applies to dates it tells apart. -/
example : Xsd.isDateTime "2024-02-29T24:00:00".toList = true ∧ Xsd.isDateTime " 2024-02-29T23:59:59.5+14:00".toList = true ∧
    Xsd.isDateTime "2024-02-29T23:59:59".toList = true := by decide +kernel
example : ∃ d, DateTime.strptime DateTime.isoFmt "2024-02-29T23:59:59".toList = .ok d := (Xsd.C71_dates (by decide +kernel)).2 (by decide +kernel)
example : Xsd.isDouble " -1.5e+10".toList = true ∧ Xsd.isDecimal "+.5".toList = true := by decide +kernel

end Verif
