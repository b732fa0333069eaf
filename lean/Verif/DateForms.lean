import Verif.DateTime
/-!
# Which dates can be written and read (C128)

No new code: an independent description of the texts that `datetime.strptime` accepts for the two formats in use, and of the calendar.
-/

namespace Verif
namespace Spec

/-- A year of 366 days. -/
def LeapYear (y : Nat) : Prop := 4 ∣ y ∧ (100 ∣ y → 400 ∣ y)

instance (y : Nat) : Decidable (LeapYear y) := by unfold LeapYear; infer_instance

/-- The lengths of the months. -/
def monthDays (y : Nat) : List Nat := [31, if LeapYear y then 29 else 28, 31, 30, 31, 30, 31, 31, 30, 31, 30, 31]

/-- A date of the Gregorian calendar in the years 1 to 9999, with a time of the day. -/
structure Calendar (year month day hour minute second : Nat) : Prop where
  years : 1 ≤ year ∧ year ≤ 9999
  days : 1 ≤ day ∧ ∃ n, (1 ≤ month ∧ (monthDays year)[month - 1]? = some n) ∧ day ≤ n
  times : hour < 24 ∧ minute < 60 ∧ second < 60

/-- `f` are decimal digits with the value `v`. -/
def Num (f : List Char) (v : Nat) : Prop := f ≠ [] ∧ (∀ c ∈ f, c.isDigit = true) ∧ Nat.ofDigitChars 10 f 0 = v

/-- One or two digits. -/
def Short (f : List Char) (v : Nat) : Prop := Num f v ∧ f.length ≤ 2

/-- The texts of the reader: `y-m-dTh:m:s`, with four digits for the year and one or two for the other fields (a day below ten may also follow a blank), and a
`T` of either case. -/
def IsoForm (s : List Char) (year month day hour minute second : Nat) : Prop :=
  ∃ y m d t h mi se, s = y ++ '-' :: m ++ '-' :: d ++ t :: h ++ ':' :: mi ++ ':' :: se ∧ Num y year ∧ y.length = 4 ∧ Short m month ∧
    (Short d day ∨ ∃ c, d = [' ', c] ∧ Num [c] day ∧ day ≠ 0) ∧ (t = 'T' ∨ t = 't') ∧ Short h hour ∧ Short mi minute ∧ Short se second

/-- The value of the digits of `s` from position `i` on, `n` of them. -/
def field (s : List Char) (i n : Nat) : Nat := Nat.ofDigitChars 10 ((s.drop i).take n) 0

end Spec

namespace DateTime
open Spec PyNum

theorem isLeap_iff (y : Nat) : isLeap y = true ↔ LeapYear y := by
  unfold isLeap LeapYear
  simp only [Bool.or_eq_true, Bool.and_eq_true, beq_iff_eq, bne_iff_ne]
  omega

theorem calendar_iff (d : DT) : d.ok = true ↔ Calendar d.year d.month d.day d.hour d.minute d.second := by
  rw [DT.ok_iff]
  have hl : daysIn d.year 2 = if LeapYear d.year then 29 else 28 := by
    unfold daysIn
    rw [if_pos rfl]
    by_cases h : LeapYear d.year
    · rw [if_pos h, if_pos ((isLeap_iff _).2 h)]
    · rw [if_neg h, if_neg (fun h' => h ((isLeap_iff _).1 h'))]
  have key : ∀ m, 1 ≤ m → m ≤ 12 → (monthDays d.year)[m - 1]? = some (daysIn d.year m) := by
    intro m h1 h2
    interval_cases m <;> try rfl
    rw [hl]; rfl
  constructor
  · rintro ⟨h1, h2, h3, h4, h5, h6, h7, h8, h9⟩
    exact ⟨⟨h1, h2⟩, ⟨h5, _, ⟨h3, key _ h3 h4⟩, h6⟩, h7, h8, h9⟩
  · rintro ⟨⟨h1, h2⟩, ⟨h5, n, ⟨h3, hn⟩, h6⟩, h7, h8, h9⟩
    have h4 : d.month ≤ 12 := by
      have := (List.getElem?_eq_some_iff.1 hn).1
      simp only [monthDays, List.length_cons, List.length_nil] at this
      omega
    rw [key _ h3 h4] at hn
    cases hn
    exact ⟨h1, h2, h3, h4, h5, h6, h7, h8, h9⟩

/-! ## The fields -/

theorem digit_of {c : Char} (h : c.isDigit = true) : ∃ k, k < 10 ∧ c = Nat.digitChar k := by
  have h1 : 48 ≤ c.toNat ∧ c.toNat ≤ 57 := by
    simp only [Char.isDigit, ge_iff_le, Bool.and_eq_true, decide_eq_true_eq, UInt32.le_iff_toNat_le] at h
    exact h
  refine ⟨c.toNat - 48, by omega, ?_⟩
  apply Char.toNat_inj.1
  have : ∀ k, k < 10 → (Nat.digitChar k).toNat = 48 + k := by decide
  rw [this _ (by omega)]
  omega

theorem rng_digit {lo hi c : Char} (h : rng lo hi c = true) (h1 : '0' ≤ lo := by decide) (h2 : hi ≤ '9' := by decide) : c.isDigit = true := by
  unfold rng at h
  rw [decide_eq_true_eq] at h
  simp only [Char.le_def, UInt32.le_iff_toNat_le] at h h1 h2
  simp only [Char.isDigit, ge_iff_le, Bool.and_eq_true, decide_eq_true_eq, UInt32.le_iff_toNat_le]
  exact ⟨Nat.le_trans h1 h.1, Nat.le_trans h.2 h2⟩

theorem num_one {c : Char} (h : c.isDigit = true) : Num [c] (digitVal c) := by
  obtain ⟨k, hk, rfl⟩ := digit_of h
  refine ⟨by simp, by simpa using h, ?_⟩
  revert k
  decide

theorem num_two {a b : Char} (ha : a.isDigit = true) (hb : b.isDigit = true) : Num [a, b] (10 * digitVal a + digitVal b) := by
  obtain ⟨k, hk, rfl⟩ := digit_of ha
  obtain ⟨l, hl, rfl⟩ := digit_of hb
  refine ⟨by simp, by simp [ha, hb], ?_⟩
  clear ha hb
  revert k l
  decide

theorem m1_mem {a : Char → Bool} {v : Nat} {r s : List Char} (h : (v, r) ∈ m1 a s) (ha : ∀ c, a c = true → c.isDigit = true) :
    ∃ c, s = c :: r ∧ a c = true ∧ Num [c] v := by
  cases s with
  | nil => cases h
  | cons x t =>
    rw [m1] at h
    split at h
    · rename_i hx
      simp only [List.mem_singleton, Prod.mk.injEq] at h
      obtain ⟨rfl, rfl⟩ := h
      exact ⟨x, rfl, hx, num_one (ha x hx)⟩
    · cases h

theorem m2_mem {a b : Char → Bool} {v : Nat} {r s : List Char} (h : (v, r) ∈ m2 a b s) (ha : ∀ c, a c = true → c.isDigit = true)
    (hb : ∀ c, b c = true → c.isDigit = true) : ∃ f, s = f ++ r ∧ f.length = 2 ∧ Num f v := by
  match s, h with
  | [], h => cases h
  | [_], h => cases h
  | x :: y :: t, h =>
    rw [m2] at h
    split at h
    · rename_i hx
      rw [Bool.and_eq_true] at hx
      simp only [List.mem_singleton, Prod.mk.injEq] at h
      obtain ⟨rfl, rfl⟩ := h
      exact ⟨[x, y], rfl, rfl, num_two (ha x hx.1) (hb y hx.2)⟩
    · cases h

theorem eq_digit {k c : Char} (hk : k.isDigit = true := by decide) (h : (c == k) = true) : c.isDigit = true := by
  rw [beq_iff_eq] at h; rw [h]; exact hk

/-- What a field takes from the text. -/
def Takes (m : Matcher) : Prop := ∀ {v r s}, (v, r) ∈ m s → ∃ f, s = f ++ r ∧ Short f v

theorem takes_m1 {a : Char → Bool} (ha : ∀ c, a c = true → c.isDigit = true) : Takes (m1 a) := by
  intro v r s h
  obtain ⟨c, h1, _, h2⟩ := m1_mem h ha
  exact ⟨[c], h1, h2, by simp⟩

theorem takes_m2 {a b : Char → Bool} (ha : ∀ c, a c = true → c.isDigit = true) (hb : ∀ c, b c = true → c.isDigit = true) : Takes (m2 a b) := by
  intro v r s h
  obtain ⟨f, h1, h2, h3⟩ := m2_mem h ha hb
  exact ⟨f, h1, h3, by omega⟩

theorem takes_alts {l : List Matcher} (h : ∀ m ∈ l, Takes m) : Takes (alts l) := by
  intro v r s hm
  obtain ⟨m, h1, h2⟩ := List.mem_flatMap.1 hm
  exact h m h1 h2

theorem takes_pm : Takes pm := takes_alts (by
  simp only [List.mem_cons, List.not_mem_nil, or_false, forall_eq_or_imp, forall_eq]
  exact ⟨takes_m2 (fun _ h => eq_digit (k := '1') (by decide) h) (fun _ h => rng_digit h),
    takes_m2 (fun _ h => eq_digit (k := '0') (by decide) h) (fun _ h => rng_digit h), takes_m1 (fun _ h => rng_digit h)⟩)

theorem takes_pH : Takes pH := takes_alts (by
  simp only [List.mem_cons, List.not_mem_nil, or_false, forall_eq_or_imp, forall_eq]
  exact ⟨takes_m2 (fun _ h => eq_digit (k := '2') (by decide) h) (fun _ h => rng_digit h),
    takes_m2 (fun _ h => rng_digit h) (fun _ h => rng_digit h), takes_m1 (fun _ h => rng_digit h)⟩)

theorem takes_pM : Takes pM := takes_alts (by
  simp only [List.mem_cons, List.not_mem_nil, or_false, forall_eq_or_imp, forall_eq]
  exact ⟨takes_m2 (fun _ h => rng_digit h) (fun _ h => rng_digit h), takes_m1 (fun _ h => rng_digit h)⟩)

theorem takes_pS : Takes pS := takes_alts (by
  simp only [List.mem_cons, List.not_mem_nil, or_false, forall_eq_or_imp, forall_eq]
  exact ⟨takes_m2 (fun _ h => eq_digit (k := '6') (by decide) h) (fun _ h => rng_digit h),
    takes_m2 (fun _ h => rng_digit h) (fun _ h => rng_digit h), takes_m1 (fun _ h => rng_digit h)⟩)

/-- A day: a short field or a blank and a digit. -/
def DayText (f : List Char) (v : Nat) : Prop := Short f v ∨ ∃ c, f = [' ', c] ∧ Num [c] v ∧ v ≠ 0

theorem takes_pd {v : Nat} {r s : List Char} (h : (v, r) ∈ pd s) : ∃ f, s = f ++ r ∧ DayText f v := by
  obtain ⟨m, h1, h2⟩ := List.mem_flatMap.1 h
  simp only [List.mem_cons, List.not_mem_nil, or_false] at h1
  rcases h1 with rfl | rfl | rfl | rfl | rfl
  · obtain ⟨f, h3, h4⟩ := takes_m2 (fun _ h => eq_digit (k := '3') (by decide) h) (fun _ h => rng_digit h) h2
    exact ⟨f, h3, .inl h4⟩
  · obtain ⟨f, h3, h4⟩ := takes_m2 (fun _ h => rng_digit h) (fun _ h => rng_digit h) h2
    exact ⟨f, h3, .inl h4⟩
  · obtain ⟨f, h3, h4⟩ := takes_m2 (fun _ h => eq_digit (k := '0') (by decide) h) (fun _ h => rng_digit h) h2
    exact ⟨f, h3, .inl h4⟩
  · obtain ⟨f, h3, h4⟩ := takes_m1 (fun _ h => rng_digit h) h2
    exact ⟨f, h3, .inl h4⟩
  · simp only at h2
    split at h2
    · obtain ⟨c, h3, h4, h5⟩ := m1_mem h2 (fun _ h => rng_digit h)
      refine ⟨[' ', c], by rw [h3]; rfl, .inr ⟨c, rfl, h5, ?_⟩⟩
      obtain ⟨k, hk, rfl⟩ := digit_of (rng_digit h4)
      rintro rfl
      have := h5.2.2
      clear h5 h3 h2 h
      revert k
      decide
    · cases h2

theorem takes_pY {v : Nat} {r s : List Char} (h : (v, r) ∈ pY s) : ∃ f, s = f ++ r ∧ f.length = 4 ∧ Num f v := by
  unfold pY m4 at h
  split at h
  · rename_i x y z w t
    split at h
    · rename_i hx
      simp only [Bool.and_eq_true] at hx
      simp only [List.mem_singleton, Prod.mk.injEq] at h
      obtain ⟨rfl, rfl⟩ := h
      exact ⟨[x, y, z, w], rfl, rfl, by simp, by simp [hx], rfl⟩
    · cases h
  · cases h

theorem field_mem {m : Matcher} {f : List Tok} {s r : List Char} {vs : List Nat} (h : (vs, r) ∈ runFmt (.field m :: f) s) :
    ∃ v t ws, (v, t) ∈ m s ∧ (ws, r) ∈ runFmt f t ∧ vs = v :: ws := by
  obtain ⟨⟨v, t⟩, h1, h2⟩ := List.mem_flatMap.1 h
  obtain ⟨⟨ws, r'⟩, h3, h4⟩ := List.mem_map.1 h2
  simp only [Prod.mk.injEq] at h4
  obtain ⟨rfl, rfl⟩ := h4
  exact ⟨v, t, ws, h1, h3, rfl⟩

theorem lit_mem {c : Char} {f : List Tok} {s r : List Char} {vs : List Nat} (h : (vs, r) ∈ runFmt (.lit c :: f) s) :
    ∃ t, s = c :: t ∧ (vs, r) ∈ runFmt f t := by
  cases s with
  | nil => cases h
  | cons x t =>
    rw [runFmt] at h
    split at h
    · rename_i hx; exact ⟨t, by rw [hx], h⟩
    · cases h

theorem toLower_t {c : Char} (h : c.toLower = 't') : c = 'T' ∨ c = 't' := by
  unfold Char.toLower at h
  split at h
  · rename_i hu
    left
    have h2 := congrArg Char.val h
    simp only at h2
    apply Char.ext
    have : c.val + 32 = 116 := by simpa using h2
    have h3 : c.val = 116 - 32 := by rw [← this]; simp
    rw [h3]; rfl
  · exact .inr h

theorem letter_mem {f : List Tok} {s r : List Char} {vs : List Nat} (h : (vs, r) ∈ runFmt (.letter 'T' :: f) s) :
    ∃ c t, s = c :: t ∧ (c = 'T' ∨ c = 't') ∧ (vs, r) ∈ runFmt f t := by
  cases s with
  | nil => cases h
  | cons x t =>
    rw [runFmt] at h
    split at h
    · rename_i hx; exact ⟨x, t, rfl, toLower_t (by rw [hx]; rfl), h⟩
    · cases h

theorem strptime_inv {f : List Tok} {s : List Char} {d : DT} (h : strptime f s = .ok d) :
    ([d.year, d.month, d.day, d.hour, d.minute, d.second], []) ∈ runFmt f s ∧ d.ok = true := by
  refine ⟨?_, strptime_ok h⟩
  unfold strptime at h
  split at h
  · rename_i h1
    split at h
    · cases h; exact List.mem_of_head? h1
    · cases h
  · cases h

/-! ## Fields that are taken first -/

theorem short_cases {f : List Char} {v : Nat} (h : Short f v) :
    (∃ i, i < 10 ∧ f = [Nat.digitChar i] ∧ v = i) ∨ ∃ i j, i < 10 ∧ j < 10 ∧ f = [Nat.digitChar i, Nat.digitChar j] ∧ v = 10 * i + j := by
  obtain ⟨⟨h1, h2, h3⟩, h4⟩ := h
  match f, h1, h4 with
  | [a], _, _ =>
    obtain ⟨i, hi, rfl⟩ := digit_of (h2 a (by simp))
    refine .inl ⟨i, hi, rfl, ?_⟩
    rw [← h3]
    clear h2 h3
    revert i
    decide
  | [a, b], _, _ =>
    obtain ⟨i, hi, rfl⟩ := digit_of (h2 a (by simp))
    obtain ⟨j, hj, rfl⟩ := digit_of (h2 b (by simp))
    refine .inr ⟨i, j, hi, hj, rfl, ?_⟩
    rw [← h3]
    clear h2 h3
    revert i j
    decide

theorem pm_first {f r : List Char} {v : Nat} (h : Short f v) (h1 : 1 ≤ v) (h2 : v ≤ 12) : (pm (f ++ '-' :: r)).head? = some (v, '-' :: r) := by
  rcases short_cases h with ⟨i, hi, rfl, rfl⟩ | ⟨i, j, hi, hj, rfl, rfl⟩
  · interval_cases v <;> rfl
  · have : i ≤ 1 := by omega
    interval_cases i <;> interval_cases j <;> first | rfl | omega

theorem pd_first {f r : List Char} {v : Nat} {t : Char} (ht : t = 'T' ∨ t = 't') (h : DayText f v) (h1 : 1 ≤ v) (h2 : v ≤ 31) :
    (pd (f ++ t :: r)).head? = some (v, t :: r) := by
  rcases h with h | ⟨c, rfl, h, _⟩
  · rcases short_cases h with ⟨i, hi, rfl, rfl⟩ | ⟨i, j, hi, hj, rfl, rfl⟩
    · rcases ht with rfl | rfl <;> interval_cases v <;> rfl
    · have : i ≤ 3 := by omega
      interval_cases i <;> interval_cases j <;> first | rfl | omega
  · rcases short_cases ⟨h, by simp⟩ with ⟨i, hi, hc, rfl⟩ | ⟨i, j, hi, hj, hc, rfl⟩
    · simp only [List.cons.injEq, and_true] at hc
      subst hc
      interval_cases v <;> rfl
    · cases hc

theorem pH_first {f r : List Char} {v : Nat} (h : Short f v) (h2 : v < 24) : (pH (f ++ ':' :: r)).head? = some (v, ':' :: r) := by
  rcases short_cases h with ⟨i, hi, rfl, rfl⟩ | ⟨i, j, hi, hj, rfl, rfl⟩
  · interval_cases v <;> rfl
  · have : i ≤ 2 := by omega
    interval_cases i <;> interval_cases j <;> first | rfl | omega

theorem pM_first {f r : List Char} {v : Nat} (h : Short f v) (h2 : v < 60) : (pM (f ++ ':' :: r)).head? = some (v, ':' :: r) := by
  rcases short_cases h with ⟨i, hi, rfl, rfl⟩ | ⟨i, j, hi, hj, rfl, rfl⟩
  · interval_cases v <;> rfl
  · have : i ≤ 5 := by omega
    interval_cases i <;> interval_cases j <;> rfl

theorem pS_first {f : List Char} {v : Nat} (h : Short f v) (h2 : v < 60) : (pS f).head? = some (v, []) := by
  rcases short_cases h with ⟨i, hi, rfl, rfl⟩ | ⟨i, j, hi, hj, rfl, rfl⟩
  · interval_cases v <;> rfl
  · have : i ≤ 5 := by omega
    interval_cases i <;> interval_cases j <;> rfl

theorem pY_first {f r : List Char} {v : Nat} (h : Num f v) (h4 : f.length = 4) : (pY (f ++ r)).head? = some (v, r) := by
  match f, h4 with
  | [a, b, c, e], _ =>
    have hd := h.2.1
    simp only [pY, m4, List.cons_append, List.nil_append]
    rw [if_pos (by simp [hd])]
    simp [h.2.2]

/-- **C128** The reader accepts exactly the texts of the ISO form that name a date of the calendar, and takes the fields from the text. -/
theorem C128_read (s : List Char) (d : DT) : strptime isoFmt s = .ok d ↔
    IsoForm s d.year d.month d.day d.hour d.minute d.second ∧ Calendar d.year d.month d.day d.hour d.minute d.second := by
  constructor
  · intro h
    obtain ⟨hm, hok⟩ := strptime_inv h
    refine ⟨?_, (calendar_iff d).1 hok⟩
    obtain ⟨_, _, _, y1, q1, e⟩ := field_mem hm
    obtain ⟨y, rfl, y2, y3⟩ := takes_pY y1
    obtain ⟨_, rfl, q2⟩ := lit_mem q1
    obtain ⟨_, _, _, m1, q3, rfl⟩ := field_mem q2
    obtain ⟨m, rfl, m2⟩ := takes_pm m1
    obtain ⟨_, rfl, q4⟩ := lit_mem q3
    obtain ⟨_, _, _, d1, q5, rfl⟩ := field_mem q4
    obtain ⟨dd, rfl, d2⟩ := takes_pd d1
    obtain ⟨t, _, rfl, t1, q6⟩ := letter_mem q5
    obtain ⟨_, _, _, h1, q7, rfl⟩ := field_mem q6
    obtain ⟨hh, rfl, h2⟩ := takes_pH h1
    obtain ⟨_, rfl, q8⟩ := lit_mem q7
    obtain ⟨_, _, _, i1, q9, rfl⟩ := field_mem q8
    obtain ⟨mi, rfl, i2⟩ := takes_pM i1
    obtain ⟨_, rfl, q10⟩ := lit_mem q9
    obtain ⟨_, _, _, s1, q11, rfl⟩ := field_mem q10
    obtain ⟨se, rfl, s2⟩ := takes_pS s1
    simp only [runFmt, List.mem_singleton, Prod.mk.injEq] at q11
    obtain ⟨rfl, rfl⟩ := q11
    simp only [List.cons.injEq, and_true] at e
    obtain ⟨e1, e2, e3, e4, e5, e6⟩ := e
    rw [e1, e2, e3, e4, e5, e6]
    exact ⟨y, m, dd, t, hh, mi, se, by simp, y3, y2, m2, d2, t1, h2, i2, s2⟩
  · rintro ⟨⟨y, m, dd, t, hh, mi, se, rfl, y3, y2, m2, d2, t1, h2, i2, s2⟩, hc⟩
    have hok := (calendar_iff d).2 hc
    obtain ⟨a1, a2, a3, a4, a5, a6, a7, a8, a9⟩ := (DT.ok_iff d).1 hok
    have a6 := le_trans a6 (daysIn_le _ _)
    have key : (runFmt isoFmt (y ++ '-' :: m ++ '-' :: dd ++ t :: hh ++ ':' :: mi ++ ':' :: se)).head? =
        some ([d.year, d.month, d.day, d.hour, d.minute, d.second], []) := by
      unfold isoFmt
      simp only [List.append_assoc, List.cons_append]
      refine runFmt_field (pY_first y3 y2) ?_
      rw [runFmt_lit]
      refine runFmt_field (pm_first m2 a3 a4) ?_
      rw [runFmt_lit]
      refine runFmt_field (pd_first t1 d2 a5 a6) ?_
      rw [show ∀ (f : List Tok) (r : List Char), runFmt (.letter 'T' :: f) (t :: r) = runFmt f r by
        intro f r; rcases t1 with rfl | rfl <;> rw [runFmt] <;> exact if_pos (by decide)]
      refine runFmt_field (pH_first h2 a7) ?_
      rw [runFmt_lit]
      refine runFmt_field (pM_first i2 a8) ?_
      rw [runFmt_lit]
      exact runFmt_field (r := []) (pS_first s2 a9) rfl
    unfold strptime
    rw [key]
    show (if d.ok = true then _ else _) = _
    rw [if_pos hok]

theorem field_at {a f b : List Char} {v i n : Nat} (h : Num f v) (hi : a.length = i) (hn : f.length = n) : field (a ++ (f ++ b)) i n = v := by
  unfold field
  rw [← hi, ← hn, List.drop_left, List.take_left]
  exact h.2.2

/-- The fields of fourteen digits. -/
def fieldsOf (s : List Char) : DT := ⟨field s 0 4, field s 4 2, field s 6 2, field s 8 2, field s 10 2, field s 12 2⟩

theorem num_slice {s : List Char} (hd : ∀ c ∈ s, c.isDigit = true) (i n : Nat) (hn : 0 < n) (h : i + n ≤ s.length) :
    Num ((s.drop i).take n) (field s i n) ∧ ((s.drop i).take n).length = n := by
  have hl : ((s.drop i).take n).length = n := by rw [List.length_take, List.length_drop]; omega
  refine ⟨⟨?_, fun c hc => hd c (List.mem_of_mem_drop (List.mem_of_mem_take hc)), rfl⟩, hl⟩
  intro h0
  rw [h0] at hl
  simp at hl
  omega

theorem pm_two {f r : List Char} {v : Nat} (h : Num f v) (hf : f.length = 2) (h1 : 1 ≤ v) (h2 : v ≤ 12) : (pm (f ++ r)).head? = some (v, r) := by
  rcases short_cases ⟨h, by omega⟩ with ⟨i, hi, rfl, rfl⟩ | ⟨i, j, hi, hj, rfl, rfl⟩
  · simp at hf
  · have : i ≤ 1 := by omega
    interval_cases i <;> interval_cases j <;> first | rfl | omega

theorem pd_two {f r : List Char} {v : Nat} (h : Num f v) (hf : f.length = 2) (h1 : 1 ≤ v) (h2 : v ≤ 31) : (pd (f ++ r)).head? = some (v, r) := by
  rcases short_cases ⟨h, by omega⟩ with ⟨i, hi, rfl, rfl⟩ | ⟨i, j, hi, hj, rfl, rfl⟩
  · simp at hf
  · have : i ≤ 3 := by omega
    interval_cases i <;> interval_cases j <;> first | rfl | omega

theorem pH_two {f r : List Char} {v : Nat} (h : Num f v) (hf : f.length = 2) (h2 : v < 24) : (pH (f ++ r)).head? = some (v, r) := by
  rcases short_cases ⟨h, by omega⟩ with ⟨i, hi, rfl, rfl⟩ | ⟨i, j, hi, hj, rfl, rfl⟩
  · simp at hf
  · have : i ≤ 2 := by omega
    interval_cases i <;> interval_cases j <;> first | rfl | omega

theorem pM_two {f r : List Char} {v : Nat} (h : Num f v) (hf : f.length = 2) (h2 : v < 60) : (pM (f ++ r)).head? = some (v, r) := by
  rcases short_cases ⟨h, by omega⟩ with ⟨i, hi, rfl, rfl⟩ | ⟨i, j, hi, hj, rfl, rfl⟩
  · simp at hf
  · have : i ≤ 5 := by omega
    interval_cases i <;> interval_cases j <;> rfl

/-- **C128** Fourteen digits are accepted by the writer exactly if they name a date of the calendar, and every field has its place. -/
theorem C128_write (s : List Char) (hd : ∀ c ∈ s, c.isDigit = true) (hl : s.length = 14) (d : DT) : strptime compactFmt s = .ok d ↔
    d = fieldsOf s ∧ Calendar d.year d.month d.day d.hour d.minute d.second := by
  constructor
  · intro h
    obtain ⟨q, hok⟩ := strptime_inv h
    refine ⟨?_, (calendar_iff d).1 hok⟩
    obtain ⟨_, _, _, y1, q1, e⟩ := field_mem q
    obtain ⟨y, rfl, y2, y3⟩ := takes_pY y1
    obtain ⟨_, _, _, m1, q2, rfl⟩ := field_mem q1
    obtain ⟨m, rfl, m2⟩ := takes_pm m1
    obtain ⟨_, _, _, d1, q3, rfl⟩ := field_mem q2
    obtain ⟨dd, rfl, d2⟩ := takes_pd d1
    obtain ⟨_, _, _, h1, q4, rfl⟩ := field_mem q3
    obtain ⟨hh, rfl, h2⟩ := takes_pH h1
    obtain ⟨_, _, _, i1, q5, rfl⟩ := field_mem q4
    obtain ⟨mi, rfl, i2⟩ := takes_pM i1
    obtain ⟨_, _, _, s1, q6, rfl⟩ := field_mem q5
    obtain ⟨se, rfl, s2⟩ := takes_pS s1
    simp only [runFmt, List.mem_singleton, Prod.mk.injEq] at q6
    obtain ⟨rfl, rfl⟩ := q6
    simp only [List.cons.injEq, and_true] at e
    obtain ⟨e1, e2, e3, e4, e5, e6⟩ := e
    have d3 : Short dd d.day := by
      rw [e3]
      rcases d2 with d2 | ⟨c, rfl, _⟩
      · exact d2
      · have := hd ' ' (by simp)
        simp at this
    simp only [List.length_append, List.length_nil] at hl
    have l1 := m2.2
    have l2 := d3.2
    have l3 := h2.2
    have l4 := i2.2
    have l5 := s2.2
    have lm : m.length = 2 := by omega
    have ld : dd.length = 2 := by omega
    have lh : hh.length = 2 := by omega
    have li : mi.length = 2 := by omega
    have ls : se.length = 2 := by omega
    rw [← e1] at y3; rw [← e2] at m2; rw [← e4] at h2; rw [← e5] at i2; rw [← e6] at s2
    have f1 := field_at (a := []) (i := 0) (b := m ++ (dd ++ (hh ++ (mi ++ (se ++ []))))) y3 rfl y2
    have f2 := field_at (a := y) (b := dd ++ (hh ++ (mi ++ (se ++ [])))) m2.1 y2 lm
    have f3 := field_at (a := y ++ m) (i := 6) (b := hh ++ (mi ++ (se ++ []))) d3.1 (by simp; omega) ld
    have f4 := field_at (a := y ++ m ++ dd) (i := 8) (b := mi ++ (se ++ [])) h2.1 (by simp; omega) lh
    have f5 := field_at (a := y ++ m ++ dd ++ hh) (i := 10) (b := se ++ []) i2.1 (by simp; omega) li
    have f6 := field_at (a := y ++ m ++ dd ++ hh ++ mi) (i := 12) (b := []) s2.1 (by simp; omega) ls
    simp only [List.append_assoc, List.nil_append] at f1 f2 f3 f4 f5 f6
    unfold fieldsOf
    rw [f1, f2, f3, f4, f5, f6]
  · rintro ⟨rfl, hc⟩
    have hok := (calendar_iff _).2 hc
    obtain ⟨a1, a2, a3, a4, a5, a6, a7, a8, a9⟩ := (DT.ok_iff _).1 hok
    have a6 := le_trans a6 (daysIn_le _ _)
    obtain ⟨n1, k1⟩ := num_slice hd 0 4 (by omega) (by omega)
    obtain ⟨n2, k2⟩ := num_slice hd 4 2 (by omega) (by omega)
    obtain ⟨n3, k3⟩ := num_slice hd 6 2 (by omega) (by omega)
    obtain ⟨n4, k4⟩ := num_slice hd 8 2 (by omega) (by omega)
    obtain ⟨n5, k5⟩ := num_slice hd 10 2 (by omega) (by omega)
    obtain ⟨n6, k6⟩ := num_slice hd 12 2 (by omega) (by omega)
    have split : ∀ i n, s.drop i = (s.drop i).take n ++ s.drop (i + n) := by
      intro i n
      rw [← List.drop_drop, List.take_append_drop]
    have hs : s = (s.drop 0).take 4 ++ ((s.drop 4).take 2 ++ ((s.drop 6).take 2 ++ ((s.drop 8).take 2 ++ ((s.drop 10).take 2 ++ (s.drop 12).take 2)))) := by
      have h14 : s.drop 14 = [] := List.drop_eq_nil_of_le (by omega)
      conv_lhs => rw [← List.drop_zero (l := s), split 0 4, split (0 + 4) 2, split (0 + 4 + 2) 2, split (0 + 4 + 2 + 2) 2, split (0 + 4 + 2 + 2 + 2) 2,
        split (0 + 4 + 2 + 2 + 2 + 2) 2]
      simp only [Nat.zero_add, Nat.reduceAdd, h14, List.append_nil]
    have key : (runFmt compactFmt s).head? = some ([(fieldsOf s).year, (fieldsOf s).month, (fieldsOf s).day, (fieldsOf s).hour, (fieldsOf s).minute,
        (fieldsOf s).second], []) := by
      conv_lhs => rw [hs]
      unfold compactFmt
      refine runFmt_field (pY_first n1 k1) ?_
      refine runFmt_field (pm_two n2 k2 a3 a4) ?_
      refine runFmt_field (pd_two n3 k3 a5 a6) ?_
      refine runFmt_field (pH_two n4 k4 a7) ?_
      refine runFmt_field (pM_two n5 k5 a8) ?_
      exact runFmt_field (r := []) (pS_first ⟨n6, by omega⟩ a9) rfl
    unfold strptime
    rw [key]
    show (if (fieldsOf s).ok = true then _ else _) = _
    rw [if_pos hok]

/-- **C128** Whatever is not accepted raises `ValueError`, in either format. -/
theorem C128_error {f : List Tok} {s : List Char} {e : Err} (h : strptime f s = .error e) : e = .valueError := by
  unfold strptime at h
  split at h
  · split at h
    · cases h
    · cases h; rfl
  · cases h; rfl

/-- **C128** on the level of the writer's conversion: fourteen digits are converted exactly if they name a date of the calendar; the result is the ISO text with the
same fields.  Otherwise `ValueError`. -/
theorem C128_converted (s : String) (hd : ∀ c ∈ s.toList, c.isDigit = true) (hl : s.toList.length = 14) :
    (∀ out, toIso s = .ok out →
      IsoForm out.toList (field s.toList 0 4) (field s.toList 4 2) (field s.toList 6 2) (field s.toList 8 2) (field s.toList 10 2) (field s.toList 12 2)) ∧
    ((∃ out, toIso s = .ok out) ↔
      Calendar (field s.toList 0 4) (field s.toList 4 2) (field s.toList 6 2) (field s.toList 8 2) (field s.toList 10 2) (field s.toList 12 2)) ∧
    ∀ e, toIso s = .error e → e = .valueError := by
  have h := C128_write s.toList hd hl
  have herr : ∀ e, strptime compactFmt s.toList = .error e → e = .valueError := fun e he => C128_error he
  unfold toIso
  cases hs : strptime compactFmt s.toList with
  | error e =>
    refine ⟨fun out h' => (by cases h'), ⟨fun h' => (by obtain ⟨_, h'⟩ := h'; cases h'), fun hc => ?_⟩, ?_⟩
    · have := (h (fieldsOf s.toList)).2 ⟨rfl, hc⟩
      rw [hs] at this; cases this
    · intro e' he
      cases he
      exact herr e hs
  | ok d =>
    obtain ⟨rfl, hc⟩ := (h d).1 hs
    refine ⟨?_, ⟨fun _ => hc, fun _ => ⟨_, rfl⟩⟩, fun e he => by cases he⟩
    intro out ho
    cases ho
    rw [String.toList_ofList]
    exact ((C128_read _ _).1 (strptime_iso ((calendar_iff _).2 hc))).1

/-! ## Examples -/

example : Calendar 2024 2 29 23 59 59 ∧ ¬ Calendar 2100 2 29 0 0 0 ∧ ¬ Calendar 2026 4 31 0 0 0 := by
  refine ⟨⟨by decide, ⟨by decide, 29, by decide, by decide⟩, by decide⟩, ?_, ?_⟩
  · rintro ⟨_, ⟨_, n, ⟨_, h⟩, h'⟩, _⟩
    have : n = 28 := Option.some.inj (h.symm.trans (by decide : (monthDays 2100)[2 - 1]? = some 28))
    omega
  · rintro ⟨_, ⟨_, n, ⟨_, h⟩, h'⟩, _⟩
    have : n = 30 := Option.some.inj (h.symm.trans (by decide : (monthDays 2026)[4 - 1]? = some 30))
    omega

example : toIso "20240229235959" = .ok "2024-02-29T23:59:59" ∧ toIso "21000229000000" = .error .valueError ∧
    fromIso "2024-2- 9t1:2:3" = .ok "20240209010203" := by decide +kernel

/-- `C128_error` applies: a date in a time zone. -/
example : ∃ e, strptime isoFmt "2024-02-29T23:59:59Z".toList = .error e := ⟨.valueError, by decide +kernel⟩

example : (∀ c ∈ "20240229235959".toList, c.isDigit = true) ∧ "20240229235959".toList.length = 14 := by decide +kernel

end DateTime
end Verif
