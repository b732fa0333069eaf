import Verif.Py
import Mathlib.Algebra.Order.Floor.Defs
import Mathlib.Data.Rat.Floor
import Mathlib.Data.List.TakeWhile
import Mathlib.Tactic.Linarith
import Mathlib.Tactic.Ring
import Mathlib.Tactic.FieldSimp
import Mathlib.Algebra.Order.Field.Rat
/-!
# Python numbers as text: `str(int)`, `int(str)`, `str.strip`, `round`, `'%.nf'`

Strings are handled as lists of characters where they are taken apart.
-/

namespace Verif
namespace PyNum

/-- Python white space (`str.isspace`, `str.strip`, `int()`). -/
def isSpace (c : Char) : Bool :=
  let n := c.toNat
  decide (9 ≤ n ∧ n ≤ 13) || decide (28 ≤ n ∧ n ≤ 32) || decide (n = 0x85) || decide (n = 0xA0)
    || decide (n = 0x1680) || decide (0x2000 ≤ n ∧ n ≤ 0x200A) || decide (n = 0x2028) || decide (n = 0x2029)
    || decide (n = 0x202F) || decide (n = 0x205F) || decide (n = 0x3000)

/-- `s.strip()` -/
def stripL (l : List Char) : List Char :=
  ((l.dropWhile isSpace).reverse.dropWhile isSpace).reverse

/-- `str(n)` for a natural number. -/
def natL (n : Nat) : List Char := Nat.toDigits 10 n

/-- `str(z)` -/
def intL : Int → List Char
  | Int.ofNat n => natL n
  | Int.negSucc n => '-' :: natL (n + 1)

def strInt (z : Int) : String := String.ofList (intL z)

/-- The digits of `int()`: ASCII digits with single underscores between them. (Python also accepts
other Unicode decimal digits; these are not modelled.) -/
def digitsVal (acc : Nat) (prevDigit : Bool) : List Char → Option Nat
  | [] => if prevDigit then some acc else none
  | c :: t =>
    if c.isDigit then digitsVal (10 * acc + (c.toNat - '0'.toNat)) true t
    else if c = '_' ∧ prevDigit = true then digitsVal acc false t
    else none

/-- `int(s)`; `none` is `ValueError`. -/
def parseIntL (l : List Char) : Option Int :=
  match stripL l with
  | '-' :: t => (digitsVal 0 false t).map (fun n => -(n : Int))
  | '+' :: t => (digitsVal 0 false t).map (fun n => (n : Int))
  | t => (digitsVal 0 false t).map (fun n => (n : Int))

/-- `int(s)` with the exception as a value. -/
def parseInt (s : String) : Except Err Int :=
  match parseIntL s.toList with
  | some z => .ok z
  | none => .error .valueError

theorem digitsVal_digits (l : List Char) (h : ∀ c ∈ l, c.isDigit = true) (acc : Nat) (p : Bool) (hp : p = true ∨ l ≠ []) :
    digitsVal acc p l = some (Nat.ofDigitChars 10 l acc) := by
  induction l generalizing acc p with
  | nil =>
    have : p = true := by simpa using hp
    simp [digitsVal, this]
  | cons c t ih =>
    rw [digitsVal, if_pos (h c (by simp)), Nat.ofDigitChars_cons]
    exact ih (fun x hx => h x (by simp [hx])) _ _ (Or.inl rfl)

theorem natL_digit {n : Nat} {c : Char} (h : c ∈ natL n) : c.isDigit = true :=
  Nat.isDigit_of_mem_toDigits (by decide) (by decide) h

theorem natL_ne_nil (n : Nat) : natL n ≠ [] := Nat.toDigits_ne_nil

theorem digitsVal_natL (n : Nat) : digitsVal 0 false (natL n) = some n := by
  rw [digitsVal_digits _ (fun c hc => natL_digit hc) _ _ (Or.inr (natL_ne_nil n))]
  exact congrArg some Nat.ofDigitChars_ten_toDigits

theorem isSpace_digit {c : Char} (h : c.isDigit = true) : isSpace c = false := by
  unfold Char.isDigit at h
  simp only [Bool.and_eq_true, decide_eq_true_eq] at h
  obtain ⟨h1, h2⟩ := h
  have h1 : 48 ≤ c.toNat := h1
  have h2 : c.toNat ≤ 57 := h2
  unfold isSpace
  simp only [Bool.or_eq_false_iff, decide_eq_false_iff_not]
  omega

theorem dropWhile_of_head {l : List Char} (h : ∀ c, l.head? = some c → isSpace c = false) : l.dropWhile isSpace = l := by
  cases l with
  | nil => rfl
  | cons a t => rw [List.dropWhile_cons, h a rfl]; simp

/-- Stripping does nothing when neither end is white space. -/
theorem stripL_eq_self {l : List Char} (h1 : ∀ c, l.head? = some c → isSpace c = false)
    (h2 : ∀ c, l.getLast? = some c → isSpace c = false) : stripL l = l := by
  unfold stripL
  rw [dropWhile_of_head h1, dropWhile_of_head (l := l.reverse), List.reverse_reverse]
  intro c hc
  rw [List.head?_reverse] at hc
  exact h2 c hc

theorem stripL_natL (n : Nat) : stripL (natL n) = natL n :=
  stripL_eq_self (fun _ hc => isSpace_digit (natL_digit (List.mem_of_head? hc)))
    (fun _ hc => isSpace_digit (natL_digit (List.mem_of_getLast? hc)))

theorem stripL_neg_natL (n : Nat) : stripL ('-' :: natL n) = '-' :: natL n := by
  apply stripL_eq_self
  · intro c hc
    simp at hc
    subst hc
    decide
  · intro c hc
    have : c ∈ '-' :: natL n := List.mem_of_getLast? hc
    rcases List.mem_cons.1 this with rfl | h
    · decide
    · exact isSpace_digit (natL_digit h)

/-- `int(str(z)) == z`. -/
theorem parseIntL_intL (z : Int) : parseIntL (intL z) = some z := by
  cases z with
  | ofNat n =>
    unfold parseIntL
    simp only [intL]
    rw [stripL_natL]
    cases hn : natL n with
    | nil => exact absurd hn (natL_ne_nil n)
    | cons c t =>
      have hd : c.isDigit = true := natL_digit (n := n) (by rw [hn]; simp)
      have h1 : c ≠ '-' := by rintro rfl; exact absurd hd (by decide)
      have h2 : c ≠ '+' := by rintro rfl; exact absurd hd (by decide)
      split
      · rename_i heq; simp at heq; exact absurd heq.1 h1
      · rename_i heq; simp at heq; exact absurd heq.1 h2
      · rw [← hn, digitsVal_natL]; rfl
  | negSucc n =>
    unfold parseIntL
    simp only [intL]
    rw [stripL_neg_natL]
    simp only [digitsVal_natL]
    rfl

theorem parseInt_strInt (z : Int) : parseInt (strInt z) = .ok z := by
  unfold parseInt strInt
  rw [String.toList_ofList, parseIntL_intL]

theorem strInt_injective {a b : Int} (h : strInt a = strInt b) : a = b := by
  have := congrArg parseInt h
  rw [parseInt_strInt, parseInt_strInt] at this
  exact Except.ok.inj this

/-! ## Rounding and fixed-point output -/

/-- Rounding to the nearest integer, ties to even (`round(x)`, and the digit selection of
`round(x, n)` and `'%.nf'`, which are exact on the binary value). -/
def roundHalfEven (x : Rat) : Int :=
  let f := ⌊x⌋
  let r := x - f
  if r < 1 / 2 then f else if 1 / 2 < r then f + 1 else if f % 2 = 0 then f else f + 1

theorem roundHalfEven_err (x : Rat) : |(roundHalfEven x : Rat) - x| ≤ 1 / 2 := by
  have h1 := Int.floor_le x
  have h2 := Int.lt_floor_add_one x
  unfold roundHalfEven
  simp only
  split
  · rw [abs_le]; constructor <;> linarith
  · split
    · push_cast; rw [abs_le]; constructor <;> linarith
    · split
      · rw [abs_le]; constructor <;> linarith
      · push_cast; rw [abs_le]; constructor <;> linarith

theorem roundHalfEven_int (z : Int) : roundHalfEven (z : Rat) = z := by
  unfold roundHalfEven; simp

theorem roundHalfEven_mono {x y : Rat} (h : x ≤ y) : roundHalfEven x ≤ roundHalfEven y := by
  rcases lt_or_eq_of_le (Int.floor_le_floor h) with hf | hf
  · have hx : roundHalfEven x ≤ ⌊x⌋ + 1 := by
      unfold roundHalfEven; simp only; split
      · omega
      · split
        · omega
        · split <;> omega
    have hy : ⌊y⌋ ≤ roundHalfEven y := by
      unfold roundHalfEven; simp only; split
      · omega
      · split
        · omega
        · split <;> omega
    omega
  · unfold roundHalfEven
    simp only
    rw [hf]
    split
    · split
      · exact le_refl _
      · split
        · omega
        · split <;> omega
    · rename_i h1
      split
      · rename_i h2
        rw [if_neg (by linarith), if_pos (by linarith)]
      · rename_i h2
        split
        · rename_i h3
          rw [if_neg (by linarith)]
          split
          · omega
          · exact le_refl _
        · rename_i h3
          rw [if_neg (by linarith)]
          split
          · omega
          · exact le_refl _

/-- `n` digits, filled up with zeros on the left. -/
def padL (d n : Nat) : List Char := List.replicate (d - (natL n).length) '0' ++ natL n

/-- Digits of `m / 10^d` with `d` decimals. -/
def fixedNatL (d m : Nat) : List Char :=
  natL (m / 10 ^ d) ++ (if d = 0 then [] else '.' :: padL d (m % 10 ^ d))

/-- `'%.{d}f' % round(x, d)` for a float `x`: the exact value rounded to `d` decimals, ties to even.
The sign is kept for a value that rounds to zero, as for Python floats (`-0.00`). -/
def fixedL (d : Nat) (x : Rat) : List Char :=
  (if x < 0 then ['-'] else []) ++ fixedNatL d (roundHalfEven (|x| * 10 ^ d)).toNat

/-- Reading a decimal number without sign. -/
def decVal (l : List Char) : Rat :=
  let ip := l.takeWhile (· ≠ '.')
  let fp := (l.dropWhile (· ≠ '.')).drop 1
  (Nat.ofDigitChars 10 ip 0 : Rat) + (Nat.ofDigitChars 10 fp 0 : Rat) / 10 ^ fp.length

theorem natL_no_dot (n : Nat) : ∀ c ∈ natL n, (decide (c ≠ '.')) = true := by
  intro c hc
  have := natL_digit hc
  rw [decide_eq_true_eq]
  rintro rfl
  exact absurd this (by decide)

theorem natL_length_le {d n : Nat} (hd : 0 < d) (h : n < 10 ^ d) : (natL n).length ≤ d :=
  (Nat.length_toDigits_le_iff (by decide) hd).2 h

theorem padL_length {d n : Nat} (hd : 0 < d) (h : n < 10 ^ d) : (padL d n).length = d := by
  have := natL_length_le hd h
  simp [padL]; omega

theorem ofDigitChars_padL (d n : Nat) : Nat.ofDigitChars 10 (padL d n) 0 = n := by
  unfold padL
  rw [Nat.ofDigitChars_append, Nat.ofDigitChars_replicate_zero, Nat.mul_zero]
  exact Nat.ofDigitChars_ten_toDigits

/-- The printed digits denote `m / 10^d`. -/
theorem decVal_fixedNatL (d m : Nat) : decVal (fixedNatL d m) = (m : Rat) / 10 ^ d := by
  unfold decVal fixedNatL
  by_cases hd : d = 0
  · subst hd
    simp only [pow_zero, Nat.div_one, if_true, List.append_nil, div_one]
    rw [List.takeWhile_eq_self_iff.2 (natL_no_dot m), List.dropWhile_eq_nil_iff.2 (natL_no_dot m)]
    simp only [List.drop_nil, List.length_nil, pow_zero, div_one, Nat.ofDigitChars_nil, Nat.cast_zero, add_zero]
    exact congrArg _ Nat.ofDigitChars_ten_toDigits
  · rw [if_neg hd, List.takeWhile_append_of_pos (natL_no_dot _), List.dropWhile_append_of_pos (natL_no_dot _)]
    rw [List.takeWhile_cons_of_neg (by simp), List.dropWhile_cons_of_neg (by simp)]
    simp only [List.append_nil, List.drop_succ_cons, List.drop_zero]
    have hlt : m % 10 ^ d < 10 ^ d := Nat.mod_lt _ (by positivity)
    rw [ofDigitChars_padL, padL_length (Nat.pos_of_ne_zero hd) hlt]
    rw [show Nat.ofDigitChars 10 (natL (m / 10 ^ d)) 0 = m / 10 ^ d from Nat.ofDigitChars_ten_toDigits]
    have hp : (10 : Rat) ^ d ≠ 0 := by positivity
    have h := Nat.div_add_mod m (10 ^ d)
    have h' : (m : Rat) = 10 ^ d * ((m / 10 ^ d : Nat) : Rat) + ((m % 10 ^ d : Nat) : Rat) := by exact_mod_cast h.symm
    rw [eq_div_iff hp, add_mul, div_mul_cancel₀ _ hp]
    linarith

/-- The printed value of a non-negative number is off by at most half a unit of the last place. -/
theorem decVal_fixedL {d : Nat} {x : Rat} (hx : 0 ≤ x) : |decVal (fixedL d x) - x| ≤ 1 / 2 / 10 ^ d := by
  unfold fixedL
  rw [if_neg (not_lt.2 hx), List.nil_append, decVal_fixedNatL, abs_of_nonneg hx]
  have hp : (0 : Rat) < 10 ^ d := by positivity
  have hnn : 0 ≤ roundHalfEven (x * 10 ^ d) := by
    have := roundHalfEven_mono (x := ((0 : Int) : Rat)) (y := x * 10 ^ d) (by push_cast; positivity)
    rwa [roundHalfEven_int] at this
  have hcast : (((roundHalfEven (x * 10 ^ d)).toNat : Nat) : Rat) = (roundHalfEven (x * 10 ^ d) : Rat) := by
    exact_mod_cast Int.toNat_of_nonneg hnn
  rw [hcast]
  have h := roundHalfEven_err (x * 10 ^ d)
  rw [abs_le] at h ⊢
  obtain ⟨h1, h2⟩ := h
  constructor
  · rw [neg_le, neg_sub, sub_le_iff_le_add, ← add_div, le_div_iff₀ hp]; linarith
  · rw [sub_le_iff_le_add, div_add' _ _ _ hp.ne', div_le_div_iff_of_pos_right hp]; linarith

end PyNum
end Verif
