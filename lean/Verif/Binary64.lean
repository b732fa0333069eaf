import Verif.ReportThms3
import Verif.PyNum
import Mathlib.Data.Rat.Floor
import Mathlib.Data.Int.Log
import Mathlib.Tactic.Positivity
/-!
# Binary floating point

The report code computes with Python floats.  `round64` is the rounding of IEEE 754 binary64: to 53 significant bits, to nearest, ties to
even.  The exponent is unbounded here: the figures of a report neither overflow nor underflow unless weights or numbers of bins exceed
`2^1000`.
-/

namespace Verif
open Spec Report PyNum

/-- Exponent of the last of the 53 bits of `x`. -/
def lastBit (x : Rat) : Int := Int.log 2 |x| - 52

/-- Rounding to binary64 (IEEE 754, round to nearest, ties to even), without overflow and underflow.  Every arithmetic operation of
the report builder (`coverage_report_builder.py:49, :53, :77, :81, :84, :127, :153`) yields the rounding of the exact result. -/
def round64 (x : Rat) : Rat := (roundHalfEven (x / 2 ^ lastBit x) : Rat) * 2 ^ lastBit x

theorem round64_le {x : Rat} {z k : Int} (hk : lastBit x ≤ k) (hx : x ≤ z * 2 ^ k) : round64 x ≤ z * 2 ^ k := by
  have hp : (0 : Rat) < 2 ^ lastBit x := zpow_pos (by norm_num) _
  obtain ⟨n, hn⟩ := Int.eq_ofNat_of_zero_le (Int.sub_nonneg.2 hk)
  have e : (z : Rat) * 2 ^ k = ((z * 2 ^ n : Int) : Rat) * 2 ^ lastBit x := by
    have : k = n + lastBit x := by omega
    rw [this, zpow_add₀ (by norm_num), ← mul_assoc]
    push_cast
    rfl
  rw [e] at hx ⊢
  unfold round64
  refine mul_le_mul_of_nonneg_right ?_ hp.le
  have h := roundHalfEven_mono ((div_le_iff₀ hp).2 hx)
  rw [roundHalfEven_int] at h
  exact_mod_cast h

theorem le_round64 {x : Rat} {z k : Int} (hk : lastBit x ≤ k) (hx : z * 2 ^ k ≤ x) : z * 2 ^ k ≤ round64 x := by
  have hp : (0 : Rat) < 2 ^ lastBit x := zpow_pos (by norm_num) _
  obtain ⟨n, hn⟩ := Int.eq_ofNat_of_zero_le (Int.sub_nonneg.2 hk)
  have e : (z : Rat) * 2 ^ k = ((z * 2 ^ n : Int) : Rat) * 2 ^ lastBit x := by
    have : k = n + lastBit x := by omega
    rw [this, zpow_add₀ (by norm_num), ← mul_assoc]
    push_cast
    rfl
  rw [e] at hx ⊢
  unfold round64
  refine mul_le_mul_of_nonneg_right ?_ hp.le
  have h := roundHalfEven_mono ((le_div_iff₀ hp).2 hx)
  rw [roundHalfEven_int] at h
  exact_mod_cast h

theorem round64_zero : round64 0 = 0 := by
  unfold round64
  rw [zero_div, show roundHalfEven 0 = 0 from roundHalfEven_int 0]
  simp

theorem pow_log_le {x : Rat} (hx : x ≠ 0) : (2 : Rat) ^ Int.log 2 |x| ≤ |x| := by
  have := Int.zpow_log_le_self (b := 2) (by norm_num) (abs_pos.2 hx)
  exact_mod_cast this

theorem lt_pow_log (x : Rat) : |x| < (2 : Rat) ^ (Int.log 2 |x| + 1) := by
  have := Int.lt_zpow_succ_log_self (b := 2) (by norm_num) |x|
  exact_mod_cast this

theorem round64_mono {x y : Rat} (h : x ≤ y) : round64 x ≤ round64 y := by
  by_cases hx0 : x = 0
  · subst hx0
    have := le_round64 (x := y) (z := 0) (k := lastBit y) (le_refl _) (by simpa using h)
    rw [round64_zero]
    simpa using this
  by_cases hy0 : y = 0
  · subst hy0
    have := round64_le (x := x) (z := 0) (k := lastBit x) (le_refl _) (by simpa using h)
    rw [round64_zero]
    simpa using this
  rcases lt_trichotomy (lastBit x) (lastBit y) with hl | hl | hl
  · have hlog : Int.log 2 |x| < Int.log 2 |y| := by unfold lastBit at hl; omega
    have hy : 0 < y := by
      by_contra hc
      have hc : y < 0 := lt_of_le_of_ne (not_lt.1 hc) hy0
      have : |y| ≤ |x| := by
        rw [abs_of_neg hc, abs_of_nonpos (by linarith)]; linarith
      have := Int.log_mono_right (b := 2) (abs_pos.2 hy0) this
      omega
    have h1 : (1 : Int) * (2 : Rat) ^ Int.log 2 |y| ≤ round64 y := by
      apply le_round64
      · unfold lastBit; omega
      · have := pow_log_le hy0
        rw [abs_of_pos hy] at this ⊢
        simpa using this
    have h2 : round64 x ≤ (1 : Int) * (2 : Rat) ^ Int.log 2 |y| := by
      apply round64_le
      · unfold lastBit; omega
      · have h3 := lt_pow_log x
        have h4 : (2 : Rat) ^ (Int.log 2 |x| + 1) ≤ 2 ^ Int.log 2 |y| := zpow_le_zpow_right₀ (by norm_num) (by omega)
        have h5 := le_abs_self x
        simp only [Int.cast_one, one_mul]
        linarith
    linarith
  · unfold round64
    rw [hl]
    have hp : (0 : Rat) < 2 ^ lastBit y := zpow_pos (by norm_num) _
    refine mul_le_mul_of_nonneg_right ?_ hp.le
    exact_mod_cast roundHalfEven_mono (div_le_div_of_nonneg_right h hp.le)
  · have hlog : Int.log 2 |y| < Int.log 2 |x| := by unfold lastBit at hl; omega
    have hx : x < 0 := by
      by_contra hc
      have hc : 0 < x := lt_of_le_of_ne (not_lt.1 hc) (Ne.symm hx0)
      have : |x| ≤ |y| := by
        rw [abs_of_pos hc, abs_of_pos (by linarith)]; linarith
      have := Int.log_mono_right (b := 2) (abs_pos.2 hx0) this
      omega
    have h1 : round64 x ≤ (-1 : Int) * (2 : Rat) ^ Int.log 2 |x| := by
      apply round64_le
      · unfold lastBit; omega
      · have := pow_log_le hx0
        have e := abs_of_neg hx
        simp only [Int.cast_neg, Int.cast_one, neg_mul, one_mul]
        linarith
    have h2 : (-1 : Int) * (2 : Rat) ^ Int.log 2 |x| ≤ round64 y := by
      apply le_round64
      · unfold lastBit; omega
      · have h3 := lt_pow_log y
        have h4 : (2 : Rat) ^ (Int.log 2 |y| + 1) ≤ 2 ^ Int.log 2 |x| := zpow_le_zpow_right₀ (by norm_num) (by omega)
        have h5 := neg_abs_le y
        simp only [Int.cast_neg, Int.cast_one, neg_mul, one_mul]
        linarith
    linarith

/-- Numbers with at most 53 bits are not changed. -/
theorem round64_exact {x : Rat} {z k : Int} (hx : x = z * 2 ^ k) (hk : lastBit x ≤ k) : round64 x = x := by
  apply le_antisymm
  · have := round64_le hk hx.le
    rwa [← hx] at this
  · have := le_round64 hk hx.ge
    rwa [← hx] at this

/-- The integers up to `2^53` are floating point numbers. -/
theorem round64_int {n : Int} (h1 : -2 ^ 53 ≤ n) (h2 : n ≤ 2 ^ 53) : round64 n = n := by
  by_cases h0 : n = 0
  · subst h0; simpa using round64_zero
  have hlog : Int.log 2 |(n : Rat)| ≤ 53 := by
    by_contra hc
    have h3 := pow_log_le (x := n) (by exact_mod_cast h0)
    have h4 : (2 : Rat) ^ (54 : Int) ≤ 2 ^ Int.log 2 |(n : Rat)| := zpow_le_zpow_right₀ (by norm_num) (by omega)
    have h5 : |(n : Rat)| ≤ 2 ^ 53 := abs_le.2 ⟨by exact_mod_cast h1, by exact_mod_cast h2⟩
    norm_num at h4 h5
    linarith
  by_cases h53 : Int.log 2 |(n : Rat)| = 53
  · have h3 := pow_log_le (x := n) (by exact_mod_cast h0)
    rw [h53] at h3
    have h5 : (2 : Int) ^ 53 ≤ |n| := by exact_mod_cast h3
    rcases abs_cases n with ⟨e, _⟩ | ⟨e, _⟩
    · refine round64_exact (z := 1) (k := 53) ?_ (by unfold lastBit; omega)
      have : n = 2 ^ 53 := by omega
      rw [this]; norm_num
    · refine round64_exact (z := -1) (k := 53) ?_ (by unfold lastBit; omega)
      have : n = -2 ^ 53 := by omega
      rw [this]; norm_num
  · exact round64_exact (z := n) (k := 0) (by simp) (by unfold lastBit; omega)

/-- Binary64 is a rounding in the sense of the report theorems. -/
theorem round64_rounding : Rounding round64 (2 ^ 53) := ⟨fun _ _ => round64_mono, fun _ => round64_int⟩

/-- Half a unit in the last place. -/
def unit64 : Rat := 1 / 2 ^ 53

/-- The relative error of a rounding is at most `2^-53`. -/
theorem round64_error (x : Rat) : |round64 x - x| ≤ unit64 * |x| := by
  by_cases hx : x = 0
  · subst hx; rw [round64_zero]; simp
  have hp : (0 : Rat) < 2 ^ lastBit x := zpow_pos (by norm_num) _
  have e : round64 x - x = ((roundHalfEven (x / 2 ^ lastBit x) : Rat) - x / 2 ^ lastBit x) * 2 ^ lastBit x := by
    unfold round64
    rw [sub_mul, div_mul_cancel₀ _ hp.ne']
  rw [e, abs_mul, abs_of_pos hp]
  have h1 := mul_le_mul_of_nonneg_right (roundHalfEven_err (x / 2 ^ lastBit x)) hp.le
  have h2 : 1 / 2 * (2 : Rat) ^ lastBit x = unit64 * 2 ^ Int.log 2 |x| := by
    unfold lastBit unit64
    rw [zpow_sub₀ (by norm_num)]
    norm_num
    ring
  have h3 := mul_le_mul_of_nonneg_left (pow_log_le hx) (a := unit64) (by unfold unit64; positivity)
  linarith

end Verif
