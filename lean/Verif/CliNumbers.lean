import Verif.CliThms
/-!
# Words that look like negative numbers (C116)

No new code: `_parse_optional` as modelled in `Cli.lean`.
-/

namespace Verif
namespace Spec

/-- A negative number: a dash and digits, or a dash and a decimal fraction, perhaps with a newline after it. -/
def NegNumber (w : List Char) : Prop :=
  ∃ a b nl : List Char, (∀ c ∈ a, c.isDigit = true) ∧ (∀ c ∈ b, c.isDigit = true) ∧ b ≠ [] ∧ (nl = [] ∨ nl = ['\n']) ∧
    (w = '-' :: (b ++ nl) ∨ w = '-' :: (a ++ '.' :: (b ++ nl)))

end Spec

namespace Cli

/-- The two alternatives of the pattern. -/
def unsignedNumber (r : Word) : Bool :=
  (!r.isEmpty && r.all Char.isDigit) ||
    (match r.dropWhile Char.isDigit with
     | '.' :: t => !t.isEmpty && t.all Char.isDigit
     | _ => false)

theorem negativeNumber_eq (r : Word) : negativeNumber ('-' :: r) = unsignedNumber (if r.getLast? = some '\n' then r.dropLast else r) := rfl

theorem unsignedNumber_iff (r : Word) : unsignedNumber r = true ↔
    ∃ a b : List Char, (∀ c ∈ a, c.isDigit = true) ∧ (∀ c ∈ b, c.isDigit = true) ∧ b ≠ [] ∧ (r = b ∨ r = a ++ '.' :: b) := by
  unfold unsignedNumber
  constructor
  · intro h
    rcases Bool.or_eq_true_iff.1 h with h | h
    · simp only [Bool.and_eq_true, List.all_eq_true, Bool.not_eq_true', List.isEmpty_eq_false_iff] at h
      exact ⟨[], r, by simp, h.2, h.1, .inl rfl⟩
    · split at h
      · next t ht =>
        simp only [Bool.and_eq_true, List.all_eq_true, Bool.not_eq_true', List.isEmpty_eq_false_iff] at h
        refine ⟨r.takeWhile Char.isDigit, t, fun c hc => List.all_eq_true.1 List.all_takeWhile c hc, h.2, h.1, .inr ?_⟩
        rw [← ht, List.takeWhile_append_dropWhile]
      · cases h
  · rintro ⟨a, b, ha, hb, hn, rfl | rfl⟩
    · simp [hn, List.all_eq_true.2 hb]
    · have : (a ++ '.' :: b).dropWhile Char.isDigit = '.' :: b := by
        rw [List.dropWhile_append_of_pos ha]
        rfl
      rw [this]
      simp [hn, List.all_eq_true.2 hb]

theorem negativeNumber_iff (w : Word) : negativeNumber w = true ↔ Spec.NegNumber w := by
  have hd : Char.isDigit '\n' = false := by decide
  constructor
  · intro h
    have ⟨r, hw⟩ : ∃ r, w = '-' :: r := by
      unfold negativeNumber at h
      split at h
      · exact ⟨_, rfl⟩
      · cases h
    subst hw
    · rw [negativeNumber_eq] at h
      obtain ⟨a, b, ha, hb, hn, hr⟩ := (unsignedNumber_iff _).1 h
      by_cases hl : r.getLast? = some '\n'
      · rw [if_pos hl] at hr
        have e : r = r.dropLast ++ ['\n'] := by
          obtain ⟨l, rfl⟩ := List.getLast?_eq_some_iff.1 hl
          simp
        refine ⟨a, b, ['\n'], ha, hb, hn, .inr rfl, ?_⟩
        rcases hr with hr | hr
        · left; rw [e, hr]
        · right; rw [e, hr]; simp
      · rw [if_neg hl] at hr
        refine ⟨a, b, [], ha, hb, hn, .inl rfl, ?_⟩
        rcases hr with rfl | rfl
        · left; simp
        · right; simp
  · rintro ⟨a, b, nl, ha, hb, hn, hnl, hw⟩
    have last : ∀ p : List Char, (p ++ b).getLast? ≠ some '\n' := by
      intro p h
      rw [List.getLast?_append_of_ne_nil _ hn] at h
      have := hb _ (List.mem_of_getLast? h)
      rw [hd] at this; cases this
    have key : ∀ p : List Char, unsignedNumber (p ++ b) = true → negativeNumber ('-' :: ((p ++ b) ++ nl)) = true := by
      intro p h
      rw [negativeNumber_eq]
      rcases hnl with rfl | rfl
      · rw [List.append_nil, if_neg (last p)]; exact h
      · rw [if_pos (by simp), List.dropLast_concat]; exact h
    rcases hw with rfl | rfl
    · exact key [] ((unsignedNumber_iff _).2 ⟨a, b, ha, hb, hn, .inl rfl⟩)
    · have := key (a ++ ['.']) ((unsignedNumber_iff _).2 ⟨a, b, ha, hb, hn, .inr (by simp)⟩)
      simpa using this

/-- **C116** A word that begins with a dash, is longer than that, is no option, has no option before an equals sign and abbreviates none: it is an argument if it is a
negative number or contains a blank, and otherwise an unknown option. -/
theorem C116_dashed_argument {m : List (Word × Action)} {r : Word} (hr : r ≠ []) (h1 : find m ('-' :: r) = none)
    (h2 : ∀ v, (partEq ('-' :: r)).2 = some v → find m (partEq ('-' :: r)).1 = none) (h3 : optionTuples m ('-' :: r) = []) :
    (parseOptional m ('-' :: r) = some .arg ↔ Spec.NegNumber ('-' :: r) ∨ ' ' ∈ r) ∧
    (parseOptional m ('-' :: r) ≠ some .arg → parseOptional m ('-' :: r) = some (.opt ⟨none, '-' :: r, none⟩)) := by
  have e : parseOptional m ('-' :: r) = if negativeNumber ('-' :: r) then some .arg else if ' ' ∈ ('-' :: r) then some .arg else some (.opt ⟨none, '-' :: r, none⟩) := by
    unfold parseOptional
    simp only [ne_eq, not_true_eq_false, if_false, h1, if_neg hr]
    split
    · next v a hv ha => rw [h2 v hv] at ha; cases ha
    · rw [h3]
  rw [e, ← negativeNumber_iff]
  have hb : (' ' ∈ ('-' :: r)) ↔ ' ' ∈ r := by simp
  by_cases hn : negativeNumber ('-' :: r) = true
  · simp [hn]
  · by_cases hs : ' ' ∈ r <;> simp [hn, hs]

/-- The conditions are met by `-1.5`, which is an argument, and by `-` with a newline, which is an unknown option. -/
example : parseOptional [] "-1.5".toList = some .arg ∧ parseOptional [] "-\n".toList = some (.opt ⟨none, "-\n".toList, none⟩) := by
  have a := C116_dashed_argument (m := []) (r := "1.5".toList) (by decide) rfl (fun _ _ => rfl) (by decide)
  have b := C116_dashed_argument (m := []) (r := "\n".toList) (by decide) rfl (fun _ _ => rfl) (by decide)
  exact ⟨a.1.2 (.inl ⟨['1'], ['5'], [], by decide, by decide, by decide, .inl rfl, .inr rfl⟩), b.2 (by decide)⟩

end Cli
end Verif
