import Mathlib.Data.List.Basic
import Mathlib.Data.List.Nodup
/-!
# Specification helper: names in order of first appearance
-/

namespace Verif

/-- The distinct elements of a list, in order of their first occurrence. -/
def firstSeen : List String → List String
  | [] => []
  | x :: xs => x :: (firstSeen xs).filter (fun y => y ≠ x)

@[simp] theorem firstSeen_nil : firstSeen [] = [] := rfl

theorem mem_firstSeen {x : String} {l : List String} : x ∈ firstSeen l ↔ x ∈ l := by
  induction l with
  | nil => simp
  | cons a t ih =>
    by_cases h : x = a <;> simp [firstSeen, h, ih]

theorem firstSeen_nodup (l : List String) : (firstSeen l).Nodup := by
  induction l with
  | nil => simp
  | cons a t ih => simp [firstSeen, ih.filter]

theorem firstSeen_concat (l : List String) (a : String) :
    firstSeen (l ++ [a]) = if a ∈ l then firstSeen l else firstSeen l ++ [a] := by
  induction l with
  | nil => simp [firstSeen]
  | cons b t ih =>
    by_cases hab : a = b
    · subst hab
      by_cases hat : a ∈ t <;> simp [firstSeen, ih, hat]
    · by_cases hat : a ∈ t <;> simp [firstSeen, ih, hat, hab]

theorem firstSeen_of_nodup {l : List String} (h : l.Nodup) : firstSeen l = l := by
  induction l with
  | nil => rfl
  | cons a t ih =>
    simp only [List.nodup_cons] at h
    simp only [firstSeen, ih h.2]
    congr 1
    rw [List.filter_eq_self]
    intro y hy
    have : y ≠ a := by rintro rfl; exact h.1 hy
    simpa using this

theorem firstSeen_firstSeen (l : List String) : firstSeen (firstSeen l) = firstSeen l :=
  firstSeen_of_nodup (firstSeen_nodup l)

theorem firstSeen_append (l m : List String) :
    firstSeen (l ++ m) = firstSeen l ++ (firstSeen m).filter (fun y => y ∉ l) := by
  induction l with
  | nil => simp
  | cons a t ih =>
    simp only [List.cons_append, firstSeen, ih, List.filter_append, List.filter_filter]
    congr 2
    apply List.filter_congr
    intro y _
    simp

/-- Duplicates inside an inner block do not matter. -/
theorem firstSeen_append_firstSeen_left (l m : List String) :
    firstSeen (firstSeen l ++ m) = firstSeen (l ++ m) := by
  rw [firstSeen_append, firstSeen_append, firstSeen_firstSeen]
  congr 1
  apply List.filter_congr
  intro y _
  simp [mem_firstSeen]

theorem firstSeen_append_firstSeen_right (l m : List String) :
    firstSeen (l ++ firstSeen m) = firstSeen (l ++ m) := by
  rw [firstSeen_append, firstSeen_append, firstSeen_firstSeen]

theorem firstSeen_filter (p : String → Bool) (l : List String) :
    firstSeen (l.filter p) = (firstSeen l).filter p := by
  induction l with
  | nil => rfl
  | cons a t ih =>
    by_cases hp : p a
    · simp only [List.filter_cons_of_pos hp, firstSeen, ih, List.filter_filter]
      congr 1
      apply List.filter_congr
      intro y _
      exact Bool.and_comm _ _
    · simp only [List.filter_cons_of_neg hp, firstSeen, ih, List.filter_filter]
      apply List.filter_congr
      intro y _
      by_cases hy : y = a
      · subst hy; simp [hp]
      · simp [hy]

end Verif
