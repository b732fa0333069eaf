import Verif.StoreInv
/-!
# What is said about the store

Notions used in the statements about the object model, in terms of what a program observes: parents,
types, counts.  The functions of the model do not occur in them.
-/

namespace Verif
namespace Spec

/-- Two bit sets share an element. -/
def Meets (a b : Nat) : Prop := ∃ i, a.testBit i = true ∧ b.testBit i = true

/-- `c` is a scope that reports `o` as its parent and whose type is among those of the mask. -/
def ChildOfType (s : Store.Heap) (o mask c : Nat) : Prop :=
  ∃ y, s.objs[c]? = some y ∧ y.parent = some o ∧ Meets y.stype mask

/-- `b` is a bin of a kind among those of the mask. -/
def BinOfKind (s : Store.Heap) (mask b : Nat) : Prop :=
  ∃ x d, s.bins[b]? = some x ∧ s.datas[x.data]? = some d ∧ Meets d.kind mask

/-- `n` is a history node of the kind asked for; 0 asks for all kinds. -/
def NodeOfKind (s : Store.Heap) (kind : Int) (n : Nat) : Prop :=
  ∃ x, s.nodes[n]? = some x ∧ (kind = 0 ∨ x.kind = .num kind)

/-- The count of a bin. -/
def Count (s : Store.Heap) (b : Nat) (k : Int) : Prop :=
  ∃ x d, s.bins[b]? = some x ∧ s.datas[x.data]? = some d ∧ d.count = k

/-- The bin has a `CoverData` that no other bin has. -/
def OwnData (s : Store.Heap) (b : Nat) : Prop :=
  ∃ x, s.bins[b]? = some x ∧ ∀ b' x', s.bins[b']? = some x' → x'.data = x.data → b' = b

end Spec

namespace Store

theorem maskHit_iff (a b : Nat) : maskHit a b = true ↔ Spec.Meets a b := by
  unfold maskHit Spec.Meets
  constructor
  · intro h
    by_contra hn
    have : a &&& b = 0 := by
      apply Nat.eq_of_testBit_eq
      intro i
      rw [Nat.testBit_and, Nat.zero_testBit]
      by_cases h1 : a.testBit i = true
      · by_cases h2 : b.testBit i = true
        · exact absurd ⟨i, h1, h2⟩ hn
        · simp [h2]
      · simp [h1]
    simp [this] at h
  · rintro ⟨i, h1, h2⟩
    by_contra hn
    have h0 : a &&& b = 0 := by simpa using hn
    have := Nat.testBit_and a b i
    rw [h0, h1, h2] at this
    simp at this

theorem toString_inj {a b : Nat} (h : toString a = toString b) : a = b := by
  rw [Nat.toString_eq_repr, Nat.toString_eq_repr] at h
  have h2 : Nat.toDigits 10 a = Nat.toDigits 10 b := by rw [← Nat.toList_repr, ← Nat.toList_repr, h]
  rw [← Nat.ofDigitChars_ten_toDigits (n := a), h2, Nat.ofDigitChars_ten_toDigits]

/-! ## The loop of the iterators -/

theorem nextLoop_spec {α : Type} (hit : α → Bool) (l : List α) (fuel i : Nat) (hf : l.length - i ≤ fuel) (hi : i ≤ l.length) :
    match nextLoop hit l fuel i with
    | (none, j) => j = l.length ∧ (l.drop i).filter hit = []
    | (some x, j) => i < j ∧ j ≤ l.length ∧ hit x = true ∧ (l.take j).filter hit = (l.take i).filter hit ++ [x] ∧
        (l.drop i).filter hit = x :: (l.drop j).filter hit := by
  induction fuel generalizing i with
  | zero =>
    have : i = l.length := by omega
    subst this
    simp [nextLoop]
  | succ fuel ih =>
    unfold nextLoop
    cases hx : l[i]? with
    | none =>
      have := List.getElem?_eq_none_iff.1 hx
      have : i = l.length := by omega
      subst this
      simp
    | some x =>
      have hil := (List.getElem?_eq_some_iff.1 hx).1
      have hd : l.drop i = x :: l.drop (i + 1) := by
        rw [List.drop_eq_getElem_cons hil]
        rw [List.getElem?_eq_getElem hil] at hx
        rw [Option.some.inj hx]
      have ht : l.take (i + 1) = l.take i ++ [x] := by
        rw [List.take_add_one, hx]; rfl
      by_cases hh : hit x = true
      · simp only [hh, if_true]
        exact ⟨by omega, by omega, trivial, by rw [ht, List.filter_append]; simp [hh], by rw [hd]; simp [hh]⟩
      · simp only [hh]
        have := ih (i + 1) (by omega) (by omega)
        rcases hr : nextLoop hit l fuel (i + 1) with ⟨r, j⟩
        rw [hr] at this
        cases r with
        | none =>
          obtain ⟨h1, h2⟩ := this
          simp only [Bool.false_eq_true, if_false, hr]
          exact ⟨h1, by rw [hd]; simp [hh, h2]⟩
        | some y =>
          obtain ⟨h1, h2, h3, h4, h5⟩ := this
          simp only [Bool.false_eq_true, if_false, hr]
          exact ⟨by omega, h2, h3, by rw [h4, ht, List.filter_append]; simp [hh], by rw [hd]; simp [hh, h5]⟩

theorem next_spec {α : Type} (hit : α → Bool) (l : List α) (i : Nat) (hi : i ≤ l.length) :
    match next hit l i with
    | (none, j) => j = l.length ∧ (l.drop i).filter hit = []
    | (some x, j) => i < j ∧ j ≤ l.length ∧ hit x = true ∧ (l.take j).filter hit = (l.take i).filter hit ++ [x] ∧
        (l.drop i).filter hit = x :: (l.drop j).filter hit :=
  nextLoop_spec hit l (l.length - i) i (Nat.le_refl _) hi

theorem drain_eq {α : Type} (hit : α → Bool) (l : List α) (fuel i : Nat) (hf : l.length - i < fuel) (hi : i ≤ l.length) :
    drain hit l fuel i = (l.drop i).filter hit := by
  induction fuel generalizing i with
  | zero => omega
  | succ fuel ih =>
    have := next_spec hit l i hi
    unfold drain
    rcases hr : next hit l i with ⟨r, j⟩
    rw [hr] at this
    cases r with
    | none => simp [this.2]
    | some x =>
      obtain ⟨h1, h2, _, _, h5⟩ := this
      simp only
      rw [h5, ih j (by omega) h2]

theorem drain_all {α : Type} (hit : α → Bool) (l : List α) : drain hit l (l.length + 1) 0 = l.filter hit := by
  rw [drain_eq hit l _ 0 (by omega) (Nat.zero_le _), List.drop_zero]

end Store
end Verif
