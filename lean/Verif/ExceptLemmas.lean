import Verif.Py
import Mathlib.Data.List.Forall2
/-!
# Loops in `Except`
-/

namespace Verif
namespace Ex
variable {α β γ ε σ : Type}

theorem bind_ok {x : Except ε α} {f : α → Except ε β} {b : β} :
    (x >>= f) = .ok b ↔ ∃ a, x = .ok a ∧ f a = .ok b := by
  cases x with
  | error e => simp [Bind.bind, Except.bind]
  | ok a => simp [Bind.bind, Except.bind]

theorem pure_ok {a b : α} : (pure a : Except ε α) = .ok b ↔ a = b := by
  simp [pure, Except.pure]

theorem mapM_nil {f : α → Except ε β} : ([] : List α).mapM f = .ok [] := rfl

theorem mapM_map' {f : α → β} {g : β → Except ε γ} {l : List α} : (l.map f).mapM g = l.mapM (fun x => g (f x)) :=
  List.mapM_map ..

theorem mapM_cons_ok {f : α → Except ε β} {a : α} {l : List α} {r : List β} :
    (a :: l).mapM f = .ok r ↔ ∃ b bs, f a = .ok b ∧ l.mapM f = .ok bs ∧ r = b :: bs := by
  rw [List.mapM_cons, bind_ok]
  constructor
  · rintro ⟨b, hb, h⟩
    obtain ⟨bs, hbs, h⟩ := bind_ok.1 h
    exact ⟨b, bs, hb, hbs, (pure_ok.1 h).symm⟩
  · rintro ⟨b, bs, hb, hbs, rfl⟩
    exact ⟨b, hb, bind_ok.2 ⟨bs, hbs, rfl⟩⟩

/-- When success of the body has a closed form, so has the loop. -/
theorem mapM_iff {f : α → Except ε β} {p : α → Prop} {g : α → β} {l : List α}
    (h : ∀ x ∈ l, ∀ y, f x = .ok y ↔ p x ∧ y = g x) (r : List β) :
    l.mapM f = .ok r ↔ (∀ x ∈ l, p x) ∧ r = l.map g := by
  induction l generalizing r with
  | nil => rw [mapM_nil]; simp [eq_comm]
  | cons a t ih =>
    rw [mapM_cons_ok]
    constructor
    · rintro ⟨b, bs, hb, hbs, rfl⟩
      obtain ⟨pa, rfl⟩ := (h a (by simp) b).1 hb
      obtain ⟨pt, rfl⟩ := (ih (fun x hx => h x (by simp [hx])) bs).1 hbs
      exact ⟨by simpa using ⟨pa, pt⟩, rfl⟩
    · rintro ⟨hp, rfl⟩
      exact ⟨g a, t.map g, (h a (by simp) _).2 ⟨hp a (by simp), rfl⟩,
        (ih (fun x hx => h x (by simp [hx])) _).2 ⟨fun x hx => hp x (by simp [hx]), rfl⟩, rfl⟩

theorem mapM_of_ok {f : α → Except ε β} {g : α → β} {l : List α} (h : ∀ x ∈ l, f x = .ok (g x)) :
    l.mapM f = .ok (l.map g) :=
  (mapM_iff (p := fun _ => True) (fun x hx y => by rw [h x hx]; simp [eq_comm]) _).2 ⟨fun _ _ => trivial, rfl⟩

theorem mapM_forall {f : α → Except ε β} {l : List α} {r : List β} (h : l.mapM f = .ok r) :
    List.Forall₂ (fun x y => f x = .ok y) l r := by
  induction l generalizing r with
  | nil => rw [mapM_nil] at h; cases h; exact .nil
  | cons a t ih =>
    obtain ⟨b, bs, hb, hbs, rfl⟩ := mapM_cons_ok.1 h
    exact .cons hb (ih hbs)

theorem forall_mapM {f : α → Except ε β} {l : List α} {r : List β} (h : List.Forall₂ (fun x y => f x = .ok y) l r) :
    l.mapM f = .ok r := by
  induction h with
  | nil => rfl
  | cons ha _ ih => exact mapM_cons_ok.2 ⟨_, _, ha, ih, rfl⟩

theorem mapM_mem {f : α → Except ε β} {l : List α} {r : List β} (h : l.mapM f = .ok r) {x : α} (hx : x ∈ l) :
    ∃ y ∈ r, f x = .ok y := by
  induction l generalizing r with
  | nil => cases hx
  | cons a t ih =>
    obtain ⟨b, bs, hb, hbs, rfl⟩ := mapM_cons_ok.1 h
    rcases List.mem_cons.1 hx with rfl | hx
    · exact ⟨b, by simp, hb⟩
    · obtain ⟨y, hy, e⟩ := ih hbs hx; exact ⟨y, by simp [hy], e⟩

theorem mapM_mem' {f : α → Except ε β} {l : List α} {r : List β} (h : l.mapM f = .ok r) {y : β} (hy : y ∈ r) :
    ∃ x ∈ l, f x = .ok y := by
  induction l generalizing r with
  | nil => rw [mapM_nil] at h; cases h; cases hy
  | cons a t ih =>
    obtain ⟨b, bs, hb, hbs, rfl⟩ := mapM_cons_ok.1 h
    rcases List.mem_cons.1 hy with rfl | hy
    · exact ⟨a, by simp, hb⟩
    · obtain ⟨x, hx, e⟩ := ih hbs hy; exact ⟨x, by simp [hx], e⟩

theorem mapM_ok_iff {f : α → Except ε β} {l : List α} :
    (∃ r, l.mapM f = .ok r) ↔ ∀ x ∈ l, ∃ y, f x = .ok y := by
  constructor
  · rintro ⟨r, h⟩ x hx
    obtain ⟨y, _, e⟩ := mapM_mem h hx
    exact ⟨y, e⟩
  · intro h
    induction l with
    | nil => exact ⟨[], rfl⟩
    | cons a t ih =>
      obtain ⟨b, hb⟩ := h a (by simp)
      obtain ⟨bs, hbs⟩ := ih (fun x hx => h x (by simp [hx]))
      exact ⟨b :: bs, mapM_cons_ok.2 ⟨b, bs, hb, hbs, rfl⟩⟩

/-- A loop with state whose body parses the element independently of the state. -/
theorem foldlM_iff {f : σ → α → Except ε σ} {P : α → Except ε β} {g : σ → β → σ} (Inv : σ → Prop)
    (hf : ∀ s x s', Inv s → (f s x = .ok s' ↔ ∃ y, P x = .ok y ∧ s' = g s y))
    (hg : ∀ s y, Inv s → Inv (g s y)) {l : List α} {s : σ} (hs : Inv s) (s' : σ) :
    l.foldlM f s = .ok s' ↔ ∃ ys, l.mapM P = .ok ys ∧ s' = ys.foldl g s := by
  induction l generalizing s with
  | nil =>
    rw [mapM_nil]
    simp [pure, Except.pure, eq_comm]
  | cons a t ih =>
    rw [List.foldlM_cons, bind_ok]
    constructor
    · rintro ⟨s1, h1, h2⟩
      obtain ⟨y, hy, rfl⟩ := (hf s a s1 hs).1 h1
      obtain ⟨ys, hys, rfl⟩ := (ih (hg s y hs)).1 h2
      exact ⟨y :: ys, mapM_cons_ok.2 ⟨y, ys, hy, hys, rfl⟩, rfl⟩
    · rintro ⟨ys, h, rfl⟩
      obtain ⟨y, ys', hy, hys, rfl⟩ := mapM_cons_ok.1 h
      exact ⟨g s y, (hf s a _ hs).2 ⟨y, hy, rfl⟩, (ih (hg s y hs)).2 ⟨ys', hys, rfl⟩⟩

end Ex
end Verif
