import Verif.StoreView
import Verif.MergeClosed
/-!
# Reading the sources of a merge

The grouping and counting loops of `StoreMerge.lean` give what the functions of `Merge.lean` give on the trees
shown by the sources.
-/

namespace Verif
namespace Store
open Spec

/-! ## Dictionaries with related values -/

/-- Same keys in the same order, related values. -/
def DRel {α β : Type} (R : α → β → Prop) (m : Dict α) (m' : Dict β) : Prop :=
  List.Forall₂ (fun a b => a.1 = b.1 ∧ R a.2 b.2) m m'

theorem drel_keys {α β : Type} {R : α → β → Prop} {m : Dict α} {m' : Dict β} (h : DRel R m m') : m.keys = m'.keys := by
  induction h with
  | nil => rfl
  | cons hab _ ih => simp only [Dict.keys_cons, hab.1, ih]

theorem drel_contains {α β : Type} {R : α → β → Prop} {m : Dict α} {m' : Dict β} (h : DRel R m m') (k : String) :
    m.contains k = m'.contains k := by
  have := drel_keys h
  rw [Bool.eq_iff_iff, Dict.contains_iff, Dict.contains_iff, this]

theorem drel_get {α β : Type} {R : α → β → Prop} {m : Dict α} {m' : Dict β} (h : DRel R m m') (k : String) :
    Option.Rel R (m.get? k) (m'.get? k) := by
  induction h with
  | nil => exact .none
  | @cons a b l l' hab _ ih =>
    obtain ⟨a1, a2⟩ := a
    obtain ⟨b1, b2⟩ := b
    obtain ⟨rfl, h2⟩ := hab
    by_cases hk : a1 = k
    · simp only [Dict.get?, hk, if_true]; exact .some h2
    · simp only [Dict.get?, hk, if_false]; exact ih

theorem drel_set {α β : Type} {R : α → β → Prop} {m : Dict α} {m' : Dict β} (h : DRel R m m') (k : String) {a : α} {b : β} (hab : R a b) :
    DRel R (m.set k a) (m'.set k b) := by
  induction h with
  | nil => exact .cons ⟨rfl, hab⟩ .nil
  | @cons x y l l' hxy ht ih =>
    obtain ⟨x1, x2⟩ := x
    obtain ⟨y1, y2⟩ := y
    obtain ⟨rfl, h2⟩ := hxy
    by_cases hk : x1 = k
    · simp only [Dict.set, hk, if_true]; exact .cons ⟨rfl, hab⟩ ht
    · simp only [Dict.set, hk, if_false]; exact .cons ⟨rfl, h2⟩ ih

/-! ## Loops that only read -/

theorem foldl_rel {α β γ δ : Type} {s : Heap} {R : α → β → Prop} {D : γ → δ → Prop} {f : γ → α → M γ} {g : δ → β → δ}
    (hf : ∀ m m' a b, D m m' → R a b → ∃ m1, f m a s = (.ok m1, s) ∧ D m1 (g m' b)) {l : List α} {l' : List β}
    (hl : List.Forall₂ R l l') {m : γ} {m' : δ} (hm : D m m') :
    ∃ m1, l.foldlM f m s = (.ok m1, s) ∧ D m1 (l'.foldl g m') := by
  induction hl generalizing m m' with
  | nil => exact ⟨m, rfl, hm⟩
  | cons hab _ ih =>
    obtain ⟨m1, h1, h2⟩ := hf _ _ _ _ hm hab
    obtain ⟨m2, h3, h4⟩ := ih h2
    exact ⟨m2, by rw [List.foldlM_cons, bind_eq_of_ok h1, h3], h4⟩

theorem foldlM_rel {α β γ : Type} {s : Heap} {R : α → β → Prop} {f : γ → α → M γ} {g : γ → β → Except Err γ}
    (hf : ∀ m a b, R a b → f m a s = (g m b, s)) {l : List α} {l' : List β}
    (hl : List.Forall₂ R l l') (m : γ) : l.foldlM f m s = (l'.foldlM g m, s) := by
  induction hl generalizing m with
  | nil => rfl
  | @cons a b _ _ hab _ ih =>
    have h := hf m a b hab
    rw [List.foldlM_cons, List.foldlM_cons]
    cases hg : g m b with
    | error e => rw [hg] at h; rw [bind_eq_of_error h]; rfl
    | ok m1 => rw [hg] at h; rw [bind_eq_of_ok h, ih]; rfl

theorem forall2_filter {α β : Type} {R : α → β → Prop} {p : α → Bool} {q : β → Bool} {l : List α} {l' : List β}
    (h : List.Forall₂ R l l') (hpq : ∀ a b, R a b → p a = q b) : List.Forall₂ R (l.filter p) (l'.filter q) := by
  induction h with
  | nil => exact .nil
  | @cons a b _ _ hab _ ih =>
    have := hpq a b hab
    by_cases hp : p a = true
    · rw [List.filter_cons_of_pos hp, List.filter_cons_of_pos (this ▸ hp)]; exact .cons hab ih
    · rw [List.filter_cons_of_neg hp, List.filter_cons_of_neg (this ▸ hp)]; exact ih

/-! ## Sources -/

/-- The tree `v` is shown by `o`, and all of it consists of objects that were there before (`< N`) and are not
the destination `D`. -/
def Old (N D : Nat) (s : Heap) (o : Nat) (v : Scope) : Prop := ∃ n, ShowsIn (fun o => o < N ∧ o ≠ D) s n o v

/-- The children of `v` are shown by those of `o`. -/
def Kids (N D : Nat) (s : Heap) (o : Nat) (v : Scope) : Prop :=
  ∃ x, s.objs[o]? = some x ∧ List.Forall₂ (Old N D s) x.children v.children

theorem Old.kids {N D : Nat} {s : Heap} {o : Nat} {v : Scope} (h : Old N D s o v) : Kids N D s o v := by
  obtain ⟨n, hn⟩ := h
  cases n with
  | zero => exact hn.elim
  | succ n =>
    obtain ⟨_, x, hx, _, _, _, _, _, _, h7, _⟩ := hn
    exact ⟨x, hx, forall2_imp h7 (fun a _ b hab => ⟨n, hab⟩)⟩

/-- The object behind a shown tree. -/
theorem Old.obj {N D : Nat} {s : Heap} {o : Nat} {v : Scope} (h : Old N D s o v) :
    ∃ x, s.objs[o]? = some x ∧ v.stype = x.stype ∧ v.name = x.name ∧ v.src = x.src ∧ v.weight = x.weight ∧
      ShowsDu s x v.du ∧ ShowsCps s x v.cps ∧ List.Forall₂ (ShowsItem s) x.items v.items := by
  obtain ⟨n, hn⟩ := h
  cases n with
  | zero => exact hn.elim
  | succ n =>
    obtain ⟨_, x, hx, h1, h2, h3, h4, h5, h6, _, h8⟩ := hn
    exact ⟨x, hx, h1, h2, h3, h4, h5, h6, h8⟩

theorem Old.frame {N D : Nat} {s s' : Heap} {d : Nat} {k i : List Nat} {o : Nat} {v : Scope} (h : Old N D s o v) (f : Frame N s s' d k i)
    (hd : d = D ∨ N ≤ d) : Old N D s' o v := by
  obtain ⟨n, hn⟩ := h
  exact ⟨n, f.showsIn (by intro ⟨h1, h2⟩; omega) hn⟩

theorem olds_frame {N D : Nat} {s s' : Heap} {d : Nat} {k i : List Nat} {l : List Nat} {vs : List Scope}
    (h : List.Forall₂ (Old N D s) l vs) (f : Frame N s s' d k i) (hd : d = D ∨ N ≤ d) : List.Forall₂ (Old N D s') l vs :=
  forall2_imp h (fun _ _ _ hab => hab.frame f hd)

theorem getScopeName_old {N D : Nat} {s : Heap} {o : Nat} {v : Scope} (h : Old N D s o v) : getScopeName o s = (.ok v.name, s) := by
  obtain ⟨x, hx, _, h2, _⟩ := h.obj
  exact (bind_eq_of_ok (obj_some hx)).trans (by rw [pure_def, h2])

theorem getSourceInfo_old {N D : Nat} {s : Heap} {o : Nat} {v : Scope} (h : Old N D s o v) : getSourceInfo o s = (.ok v.src, s) := by
  obtain ⟨x, hx, _, _, h3, _⟩ := h.obj
  exact (bind_eq_of_ok (obj_some hx)).trans (by rw [pure_def, h3])

theorem getWeight_old {N D : Nat} {s : Heap} {o : Nat} {v : Scope} (h : Old N D s o v) : getWeight o s = (.ok v.weight, s) := by
  obtain ⟨x, hx, _, _, _, h4, _⟩ := h.obj
  exact (bind_eq_of_ok (obj_some hx)).trans (by rw [pure_def, h4])

theorem scopes_kids {N D : Nat} {s : Heap} {o : Nat} {v : Scope} (h : Kids N D s o v) (mask : Nat) :
    ∃ l, scopes o mask s = (.ok l, s) ∧ List.Forall₂ (Old N D s) l (v.scopes mask) := by
  obtain ⟨x, hx, hk⟩ := h
  refine ⟨_, scopes_eq hx, forall2_filter hk ?_⟩
  intro a b hab
  obtain ⟨y, hy, h1, _⟩ := hab.obj
  simp [scopeHit, hy, h1]

theorem coverItems_old {N D : Nat} {s : Heap} {o : Nat} {v : Scope} (h : Old N D s o v) (mask : Nat) :
    ∃ l, coverItems o mask s = (.ok l, s) ∧ List.Forall₂ (ShowsItem s) l (v.coverItems mask) := by
  obtain ⟨x, hx, _, _, _, _, _, _, h8⟩ := h.obj
  refine ⟨_, coverItems_eq hx, forall2_filter h8 ?_⟩
  rintro a b ⟨y, d, hy, hd, rfl⟩
  simp [binHit, hy, hd]

/-! ## Grouping -/

theorem forall2_set {α β : Type} {R : α → β → Prop} {l : List α} {l' : List β} (h : List.Forall₂ R l l') (i : Nat) {a : α} {b : β}
    (hab : R a b) : List.Forall₂ R (l.set i a) (l'.set i b) := by
  induction h generalizing i with
  | nil => exact .nil
  | cons hxy ht ih =>
    cases i with
    | zero => exact .cons hab ht
    | succ i => exact .cons hxy (ih i)

theorem forall2_replicate {α β : Type} {R : α → β → Prop} (n : Nat) {a : α} {b : β} (hab : R a b) :
    List.Forall₂ R (List.replicate n a) (List.replicate n b) := by
  induction n with
  | zero => exact .nil
  | succ n ih => exact .cons hab ih

theorem forall2_zipIdx {α β : Type} {R : α → β → Prop} {l : List α} {l' : List β} (h : List.Forall₂ R l l') (n : Nat) :
    List.Forall₂ (fun a b => R a.1 b.1 ∧ a.2 = b.2) (l.zipIdx n) (l'.zipIdx n) := by
  induction h generalizing n with
  | nil => exact .nil
  | cons hab _ ih => exact .cons ⟨hab, rfl⟩ (ih (n + 1))

/-- Slots filled with objects that show the values of the other side. -/
abbrev Slots (N D : Nat) (s : Heap) : List (Option Nat) → List (Option Scope) → Prop := List.Forall₂ (Option.Rel (Old N D s))

theorem putSlot_rel {N D : Nat} {s : Heap} (n i : Nat) {m : Dict (List (Option Nat))} {m' : Dict (List (Option Scope))}
    (h : DRel (Slots N D s) m m') {c : Nat} {v : Scope} (hc : Old N D s c v) :
    DRel (Slots N D s) (DbMerger.putSlot n i m v.name c) (Merge.putSlot n i m' v) := by
  unfold DbMerger.putSlot Merge.putSlot
  have h1 : DRel (Slots N D s) (if m.contains v.name then m else m.set v.name (List.replicate n none))
      (if m'.contains v.name then m' else m'.set v.name (List.replicate n none)) := by
    rw [drel_contains h]
    split
    · exact h
    · exact drel_set h _ (forall2_replicate n .none)
  generalize (if m.contains v.name then m else m.set v.name (List.replicate n none)) = m1 at h1 ⊢
  generalize (if m'.contains v.name then m' else m'.set v.name (List.replicate n none)) = m2 at h1 ⊢
  have h2 := drel_get h1 v.name
  simp only
  cases h3 : m1.get? v.name with
  | none => rw [h3] at h2; cases h4 : m2.get? v.name with
    | none => exact h1
    | some l' => rw [h4] at h2; cases h2
  | some l => rw [h3] at h2; cases h4 : m2.get? v.name with
    | none => rw [h4] at h2; cases h2
    | some l' =>
      rw [h4] at h2
      cases h2 with
      | some h2 => exact drel_set h1 _ (forall2_set h2 i (.some hc))

theorem collect_rel {N D : Nat} {s : Heap} (mask : Nat) {srcs : List Nat} {vs : List Scope} (h : List.Forall₂ (Kids N D s) srcs vs) :
    ∃ m, DbMerger.collect mask srcs s = (.ok m, s) ∧ DRel (Slots N D s) m (Merge.collect mask vs) := by
  unfold DbMerger.collect Merge.collect
  refine foldl_rel (R := fun a b => Kids N D s a.1 b.1 ∧ a.2 = b.2) (D := DRel (Slots N D s)) ?_ (forall2_zipIdx h 0) .nil
  rintro m m' ⟨a, i⟩ ⟨b, j⟩ hm ⟨hab, hij⟩
  simp only at hij hab
  subst hij
  obtain ⟨l, hl, hr⟩ := scopes_kids hab mask
  have hlen := h.length_eq
  obtain ⟨m1, h1, h2⟩ := foldl_rel (s := s) (f := DbMerger.slotStep srcs.length i) (g := Merge.putSlot vs.length i) (R := Old N D s)
    (D := DRel (Slots N D s)) (by
      intro m m' a b hm hab
      exact ⟨_, bind_eq_of_ok (getScopeName_old hab), by rw [hlen]; exact putSlot_rel _ _ hm hab⟩) hr hm
  exact ⟨m1, by rw [bind_eq_of_ok hl, h1], h2⟩

theorem present_rel {N D : Nat} {s : Heap} {l : List (Option Nat)} {l' : List (Option Scope)} (h : Slots N D s l l') :
    List.Forall₂ (Old N D s) (DbMerger.present l) (Merge.present l') := by
  unfold DbMerger.present Merge.present
  induction h with
  | nil => exact .nil
  | cons hab _ ih =>
    cases hab with
    | none => simpa using ih
    | some h => simpa using ⟨h, ih⟩

theorem putCross_rel {N D : Nat} {s : Heap} {m : Dict (List Nat)} {m' : Dict (List Scope)}
    (h : DRel (List.Forall₂ (Old N D s)) m m') {c : Nat} {v : Scope} (hc : Old N D s c v) :
    DRel (List.Forall₂ (Old N D s)) (DbMerger.putCross m v.name c) (Merge.putCross m' v) := by
  unfold DbMerger.putCross Merge.putCross
  have h1 : DRel (List.Forall₂ (Old N D s)) (if m.contains v.name then m else m.set v.name [])
      (if m'.contains v.name then m' else m'.set v.name []) := by
    rw [drel_contains h]
    split
    · exact h
    · exact drel_set h _ .nil
  generalize (if m.contains v.name then m else m.set v.name []) = m1 at h1 ⊢
  generalize (if m'.contains v.name then m' else m'.set v.name []) = m2 at h1 ⊢
  have h2 := drel_get h1 v.name
  simp only
  cases h3 : m1.get? v.name with
  | none => rw [h3] at h2; cases h4 : m2.get? v.name with
    | none => exact h1
    | some l' => rw [h4] at h2; cases h2
  | some l => rw [h3] at h2; cases h4 : m2.get? v.name with
    | none => rw [h4] at h2; cases h2
    | some l' =>
      rw [h4] at h2
      cases h2 with
      | some h2 => exact drel_set h1 _ (List.rel_append h2 (.cons hc .nil))

theorem collectCross_rel {N D : Nat} {s : Heap} {srcs : List Nat} {vs : List Scope} (h : List.Forall₂ (Old N D s) srcs vs) :
    ∃ m, DbMerger.collectCross srcs s = (.ok m, s) ∧ DRel (List.Forall₂ (Old N D s)) m (Merge.collectCross vs) := by
  unfold DbMerger.collectCross Merge.collectCross
  refine foldl_rel (R := Old N D s) (D := DRel (List.Forall₂ (Old N D s))) ?_ h .nil
  intro m m' a b hm hab
  obtain ⟨l, hl, hr⟩ := scopes_kids hab.kids ST.CROSS
  obtain ⟨m1, h1, h2⟩ := foldl_rel (s := s) (f := DbMerger.crossStep) (g := Merge.putCross) (R := Old N D s)
    (D := DRel (List.Forall₂ (Old N D s))) (by
      intro m m' a b hm hab
      exact ⟨_, bind_eq_of_ok (getScopeName_old hab), putCross_rel hm hab⟩) hr hm
  exact ⟨m1, by rw [bind_eq_of_ok hl, h1], h2⟩

/-! ## Counting -/

theorem binStep_rel {s : Heap} {b : Nat} {it : Item} (h : ShowsItem s b it) (m : Dict (Int × Int)) :
    DbMerger.binStep m b s = (Merge.binStep m it, s) := by
  obtain ⟨x, d, hx, hd, rfl⟩ := h
  unfold DbMerger.binStep Merge.binStep
  rw [bind_eq_of_ok (bin_some hx), bind_eq_of_ok (cdata_some hd)]
  simp only
  have fin : ∀ m1 : Dict (Int × Int), (do let e ← read (fun _ => m1.getE x.name); pure (m1.set x.name (e.1 + d.count, e.2)) : M (Dict (Int × Int))) s =
      ((do let e ← m1.getE x.name; pure (m1.set x.name (e.1 + d.count, e.2)) : Except Err (Dict (Int × Int))), s) := by
    intro m1
    cases he : m1.getE x.name with
    | error e => rw [bind_eq_of_error (s' := s) (e := e) (by simp [read, he])]; rfl
    | ok e => rw [bind_eq_of_ok (s' := s) (a := e) (by simp [read, he])]; rfl
  by_cases hc : m.contains x.name = true
  · simp only [hc, if_true]
    exact fin m
  · simp only [hc]
    cases ha : d.atLeast with
    | none => rfl
    | some a => exact fin _

theorem foldlM_flatMap {α β γ : Type} (f : γ → β → Except Err γ) (g : α → List β) (l : List α) (m : γ) :
    (l.flatMap g).foldlM f m = l.foldlM (fun m a => (g a).foldlM f m) m := by
  induction l generalizing m with
  | nil => rfl
  | cons a t ih =>
    rw [List.flatMap_cons, List.foldlM_append, List.foldlM_cons]
    congr 1
    funext m1
    exact ih m1

theorem sumBins_rel {N D : Nat} {s : Heap} {srcs : List Nat} {vs : List Scope} (h : List.Forall₂ (Old N D s) srcs vs) (kind : Nat) :
    DbMerger.sumBins srcs kind s = ((vs.flatMap (fun v => v.coverItems kind)).foldlM Merge.binStep [], s) := by
  rw [foldlM_flatMap]
  unfold DbMerger.sumBins
  refine foldlM_rel (R := Old N D s) ?_ h []
  intro m a b hab
  obtain ⟨l, hl, hr⟩ := coverItems_old hab kind
  rw [bind_eq_of_ok hl]
  exact foldlM_rel (R := ShowsItem s) (fun m a b hab => binStep_rel hab m) hr m

end Store
end Verif
