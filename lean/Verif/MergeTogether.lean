import Verif.MergeThms2
/-!
# When several databases can be merged (C123)

No new code: consequences of the exact condition of C11 for whole lists of inputs and their orders.
-/

namespace Verif
namespace Merge
open Spec

theorem contrib_lists (p : Addr) (gs : List (List Scope)) : contrib p gs.flatten = gs.flatMap (contrib p) := by
  induction p generalizing gs with
  | nil => simp [contrib, List.flatMap_id']
  | cons st p ih =>
    have h : pick st gs.flatten = (gs.map (pick st)).flatten := by
      induction gs with
      | nil => simp [pick]
      | cons g t ih => rw [List.flatten_cons, pick_append, ih]; simp
    rw [contrib, h, ih, List.flatMap_map]
    rfl

theorem itemsOf_lists (k : Nat) (b : String) (ls : List (List Scope)) : itemsOf k b ls.flatten = ls.flatMap (itemsOf k b) := by
  induction ls with
  | nil => rfl
  | cons l t ih => rw [List.flatMap_cons, ← ih]; simp [itemsOf]

theorem flatten_singles {α : Type} (l : List α) : (l.map (fun s => [s])).flatten = l := by
  induction l with
  | nil => rfl
  | cons a t ih => simp [ih]

/-- The first element of a concatenation is the first element of one of the parts. -/
theorem head?_flatMap_part {α β : Type} {f : α → List β} {l : List α} {b : β} (h : (l.flatMap f).head? = some b) : ∃ a ∈ l, (f a).head? = some b := by
  induction l with
  | nil => cases h
  | cons a t ih =>
    rw [List.flatMap_cons, List.head?_append] at h
    cases ha : (f a).head? with
    | none =>
      rw [ha] at h
      obtain ⟨c, hc, hb⟩ := ih h
      exact ⟨c, by simp [hc], hb⟩
    | some c =>
      rw [ha] at h
      cases h
      exact ⟨a, by simp, ha⟩

/-- What makes the whole list impossible to merge does so already for one part, if the part is put at the front. -/
theorem unresolvable_part {gs : List (List Scope)} (h : Unresolvable gs.flatten) :
    ∃ g ∈ gs, ∀ l : List Scope, (∀ s ∈ l, s ∈ gs.flatten) → Unresolvable (g ++ l) := by
  have hfront : ∀ {p : Addr} {g l : List Scope} {c : Scope}, (contrib p g).head? = some c → (contrib p (g ++ l)).head? = some c := by
    intro p g l c hc
    have := contrib_lists p [g, l]
    simp only [List.flatten_cons, List.flatten_nil, List.append_nil, List.flatMap_cons, List.flatMap_nil] at this
    rw [this, List.head?_append, hc]; rfl
  rcases h with ⟨i, s, hs, hdu⟩ | ⟨p, hp, x, c, hc, hbad⟩ | ⟨p, hp, k, hk, b, it, hit, hno⟩
  · rw [contrib_lists] at hs
    obtain ⟨g, hg, h1⟩ := head?_flatMap_part hs
    exact ⟨g, hg, fun l _ => .inl ⟨i, s, hfront h1, hdu⟩⟩
  · rw [contrib_lists] at hc
    obtain ⟨g, hg, h1⟩ := head?_flatMap_part hc
    refine ⟨g, hg, fun l hl => .inr (.inl ⟨p, hp, x, c, hfront h1, hbad.imp id ?_⟩)⟩
    rintro ⟨cps, n, h2, h3, h4⟩
    refine ⟨cps, n, h2, h3, ?_⟩
    have hnone : ∀ s ∈ gs.flatten, contrib (p ++ [(ST.COVERPOINT, n)]) [s] = [] := by
      have h5 : contrib (p ++ [(ST.COVERPOINT, n)]) (gs.flatten.map (fun s => [s])).flatten = [] := by
        rw [show (gs.flatten.map (fun s => [s])).flatten = gs.flatten from flatten_singles _]
        exact h4
      rw [contrib_lists, List.flatMap_eq_nil_iff] at h5
      exact fun s hs => h5 [s] (List.mem_map.2 ⟨s, hs, rfl⟩)
    have h6 : g ++ l = ((g ++ l).map (fun s => [s])).flatten := (flatten_singles _).symm
    rw [h6, contrib_lists, List.flatMap_eq_nil_iff]
    intro y hy
    obtain ⟨s, hs, rfl⟩ := List.mem_map.1 hy
    refine hnone s ?_
    rcases List.mem_append.1 hs with hs | hs
    · exact List.mem_flatten.2 ⟨g, hg, hs⟩
    · exact hl s hs
  · have h1 : contrib p gs.flatten = (gs.map (contrib p)).flatten := by rw [contrib_lists, List.flatMap_def]
    rw [h1, itemsOf_lists, List.flatMap_map] at hit
    obtain ⟨g, hg, h2⟩ := head?_flatMap_part hit
    refine ⟨g, hg, fun l _ => .inr (.inr ⟨p, hp, k, hk, b, it, ?_, hno⟩)⟩
    have h3 := contrib_lists p [g, l]
    simp only [List.flatten_cons, List.flatten_nil, List.append_nil, List.flatMap_cons, List.flatMap_nil] at h3
    have h4 := itemsOf_lists k b [contrib p g, contrib p l]
    simp only [List.flatten_cons, List.flatten_nil, List.append_nil, List.flatMap_cons, List.flatMap_nil] at h4
    rw [h3, h4, List.head?_append, h2]; rfl

/-- The inputs can be merged, in this order. -/
def _root_.Verif.Spec.Merges (srcs : List Scope) : Prop := ∃ out, merge emptyDb srcs = .ok out

theorem merges_iff (srcs : List Scope) : Merges srcs ↔ ¬ Unresolvable srcs := (C11_merge_fails_iff emptyDb srcs).2

/-- The destination plays no role. -/
theorem C123_destination (dst : Scope) (srcs : List Scope) : (∃ out, merge dst srcs = .ok out) ↔ Merges srcs := by
  rw [merges_iff, (C11_merge_fails_iff dst srcs).2]

/-- **C123.** Lists of databases each of which can be merged can be merged all at once; in particular databases that can be merged alone can be merged
together, in any order, with repetitions. -/
theorem C123_together {gs : List (List Scope)} (h : ∀ g ∈ gs, Merges g) : Merges gs.flatten := by
  rw [merges_iff]
  intro hu
  obtain ⟨g, hg, h1⟩ := unresolvable_part hu
  have := h1 [] (by simp)
  rw [List.append_nil] at this
  exact (merges_iff g).1 (h g hg) this

/-- **C123.** Databases that can be merged alone can be merged together, whatever the order. -/
theorem C123_alone {srcs : List Scope} (h : ∀ s ∈ srcs, Merges [s]) : Merges srcs := by
  have := C123_together (gs := srcs.map (fun s => [s])) (by
    intro g hg
    obtain ⟨s, hs, rfl⟩ := List.mem_map.1 hg
    exact h s hs)
  rwa [show (srcs.map (fun s => [s])).flatten = srcs from flatten_singles _] at this

/-- **C123**, what holds for all inputs: they can be merged in every order exactly if each of them can be the first.  Missing: one order that works
does not suffice (`C123_order_refuted`). -/
theorem C123_every_order_partial (srcs : List Scope) :
    (∀ l, l.Perm srcs → Merges l) ↔ ∀ s ∈ srcs, ∃ l, (s :: l).Perm srcs ∧ Merges (s :: l) := by
  constructor
  · intro h s hs
    obtain ⟨a, b, rfl⟩ := List.append_of_mem hs
    exact ⟨a ++ b, List.perm_middle.symm, h _ List.perm_middle.symm⟩
  · intro h l hl
    rw [merges_iff]
    intro hu
    have h0 : l = (l.map (fun s => [s])).flatten := (flatten_singles _).symm
    rw [h0] at hu
    obtain ⟨g, hg, h1⟩ := unresolvable_part hu
    rw [← h0] at h1
    obtain ⟨s, hs, rfl⟩ := List.mem_map.1 hg
    obtain ⟨t, ht, hm⟩ := h s (hl.mem_iff.1 hs)
    refine (merges_iff _).1 hm (h1 t (fun x hx => hl.mem_iff.2 (ht.mem_iff.1 (by simp [hx]))))

/-- The sample database with an instance that has no design unit. -/
def Ex.dbNoDu : Scope := { emptyDb with children := [mkInstance "i" SrcInfo.none 1 none []] }

/-- **C123**, full claim: whether databases can be merged does not depend on their order. -/
def C123_order_claim : Prop := ∀ l l' : List Scope, l.Perm l' → Merges l → Merges l'

/-- **C123** fails for the order: an instance whose design unit is known in one of two databases only. -/
theorem C123_order_refuted : ¬ C123_order_claim := by
  intro h
  obtain ⟨o, ho⟩ := h [Ex.dbA, Ex.dbNoDu] [Ex.dbNoDu, Ex.dbA] (List.Perm.swap _ _ _) ⟨_, rfl⟩
  have h1 : (match merge emptyDb [Ex.dbNoDu, Ex.dbA] with
    | .error e => some e
    | .ok _ => none) = some Err.attributeError := by rfl
  rw [ho] at h1
  cases h1

/-- Databases that can only be merged together: the cross of the first refers to a coverpoint of the second. -/
example : ¬ Merges [Ex.dbBadCross] ∧ Merges [Ex.dbBadCross, Ex.dbA] ∧ Merges [Ex.dbA, Ex.dbBadCross] :=
  ⟨(fun ⟨o, ho⟩ => by
    have h1 : merge emptyDb [Ex.dbBadCross] = .error .attributeError := rfl
    rw [h1] at ho
    cases ho), ⟨_, rfl⟩, ⟨_, rfl⟩⟩

/-- `C123_alone` and `C123_every_order_partial` apply, the latter also to databases that cannot be merged alone. -/
example : (∀ s ∈ [Ex.dbA, Ex.dbB], Merges [s]) ∧
    ∀ s ∈ [Ex.dbBadCross, Ex.dbA], ∃ l, (s :: l).Perm [Ex.dbBadCross, Ex.dbA] ∧ Merges (s :: l) := by
  constructor
  · intro s hs
    simp only [List.mem_cons, List.not_mem_nil, or_false] at hs
    rcases hs with rfl | rfl <;> exact ⟨_, rfl⟩
  · intro s hs
    simp only [List.mem_cons, List.not_mem_nil, or_false] at hs
    rcases hs with rfl | rfl
    · exact ⟨[Ex.dbA], List.Perm.refl _, _, rfl⟩
    · exact ⟨[Ex.dbBadCross], List.Perm.swap _ _ _, _, rfl⟩

end Merge
end Verif
