import Verif.StoreView
/-!
# Every scope of a store has a content

Crosses and instances hold references to other scopes.  In Python these are objects; in the model they are numbers,
so that it has to be said that they denote objects (`Spec.RealCalls`).  Then reading any scope shows
exactly one tree.
-/

namespace Verif
namespace Spec

/-- The scopes handed to a call as arguments, other than the receiver, exist. -/
def RealCall (s : Store.Heap) : Store.Call → Prop
  | .createCross _ _ _ _ _ cps => ∀ p ∈ cps, p < s.objs.length
  | .createInstance _ _ _ _ _ _ du _ => ∀ u, du = some u → u < s.objs.length
  | _ => True

/-- This holds of each call, at its time. -/
def RealCalls : Store.Heap → List Store.Call → Prop
  | _, [] => True
  | s, c :: t => RealCall s c ∧ RealCalls (Store.exec c s).2 t

end Spec

namespace Store
open Spec

/-- The references an object holds are fine. -/
def ObjSolid (n : Nat) (x : Obj) : Prop :=
  (∀ p ∈ x.cps, p < n) ∧ (∀ u, x.du = some u → u < n ∧ (x.cls = .inst ∨ x.cls = .toggle))

def Solid (s : Heap) : Prop := ∀ (o : Nat) (x : Obj), s.objs[o]? = some x → ObjSolid s.objs.length x

theorem ObjSolid.mono {n m : Nat} {x y : Obj} (h : ObjSolid n x) (hnm : n ≤ m) (h1 : y.cps = x.cps) (h2 : y.du = x.du) (h3 : y.cls = x.cls) :
    ObjSolid m y := by
  constructor
  · intro p hp
    have := h.1 p (h1 ▸ hp); omega
  · intro u hu
    obtain ⟨a, b⟩ := h.2 u (h2 ▸ hu)
    exact ⟨by omega, h3 ▸ b⟩

theorem objSolid_plain {n : Nat} {x : Obj} (h1 : x.cps = []) (h2 : x.du = none) : ObjSolid n x :=
  ⟨by simp [h1], by simp [h2]⟩

theorem solid_quiet {s s' : Heap} (q : Quiet s s') (h : Solid s) : Solid s' := by
  intro o y hy
  have hl : s'.objs.length = s.objs.length := by
    have := congrArg List.length q.shapes
    simpa using this
  have ho : o < s.objs.length := hl ▸ (List.getElem?_eq_some_iff.1 hy).1
  obtain ⟨y', hy', k⟩ := q.evolves.objs o _ (List.getElem?_eq_getElem ho)
  rw [hy] at hy'
  cases hy'
  exact (h o _ (List.getElem?_eq_getElem ho)).mono (by omega) k.cps k.du k.cls

theorem solid_child {s : Heap} {o : Nat} {x y : Obj} (hx : s.objs[o]? = some x) (hy : ObjSolid s.objs.length y) (h : Solid s) :
    Solid (s.withChild o y) := by
  have hl := (List.getElem?_eq_some_iff.1 hx).1
  have hlen : (s.withChild o y).objs.length = s.objs.length + 1 := by simp [Heap.withChild]
  intro q z hz
  rw [hlen]
  simp only [Heap.withChild] at hz
  rw [modify_eq_set (x := x) (by rw [List.getElem?_append_left hl]; exact hx),
    get_set (x := x) (by rw [List.getElem?_append_left hl]; exact hx)] at hz
  split at hz
  · cases hz
    exact (h o x hx).mono (by omega) rfl rfl rfl
  · rw [List.getElem?_append] at hz
    split at hz
    · exact (h q z hz).mono (by omega) rfl rfl rfl
    · rw [List.getElem?_cons] at hz
      split at hz
      · cases hz
        exact hy.mono (by omega) rfl rfl rfl
      · simp at hz

/-- What a creation call does, as far as references are concerned. -/
def Adds (s : Heap) (o : Nat) (p : Except Err Nat × Heap) : Prop :=
  p.2 = s ∨ ∃ x y, s.objs[o]? = some x ∧ ObjSolid s.objs.length y ∧ p.2 = s.withChild o y

theorem Adds.solid {s : Heap} {o : Nat} {p : Except Err Nat × Heap} (h : Adds s o p) (hs : Solid s) : Solid p.2 := by
  rcases h with h | ⟨x, y, hx, hy, h⟩
  · rw [h]; exact hs
  · rw [h]; exact solid_child hx hy hs

theorem adds_ok {s : Heap} {o : Nat} {p : Except Err Nat × Heap} {x y : Obj} {r : Except Err Nat} (hx : s.objs[o]? = some x)
    (h : p = (r, s.withChild o y)) (hy : ObjSolid s.objs.length y) : Adds s o p := .inr ⟨x, y, hx, hy, by rw [h]⟩

theorem adds_none {s : Heap} {o : Nat} {p : Except Err Nat × Heap} {r : Except Err Nat} (h : p = (r, s)) : Adds s o p := .inl (by rw [h])

theorem createScope_adds (o : Nat) (n : String) (src : Option SrcInfo) (w so : Int) (t : Nat) (f : Int) (s : Heap) :
    Adds s o (createScope o n src w so t f s) := by
  rcases obj_cases s o with ⟨x, hx, ho⟩ | ⟨hx, ho⟩
  · rw [createScope_eq hx n src w so t f]
    cases x.cls <;> simp only <;> (repeat' split) <;>
      first | exact adds_ok hx rfl (objSolid_plain rfl rfl) | exact adds_none rfl
  · exact adds_none (bind_eq_of_error ho)

theorem solid_exec {c : Call} {s : Heap} (hr : RealCall s c) (h : Solid s) : Solid (exec c s).2 := by
  have lift : ∀ {act : M Nat} {o : Nat}, Adds s o (act s) → exec c = (do return .scope (← act)) → Solid (exec c s).2 := by
    intro act o ha hex
    have := ha.solid h
    rw [hex, snd_bind_pure]
    exact this
  cases hcr : c.creates with
  | none =>
    by_cases hn : c = .newDb
    · subst hn
      have ho : (exec .newDb s).2.objs = s.objs ++ [memUcis] := rfl
      intro q z hz
      rw [ho] at hz ⊢
      rw [List.length_append]
      rw [List.getElem?_append] at hz
      split at hz
      · exact (h q z hz).mono (by omega) rfl rfl rfl
      · rw [List.getElem?_cons] at hz
        split at hz
        · cases hz
          exact objSolid_plain rfl rfl
        · simp at hz
    · exact solid_quiet (exec_quiet hcr hn s) h
  | some on =>
    cases c with
    | createScope o n src w so t f => exact lift (createScope_adds o n src w so t f s) rfl
    | createInstance o n src w so t du f =>
      refine lift (o := o) ?_ rfl
      rcases obj_cases s o with ⟨x, hx, ho⟩ | ⟨hx, ho⟩
      · refine adds_ok hx (bind_eq_of_ok ho) ⟨by simp [memInstance, memScope], ?_⟩
        intro u hu
        simp only [memInstance] at hu
        exact ⟨hr u hu, .inl rfl⟩
      · exact adds_none (bind_eq_of_error ho)
    | createCovergroup o n src w so =>
      refine lift (o := o) ?_ rfl
      rcases obj_cases s o with ⟨x, hx, ho⟩ | ⟨hx, ho⟩
      · exact adds_ok hx (bind_eq_of_ok ho) (objSolid_plain rfl rfl)
      · exact adds_none (bind_eq_of_error ho)
    | createToggle o n f =>
      refine lift (o := o) ?_ rfl
      rcases obj_cases s o with ⟨x, hx, ho⟩ | ⟨hx, ho⟩
      · have h : createToggle o n f s = _ := bind_eq_of_ok ho
        cases hc : x.cls <;> rw [hc] at h <;>
          first | exact adds_none h | exact adds_ok hx h (objSolid_plain rfl rfl)
      · exact adds_none (bind_eq_of_error ho)
    | createCoverpoint o n src w so =>
      refine lift (o := o) ?_ rfl
      rcases obj_cases s o with ⟨x, hx, ho⟩ | ⟨hx, ho⟩
      · have h : createCoverpoint o n src w so s = _ := bind_eq_of_ok ho
        cases hc : x.cls <;> rw [hc] at h <;>
          first | exact adds_none h | exact adds_ok hx h (objSolid_plain rfl rfl)
      · exact adds_none (bind_eq_of_error ho)
    | createCross o n src w so cps =>
      refine lift (o := o) ?_ rfl
      rcases obj_cases s o with ⟨x, hx, ho⟩ | ⟨hx, ho⟩
      · have h : createCross o n src w so cps s = _ := bind_eq_of_ok ho
        cases hc : x.cls <;> rw [hc] at h <;>
          first | exact adds_none h | exact adds_ok hx h ⟨hr, by simp [memCross, memCvg, memScope]⟩
      · exact adds_none (bind_eq_of_error ho)
    | createCoverInstance o n src w so =>
      refine lift (o := o) ?_ rfl
      rcases obj_cases s o with ⟨x, hx, ho⟩ | ⟨hx, ho⟩
      · have h : createCoverInstance o n src w so s = _ := bind_eq_of_ok ho
        cases hc : x.cls <;> rw [hc] at h <;> try exact adds_none h
        have := createScope_adds o n src w so ST.COVERINSTANCE 0 s
        unfold Adds at this ⊢
        rwa [h]
      · exact adds_none (bind_eq_of_error ho)
    | _ => cases hcr

theorem run_solid {cs : List Call} (h : RealCalls Heap.empty cs) : Solid (run Heap.empty cs) := by
  suffices ∀ s, RealCalls s cs → Solid s → Solid (run s cs) from this _ h (by intro o x hx; simp [Heap.empty] at hx)
  clear h
  induction cs with
  | nil => exact fun s _ h => h
  | cons c t ih => exact fun s hr h => ih _ hr.2 (solid_exec hr.1 h)

/-! ## Content exists -/

theorem forall2_of_forall {α β : Type} {R : α → β → Prop} {l : List α} (h : ∀ a ∈ l, ∃ b, R a b) : ∃ m, List.Forall₂ R l m := by
  induction l with
  | nil => exact ⟨[], .nil⟩
  | cons a t ih =>
    obtain ⟨b, hb⟩ := h a (by simp)
    obtain ⟨m, hm⟩ := ih (fun a ha => h a (by simp [ha]))
    exact ⟨b :: m, .cons hb hm⟩

/-- If the objects from number `m` on hold good references, each of them shows something: its children have larger numbers. -/
theorem shows_exists_from {cs : List Call} {m : Nat} (hs : ∀ (o : Nat) (x : Obj), m ≤ o → (run Heap.empty cs).objs[o]? = some x → ObjSolid (run Heap.empty cs).objs.length x)
    {o : Nat} (hmo : m ≤ o) (ho : o < (run Heap.empty cs).objs.length) :
    ∃ v, Shows (run Heap.empty cs) o v := by
  generalize hk : (run Heap.empty cs).objs.length - o = k
  induction k using Nat.strongRecOn generalizing o with
  | _ k ih =>
    have hx := List.getElem?_eq_getElem ho
    generalize hxe : (run Heap.empty cs).objs[o] = x at hx
    obtain ⟨_, hmem, _, _⟩ := tree_facts cs hx
    obtain ⟨ch, hch⟩ := forall2_of_forall (R := fun c v => Shows (run Heap.empty cs) c v) (l := x.children) (by
      intro c hc
      obtain ⟨y, hy, hp⟩ := (hmem c).1 hc
      have hlt := (tree_facts cs hy).2.2.1 o hp
      have hcl := (List.getElem?_eq_some_iff.1 hy).1
      exact ih _ (by omega) (by omega) hcl rfl)
    obtain ⟨n, hn⟩ := showsIn_list hch
    obtain ⟨its, hits⟩ := forall2_of_forall (R := ShowsItem (run Heap.empty cs)) (l := x.items) (by
      intro b hb
      have hbl := (run_items cs).bound o x hx b hb
      have hbx := List.getElem?_eq_getElem hbl
      have hd := run_hasData cs b _ hbx
      exact ⟨_, _, _, hbx, List.getElem?_eq_getElem hd, rfl⟩)
    obtain ⟨hcps, hdu⟩ := hs o x hmo hx
    obtain ⟨du, hdu⟩ : ∃ du, ShowsDu (run Heap.empty cs) x du := by
      unfold ShowsDu
      cases hd : x.du with
      | none => exact ⟨none, rfl⟩
      | some u =>
        obtain ⟨h1, h2⟩ := hdu u hd
        exact ⟨_, h2, _, List.getElem?_eq_getElem h1, rfl⟩
    obtain ⟨cps, hcps⟩ : ∃ cps, ShowsCps (run Heap.empty cs) x cps := by
      unfold ShowsCps
      split
      · obtain ⟨l, hl⟩ := forall2_of_forall (R := ShowsName (run Heap.empty cs)) (l := x.cps)
          (fun p hp => ⟨_, _, List.getElem?_eq_getElem (hcps p hp), rfl⟩)
        exact ⟨_, l, rfl, hl⟩
      · exact ⟨none, rfl⟩
    exact ⟨⟨x.stype, x.name, x.src, x.weight, du, cps, ch, its⟩, n + 1, trivial, x, hx, rfl, rfl, rfl, rfl, hdu, hcps, hn, hits⟩

theorem shows_exists {cs : List Call} (hs : Solid (run Heap.empty cs)) {o : Nat} (ho : o < (run Heap.empty cs).objs.length) :
    ∃ v, Shows (run Heap.empty cs) o v :=
  shows_exists_from (m := 0) (fun o x _ hx => hs o x hx) (Nat.zero_le _) ho

/-! ## and is unique -/

theorem forall2_unique {α β : Type} {R S : α → β → Prop} {l : List α} {m m' : List β} (h : List.Forall₂ R l m) (h' : List.Forall₂ S l m')
    (hu : ∀ a ∈ l, ∀ b b', R a b → S a b' → b = b') : m = m' := by
  induction h generalizing m' with
  | nil => cases h'; rfl
  | cons hab _ ih =>
    cases h' with
    | cons hab' ht' =>
      rw [hu _ (by simp) _ _ hab hab', ih ht' (fun a ha => hu a (by simp [ha]))]

theorem showsIn_unique {s : Heap} {P Q : Nat → Prop} {n m o : Nat} {v w : Scope} (h : ShowsIn P s n o v) (h' : ShowsIn Q s m o w) : v = w := by
  induction n generalizing m o v w with
  | zero => exact h.elim
  | succ n ih =>
    cases m with
    | zero => exact h'.elim
    | succ m =>
      obtain ⟨_, x, hx, a1, a2, a3, a4, a5, a6, a7, a8⟩ := h
      obtain ⟨_, x', hx', b1, b2, b3, b4, b5, b6, b7, b8⟩ := h'
      rw [hx] at hx'
      cases hx'
      have hdu : v.du = w.du := by
        unfold ShowsDu at a5 b5
        cases hd : x.du with
        | none =>
          rw [hd] at a5 b5
          rw [a5, b5]
        | some u =>
          rw [hd] at a5 b5
          obtain ⟨_, y, hy, e⟩ := a5
          obtain ⟨_, y', hy', e'⟩ := b5
          rw [hy] at hy'
          cases hy'
          rw [e, e']
      have hcps : v.cps = w.cps := by
        unfold ShowsCps at a6 b6
        split at a6
        · rename_i hc
          rw [if_pos hc] at b6
          obtain ⟨l, e, hl⟩ := a6
          obtain ⟨l', e', hl'⟩ := b6
          rw [e, e', forall2_unique hl hl' (by
            rintro a _ b b' ⟨y, hy, rfl⟩ ⟨y', hy', rfl⟩
            rw [hy] at hy'
            cases hy'
            rfl)]
        · rename_i hc
          rw [if_neg hc] at b6
          rw [a6, b6]
      have hch : v.children = w.children := forall2_unique a7 b7 (fun a _ b b' hab hab' => ih hab hab')
      have hit : v.items = w.items := forall2_unique a8 b8 (by
        rintro a _ b b' ⟨y, d, hy, hd, rfl⟩ ⟨y', d', hy', hd', rfl⟩
        rw [hy] at hy'
        cases hy'
        rw [hd] at hd'
        cases hd'
        rfl)
      cases v
      cases w
      simp_all

theorem shows_unique {s : Heap} {o : Nat} {v w : Scope} (h : Shows s o v) (h' : Shows s o w) : v = w := by
  obtain ⟨n, hn⟩ := h
  obtain ⟨m, hm⟩ := h'
  exact showsIn_unique hn hm

end Store
end Verif
