import Verif.StoreMergeMain
import Verif.StoreSolid
/-!
# API calls as edits of the content

What a database shows after a sequence of API calls is the tree obtained by editing the tree step by step: a
creation call appends a leaf at its receiver, a new bin is appended to the bins of its scope, counting changes
one bin, and calls elsewhere change nothing.
-/

namespace Verif
namespace Spec

/-! ## Positions and edits of a tree -/

/-- `o` is reached from `d` by going down to the children at the given positions. -/
def PathTo (s : Store.Heap) (d : Nat) : List Nat → Nat → Prop
  | [], o => d = o
  | i :: p, o => ∃ x c, s.objs[d]? = some x ∧ x.children[i]? = some c ∧ PathTo s c p o

/-- The tree with the scope at a position replaced by its image. -/
def editAt (g : Scope → Scope) : List Nat → Scope → Scope
  | [], v => g v
  | i :: p, v => { v with children := v.children.modify i (editAt g p) }

/-- One more child, after the others. -/
def addLeaf (leaf v : Scope) : Scope := { v with children := v.children ++ [leaf] }

/-- One more bin, after the others. -/
def addBin (it : Item) (v : Scope) : Scope := { v with items := v.items ++ [it] }

/-- The bin at a position replaced by its image. -/
def editBin (i : Nat) (g : Item → Item) (v : Scope) : Scope := { v with items := v.items.modify i g }

/-- Another weight. -/
def reweigh (w : Int) (v : Scope) : Scope := { v with weight := w }

/-- A scope with nothing below. -/
def leafScope (t : Nat) (n : String) (src : Option SrcInfo) (w : Int) (du : Option DuInfo) (cps : Option (List String)) : Scope :=
  { stype := t, name := n, src := src.getD SrcInfo.none, weight := w, du, cps, children := [], items := [] }

/-- A bin with another value of one of its numbers. -/
def setField (f : Store.DField) (v : Int) (it : Item) : Item :=
  match f with
  | .data => { it with count := v }
  | .goal => { it with goal := v }
  | .weight => { it with weight := v }
  | .atLeast => { it with atLeast := some v }

/-! ## What a call is about -/

/-- The call sets the weight of the scope. -/
def SetsWeight : Store.Call → Nat → Prop
  | .setWeight o _, p => p = o
  | .setIntProperty o _ .scopeWeight _, p => p = o
  | _, _ => False

/-- The call adds a scope or a bin to the scope.  Bins given to instance scopes go to another list, which no
reader sees. -/
def AddsTo (s : Store.Heap) : Store.Call → Nat → Prop
  | .createScope o .., p | .createInstance o .., p | .createCovergroup o .., p | .createToggle o .., p | .createCoverpoint o .., p
  | .createCross o .., p | .createCoverInstance o .., p | .createBin o .., p => p = o
  | .createNextCover o .., p => p = o ∧ ∀ x, s.objs[o]? = some x → x.cls ≠ .inst ∧ x.cls ≠ .toggle
  | _, _ => False

/-- The call concerns what is shown of the scope itself: it adds to it, sets its weight or that of its design
unit, or a number of one of its bins. -/
def Touches (s : Store.Heap) (c : Store.Call) (o : Nat) : Prop :=
  AddsTo s c o ∨ SetsWeight c o ∨ (∃ x u, s.objs[o]? = some x ∧ x.du = some u ∧ SetsWeight c u) ∨
  ∃ x b z, s.objs[o]? = some x ∧ b ∈ x.items ∧ s.bins[b]? = some z ∧ Sets s c z.data

/-- The scope a successful creation call makes. -/
def Makes (s : Store.Heap) : Store.Call → Scope → Prop
  | .createScope o n src w _ t _, l => ∃ x, s.objs[o]? = some x ∧
      l = leafScope (if x.cls = .inst ∨ x.cls = .toggle then ST.COVERGROUP else t) n src w none none
  | .createInstance _ n src w _ t du _, l => ∃ d, l = leafScope t n src w d none ∧
      match du with
      | none => d = none
      | some u => ∃ y, s.objs[u]? = some y ∧ d = some ⟨y.name, y.src, y.weight⟩
  | .createCovergroup _ n src w _, l => l = leafScope ST.COVERGROUP n src w none none
  | .createToggle _ n _, l => l = leafScope ST.TOGGLE n none 0 none none
  | .createCoverpoint _ n src w _, l => l = leafScope ST.COVERPOINT n src w none none
  | .createCross _ n src w _ cps, l => ∃ names, List.Forall₂ (ShowsName s) cps names ∧ l = leafScope ST.CROSS n src w none (some names)
  | .createCoverInstance _ n src w _, l => l = leafScope ST.COVERINSTANCE n src w none none
  | _, _ => False

/-- The bin a successful call makes. -/
def MakesBin (s : Store.Heap) : Store.Call → Item → Prop
  | .createBin _ n _ a c k, it => it = { name := n, kind := k, count := c, atLeast := some a, goal := 1, weight := 1 }
  | .createNextCover _ n d _, it => ∃ z, s.datas[d]? = some z ∧
      it = { name := n, kind := z.kind, count := z.count, atLeast := z.atLeast, goal := z.goal, weight := z.weight }
  | _, _ => False

/-- The weight a call sets. -/
def NewWeight : Store.Call → Int → Prop
  | .setWeight _ w, v | .setIntProperty _ _ .scopeWeight w, v => v = w
  | _, _ => False

/-- What a call does to the numbers of a bin. -/
def NewNumbers : Store.Call → (Item → Item) → Prop
  | .assignData _ f v, g => g = setField f v
  | .incrementCover _ a, g => g = fun it => { it with count := it.count + a }
  | _, _ => False

/-- The edit that a call is for the content of `d`. -/
inductive Edit (s : Store.Heap) (d : Nat) (c : Store.Call) : (Scope → Scope) → Prop
  /-- An exception: nothing. -/
  | raises {e : Err} (h : (Store.exec c s).1 = .error e) : Edit s d c id
  /-- A call about other scopes: nothing. -/
  | elsewhere (h : ∀ q, Below s d q → ¬ Touches s c q) : Edit s d c id
  /-- A new scope. -/
  | scope {r : Store.Ret} {o : Nat} {p : List Nat} {leaf : Scope} (h : (Store.exec c s).1 = .ok r) (ha : AddsTo s c o) (hp : PathTo s d p o)
      (hm : Makes s c leaf) : Edit s d c (editAt (addLeaf leaf) p)
  /-- A new bin. -/
  | bin {r : Store.Ret} {o : Nat} {p : List Nat} {it : Item} (h : (Store.exec c s).1 = .ok r) (ha : AddsTo s c o) (hp : PathTo s d p o)
      (hm : MakesBin s c it) : Edit s d c (editAt (addBin it) p)
  /-- Another weight of a scope that is no design unit of the scopes shown. -/
  | weight {r : Store.Ret} {o : Nat} {p : List Nat} {w : Int} (h : (Store.exec c s).1 = .ok r) (ha : SetsWeight c o) (hp : PathTo s d p o)
      (hm : NewWeight c w) (ho : ∀ q x, Below s d q → s.objs[q]? = some x → x.du ≠ some o) : Edit s d c (editAt (reweigh w) p)
  /-- Another number of a bin that shares its data with no other bin shown. -/
  | number {r : Store.Ret} {o : Nat} {p : List Nat} {x : Store.Obj} {i b : Nat} {z : Store.Bin} {g : Item → Item}
      (h : (Store.exec c s).1 = .ok r) (hp : PathTo s d p o) (hx : s.objs[o]? = some x) (hi : x.items[i]? = some b)
      (hb : s.bins[b]? = some z) (hs : Sets s c z.data) (hm : NewNumbers c g) (ho : ∀ q, Below s d q → Touches s c q → q = o)
      (hw : ∀ b' ∈ x.items, ∀ z', s.bins[b']? = some z' → z'.data = z.data → b' = b) : Edit s d c (editAt (editBin i g) p)

/-- A bin of a scope below `d`. -/
def ShownBin (s : Store.Heap) (d b : Nat) (z : Store.Bin) : Prop :=
  ∃ q x, Below s d q ∧ s.objs[q]? = some x ∧ b ∈ x.items ∧ s.bins[b]? = some z

/-- The call does not set the weight of a design unit of the scopes below `d`, nor a number that two bins below `d` share. -/
def PlainCall (s : Store.Heap) (d : Nat) (c : Store.Call) : Prop :=
  (∀ q x u, Below s d q → s.objs[q]? = some x → x.du = some u → ¬ SetsWeight c u) ∧
  ∀ b b' z z', ShownBin s d b z → ShownBin s d b' z' → Sets s c z.data → z'.data = z.data → b' = b

/-- The edits of a sequence of calls, one after the other. -/
inductive Edits (d : Nat) : Store.Heap → Scope → List Store.Call → Scope → Prop
  | nil {s : Store.Heap} {v : Scope} : Edits d s v [] v
  | cons {s : Store.Heap} {v w : Scope} {c : Store.Call} {t : List Store.Call} {g : Scope → Scope} (h : Edit s d c g)
      (ht : Edits d (Store.exec c s).2 (g v) t w) : Edits d s v (c :: t) w

end Spec

namespace Store
open Spec

/-! ## What calls keep of a scope -/

theorem withChild_get {s : Heap} {o q : Nat} {y x : Obj} (hx : s.objs[q]? = some x) :
    (s.withChild o y).objs[q]? = some (if o = q then { x with children := x.children ++ [s.objs.length] } else x) := by
  have hl := (List.getElem?_eq_some_iff.1 hx).1
  simp only [Heap.withChild, List.getElem?_modify, List.getElem?_append_left hl, hx]
  split <;> simp

/-- What a call keeps of a scope it does not add to. -/
def KeptLook (c : Call) (q : Nat) (x x' : Obj) : Prop :=
  x'.children = x.children ∧ x'.items = x.items ∧ (¬ SetsWeight c q → x'.weight = x.weight)

theorem keptLook_refl (c : Call) (q : Nat) (x : Obj) : KeptLook c q x x := ⟨rfl, rfl, fun _ => rfl⟩

theorem exec_keptLook (c : Call) {s : Heap} {q : Nat} {x : Obj} (ha : ¬ AddsTo s c q) (hx : s.objs[q]? = some x) :
    ∃ x', (exec c s).2.objs[q]? = some x' ∧ KeptLook c q x x' := by
  by_cases hr : Receiver c q
  swap
  · exact ⟨x, (C85_frame c s).1 q x hr hx, keptLook_refl c q x⟩
  have mod : ∀ (f : Obj → Obj), KeptLook c q x (f x) → ∀ s' : Heap, s'.objs = s.objs.modify q f → ∃ x', s'.objs[q]? = some x' ∧ KeptLook c q x x' := by
    intro f hf s' hs
    exact ⟨f x, by rw [hs, List.getElem?_modify, hx]; simp, hf⟩
  cases c with
  | newDb => exact hr.elim
  | newCoverData => exact hr.elim
  | assignData => exact hr.elim
  | incrementCover => exact hr.elim
  | setTestData => exact hr.elim
  | setNodeProperty => exact hr.elim
  | assignNode => exact hr.elim
  | createScope => exact absurd hr ha
  | createInstance => exact absurd hr ha
  | createCovergroup => exact absurd hr ha
  | createToggle => exact absurd hr ha
  | createCoverpoint => exact absurd hr ha
  | createCross => exact absurd hr ha
  | createCoverInstance => exact absurd hr ha
  | createBin => exact absurd hr ha
  | createNextCover o n d src =>
    obtain rfl : q = o := hr
    show ∃ x', ((Store.createNextCover q n d src >>= fun a => pure (Ret.cover a)) s).2.objs[q]? = some x' ∧ _
    rw [snd_bind_pure]
    cases hd : s.datas[d]? with
    | none => rw [createNextCover_none hd]; exact ⟨x, hx, keptLook_refl _ q x⟩
    | some z =>
      have hc : x.cls = .inst ∨ x.cls = .toggle := by
        by_contra hc
        exact ha ⟨rfl, fun x' hx' => by rw [hx] at hx'; cases hx'; exact ⟨fun e => hc (.inl e), fun e => hc (.inr e)⟩⟩
      rw [createNextCover_inst hx hd hc]
      exact mod _ ⟨rfl, rfl, fun _ => rfl⟩ _ rfl
  | setIntProperty o i p v =>
    obtain rfl : q = o := hr
    show ∃ x', ((Store.setIntProperty q i p v >>= fun _ => pure Ret.none) s).2.objs[q]? = some x' ∧ _
    rw [snd_bind_pure]
    rcases h : Store.setIntProperty q i p v s with ⟨r, s'⟩
    cases r with
    | error e => rw [setIntProperty_error h]; exact ⟨x, hx, keptLook_refl _ q x⟩
    | ok u =>
      obtain ⟨x1, y, hx1, hy, rfl⟩ := setIntProperty_ok.1 h
      rw [hx] at hx1; cases hx1
      refine ⟨y, by rw [get_set hx]; simp, ?_⟩
      have hco := objSet_core hy
      simp only [core, Core.mk.injEq] at hco
      refine ⟨hco.2.2.2.2.2.1, hco.2.2.2.2.2.2.1, fun hw => ?_⟩
      rcases objSet_inv hy with ⟨rfl, rfl⟩ | ⟨_, rfl⟩ | ⟨_, rfl⟩ | ⟨_, ⟨_, rfl⟩ | ⟨_, rfl⟩ | ⟨_, rfl⟩ | ⟨_, rfl⟩⟩ | ⟨_, ⟨_, rfl⟩ | ⟨_, rfl⟩⟩ | ⟨_, _, k, _, rfl⟩
      · exact absurd rfl hw
      all_goals rfl
  | setStringProperty o p v =>
    obtain rfl : q = o := hr
    show ∃ x', ((Store.setStringProperty q p v >>= fun _ => pure Ret.none) s).2.objs[q]? = some x' ∧ _
    rw [snd_bind_pure]
    have e : Store.setStringProperty q p v s = _ := bind_eq_of_ok (obj_some hx)
    rw [e]
    exact ⟨x, hx, keptLook_refl _ q x⟩
  | setWeight o w =>
    obtain rfl : q = o := hr
    show ∃ x', ((Store.setWeight q w >>= fun _ => pure Ret.none) s).2.objs[q]? = some x' ∧ _
    rw [snd_bind_pure]
    have e : Store.setWeight q w s = _ := bind_eq_of_ok (obj_some hx)
    rw [e]
    exact mod (fun x => { x with weight := w }) ⟨rfl, rfl, fun h => absurd rfl h⟩ _ rfl
  | setGoal o w =>
    obtain rfl : q = o := hr
    show ∃ x', ((Store.setGoal q w >>= fun _ => pure Ret.none) s).2.objs[q]? = some x' ∧ _
    rw [snd_bind_pure]
    have e : Store.setGoal q w s = _ := bind_eq_of_ok (obj_some hx)
    rw [e]
    exact mod (fun x => { x with goal := w }) ⟨rfl, rfl, fun _ => rfl⟩ _ rfl
  | setComment o t =>
    obtain rfl : q = o := hr
    show ∃ x', ((Store.setComment q t >>= fun _ => pure Ret.none) s).2.objs[q]? = some x' ∧ _
    rw [snd_bind_pure]
    have e : Store.setComment q t s = _ := bind_eq_of_ok (obj_some hx)
    cases hc : x.cls <;> rw [hc] at e <;> rw [e] <;>
      first | exact ⟨x, hx, keptLook_refl _ q x⟩ | exact mod (fun x => { x with comment := t }) ⟨rfl, rfl, fun _ => rfl⟩ _ rfl
  | createFileHandle o n =>
    obtain rfl : q = o := hr
    show ∃ x', ((Store.createFileHandle q n >>= fun a => pure (Ret.handle a)) s).2.objs[q]? = some x' ∧ _
    rw [snd_bind_pure]
    have e : Store.createFileHandle q n s = _ := bind_eq_of_ok (obj_some hx)
    cases hc : x.cls <;> rw [hc] at e <;> try (rw [e]; exact ⟨x, hx, keptLook_refl _ q x⟩)
    cases hf : x.files.get? n with
    | some h => rw [hf] at e; rw [e]; exact ⟨x, hx, keptLook_refl _ q x⟩
    | none => rw [hf] at e; rw [e]; exact mod (fun x => { x with files := x.files.set n s.handles.length }) ⟨rfl, rfl, fun _ => rfl⟩ _ rfl
  | createHistoryNode o now p l ph k =>
    obtain rfl : q = o := hr
    show ∃ x', ((Store.createHistoryNode q now p l ph k >>= fun a => pure (Ret.node a)) s).2.objs[q]? = some x' ∧ _
    rw [snd_bind_pure]
    have e : Store.createHistoryNode q now p l ph k s = _ := bind_eq_of_ok (obj_some hx)
    cases hc : x.cls <;> rw [hc] at e <;> rw [e] <;>
      first | exact ⟨x, hx, keptLook_refl _ q x⟩ | exact mod (fun x => { x with hist := x.hist ++ [s.nodes.length] }) ⟨rfl, rfl, fun _ => rfl⟩ _ rfl
  | createInstanceCoverage o n =>
    obtain rfl : q = o := hr
    show ∃ x', ((Store.createInstanceCoverage q n >>= fun a => pure (Ret.record a)) s).2.objs[q]? = some x' ∧ _
    rw [snd_bind_pure]
    have e : Store.createInstanceCoverage q n s = _ := bind_eq_of_ok (obj_some hx)
    cases hc : x.cls <;> rw [hc] at e <;> rw [e] <;>
      first | exact ⟨x, hx, keptLook_refl _ q x⟩ | exact mod (fun x => { x with covInsts := x.covInsts ++ [(n, toString x.covInsts.length)] }) ⟨rfl, rfl, fun _ => rfl⟩ _ rfl

/-- Setting one weight: the others are kept, also of scopes that get something added. -/
theorem exec_keptWeight (c : Call) {s : Heap} {q : Nat} {x : Obj} (hw : ¬ SetsWeight c q) (hx : s.objs[q]? = some x) :
    ∃ x', (exec c s).2.objs[q]? = some x' ∧ x'.weight = x.weight := by
  by_cases ha : AddsTo s c q
  swap
  · obtain ⟨x', h, _, _, h3⟩ := exec_keptLook c ha hx
    exact ⟨x', h, h3 hw⟩
  cases hc : c.creates with
  | some on =>
    obtain ⟨o, n⟩ := on
    rcases exec_creates hc s with ⟨_, y, _, _, h⟩ | ⟨e, h⟩
    · rw [h]
      refine ⟨_, withChild_get hx, ?_⟩
      split <;> rfl
    · rw [h]; exact ⟨x, hx, rfl⟩
  | none =>
    cases c with
    | createNextCover o n d src =>
      obtain ⟨rfl, ha⟩ : q = o ∧ _ := ha
      show ∃ x', ((Store.createNextCover q n d src >>= fun a => pure (Ret.cover a)) s).2.objs[q]? = some x' ∧ _
      rw [snd_bind_pure]
      cases hd : s.datas[d]? with
      | none => rw [createNextCover_none hd]; exact ⟨x, hx, rfl⟩
      | some z =>
        rw [createNextCover_bin hx hd (ha x hx).1 (ha x hx).2]
        exact ⟨{ x with items := x.items ++ [s.bins.length] }, by simp [Heap.withBin, hx], rfl⟩
    | createBin o n src a k t =>
      obtain rfl : q = o := ha
      show ∃ x', ((Store.createBin q n src a k t >>= fun a => pure (Ret.cover a)) s).2.objs[q]? = some x' ∧ _
      rw [snd_bind_pure]
      by_cases hc : x.cls = .coverpoint ∨ x.cls = .cross
      · rw [createBin_eq hx hc]
        exact ⟨{ x with items := x.items ++ [s.bins.length] }, by simp [Heap.withBin, hx], rfl⟩
      · rw [createBin_error hx (fun h => hc (.inl h)) (fun h => hc (.inr h))]
        exact ⟨x, hx, rfl⟩
    | _ => first | exact (ha : False).elim | cases hc

/-! ## Scopes that look the same -/

/-- What is shown of the scope itself and of its bins is the same, and it has the same children. -/
def SameNode (s s' : Heap) (q : Nat) : Prop :=
  ∀ x, s.objs[q]? = some x → ∃ x', s'.objs[q]? = some x' ∧ x'.stype = x.stype ∧ x'.name = x.name ∧ x'.src = x.src ∧ x'.weight = x.weight ∧
    (∀ du, ShowsDu s x du → ShowsDu s' x' du) ∧ (∀ cps, ShowsCps s x cps → ShowsCps s' x' cps) ∧ x'.children = x.children ∧
    x'.items = x.items ∧ ∀ b ∈ x.items, ∀ it, ShowsItem s b it → ShowsItem s' b it

theorem showsName_evolves {s s' : Heap} (e : Evolves s s') {o : Nat} {n : String} (h : ShowsName s o n) : ShowsName s' o n := by
  obtain ⟨y, hy, rfl⟩ := h
  obtain ⟨y', hy', k⟩ := e.objs o y hy
  exact ⟨y', hy', k.name⟩

theorem showsCps_evolves {s s' : Heap} (e : Evolves s s') {x x' : Obj} (k : Kept x x') {cps : Option (List String)} (h : ShowsCps s x cps) :
    ShowsCps s' x' cps := by
  unfold ShowsCps at *
  rw [k.cls, k.cps]
  split
  · rename_i hc
    rw [if_pos hc] at h
    obtain ⟨l, hl, hf⟩ := h
    exact ⟨l, hl, forall2_imp hf (fun a _ b hab => showsName_evolves e hab)⟩
  · rename_i hc
    rw [if_neg hc] at h
    exact h

theorem showsDu_exec {c : Call} {s : Heap} {x x' : Obj} (k : Kept x x') (hw : ∀ u, x.du = some u → ¬ SetsWeight c u) {du : Option DuInfo}
    (h : ShowsDu s x du) : ShowsDu (exec c s).2 x' du := by
  unfold ShowsDu at *
  rw [k.du]
  cases hd : x.du with
  | none => rw [hd] at h; exact h
  | some u =>
    rw [hd] at h
    obtain ⟨hc, y, hy, rfl⟩ := h
    obtain ⟨y', hy', hk⟩ := (exec_evolves c s).objs u y hy
    obtain ⟨y'', hy'', hw⟩ := exec_keptWeight c (hw u hd) hy
    rw [hy'] at hy''; cases hy''
    rw [k.cls]
    exact ⟨hc, y', hy', by rw [hk.name, hk.src, hw]⟩

theorem showsItem_exec {c : Call} {s : Heap} {b : Nat} (hs : ∀ z, s.bins[b]? = some z → ¬ Sets s c z.data) {it : Item} (h : ShowsItem s b it) :
    ShowsItem (exec c s).2 b it := by
  obtain ⟨z, d, hz, hd, rfl⟩ := h
  exact ⟨z, d, (C85_frame c s).2.2.2.1 b z hz, (C85_frame c s).2.2.1 _ d (hs z hz) hd, rfl⟩

/-- A call leaves alone what it does not touch. -/
theorem sameNode_exec {c : Call} {s : Heap} {q : Nat} (h : ¬ Touches s c q) : SameNode s (exec c s).2 q := by
  intro x hx
  obtain ⟨x', hx', k⟩ := (exec_evolves c s).objs q x hx
  obtain ⟨x'', hx'', h1, h2, h3⟩ := exec_keptLook c (fun e => h (.inl e)) hx
  rw [hx'] at hx''; cases hx''
  exact ⟨x', hx', k.stype, k.name, k.src, h3 (fun e => h (.inr (.inl e))),
    fun du hd => showsDu_exec k (fun u hu hw => h (.inr (.inr (.inl ⟨x, u, hx, hu, hw⟩)))) hd,
    fun cps hc => showsCps_evolves (exec_evolves c s) k hc, h1, h2,
    fun b hb it hit => showsItem_exec (fun z hz hs => h (.inr (.inr (.inr ⟨x, b, z, hx, hb, hz, hs⟩)))) hit⟩

/-! ## Ancestry -/

theorem below_trans {s : Heap} {a b c : Nat} (h : Below s a b) (h' : Below s b c) : Below s a c := by
  induction h' with
  | here => exact h
  | child hx hp _ ih => exact .child hx hp ih

theorem below_le {cs : List Call} {a b : Nat} (h : Below (run Heap.empty cs) a b) : a ≤ b := by
  induction h with
  | here => exact Nat.le_refl _
  | child hx hp _ ih =>
    have := (tree_facts cs hx).2.2.1 _ hp
    omega

theorem below_linear {s : Heap} {a b o : Nat} (h : Below s a o) (h' : Below s b o) : Below s a b ∨ Below s b a := by
  induction h with
  | here => exact .inr h'
  | @child o p x hx hp h ih =>
    cases h' with
    | here => exact .inl (.child hx hp h)
    | child hx' hp' h' =>
      rw [hx] at hx'; cases hx'
      rw [hp] at hp'; cases hp'
      exact ih h'

theorem below_child {cs : List Call} {o c : Nat} {x : Obj} (hx : (run Heap.empty cs).objs[o]? = some x) (hc : c ∈ x.children) :
    Below (run Heap.empty cs) o c := by
  obtain ⟨y, hy, hp⟩ := ((tree_facts cs hx).2.1 c).1 hc
  exact .child hy hp .here

theorem child_lt {cs : List Call} {o c : Nat} {x : Obj} (hx : (run Heap.empty cs).objs[o]? = some x) (hc : c ∈ x.children) : o < c := by
  obtain ⟨y, hy, hp⟩ := ((tree_facts cs hx).2.1 c).1 hc
  exact (tree_facts cs hy).2.2.1 _ hp

/-- Different children have nothing below in common. -/
theorem siblings_apart {cs : List Call} {d a b o : Nat} {x : Obj} (hx : (run Heap.empty cs).objs[d]? = some x) (ha : a ∈ x.children)
    (hb : b ∈ x.children) (h1 : Below (run Heap.empty cs) a o) (h2 : Below (run Heap.empty cs) b o) : a = b := by
  have key : ∀ a b, a ∈ x.children → b ∈ x.children → Below (run Heap.empty cs) a b → a = b := by
    intro a b ha hb h
    cases h with
    | here => rfl
    | child hy hp h =>
      obtain ⟨y, hy', hp'⟩ := ((tree_facts cs hx).2.1 b).1 hb
      rw [hy] at hy'; cases hy'
      rw [hp] at hp'; cases hp'
      have := below_le h
      have := child_lt hx ha
      omega
  rcases below_linear h1 h2 with h | h
  · exact key a b ha hb h
  · exact (key b a hb ha h).symm

theorem pathTo_below {cs : List Call} {d o : Nat} {p : List Nat} (h : PathTo (run Heap.empty cs) d p o) : Below (run Heap.empty cs) d o := by
  induction p generalizing d with
  | nil => cases h; exact .here
  | cons i p ih =>
    obtain ⟨x, c, hx, hc, h⟩ := h
    exact below_trans (below_child hx (List.mem_of_getElem? hc)) (ih h)

theorem pathTo_snoc {s : Heap} {d o c i : Nat} {p : List Nat} {x : Obj} (h : PathTo s d p o) (hx : s.objs[o]? = some x) (hc : x.children[i]? = some c) :
    PathTo s d (p ++ [i]) c := by
  induction p generalizing d with
  | nil => cases h; exact ⟨x, c, hx, hc, rfl⟩
  | cons j p ih =>
    obtain ⟨y, e, hy, he, h⟩ := h
    exact ⟨y, e, hy, he, ih h⟩

theorem below_pathTo {cs : List Call} {d o : Nat} (h : Below (run Heap.empty cs) d o) : ∃ p, PathTo (run Heap.empty cs) d p o := by
  induction h with
  | here => exact ⟨[], rfl⟩
  | @child o q x hx hp _ ih =>
    obtain ⟨p, hp'⟩ := ih
    have hq := (tree_facts cs hx).2.2.1 _ hp
    have hl : q < (run Heap.empty cs).objs.length := Nat.lt_trans hq (List.getElem?_eq_some_iff.1 hx).1
    have hy := List.getElem?_eq_getElem hl
    have hm := ((tree_facts cs hy).2.1 o).2 ⟨x, hx, hp⟩
    obtain ⟨i, hi⟩ := List.getElem?_of_mem hm
    exact ⟨p ++ [i], pathTo_snoc hp' hy hi⟩

/-! ## Editing -/

theorem showsIn_same {cs : List Call} {s' : Heap} {n o : Nat} {v : Scope} (hs : ∀ q, Below (run Heap.empty cs) o q → SameNode (run Heap.empty cs) s' q)
    (h : ShowsIn (fun _ => True) (run Heap.empty cs) n o v) : ShowsIn (fun _ => True) s' n o v := by
  induction n generalizing o v with
  | zero => exact h.elim
  | succ n ih =>
    obtain ⟨_, x, hx, h1, h2, h3, h4, h5, h6, h7, h8⟩ := h
    obtain ⟨x', hx', e1, e2, e3, e4, e5, e6, e7, e8, e9⟩ := hs o .here x hx
    refine ⟨trivial, x', hx', h1.trans e1.symm, h2.trans e2.symm, h3.trans e3.symm, h4.trans e4.symm, e5 _ h5, e6 _ h6, ?_, ?_⟩
    · rw [e7]
      exact forall2_imp h7 (fun a ha b hab => ih (fun q hq => hs q (below_trans (below_child hx ha) hq)) hab)
    · rw [e8]
      exact forall2_imp h8 (fun a ha b hab => e9 a ha b hab)

theorem forall2_modify {α β : Type} {R S : α → β → Prop} {l : List α} {m : List β} {f : β → β} (i : Nat) (h : List.Forall₂ R l m)
    (h1 : ∀ a b, l[i]? = some a → R a b → S a (f b)) (h2 : ∀ j a b, j ≠ i → l[j]? = some a → R a b → S a b) : List.Forall₂ S l (m.modify i f) := by
  induction h generalizing i with
  | nil => cases i <;> exact .nil
  | @cons a b l m hab hlm ih =>
    cases i with
    | zero =>
      simp only [List.modify_zero_cons]
      refine .cons (h1 a b (by simp) hab) ?_
      have : ∀ (k : Nat) (l' : List α) (m' : List β), List.Forall₂ R l' m' → (∀ (j : Nat) a, l'[j]? = some a → l[k + j]? = some a) → List.Forall₂ S l' m' := by
        intro k l' m' h
        induction h generalizing k with
        | nil => exact fun _ => .nil
        | @cons a' b' l' m' hab' _ ih' =>
          intro hj
          refine .cons (h2 (k + 1) a' b' (by omega) (by simpa using hj 0 a' (by simp)) hab') ?_
          refine ih' (k + 1) (fun j a hja => ?_)
          have := hj (j + 1) a (by simpa using hja)
          rwa [show k + 1 + j = k + (j + 1) by omega]
      exact this 0 l m hlm (fun j a h => by simpa using h)
    | succ i =>
      simp only [List.modify_succ_cons]
      exact .cons (h2 0 a b (by omega) (by simp) hab)
        (ih i (fun a' b' h h' => h1 a' b' (by simpa using h) h') (fun j a' b' hj h h' => h2 (j + 1) a' b' (by omega) (by simpa using h) h'))

theorem showsIn_edit {cs : List Call} {s' : Heap} {o : Nat} {g : Scope → Scope} {p : List Nat} {n d : Nat} {v : Scope}
    (hp : PathTo (run Heap.empty cs) d p o)
    (hs : ∀ q, Below (run Heap.empty cs) d q → q ≠ o → SameNode (run Heap.empty cs) s' q)
    (hg : ∀ n v, ShowsIn (fun _ => True) (run Heap.empty cs) n o v → ShowsIn (fun _ => True) s' (n + 1) o (g v))
    (h : ShowsIn (fun _ => True) (run Heap.empty cs) n d v) : ShowsIn (fun _ => True) s' (n + 1) d (editAt g p v) := by
  induction p generalizing d n v with
  | nil => cases hp; exact hg n v h
  | cons i p ih =>
    obtain ⟨x, c, hx, hc, hp⟩ := hp
    have hmc := List.mem_of_getElem? hc
    have hco := pathTo_below hp
    cases n with
    | zero => exact h.elim
    | succ n =>
      obtain ⟨_, x1, hx1, h1, h2, h3, h4, h5, h6, h7, h8⟩ := h
      rw [hx] at hx1; cases hx1
      have hdo : d ≠ o := by
        have := child_lt hx hmc
        have := below_le hco
        omega
      obtain ⟨x', hx', e1, e2, e3, e4, e5, e6, e7, e8, e9⟩ := hs d .here hdo x hx
      refine ⟨trivial, x', hx', h1.trans e1.symm, h2.trans e2.symm, h3.trans e3.symm, h4.trans e4.symm, e5 _ h5, e6 _ h6, ?_, ?_⟩
      · rw [e7]
        refine forall2_modify i h7 (fun a b ha hab => ?_) (fun j a b hj ha hab => ?_)
        · rw [hc] at ha; cases ha
          exact ih hp (fun q hq hqo => hs q (below_trans (below_child hx hmc) hq) hqo) hab
        · have hma := List.mem_of_getElem? ha
          have hac : a ≠ c := by
            rintro rfl
            have nd : x.children.Nodup := (tree_facts cs hx).1.imp (fun h => Nat.ne_of_lt h)
            have l1 := (List.getElem?_eq_some_iff.1 ha).1
            exact hj ((List.getElem?_inj l1 nd).1 (ha.trans hc.symm))
          refine showsIn_mono (fun _ h => h) (Nat.le_succ n) (showsIn_same (fun q hq => ?_) hab)
          refine hs q (below_trans (below_child hx hma) hq) ?_
          rintro rfl
          exact hac (siblings_apart hx hma hmc hq hco)
      · rw [e8]
        exact forall2_imp h8 (fun a ha b hab => e9 a ha b hab)

/-! ## The steps -/

theorem sets_inj {s : Heap} {c : Call} {a b : Nat} (h : Sets s c a) (h' : Sets s c b) : a = b := by
  cases c with
  | assignData d f v => exact Eq.trans h (Eq.symm h')
  | incrementCover i v =>
    obtain ⟨x, hx, rfl⟩ := h
    obtain ⟨y, hy, rfl⟩ := h'
    rw [hx] at hy; cases hy; rfl
  | _ => exact (h : False).elim

theorem setsWeight_inj {c : Call} {a b : Nat} (h : SetsWeight c a) (h' : SetsWeight c b) : a = b := by
  cases c with
  | setWeight o w => exact Eq.trans h (Eq.symm h')
  | setIntProperty o i p v => cases p <;> first | exact (h : False).elim | exact Eq.trans h (Eq.symm h')
  | _ => exact (h : False).elim

theorem addsTo_inj {s : Heap} {c : Call} {a b : Nat} (h : AddsTo s c a) (h' : AddsTo s c b) : a = b := by
  cases c with
  | createNextCover o n d src => exact Eq.trans h.1 (Eq.symm h'.1)
  | _ => first | exact (h : False).elim | exact Eq.trans h (Eq.symm h')

theorem addsTo_only {s : Heap} {c : Call} {a : Nat} (h : AddsTo s c a) : (∀ b, ¬ SetsWeight c b) ∧ ∀ b, ¬ Sets s c b := by
  cases c <;> first | exact (h : False).elim | exact ⟨fun _ h => h, fun _ h => h⟩

theorem setsWeight_only {s : Heap} {c : Call} {a : Nat} (h : SetsWeight c a) : (∀ b, ¬ AddsTo s c b) ∧ ∀ b, ¬ Sets s c b := by
  cases c <;> first | exact (h : False).elim | exact ⟨fun _ h => h, fun _ h => h⟩

theorem sets_only {s : Heap} {c : Call} {a : Nat} (h : Sets s c a) : (∀ b, ¬ AddsTo s c b) ∧ ∀ b, ¬ SetsWeight c b := by
  cases c <;> first | exact (h : False).elim | exact ⟨fun _ h => h, fun _ h => h⟩

/-- What is known of the scope that changes, before the change. -/
theorem shown_parts {cs : List Call} {s' : Heap} {o d n : Nat} {v : Scope} (hd : Below (run Heap.empty cs) d o)
    (hs : ∀ q, Below (run Heap.empty cs) d q → q ≠ o → SameNode (run Heap.empty cs) s' q)
    (h : ShowsIn (fun _ => True) (run Heap.empty cs) n o v) :
    ∃ m x, n = m + 1 ∧ (run Heap.empty cs).objs[o]? = some x ∧ v.stype = x.stype ∧ v.name = x.name ∧ v.src = x.src ∧ v.weight = x.weight ∧
      ShowsDu (run Heap.empty cs) x v.du ∧ ShowsCps (run Heap.empty cs) x v.cps ∧
      List.Forall₂ (ShowsIn (fun _ => True) s' n) x.children v.children ∧ List.Forall₂ (ShowsItem (run Heap.empty cs)) x.items v.items := by
  cases n with
  | zero => exact h.elim
  | succ m =>
    obtain ⟨_, x, hx, h1, h2, h3, h4, h5, h6, h7, h8⟩ := h
    refine ⟨m, x, rfl, hx, h1, h2, h3, h4, h5, h6, forall2_imp h7 (fun a ha b hab => ?_), h8⟩
    refine showsIn_mono (fun _ h => h) (Nat.le_succ m) (showsIn_same (fun q hq => ?_) hab)
    refine hs q (below_trans hd (below_trans (below_child hx ha) hq)) ?_
    have := below_le hq
    have := child_lt hx ha
    omega

theorem forall2_snoc {α β : Type} {R : α → β → Prop} {l : List α} {m : List β} {a : α} {b : β} (h : List.Forall₂ R l m) (hab : R a b) :
    List.Forall₂ R (l ++ [a]) (m ++ [b]) := by
  induction h with
  | nil => exact .cons hab .nil
  | cons h _ ih => exact .cons h ih

/-- The new object of a creation call. -/
def IsLeaf (s : Heap) (y : Obj) (l : Scope) : Prop :=
  l.stype = y.stype ∧ l.name = y.name ∧ l.src = y.src ∧ l.weight = y.weight ∧ ShowsDu s y l.du ∧ ShowsCps s y l.cps ∧ l.children = [] ∧ l.items = []

theorem isLeaf_plain {s : Heap} {y : Obj} {t : Nat} {n : String} {src : Option SrcInfo} {w : Int} (h1 : y.stype = t) (h2 : y.name = n)
    (h3 : y.src = src.getD SrcInfo.none) (h4 : y.weight = w) (h5 : y.du = none) (h6 : y.cls ≠ .cross) :
    IsLeaf s y (leafScope t n src w none none) :=
  ⟨h1.symm, h2.symm, h3.symm, h4.symm, by simp [ShowsDu, h5, leafScope], by simp [ShowsCps, h6, leafScope], rfl, rfl⟩

theorem exec_scope_inv {act : M Nat} {s s' : Heap} {r : Ret} (h : (act >>= fun a => pure (Ret.scope a)) s = (.ok r, s')) :
    ∃ a, act s = (.ok a, s') := by
  obtain ⟨a, s1, h1, h2⟩ := bind_ok.1 h
  rw [pure_def] at h2
  cases h2
  exact ⟨a, h1⟩

theorem makes_child {c : Call} {s s' : Heap} {r : Ret} {o : Nat} {l : Scope} (h : exec c s = (.ok r, s')) (ha : AddsTo s c o) (hm : Makes s c l) :
    ∃ x y n, s.objs[o]? = some x ∧ Fresh o n y ∧ s' = s.withChild o y ∧ IsLeaf s y l := by
  have scopes : ∀ {o n src w so t f a}, createScope o n src w so t f s = (.ok a, s') →
      ∃ x y n', s.objs[o]? = some x ∧ Fresh o n' y ∧ s' = s.withChild o y ∧
        IsLeaf s y (leafScope (if x.cls = .inst ∨ x.cls = .toggle then ST.COVERGROUP else t) n src w none none) := by
    intro o n src w so t f a h
    rcases obj_cases s o with ⟨x, hx, ho⟩ | ⟨_, ho⟩
    · rw [createScope_eq hx] at h
      have key : (if ST.duAny t then ((.ok s.objs.length, s.withChild o (memScope .unit (some o) n src w so t f)) : Except Err Nat × Heap)
          else if t = ST.COVERGROUP then (.ok s.objs.length, s.withChild o (memCovergroup o n src w so))
          else if t = ST.COVERINSTANCE then
            (.ok s.objs.length, s.withChild o { memCovergroup o n src w so with stype := ST.COVERINSTANCE })
          else if t = ST.COVERPOINT then (.ok s.objs.length, s.withChild o (memCoverpoint o n src w so))
          else (.error .notImplemented, s)) = (.ok a, s') →
          ∃ y n', Fresh o n' y ∧ s' = s.withChild o y ∧ IsLeaf s y (leafScope t n src w none none) := by
        intro h
        split_ifs at h with e1 e2 e3 e4
        · cases h; exact ⟨_, _, fresh_scope, rfl, isLeaf_plain rfl rfl rfl rfl rfl (by simp [memScope])⟩
        · cases h; subst e2; exact ⟨_, _, fresh_covergroup, rfl, isLeaf_plain rfl rfl rfl rfl rfl (by simp [memCovergroup, memCvg, memScope])⟩
        · cases h; subst e3; exact ⟨_, _, fresh_coverinst, rfl, isLeaf_plain rfl rfl rfl rfl rfl (by simp [memCovergroup, memCvg, memScope])⟩
        · cases h; subst e4; exact ⟨_, _, fresh_coverpoint, rfl, isLeaf_plain rfl rfl rfl rfl rfl (by simp [memCoverpoint, memCvg, memScope])⟩
        · cases h
      by_cases hc : x.cls = .inst ∨ x.cls = .toggle
      · have h' : (if maskHit t ST.COVERGROUP then ((.ok s.objs.length, s.withChild o (memCovergroup o n src w so)) : Except Err Nat × Heap)
            else (.error .unimpl, s)) = (.ok a, s') := by
          rcases hc with hc | hc <;> rw [hc] at h <;> exact h
        split_ifs at h' with e
        swap
        · cases h'
        cases h'
        exact ⟨x, _, _, hx, fresh_covergroup, rfl, by rw [if_pos hc]; exact isLeaf_plain rfl rfl rfl rfl rfl (by simp [memCovergroup, memCvg, memScope])⟩
      · obtain ⟨y, n', h1, h2, h3⟩ := key (by cases hcl : x.cls <;> rw [hcl] at h <;> first | exact h | exact absurd (by simp [hcl]) hc)
        exact ⟨x, y, n', hx, h1, h2, by rw [if_neg hc]; exact h3⟩
    · have e : createScope o n src w so t f s = _ := bind_eq_of_error ho
      rw [e] at h; cases h
  cases c with
  | createScope o' n src w so t f =>
    obtain rfl : o = o' := ha
    obtain ⟨a, h⟩ := exec_scope_inv h
    obtain ⟨x, hx, rfl⟩ := hm
    obtain ⟨x1, y, n', h1, h2, h3, h4⟩ := scopes h
    rw [hx] at h1; cases h1
    exact ⟨x, y, n', hx, h2, h3, h4⟩
  | createInstance o' n src w so t du f =>
    obtain rfl : o = o' := ha
    obtain ⟨a, h⟩ := exec_scope_inv h
    obtain ⟨d, rfl, hd⟩ := hm
    rcases obj_cases s o with ⟨x, hx, ho⟩ | ⟨_, ho⟩
    · have e : Store.createInstance o n src w so t du f s = _ := bind_eq_of_ok ho
      rw [e, attach_eq] at h; cases h
      refine ⟨x, _, _, hx, fresh_instance, rfl, rfl, rfl, rfl, rfl, ?_, ?_, rfl, rfl⟩
      · cases du with
        | none => cases hd; simp [ShowsDu, memInstance, leafScope]
        | some u =>
          obtain ⟨y, hy, rfl⟩ := hd
          exact ⟨.inl rfl, y, hy, rfl⟩
      · simp [ShowsCps, memInstance, memScope, leafScope]
    · have e : Store.createInstance o n src w so t du f s = _ := bind_eq_of_error ho
      rw [e] at h; cases h
  | createCovergroup o' n src w so =>
    obtain rfl : o = o' := ha
    obtain ⟨a, h⟩ := exec_scope_inv h
    obtain rfl : l = _ := hm
    rcases obj_cases s o with ⟨x, hx, ho⟩ | ⟨_, ho⟩
    · have e : Store.createCovergroup o n src w so s = _ := bind_eq_of_ok ho
      rw [e, attach_eq] at h; cases h
      exact ⟨x, _, _, hx, fresh_covergroup, rfl, isLeaf_plain rfl rfl rfl rfl rfl (by simp [memCovergroup, memCvg, memScope])⟩
    · have e : Store.createCovergroup o n src w so s = _ := bind_eq_of_error ho
      rw [e] at h; cases h
  | createToggle o' n f =>
    obtain rfl : o = o' := ha
    obtain ⟨a, h⟩ := exec_scope_inv h
    obtain rfl : l = _ := hm
    rcases obj_cases s o with ⟨x, hx, ho⟩ | ⟨_, ho⟩
    · have e : Store.createToggle o n f s = _ := bind_eq_of_ok ho
      rw [e] at h
      cases hc : x.cls <;> rw [hc] at h <;> cases h <;>
        exact ⟨x, _, _, hx, fresh_toggle, rfl, isLeaf_plain rfl rfl rfl rfl rfl (by simp [memToggle])⟩
    · have e : Store.createToggle o n f s = _ := bind_eq_of_error ho
      rw [e] at h; cases h
  | createCoverpoint o' n src w so =>
    obtain rfl : o = o' := ha
    obtain ⟨a, h⟩ := exec_scope_inv h
    obtain rfl : l = _ := hm
    rcases obj_cases s o with ⟨x, hx, ho⟩ | ⟨_, ho⟩
    · have e : Store.createCoverpoint o n src w so s = _ := bind_eq_of_ok ho
      rw [e] at h
      cases hc : x.cls <;> rw [hc] at h <;> cases h
      exact ⟨x, _, _, hx, fresh_coverpoint, rfl, isLeaf_plain rfl rfl rfl rfl rfl (by simp [memCoverpoint, memCvg, memScope])⟩
    · have e : Store.createCoverpoint o n src w so s = _ := bind_eq_of_error ho
      rw [e] at h; cases h
  | createCross o' n src w so cps =>
    obtain rfl : o = o' := ha
    obtain ⟨a, h⟩ := exec_scope_inv h
    obtain ⟨names, hn, rfl⟩ := hm
    rcases obj_cases s o with ⟨x, hx, ho⟩ | ⟨_, ho⟩
    · have e : Store.createCross o n src w so cps s = _ := bind_eq_of_ok ho
      rw [e] at h
      cases hc : x.cls <;> rw [hc] at h <;> cases h
      refine ⟨x, _, _, hx, fresh_cross, rfl, rfl, rfl, rfl, rfl, rfl, ?_, rfl, rfl⟩
      exact (if_pos rfl : ShowsCps s (memCross o n src w so cps) _ = _).mpr ⟨names, rfl, hn⟩
    · have e : Store.createCross o n src w so cps s = _ := bind_eq_of_error ho
      rw [e] at h; cases h
  | createCoverInstance o' n src w so =>
    obtain rfl : o = o' := ha
    obtain ⟨a, h⟩ := exec_scope_inv h
    obtain rfl : l = _ := hm
    rcases obj_cases s o with ⟨x, hx, ho⟩ | ⟨_, ho⟩
    · have e : Store.createCoverInstance o n src w so s = _ := bind_eq_of_ok ho
      rw [e] at h
      cases hc : x.cls <;> rw [hc] at h <;> try cases h
      obtain ⟨x1, y, n', h1, h2, h3, h4⟩ := scopes h
      rw [hx] at h1; cases h1
      rw [if_neg (by simp [hc])] at h4
      exact ⟨x, y, n', hx, h2, h3, h4⟩
    · have e : Store.createCoverInstance o n src w so s = _ := bind_eq_of_error ho
      rw [e] at h; cases h
  | _ => exact (hm : False).elim

theorem makesBin_bin {c : Call} {s s' : Heap} {r : Ret} {o : Nat} {it : Item} (h : exec c s = (.ok r, s')) (ha : AddsTo s c o) (hm : MakesBin s c it) :
    ∃ x, s.objs[o]? = some x ∧ s'.objs = s.objs.modify o (fun x => { x with items := x.items ++ [s.bins.length] }) ∧ ShowsItem s' s.bins.length it := by
  have inv : ∀ {act : M Cover}, (act >>= fun a => pure (Ret.cover a)) s = (.ok r, s') → ∃ a, act s = (.ok a, s') := by
    intro act h
    obtain ⟨a, s1, h1, h2⟩ := bind_ok.1 h
    rw [pure_def] at h2
    cases h2
    exact ⟨a, h1⟩
  cases c with
  | createBin o' n src a k t =>
    obtain rfl : o = o' := ha
    obtain ⟨b, h⟩ := inv h
    obtain rfl : it = _ := hm
    rcases obj_cases s o with ⟨x, hx, ho⟩ | ⟨_, ho⟩
    · by_cases hc : x.cls = .coverpoint ∨ x.cls = .cross
      · rw [createBin_eq hx hc] at h; cases h
        exact ⟨x, hx, rfl, ⟨n, s.datas.length, src⟩, binData t a k, by simp [Heap.withBin], by simp, rfl⟩
      · rw [createBin_error hx (fun h => hc (.inl h)) (fun h => hc (.inr h))] at h; cases h
    · have e : Store.createBin o n src a k t s = _ := bind_eq_of_error ho
      rw [e] at h; cases h
  | createNextCover o' n d src =>
    obtain ⟨rfl, hcl⟩ : o = o' ∧ _ := ha
    obtain ⟨b, h⟩ := inv h
    obtain ⟨z, hz, rfl⟩ := hm
    rcases obj_cases s o with ⟨x, hx, ho⟩ | ⟨_, ho⟩
    · rw [createNextCover_bin hx hz (hcl x hx).1 (hcl x hx).2] at h; cases h
      exact ⟨x, hx, rfl, ⟨n, d, src⟩, z, by simp [Heap.withBin], hz, rfl⟩
    · have e : Store.createNextCover o n d src s = _ := bind_eq_of_error ho
      rw [e] at h; cases h
  | _ => exact (hm : False).elim

theorem newWeight_obj {c : Call} {s s' : Heap} {r : Ret} {o : Nat} {w : Int} (h : exec c s = (.ok r, s')) (ha : SetsWeight c o) (hm : NewWeight c w) :
    ∃ x', s'.objs[o]? = some x' ∧ x'.weight = w := by
  have inv : ∀ {act : M Unit}, (act >>= fun _ => pure Ret.none) s = (.ok r, s') → act s = (.ok (), s') := by
    intro act h
    obtain ⟨a, s1, h1, h2⟩ := bind_ok.1 h
    rw [pure_def] at h2
    cases h2
    exact h1
  cases c with
  | setWeight o' w' =>
    obtain rfl : o = o' := ha
    obtain rfl : w = w' := hm
    have h := inv h
    rcases obj_cases s o with ⟨x, hx, ho⟩ | ⟨_, ho⟩
    · have e : Store.setWeight o w s = _ := bind_eq_of_ok ho
      rw [e] at h; cases h
      exact ⟨{ x with weight := w }, by simp [hx], rfl⟩
    · have e : Store.setWeight o w s = _ := bind_eq_of_error ho
      rw [e] at h; cases h
  | setIntProperty o' i p v =>
    cases p <;> first | exact (ha : False).elim | skip
    obtain rfl : o = o' := ha
    obtain rfl : w = v := hm
    obtain ⟨x, y, hx, hy, rfl⟩ := setIntProperty_ok.1 (inv h)
    cases hy
    exact ⟨{ x with weight := w }, by rw [get_set hx]; simp, rfl⟩
  | _ => exact (hm : False).elim

theorem newNumbers_item {c : Call} {s s' : Heap} {r : Ret} {b : Nat} {z : Bin} {g : Item → Item} {it : Item} (h : exec c s = (.ok r, s'))
    (hb : s.bins[b]? = some z) (hs : Sets s c z.data) (hm : NewNumbers c g) (hi : ShowsItem s b it) : ShowsItem s' b (g it) := by
  have inv : ∀ {act : M Unit}, (act >>= fun _ => pure Ret.none) s = (.ok r, s') → act s = (.ok (), s') := by
    intro act h
    obtain ⟨a, s1, h1, h2⟩ := bind_ok.1 h
    rw [pure_def] at h2
    cases h2
    exact h1
  obtain ⟨z1, d, hz1, hd, rfl⟩ := hi
  rw [hb] at hz1; cases hz1
  cases c with
  | assignData d' f v =>
    obtain rfl : z.data = d' := hs
    obtain rfl : g = _ := hm
    have h := inv h
    rw [assignData_eq hd] at h; cases h
    refine ⟨z, CData.assign f v d, hb, by simp [hd], ?_⟩
    cases f <;> rfl
  | incrementCover b' a =>
    obtain ⟨z', hz', he⟩ := hs
    obtain rfl : g = _ := hm
    have h := inv h
    rw [incrementCover_eq hz' (he ▸ hd)] at h; cases h
    exact ⟨z, { d with count := d.count + a }, hb, by simp [← he, hd], rfl⟩
  | _ => exact (hm : False).elim

/-- **C105.** One call: the content afterwards is the edited content. -/
theorem C105_step {cs : List Call} {d : Nat} {c : Call} {g : Scope → Scope} {v : Scope} (he : Edit (run Heap.empty cs) d c g)
    (h : Shows (run Heap.empty cs) d v) : Shows (exec c (run Heap.empty cs)).2 d (g v) := by
  obtain ⟨n, h⟩ := h
  have back : ∀ {r}, (exec c (run Heap.empty cs)).1 = .ok r → exec c (run Heap.empty cs) = (.ok r, (exec c (run Heap.empty cs)).2) := by
    intro r hr; rw [← hr]
  have ev := exec_evolves c (run Heap.empty cs)
  cases he with
  | @raises e hr =>
    have : exec c (run Heap.empty cs) = (.error e, (exec c (run Heap.empty cs)).2) := by rw [← hr]
    rw [C50_raise this]
    exact ⟨n, h⟩
  | elsewhere hq => exact ⟨n, showsIn_same (fun q hb => sameNode_exec (hq q hb)) h⟩
  | @scope r o p leaf hr ha hp hm =>
    have hs : ∀ q, Below (run Heap.empty cs) d q → q ≠ o → SameNode (run Heap.empty cs) (exec c (run Heap.empty cs)).2 q := by
      intro q hq hqo
      refine sameNode_exec ?_
      rintro (hx | hx | ⟨_, _, _, _, hx⟩ | ⟨_, _, _, _, _, _, hx⟩)
      · exact hqo (addsTo_inj hx ha)
      · exact (addsTo_only ha).1 _ hx
      · exact (addsTo_only ha).1 _ hx
      · exact (addsTo_only ha).2 _ hx
    refine ⟨n + 1, showsIn_edit hp hs (fun n v hv => ?_) h⟩
    obtain ⟨m, x, rfl, hx, h1, h2, h3, h4, h5, h6, h7, h8⟩ := shown_parts (pathTo_below hp) hs hv
    obtain ⟨x1, y, nm, hx1, hf, hs', hl1, hl2, hl3, hl4, hl5, hl6, hl7, hl8⟩ := makes_child (back hr) ha hm
    rw [hx] at hx1; cases hx1
    have hx' : (exec c (run Heap.empty cs)).2.objs[o]? = some { x with children := x.children ++ [(run Heap.empty cs).objs.length] } := by
      rw [hs', withChild_get hx, if_pos rfl]
    have k : Kept x { x with children := x.children ++ [(run Heap.empty cs).objs.length] } := by
      obtain ⟨x2, hx2, k⟩ := ev.objs o x hx
      rw [hx'] at hx2; cases hx2; exact k
    refine ⟨trivial, _, hx', h1, h2, h3, h4, showsDu_exec k (fun u _ hw => (addsTo_only ha).1 _ hw) h5, showsCps_evolves ev k h6, ?_, ?_⟩
    · refine forall2_snoc h7 ⟨trivial, y, by rw [hs']; exact withChild_new hx, hl1, hl2, hl3, hl4,
        showsDu_exec (Kept.refl y) (fun u _ hw => (addsTo_only ha).1 _ hw) hl5, showsCps_evolves ev (Kept.refl y) hl6, ?_, ?_⟩
      · rw [hf.children, hl7]; exact .nil
      · rw [hf.items, hl8]; exact .nil
    · exact forall2_imp h8 (fun a _ b hab => showsItem_exec (fun z _ hsz => (addsTo_only ha).2 _ hsz) hab)
  | @bin r o p it hr ha hp hm =>
    have hs : ∀ q, Below (run Heap.empty cs) d q → q ≠ o → SameNode (run Heap.empty cs) (exec c (run Heap.empty cs)).2 q := by
      intro q hq hqo
      refine sameNode_exec ?_
      rintro (hx | hx | ⟨_, _, _, _, hx⟩ | ⟨_, _, _, _, _, _, hx⟩)
      · exact hqo (addsTo_inj hx ha)
      · exact (addsTo_only ha).1 _ hx
      · exact (addsTo_only ha).1 _ hx
      · exact (addsTo_only ha).2 _ hx
    refine ⟨n + 1, showsIn_edit hp hs (fun n v hv => ?_) h⟩
    obtain ⟨m, x, rfl, hx, h1, h2, h3, h4, h5, h6, h7, h8⟩ := shown_parts (pathTo_below hp) hs hv
    obtain ⟨x1, hx1, hs', hit⟩ := makesBin_bin (back hr) ha hm
    rw [hx] at hx1; cases hx1
    have hx' : (exec c (run Heap.empty cs)).2.objs[o]? = some { x with items := x.items ++ [(run Heap.empty cs).bins.length] } := by
      rw [hs']; simp [hx]
    have k : Kept x { x with items := x.items ++ [(run Heap.empty cs).bins.length] } := by
      obtain ⟨x2, hx2, k⟩ := ev.objs o x hx
      rw [hx'] at hx2; cases hx2; exact k
    refine ⟨trivial, _, hx', h1, h2, h3, h4, showsDu_exec k (fun u _ hw => (addsTo_only ha).1 _ hw) h5, showsCps_evolves ev k h6, h7, ?_⟩
    exact forall2_snoc (forall2_imp h8 (fun a _ b hab => showsItem_exec (fun z _ hsz => (addsTo_only ha).2 _ hsz) hab)) hit
  | @weight r o p w hr ha hp hm ho =>
    have hs : ∀ q, Below (run Heap.empty cs) d q → q ≠ o → SameNode (run Heap.empty cs) (exec c (run Heap.empty cs)).2 q := by
      intro q hq hqo
      refine sameNode_exec ?_
      rintro (hx | hx | ⟨x, u, hx, hu, hw⟩ | ⟨_, _, _, _, _, _, hx⟩)
      · exact (setsWeight_only ha).1 _ hx
      · exact hqo (setsWeight_inj hx ha)
      · exact ho q x hq hx (by rw [hu, setsWeight_inj hw ha])
      · exact (setsWeight_only ha).2 _ hx
    refine ⟨n + 1, showsIn_edit hp hs (fun n v hv => ?_) h⟩
    obtain ⟨m, x, rfl, hx, h1, h2, h3, h4, h5, h6, h7, h8⟩ := shown_parts (pathTo_below hp) hs hv
    obtain ⟨x', hx', hw⟩ := newWeight_obj (back hr) ha hm
    obtain ⟨x2, hx2, hk1, hk2, _⟩ := exec_keptLook c ((setsWeight_only ha).1 o) hx
    rw [hx'] at hx2; cases hx2
    obtain ⟨x2, hx2, k⟩ := ev.objs o x hx
    rw [hx'] at hx2; cases hx2
    refine ⟨trivial, _, hx', h1.trans k.stype.symm, h2.trans k.name.symm, h3.trans k.src.symm, hw.symm,
      showsDu_exec k (fun u hu hw => ho o x (pathTo_below hp) hx (by rw [hu, setsWeight_inj hw ha])) h5, showsCps_evolves ev k h6, ?_, ?_⟩
    · rw [hk1]; exact h7
    · rw [hk2]
      exact forall2_imp h8 (fun a _ b hab => showsItem_exec (fun z _ hsz => (setsWeight_only ha).2 _ hsz) hab)
  | @number r o p x i b z g' hr hp hx hi hb hsz hm ho hw =>
    have hs : ∀ q, Below (run Heap.empty cs) d q → q ≠ o → SameNode (run Heap.empty cs) (exec c (run Heap.empty cs)).2 q := by
      intro q hq hqo
      exact sameNode_exec (fun ht => hqo (ho q hq ht))
    refine ⟨n + 1, showsIn_edit hp hs (fun n v hv => ?_) h⟩
    obtain ⟨m, x1, rfl, hx1, h1, h2, h3, h4, h5, h6, h7, h8⟩ := shown_parts (pathTo_below hp) hs hv
    rw [hx] at hx1; cases hx1
    obtain ⟨x', hx', hk1, hk2, hk3⟩ := exec_keptLook c ((sets_only hsz).1 o) hx
    obtain ⟨x2, hx2, k⟩ := ev.objs o x hx
    rw [hx'] at hx2; cases hx2
    refine ⟨trivial, _, hx', h1.trans k.stype.symm, h2.trans k.name.symm, h3.trans k.src.symm, h4.trans (hk3 ((sets_only hsz).2 o)).symm,
      showsDu_exec k (fun u _ hw => (sets_only hsz).2 _ hw) h5, showsCps_evolves ev k h6, ?_, ?_⟩
    · rw [hk1]; exact h7
    · rw [hk2]
      refine forall2_modify i h8 (fun a it ha hit => ?_) (fun j a it hj ha hit => ?_)
      · rw [hi] at ha; cases ha
        exact newNumbers_item (back hr) hb hsz hm hit
      · refine showsItem_exec (fun z' hz' hs' => ?_) hit
        have := hw a (List.mem_of_getElem? ha) z' hz' (sets_inj hs' hsz)
        subst this
        have nd : x.items.Nodup := ((run_items cs).sorted o x hx).imp (fun h => Nat.ne_of_lt h)
        exact hj ((List.getElem?_inj (List.getElem?_eq_some_iff.1 ha).1 nd).1 (ha.trans hi.symm))

/-- **C105.** Any sequence of calls: the content afterwards is the content with the edits made one after the other. -/
theorem C105_edits {cs cs' : List Call} {d : Nat} {v w : Scope} (h : Shows (run Heap.empty cs) d v) (he : Edits d (run Heap.empty cs) v cs' w) :
    Shows (run Heap.empty (cs ++ cs')) d w := by
  induction cs' generalizing cs v with
  | nil => cases he; simpa using h
  | cons c t ih =>
    cases he with
    | cons h1 h2 =>
      have e : (exec c (run Heap.empty cs)).2 = run Heap.empty (cs ++ [c]) := by rw [run_append]; rfl
      have := ih (cs := cs ++ [c]) (e ▸ C105_step h1 h) (e ▸ h2)
      simpa using this

/-- **C105.** A new database and the calls made after it. -/
theorem C105_database {cs cs' : List Call} {w : Scope}
    (he : Edits (run Heap.empty cs).objs.length (run Heap.empty (cs ++ [.newDb])) emptyDb cs' w) :
    Shows (run Heap.empty (cs ++ .newDb :: cs')) (run Heap.empty cs).objs.length w := by
  have h0 : Shows (run Heap.empty (cs ++ [.newDb])) (run Heap.empty cs).objs.length emptyDb := by
    rw [run_append]
    exact ⟨1, trivial, memUcis, by simp [run, exec, Store.newDb, allocObj, bind_def, pure_def], rfl, rfl, rfl, rfl, rfl, rfl, .nil, .nil⟩
  have := C105_edits h0 he
  simpa using this

/-! ## Every plain call is an edit -/

theorem showsName_of {s : Heap} {l : List Nat} (h : ∀ p ∈ l, p < s.objs.length) : ∃ names, List.Forall₂ (ShowsName s) l names :=
  forall2_of_forall (fun a ha => ⟨_, _, List.getElem?_eq_getElem (h a ha), rfl⟩)

theorem adds_makes {c : Call} {s s' : Heap} {r : Ret} {o : Nat} (h : exec c s = (.ok r, s')) (ha : AddsTo s c o) (hr : RealCall s c) :
    (∃ l, Makes s c l) ∨ ∃ it, MakesBin s c it := by
  cases c with
  | createScope o' n src w so t f =>
    obtain ⟨a, h⟩ := exec_scope_inv h
    rcases obj_cases s o' with ⟨x, hx, _⟩ | ⟨_, ho⟩
    · exact .inl ⟨_, x, hx, rfl⟩
    · have e : Store.createScope o' n src w so t f s = _ := bind_eq_of_error ho
      rw [e] at h; cases h
  | createInstance o' n src w so t du f =>
    cases du with
    | none => exact .inl ⟨_, none, rfl, rfl⟩
    | some u => exact .inl ⟨_, _, rfl, _, List.getElem?_eq_getElem (hr u rfl), rfl⟩
  | createCovergroup o' n src w so => exact .inl ⟨_, rfl⟩
  | createToggle o' n f => exact .inl ⟨_, rfl⟩
  | createCoverpoint o' n src w so => exact .inl ⟨_, rfl⟩
  | createCross o' n src w so cps =>
    obtain ⟨names, hn⟩ := showsName_of hr
    exact .inl ⟨_, names, hn, rfl⟩
  | createCoverInstance o' n src w so => exact .inl ⟨_, rfl⟩
  | createBin o' n src a k t => exact .inr ⟨_, rfl⟩
  | createNextCover o' n d src =>
    cases hd : s.datas[d]? with
    | none =>
      obtain ⟨a, s1, h1, _⟩ := bind_ok.1 h
      rw [createNextCover_none hd] at h1; cases h1
    | some z => exact .inr ⟨_, z, hd, rfl⟩
  | _ => exact (ha : False).elim

theorem setsWeight_new {c : Call} {o : Nat} (h : SetsWeight c o) : ∃ w, NewWeight c w := by
  cases c with
  | setWeight o' w => exact ⟨w, rfl⟩
  | setIntProperty o' i p v => cases p <;> first | exact (h : False).elim | exact ⟨v, rfl⟩
  | _ => exact (h : False).elim

theorem sets_new {s : Heap} {c : Call} {d : Nat} (h : Sets s c d) : ∃ g, NewNumbers c g := by
  cases c with
  | assignData d' f v => exact ⟨_, rfl⟩
  | incrementCover b a => exact ⟨_, rfl⟩
  | _ => exact (h : False).elim

theorem edit_exists {cs : List Call} {d : Nat} {c : Call} (hr : RealCall (run Heap.empty cs) c) (hp : PlainCall (run Heap.empty cs) d c) :
    ∃ g, Edit (run Heap.empty cs) d c g := by
  rcases hres : (exec c (run Heap.empty cs)).1 with e | r
  · exact ⟨id, .raises hres⟩
  · have hex : exec c (run Heap.empty cs) = (.ok r, (exec c (run Heap.empty cs)).2) := by rw [← hres]
    by_cases ht : ∃ q, Below (run Heap.empty cs) d q ∧ Touches (run Heap.empty cs) c q
    swap
    · exact ⟨id, .elsewhere (fun q hq h => ht ⟨q, hq, h⟩)⟩
    obtain ⟨q, hq, ht⟩ := ht
    obtain ⟨p, hpath⟩ := below_pathTo hq
    rcases ht with ha | hw | ⟨x, u, hx, hu, hw⟩ | ⟨x, b, z, hx, hb, hz, hs⟩
    · rcases adds_makes hex ha hr with ⟨l, hm⟩ | ⟨it, hm⟩
      · exact ⟨_, .scope hres ha hpath hm⟩
      · exact ⟨_, .bin hres ha hpath hm⟩
    · obtain ⟨w, hm⟩ := setsWeight_new hw
      exact ⟨_, .weight hres hw hpath hm (fun q' x hq' hx hu => hp.1 q' x q hq' hx hu hw)⟩
    · exact absurd hw (hp.1 q x u hq hx hu)
    · obtain ⟨g, hm⟩ := sets_new hs
      obtain ⟨i, hi⟩ := List.getElem?_of_mem hb
      refine ⟨_, .number hres hpath hx hi hz hs hm (fun q' hq' ht' => ?_) (fun b' hb' z' hz' he => ?_)⟩
      · rcases ht' with h | h | ⟨_, _, _, _, h⟩ | ⟨x', b', z', hx', hb', hz', hs'⟩
        · exact ((sets_only hs).1 _ h).elim
        · exact ((sets_only hs).2 _ h).elim
        · exact ((sets_only hs).2 _ h).elim
        · have := hp.2 b b' z z' ⟨q, x, hq, hx, hb, hz⟩ ⟨q', x', hq', hx', hb', hz'⟩ hs (sets_inj hs' hs)
          subst this
          exact (run_items cs).unique q' q x' x b' hx' hx hb' hb
      · exact hp.2 b b' z z' ⟨q, x, hq, hx, hb, hz⟩ ⟨q, x, hq, hx, hb', hz'⟩ hs he

/-- **C105.** The edits describe every program whose calls are plain, failing calls included. -/
theorem C105_total {cs cs' : List Call} {d : Nat} {v : Scope} (hr : RealCalls (run Heap.empty cs) cs')
    (hp : Each (fun t c => PlainCall t d c) (run Heap.empty cs) cs') : ∃ w, Edits d (run Heap.empty cs) v cs' w := by
  induction cs' generalizing cs v with
  | nil => exact ⟨v, .nil⟩
  | cons c t ih =>
    obtain ⟨g, hg⟩ := edit_exists hr.1 hp.1
    have e : (exec c (run Heap.empty cs)).2 = run Heap.empty (cs ++ [c]) := by rw [run_append]; rfl
    obtain ⟨w, hw⟩ := ih (cs := cs ++ [c]) (v := g v) (e ▸ hr.2) (e ▸ hp.2)
    exact ⟨w, .cons hg (e ▸ hw)⟩

theorem each_of_forall {P : Heap → Call → Prop} {cs cs' : List Call}
    (h : ∀ pre c post, cs' = pre ++ c :: post → P (run Heap.empty (cs ++ pre)) c) : Each P (run Heap.empty cs) cs' := by
  induction cs' generalizing cs with
  | nil => trivial
  | cons c t ih =>
    refine ⟨by simpa using h [] c t rfl, ?_⟩
    have e : (exec c (run Heap.empty cs)).2 = run Heap.empty (cs ++ [c]) := by rw [run_append]; rfl
    rw [e]
    refine ih (fun pre c' post ht => ?_)
    have := h (c :: pre) c' post (by rw [ht]; rfl)
    simpa using this

/-- **C105.** Programs that create their bins with `createBin` and set no weights afterwards are plain. -/
theorem C105_plain {cs cs' : List Call} {d : Nat} (h : ∀ c ∈ cs ++ cs', ∀ o n e src, c ≠ .createNextCover o n e src)
    (hw : ∀ c ∈ cs', ∀ o, ¬ SetsWeight c o) : Each (fun t c => PlainCall t d c) (run Heap.empty cs) cs' := by
  refine each_of_forall (fun pre c post he => ⟨fun _ _ u _ _ _ => hw c (by rw [he]; simp) u, ?_⟩)
  rintro b b' z z' ⟨_, _, _, _, _, hz⟩ ⟨_, _, _, _, _, hz'⟩ _ hd
  obtain ⟨z1, hz1, hu⟩ := C53_createBin_own (cs ++ pre) (fun c hc => h c (by
    rw [he]; simp only [List.mem_append] at hc ⊢; rcases hc with hc | hc <;> simp [hc])) b (List.getElem?_eq_some_iff.1 hz).1
  rw [hz] at hz1; cases hz1
  exact hu b' z' hz' hd

/-- A database with a covergroup, a coverpoint and a bin that is counted; a call that raises and calls on another database
do not matter. -/
def editProg : List Call :=
  [.createCovergroup 0 "cg" none 1 1, .createCoverpoint 1 "cp" none 2 1, .createBin 2 "a" none 1 3 1, .newDb,
    .createCovergroup 3 "other" none 1 1, .createCoverpoint 0 "bad" none 1 1, .incrementCover 0 4]

/-- The database that this makes. -/
def editTree : Scope :=
  { emptyDb with children := [{ stype := ST.COVERGROUP, name := "cg", src := SrcInfo.none, weight := 1, du := none, cps := none, items := [], children :=
    [{ stype := ST.COVERPOINT, name := "cp", src := SrcInfo.none, weight := 2, du := none, cps := none, children := [], items :=
      [{ name := "a", kind := 1, count := 7, atLeast := some 1, goal := 1, weight := 1 }] }] }] }

/-- **C105** applies. -/
example : Edits 0 (run Heap.empty ([] ++ [.newDb])) emptyDb editProg editTree := by
  have hr : RealCalls (run Heap.empty ([] ++ [.newDb])) editProg := ⟨trivial, trivial, trivial, trivial, trivial, trivial, trivial, trivial⟩
  obtain ⟨w, hw⟩ := C105_total (cs := [] ++ [.newDb]) (d := 0) (v := emptyDb) hr
    (C105_plain (by simp [editProg]) (by simp [editProg, SetsWeight]))
  have h1 := C105_database (cs := []) hw
  have h2 : Shows (run Heap.empty ([] ++ .newDb :: editProg)) 0 editTree :=
    ⟨3, trivial, _, rfl, rfl, rfl, rfl, rfl, rfl, rfl, .cons ⟨trivial, _, rfl, rfl, rfl, rfl, rfl, rfl, rfl, .cons ⟨trivial, _, rfl, rfl,
      rfl, rfl, rfl, rfl, rfl, .nil, .cons ⟨_, _, rfl, rfl, rfl⟩ .nil⟩ .nil, .nil⟩ .nil, .nil⟩
  exact shows_unique h1 h2 ▸ hw

end Store
end Verif
