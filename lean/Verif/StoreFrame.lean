import Verif.StoreThms2
/-!
# What a call can change (C85)

A call changes at most the scope, history node or counter it is made on.
-/

namespace Verif
namespace Spec

/-- The scope a call is made on. -/
def Receiver : Store.Call → Nat → Prop
  | .createScope o .., p | .createInstance o .., p | .createCovergroup o .., p | .createToggle o .., p | .createCoverpoint o .., p
  | .createCross o .., p | .createCoverInstance o .., p | .createNextCover o .., p | .createBin o .., p
  | .setIntProperty o .., p | .setStringProperty o .., p | .setWeight o _, p | .setGoal o _, p | .setComment o _, p
  | .createFileHandle o _, p | .createHistoryNode o .., p | .createInstanceCoverage o _, p => p = o
  | _, _ => False

/-- The data object whose attributes a call sets: directly, or as the data of the bin it increments. -/
def Sets (s : Store.Heap) : Store.Call → Nat → Prop
  | .assignData d _ _, p => p = d
  | .incrementCover b _, p => ∃ x, s.bins[b]? = some x ∧ p = x.data
  | _, _ => False

/-- The history node a call is made on. -/
def NodeReceiver : Store.Call → Nat → Prop
  | .setTestData n _, p | .setNodeProperty n _ _, p | .assignNode n _, p => p = n
  | _, _ => False

end Spec

namespace Store
open Spec

/-- The elements of a table are kept, except those at the positions `p`. -/
def Keeps {β α : Type} (g : Heap → List β) (p : Nat → Prop) (act : M α) : Prop :=
  ∀ (s : Heap) (i : Nat) (x : β), ¬ p i → (g s)[i]? = some x → (g (act s).2)[i]? = some x

namespace Keeps

variable {β α γ : Type} {g : Heap → List β} {p : Nat → Prop}

theorem bind {act : M α} {f : α → M γ} (h : Keeps g p act) (hf : ∀ a, Keeps g p (f a)) : Keeps g p (act >>= f) := by
  intro s i x hi hx
  have h1 := h s i x hi hx
  rw [bind_def]
  rcases hr : act s with ⟨r, s'⟩
  rw [hr] at h1
  cases r with
  | error e => exact h1
  | ok a => exact hf a s' i x hi h1

theorem of_same {act : M α} (h : ∀ s, g (act s).2 = g s) : Keeps g p act := fun s i x _ hx => by rw [h]; exact hx

theorem pure (a : α) : Keeps g p (Pure.pure a : M α) := of_same (fun _ => rfl)

theorem fail (e : Err) : Keeps g p (Store.fail e : M α) := of_same (fun _ => rfl)

theorem read (f : Heap → Except Err α) : Keeps g p (Store.read f) := of_same (fun _ => rfl)

theorem obj (o : Nat) : Keeps g p (Store.obj o) := by
  refine of_same (fun s => ?_)
  rcases obj_cases s o with ⟨x, _, h⟩ | ⟨_, h⟩ <;> rw [h]

theorem cdata (o : Nat) : Keeps g p (Store.cdata o) := by
  refine of_same (fun s => ?_)
  cases h : s.datas[o]? with
  | none => rw [cdata_none h]
  | some x => rw [cdata_some h]

theorem bin (o : Nat) : Keeps g p (Store.bin o) := by
  refine of_same (fun s => ?_)
  cases h : s.bins[o]? with
  | none => rw [bin_none h]
  | some x => rw [bin_some h]

theorem node (o : Nat) : Keeps g p (Store.node o) := by
  refine of_same (fun s => ?_)
  cases h : s.nodes[o]? with
  | none => rw [node_none h]
  | some x => rw [node_some h]

end Keeps

theorem modify_other {α : Type} {l : List α} {o i : Nat} {x : α} {f : α → α} (h : i ≠ o) (hx : l[i]? = some x) : (l.modify o f)[i]? = some x := by
  rw [List.getElem?_modify]
  simp [Ne.symm h, hx]

theorem append_old {α : Type} {l m : List α} {i : Nat} {x : α} (hx : l[i]? = some x) : (l ++ m)[i]? = some x := by
  rw [List.getElem?_append_left (List.getElem?_eq_some_iff.1 hx).1]; exact hx

/-! ## Scopes -/

abbrev KeepsObjs {α : Type} (o : Nat) (act : M α) : Prop := Keeps Heap.objs (· = o) act

theorem keeps_modObj {o : Nat} (f : Obj → Obj) : KeepsObjs o (modObj o f) := fun _ _ _ hi hx => modify_other hi hx

theorem keeps_attach {o : Nat} (y : Obj) : KeepsObjs o (attach o y) := by
  intro s i x hi hx
  rw [attach_eq]
  exact modify_other hi (append_old hx)

theorem keeps_assignData {o d : Nat} (f : DField) (v : Int) : KeepsObjs o (assignData d f v) :=
  .bind (.cdata d) (fun _ => .of_same (fun _ => rfl))

theorem keeps_createNextCover {o : Nat} (n : String) (d : Nat) (src : Option SrcInfo) : KeepsObjs o (createNextCover o n d src) := by
  refine .bind (.obj o) (fun x => .bind (.cdata d) (fun _ => ?_))
  have h1 : KeepsObjs o (modObj o (fun x => { x with stmts := x.stmts ++ [⟨n, d, 0⟩] }) >>= fun _ => (pure (.index x.stmts.length) : M Cover)) :=
    .bind (keeps_modObj _) (fun _ => .pure _)
  have h2 : KeepsObjs o (allocBin ⟨n, d, src⟩ >>= fun b => modObj o (fun x => { x with items := x.items ++ [b] }) >>= fun _ => (pure (.bin b) : M Cover)) :=
    .bind (.of_same (fun _ => rfl)) (fun _ => .bind (keeps_modObj _) (fun _ => .pure _))
  cases x.cls
  · exact h2
  · exact h2
  · exact h1
  · exact h1
  · exact h2
  · exact h2
  · exact h2

theorem keeps_createBin {o : Nat} (n : String) (src : Option SrcInfo) (a c : Int) (k : Nat) : KeepsObjs o (createBin o n src a c k) := by
  refine .bind (.obj o) (fun x => ?_)
  have h : KeepsObjs o (allocData { kind := k, flags := binFlags, count := 0, goal := 0, weight := 0, atLeast := none } >>= fun d =>
      assignData d .data c >>= fun _ => assignData d .atLeast a >>= fun _ => assignData d .goal 1 >>= fun _ => assignData d .weight 1 >>= fun _ =>
      createNextCover o n d src) :=
    .bind (.of_same (fun _ => rfl)) (fun d => .bind (keeps_assignData _ _) (fun _ => .bind (keeps_assignData _ _)
      (fun _ => .bind (keeps_assignData _ _) (fun _ => .bind (keeps_assignData _ _) (fun _ => keeps_createNextCover _ _ _)))))
  cases x.cls
  all_goals first | exact h | exact .fail _

theorem keeps_createScope {o : Nat} (n : String) (src : Option SrcInfo) (w so : Int) (t : Nat) (f : Int) :
    KeepsObjs o (createScope o n src w so t f) := by
  refine .bind (.obj o) (fun x => ?_)
  cases x.cls <;> simp only <;> (repeat' split) <;> first | exact keeps_attach _ | exact .fail _

/-- Calls without a receiver change no scope; the others only the receiver. -/
theorem exec_keeps_objs (c : Call) : Keeps Heap.objs (Receiver c) (exec c) := by
  have lift : ∀ {α : Type} {o : Nat} {act : M α} {g : α → Ret}, KeepsObjs o act → Receiver c = (· = o) →
      exec c = (act >>= fun a => pure (g a)) → Keeps Heap.objs (Receiver c) (exec c) := by
    intro α o act g h hr he
    rw [hr, he]
    exact .bind h (fun _ => .pure _)
  cases c with
  | newDb =>
    intro s i x _ hx
    exact append_old hx
  | createScope o n src w so t f => exact lift (keeps_createScope n src w so t f) rfl rfl
  | createInstance o n src w so t du f => exact lift (o := o) (.bind (.obj o) (fun _ => keeps_attach _)) rfl rfl
  | createCovergroup o n src w so => exact lift (o := o) (.bind (.obj o) (fun _ => keeps_attach _)) rfl rfl
  | createToggle o n f =>
    refine lift (o := o) (act := createToggle o n f) (.bind (.obj o) (fun x => ?_)) rfl rfl
    cases x.cls <;> first | exact keeps_attach _ | exact .fail _
  | createCoverpoint o n src w so =>
    refine lift (o := o) (act := createCoverpoint o n src w so) (.bind (.obj o) (fun x => ?_)) rfl rfl
    cases x.cls <;> first | exact keeps_attach _ | exact .fail _
  | createCross o n src w so cps =>
    refine lift (o := o) (act := createCross o n src w so cps) (.bind (.obj o) (fun x => ?_)) rfl rfl
    cases x.cls <;> first | exact keeps_attach _ | exact .fail _
  | createCoverInstance o n src w so =>
    refine lift (o := o) (act := createCoverInstance o n src w so) (.bind (.obj o) (fun x => ?_)) rfl rfl
    cases x.cls <;> first | exact keeps_createScope _ _ _ _ _ _ | exact .fail _
  | newCoverData k f => exact .of_same (fun _ => rfl)
  | assignData d f v =>
    intro s i x _ hx
    exact Keeps.bind (keeps_assignData (o := s.objs.length) f v) (fun _ => .pure _) s i x
      (by have := (List.getElem?_eq_some_iff.1 hx).1; omega) hx
  | createNextCover o n d src => exact lift (keeps_createNextCover n d src) rfl rfl
  | createBin o n src a c k => exact lift (keeps_createBin n src a c k) rfl rfl
  | incrementCover b a =>
    intro s i x _ hx
    refine Keeps.bind (p := (· = s.objs.length)) ?_ (fun _ => .pure _) s i x
      (by have := (List.getElem?_eq_some_iff.1 hx).1; omega) hx
    exact .bind (.bin b) (fun _ => .bind (.cdata _) (fun _ => keeps_assignData _ _))
  | setIntProperty o i p v =>
    exact lift (o := o) (act := Store.setIntProperty o i p v) (.bind (.obj o) (fun _ => .bind (.read _) (fun _ => keeps_modObj _))) rfl rfl
  | setStringProperty o p v => exact lift (o := o) (act := Store.setStringProperty o p v) (.bind (.obj o) (fun _ => .pure _)) rfl rfl
  | setWeight o w => exact lift (o := o) (act := Store.setWeight o w) (.bind (.obj o) (fun _ => keeps_modObj _)) rfl rfl
  | setGoal o w => exact lift (o := o) (act := Store.setGoal o w) (.bind (.obj o) (fun _ => keeps_modObj _)) rfl rfl
  | setComment o w =>
    refine lift (o := o) (act := Store.setComment o w) (.bind (.obj o) (fun x => ?_)) rfl rfl
    cases x.cls <;> first | exact keeps_modObj _ | exact .fail _
  | createFileHandle o n =>
    refine lift (o := o) (act := Store.createFileHandle o n) (.bind (.obj o) (fun x => ?_)) rfl rfl
    cases x.cls <;> try exact .fail _
    cases x.files.get? n with
    | some h => exact .pure _
    | none => exact fun s i x hi hx => modify_other hi hx
  | createHistoryNode o now p l ph k =>
    refine lift (o := o) (act := Store.createHistoryNode o now p l ph k) (.bind (.obj o) (fun x => ?_)) rfl rfl
    cases x.cls <;> try exact .fail _
    exact fun s i x hi hx => modify_other hi hx
  | createInstanceCoverage o n =>
    refine lift (o := o) (act := Store.createInstanceCoverage o n) (.bind (.obj o) (fun x => ?_)) rfl rfl
    cases x.cls <;> try exact .fail _
    exact .bind (keeps_modObj _) (fun _ => .pure _)
  | assignNode n a => exact .bind (.bind (.node n) (fun _ => .of_same (fun _ => rfl))) (fun _ => .pure _)
  | setTestData n t => exact .bind (.bind (.node n) (fun _ => .of_same (fun _ => rfl))) (fun _ => .pure _)
  | setNodeProperty n p v =>
    exact .bind (.bind (.node n) (fun _ => .bind (.read _) (fun _ => .of_same (fun _ => rfl)))) (fun _ => .pure _)

/-! ## History nodes -/

theorem nodes_same {c : Call} (h : ∀ n, ¬ NodeReceiver c n) (s : Heap) {n : Nat} {x : Node} (hx : s.nodes[n]? = some x) :
    (exec c s).2.nodes[n]? = some x := by
  have key : Keeps Heap.nodes (fun _ => False) (exec c) := by
    have mo : ∀ (o : Nat) (f : Obj → Obj), Keeps Heap.nodes (fun _ => False) (modObj o f) := fun _ _ => .of_same (fun _ => rfl)
    have at_ : ∀ (o : Nat) (y : Obj), Keeps Heap.nodes (fun _ => False) (attach o y) := fun _ _ => .of_same (fun _ => rfl)
    have ad : ∀ (d : Nat) (f : DField) (v : Int), Keeps Heap.nodes (fun _ => False) (assignData d f v) :=
      fun d _ _ => .bind (.cdata d) (fun _ => .of_same (fun _ => rfl))
    have cs_ : ∀ (o : Nat) (n : String) (src : Option SrcInfo) (w so : Int) (t : Nat) (f : Int),
        Keeps Heap.nodes (fun _ => False) (createScope o n src w so t f) := by
      intro o n src w so t f
      refine .bind (.obj o) (fun x => ?_)
      cases x.cls <;> simp only <;> (repeat' split) <;> first | exact at_ _ _ | exact .fail _
    have nc : ∀ (o : Nat) (n : String) (d : Nat) (src : Option SrcInfo), Keeps Heap.nodes (fun _ => False) (createNextCover o n d src) := by
      intro o n d src
      refine .bind (.obj o) (fun x => .bind (.cdata d) (fun _ => ?_))
      cases x.cls <;> first
        | exact .bind (mo _ _) (fun _ => .pure _)
        | exact .bind (.of_same (fun _ => rfl)) (fun _ => .bind (mo _ _) (fun _ => .pure _))
    cases c with
    | newDb => exact .of_same (fun _ => rfl)
    | createScope o n src w so t f => exact .bind (cs_ _ _ _ _ _ _ _) (fun _ => .pure _)
    | createInstance o n src w so t du f => exact .bind (.bind (.obj o) (fun _ => at_ _ _)) (fun _ => .pure _)
    | createCovergroup o n src w so => exact .bind (.bind (.obj o) (fun _ => at_ _ _)) (fun _ => .pure _)
    | createToggle o n f =>
      refine .bind (act := createToggle o n f) (.bind (.obj o) (fun x => ?_)) (fun _ => .pure _)
      cases x.cls <;> first | exact at_ _ _ | exact .fail _
    | createCoverpoint o n src w so =>
      refine .bind (act := createCoverpoint o n src w so) (.bind (.obj o) (fun x => ?_)) (fun _ => .pure _)
      cases x.cls <;> first | exact at_ _ _ | exact .fail _
    | createCross o n src w so cps =>
      refine .bind (act := createCross o n src w so cps) (.bind (.obj o) (fun x => ?_)) (fun _ => .pure _)
      cases x.cls <;> first | exact at_ _ _ | exact .fail _
    | createCoverInstance o n src w so =>
      refine .bind (act := createCoverInstance o n src w so) (.bind (.obj o) (fun x => ?_)) (fun _ => .pure _)
      cases x.cls <;> first | exact cs_ _ _ _ _ _ _ _ | exact .fail _
    | newCoverData k f => exact .of_same (fun _ => rfl)
    | assignData d f v => exact .bind (ad _ _ _) (fun _ => .pure _)
    | createNextCover o n d src => exact .bind (nc _ _ _ _) (fun _ => .pure _)
    | createBin o n src a c k =>
      refine .bind (act := createBin o n src a c k) (.bind (.obj o) (fun x => ?_)) (fun _ => .pure _)
      have h : Keeps Heap.nodes (fun _ => False) (allocData { kind := k, flags := binFlags, count := 0, goal := 0, weight := 0, atLeast := none } >>= fun d =>
          assignData d .data c >>= fun _ => assignData d .atLeast a >>= fun _ => assignData d .goal 1 >>= fun _ => assignData d .weight 1 >>= fun _ =>
          createNextCover o n d src) :=
        .bind (.of_same (fun _ => rfl)) (fun d => .bind (ad _ _ _) (fun _ => .bind (ad _ _ _) (fun _ => .bind (ad _ _ _) (fun _ => .bind (ad _ _ _) (fun _ => nc _ _ _ _)))))
      cases x.cls <;> first | exact h | exact .fail _
    | incrementCover b a => exact .bind (.bind (.bin b) (fun _ => .bind (.cdata _) (fun _ => ad _ _ _))) (fun _ => .pure _)
    | setIntProperty o i p v => exact .bind (.bind (.obj o) (fun _ => .bind (.read _) (fun _ => mo _ _))) (fun _ => .pure _)
    | setStringProperty o p v => exact .bind (.bind (.obj o) (fun _ => .pure _)) (fun _ => .pure _)
    | setWeight o w => exact .bind (.bind (.obj o) (fun _ => mo _ _)) (fun _ => .pure _)
    | setGoal o w => exact .bind (.bind (.obj o) (fun _ => mo _ _)) (fun _ => .pure _)
    | setComment o w =>
      refine .bind (act := Store.setComment o w) (.bind (.obj o) (fun x => ?_)) (fun _ => .pure _)
      cases x.cls <;> first | exact mo _ _ | exact .fail _
    | createFileHandle o n =>
      refine .bind (act := Store.createFileHandle o n) (.bind (.obj o) (fun x => ?_)) (fun _ => .pure _)
      cases x.cls <;> try exact .fail _
      cases x.files.get? n with
      | some h => exact .pure _
      | none => exact .of_same (fun _ => rfl)
    | createHistoryNode o now p l ph k =>
      refine .bind (act := Store.createHistoryNode o now p l ph k) (.bind (.obj o) (fun x => ?_)) (fun _ => .pure _)
      cases x.cls <;> try exact .fail _
      exact fun s i x _ hx => append_old hx
    | createInstanceCoverage o n =>
      refine .bind (act := Store.createInstanceCoverage o n) (.bind (.obj o) (fun x => ?_)) (fun _ => .pure _)
      cases x.cls <;> try exact .fail _
      exact .bind (mo _ _) (fun _ => .pure _)
    | setTestData n t => exact absurd rfl (h n)
    | assignNode n a => exact absurd rfl (h n)
    | setNodeProperty n p v => exact absurd rfl (h n)
  exact key s n x (by simp) hx

theorem exec_keeps_nodes (c : Call) : Keeps Heap.nodes (NodeReceiver c) (exec c) := by
  intro s n x hn hx
  cases c with
  | setTestData m t =>
    refine Keeps.bind (p := (· = m)) (act := Store.setTestData m t) (.bind (.node m) (fun _ => ?_)) (fun _ => .pure _) s n x hn hx
    exact fun s i x hi hx => modify_other hi hx
  | assignNode m a =>
    refine Keeps.bind (p := (· = m)) (act := Store.assignNode m a) (.bind (.node m) (fun _ => ?_)) (fun _ => .pure _) s n x hn hx
    exact fun s i x hi hx => modify_other hi hx
  | setNodeProperty m p v =>
    refine Keeps.bind (p := (· = m)) (act := Store.setNodeProperty m p v) (.bind (.node m) (fun _ => .bind (.read _) (fun _ => ?_))) (fun _ => .pure _) s n x hn hx
    exact fun s i x hi hx => modify_other hi hx
  | _ => exact nodes_same (by intro m h; exact h) s hx

/-! ## Counters -/

theorem exec_keeps_datas (c : Call) (s : Heap) {d : Nat} {x : CData} (hd : ¬ Sets s c d) (hx : s.datas[d]? = some x) :
    (exec c s).2.datas[d]? = some x := by
  cases hb : c.binCall with
  | false => rw [(exec_idle hb s).1]; exact hx
  | true =>
    cases c with
    | newCoverData k f => exact append_old hx
    | assignData e f v =>
      refine Keeps.bind (g := Heap.datas) (p := (· = e)) (act := Store.assignData e f v) (.bind (.cdata e) (fun _ => ?_)) (fun _ => .pure _) s d x hd hx
      exact fun s i x hi hx => modify_other hi hx
    | createNextCover o n e src =>
      refine Keeps.bind (g := Heap.datas) (p := fun _ => False) (act := Store.createNextCover o n e src) (.bind (.obj o) (fun y => .bind (.cdata e) (fun _ => ?_)))
        (fun _ => .pure _) s d x (by simp) hx
      cases y.cls <;> first
        | exact .bind (act := modObj _ _) (.of_same (fun _ => rfl)) (fun _ => .pure _)
        | exact .bind (act := allocBin _) (.of_same (fun _ => rfl)) (fun _ => .bind (act := modObj _ _) (.of_same (fun _ => rfl)) (fun _ => .pure _))
    | createBin o n src a c k =>
      have e : (exec (.createBin o n src a c k) s).2 = (Store.createBin o n src a c k s).2 := snd_bind_pure ..
      rw [e]
      rcases obj_cases s o with ⟨y, hy, ho⟩ | ⟨_, ho⟩
      · by_cases hc : y.cls = .coverpoint ∨ y.cls = .cross
        · rw [createBin_eq hy hc]
          exact append_old hx
        · rw [createBin_error hy (fun h => hc (.inl h)) (fun h => hc (.inr h))]
          exact hx
      · unfold Store.createBin
        rw [bind_eq_of_error ho]
        exact hx
    | incrementCover b a =>
      have e : (exec (.incrementCover b a) s).2 = (Store.incrementCover b a s).2 := snd_bind_pure ..
      rw [e]
      cases hbx : s.bins[b]? with
      | none => unfold Store.incrementCover; rw [bind_eq_of_error (bin_none hbx)]; exact hx
      | some y =>
        cases hdx : s.datas[y.data]? with
        | none =>
          unfold Store.incrementCover
          rw [bind_eq_of_ok (bin_some hbx), bind_eq_of_error (cdata_none hdx)]
          exact hx
        | some z =>
          rw [incrementCover_eq hbx hdx]
          exact modify_other (fun e => hd ⟨y, hbx, e⟩) hx
    | _ => cases hb

/-- **C85.** A call changes at most the scope it is made on, the history node it is made on, and the data object it assigns to
or whose bin it increments.  All other scopes with all their attributes, all other nodes and all other data objects,
all bins and all file handles are the same afterwards, whether the call succeeds or not. -/
theorem C85_frame (c : Call) (s : Heap) :
    (∀ (o : Nat) x, ¬ Receiver c o → s.objs[o]? = some x → (exec c s).2.objs[o]? = some x) ∧
    (∀ (n : Nat) x, ¬ NodeReceiver c n → s.nodes[n]? = some x → (exec c s).2.nodes[n]? = some x) ∧
    (∀ (d : Nat) x, ¬ Sets s c d → s.datas[d]? = some x → (exec c s).2.datas[d]? = some x) ∧
    (∀ (b : Nat) x, s.bins[b]? = some x → (exec c s).2.bins[b]? = some x) ∧
    (∀ (h : Nat) n, s.handles[h]? = some n → (exec c s).2.handles[h]? = some n) := by
  have ev := exec_evolves c s
  refine ⟨fun o x ho hx => exec_keeps_objs c s o x ho hx, fun n x hn hx => exec_keeps_nodes c s n x hn hx,
    fun d x hd hx => exec_keeps_datas c s hd hx, fun b x hx => ?_, fun h n hx => ?_⟩
  · obtain ⟨t, ht⟩ := ev.bins
    rw [← ht]; exact append_old hx
  · obtain ⟨t, ht⟩ := ev.handles
    rw [← ht]; exact append_old hx

/-- Incrementing a bin of the sample keeps all scopes and all other data. -/
example : ¬ Sets (run Heap.empty sample) (.incrementCover 0 5) 1 ∧ Sets (run Heap.empty sample) (.incrementCover 0 5) 0 ∧
    (∀ o, ¬ Receiver (.incrementCover 0 5) o) ∧ Receiver (.setWeight 2 7) 2 := by
  refine ⟨?_, ⟨_, rfl, rfl⟩, fun _ h => h, rfl⟩
  rintro ⟨x, hx, h⟩
  cases hx
  exact absurd h (by decide)

end Store
end Verif
