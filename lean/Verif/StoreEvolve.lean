import Verif.StoreEffects
import Verif.Assoc
/-!
# Evolution of the store

`Evolves` collects what stays true of existing objects whatever is called; `Quiet` is the same plus: no
scope is created and no list of children changes.
-/

namespace Verif
namespace Store

/-- How an object may differ later. -/
structure Kept (x y : Obj) : Prop where
  cls : y.cls = x.cls
  parent : y.parent = x.parent
  name : y.name = x.name
  src : y.src = x.src
  stype : y.stype = x.stype
  du : y.du = x.du
  cps : y.cps = x.cps
  children : x.children <+: y.children
  items : x.items <+: y.items
  hist : x.hist <+: y.hist
  covInsts : x.covInsts <+: y.covInsts
  files : ∀ n h, x.files.get? n = some h → y.files.get? n = some h

theorem Kept.refl (x : Obj) : Kept x x :=
  ⟨rfl, rfl, rfl, rfl, rfl, rfl, rfl, List.prefix_refl _, List.prefix_refl _, List.prefix_refl _, List.prefix_refl _, fun _ _ h => h⟩

theorem Kept.trans {x y z : Obj} (h1 : Kept x y) (h2 : Kept y z) : Kept x z :=
  ⟨h2.cls.trans h1.cls, h2.parent.trans h1.parent, h2.name.trans h1.name, h2.src.trans h1.src, h2.stype.trans h1.stype,
    h2.du.trans h1.du, h2.cps.trans h1.cps, h1.children.trans h2.children, h1.items.trans h2.items, h1.hist.trans h2.hist,
    h1.covInsts.trans h2.covInsts, fun n h e => h2.files n h (h1.files n h e)⟩

theorem Kept.of_core {x y : Obj} (h : core y = core x) : Kept x y := by
  simp only [core, Core.mk.injEq] at h
  obtain ⟨h1, h2, h3, h4, h5, h6, h7, h8, h9, h10, h11, h12⟩ := h
  exact ⟨h1, h2, h3, h4, h5, h8, h9, h6 ▸ List.prefix_refl _, h7 ▸ List.prefix_refl _, h11 ▸ List.prefix_refl _,
    h12 ▸ List.prefix_refl _, fun _ _ h => by rw [h10]; exact h⟩

/-- How a history node may differ later. -/
structure KeptNode (x y : Node) : Prop where
  parent : y.parent = x.parent
  kind : y.kind = x.kind
  logical : y.data.logicalName = x.data.logicalName
  physical : y.data.physicalName = x.data.physicalName

theorem KeptNode.refl (x : Node) : KeptNode x x := ⟨rfl, rfl, rfl, rfl⟩
theorem KeptNode.trans {x y z : Node} (h1 : KeptNode x y) (h2 : KeptNode y z) : KeptNode x z :=
  ⟨h2.parent.trans h1.parent, h2.kind.trans h1.kind, h2.logical.trans h1.logical, h2.physical.trans h1.physical⟩

structure Evolves (s s' : Heap) : Prop where
  objs : ∀ (o : Nat) x, s.objs[o]? = some x → ∃ y, s'.objs[o]? = some y ∧ Kept x y
  bins : s.bins <+: s'.bins
  datas : ∀ (d : Nat) x, s.datas[d]? = some x → ∃ y, s'.datas[d]? = some y ∧ y.kind = x.kind ∧ y.flags = x.flags
  handles : s.handles <+: s'.handles
  nodes : ∀ (n : Nat) x, s.nodes[n]? = some x → ∃ y, s'.nodes[n]? = some y ∧ KeptNode x y

theorem Evolves.refl (s : Heap) : Evolves s s :=
  ⟨fun _ x h => ⟨x, h, Kept.refl x⟩, List.prefix_refl _, fun _ x h => ⟨x, h, rfl, rfl⟩, List.prefix_refl _,
    fun _ x h => ⟨x, h, KeptNode.refl x⟩⟩

theorem Evolves.trans {a b c : Heap} (h1 : Evolves a b) (h2 : Evolves b c) : Evolves a c where
  objs o x h := by
    obtain ⟨y, hy, ky⟩ := h1.objs o x h
    obtain ⟨z, hz, kz⟩ := h2.objs o y hy
    exact ⟨z, hz, ky.trans kz⟩
  bins := h1.bins.trans h2.bins
  datas d x h := by
    obtain ⟨y, hy, e1, e2⟩ := h1.datas d x h
    obtain ⟨z, hz, e3, e4⟩ := h2.datas d y hy
    exact ⟨z, hz, e3.trans e1, e4.trans e2⟩
  handles := h1.handles.trans h2.handles
  nodes n x h := by
    obtain ⟨y, hy, ky⟩ := h1.nodes n x h
    obtain ⟨z, hz, kz⟩ := h2.nodes n y hy
    exact ⟨z, hz, ky.trans kz⟩

/-- The position of a scope in the tree. -/
def shape (x : Obj) : Cls × Option Nat × List Nat := (x.cls, x.parent, x.children)

structure Quiet (s s' : Heap) : Prop where
  evolves : Evolves s s'
  shapes : s'.objs.map shape = s.objs.map shape

theorem Quiet.refl (s : Heap) : Quiet s s := ⟨Evolves.refl s, rfl⟩
theorem Quiet.trans {a b c : Heap} (h1 : Quiet a b) (h2 : Quiet b c) : Quiet a c :=
  ⟨h1.evolves.trans h2.evolves, h2.shapes.trans h1.shapes⟩

theorem quiet_modify {s : Heap} {o : Nat} {f : Obj → Obj} (h : ∀ x, s.objs[o]? = some x → Kept x (f x) ∧ shape (f x) = shape x) :
    Quiet s { s with objs := s.objs.modify o f } where
  evolves :=
    { Evolves.refl s with
      objs := by
        intro p x hp
        by_cases hpo : o = p
        · subst hpo
          exact ⟨f x, by rw [List.getElem?_modify]; simp [hp], (h x hp).1⟩
        · exact ⟨x, by rw [List.getElem?_modify]; simp [hpo, hp], Kept.refl x⟩ }
  shapes := by
    apply List.ext_getElem?
    intro i
    simp only [List.getElem?_map, List.getElem?_modify]
    by_cases hi : o = i
    · subst hi
      cases hx : s.objs[o]? with
      | none => simp
      | some x => simp [(h x hx).2]
    · simp [hi]

theorem quiet_modData (s : Heap) (d : Nat) {f : CData → CData} (h : ∀ x, (f x).kind = x.kind ∧ (f x).flags = x.flags) :
    Quiet s { s with datas := s.datas.modify d f } where
  evolves :=
    { Evolves.refl s with
      datas := by
        intro p x hp
        by_cases hpo : d = p
        · subst hpo
          exact ⟨f x, by rw [List.getElem?_modify]; simp [hp], h x⟩
        · exact ⟨x, by rw [List.getElem?_modify]; simp [hpo, hp], rfl, rfl⟩ }
  shapes := rfl

theorem quiet_modNode {s : Heap} {n : Nat} {f : Node → Node} (h : ∀ x, s.nodes[n]? = some x → KeptNode x (f x)) :
    Quiet s { s with nodes := s.nodes.modify n f } where
  evolves :=
    { Evolves.refl s with
      nodes := by
        intro p x hp
        by_cases hpo : n = p
        · subst hpo
          exact ⟨f x, by rw [List.getElem?_modify]; simp [hp], h x hp⟩
        · exact ⟨x, by rw [List.getElem?_modify]; simp [hpo, hp], KeptNode.refl x⟩ }
  shapes := rfl

theorem quiet_addData (s : Heap) (d : CData) : Quiet s { s with datas := s.datas ++ [d] } where
  evolves :=
    { Evolves.refl s with
      datas := fun p x hp => ⟨x, by rw [List.getElem?_append_left (List.getElem?_eq_some_iff.1 hp).1]; exact hp, rfl, rfl⟩ }
  shapes := rfl

theorem quiet_addBin (s : Heap) (b : Bin) : Quiet s { s with bins := s.bins ++ [b] } where
  evolves := { Evolves.refl s with bins := List.prefix_append _ _ }
  shapes := rfl

theorem quiet_addHandle (s : Heap) (n : String) : Quiet s { s with handles := s.handles ++ [n] } where
  evolves := { Evolves.refl s with handles := List.prefix_append _ _ }
  shapes := rfl

theorem quiet_addNode (s : Heap) (n : Node) : Quiet s { s with nodes := s.nodes ++ [n] } where
  evolves :=
    { Evolves.refl s with
      nodes := fun p x hp => ⟨x, by rw [List.getElem?_append_left (List.getElem?_eq_some_iff.1 hp).1]; exact hp, KeptNode.refl x⟩ }
  shapes := rfl

theorem quiet_withBin (s : Heap) (o : Nat) (b : Bin) : Quiet s (s.withBin o b) :=
  (quiet_addBin s b).trans (quiet_modify (s := { s with bins := s.bins ++ [b] })
    (f := fun x => { x with items := x.items ++ [s.bins.length] })
    (fun x _ => ⟨{ Kept.refl x with items := List.prefix_append _ _ }, rfl⟩))

theorem assign_kind (f : DField) (v : Int) (x : CData) : (CData.assign f v x).kind = x.kind ∧ (CData.assign f v x).flags = x.flags := by
  cases f <;> exact ⟨rfl, rfl⟩

/-- Outcome of a call whose first step fails. -/
theorem snd_of_error {α β : Type} {x : M α} {f : α → M β} {s : Heap} {e : Err} (h : x s = (.error e, s)) : ((x >>= f) s).2 = s := by
  rw [bind_eq_of_error h]

theorem snd_bind_pure {α β : Type} (x : M α) (g : α → β) (s : Heap) : ((x >>= fun a => (pure (g a) : M β)) s).2 = (x s).2 := by
  rw [bind_def]
  rcases x s with ⟨r, s1⟩
  cases r <;> rfl

theorem createNextCover_quiet (o : Nat) (n : String) (d : Nat) (src : Option SrcInfo) (s : Heap) :
    Quiet s (createNextCover o n d src s).2 := by
  cases hd : s.datas[d]? with
  | none => rw [createNextCover_none hd]; exact Quiet.refl s
  | some c =>
  rcases obj_cases s o with ⟨x, hx, ho⟩ | ⟨_, ho⟩
  · by_cases hc : x.cls = .inst ∨ x.cls = .toggle
    · rw [createNextCover_inst hx hd hc]
      exact quiet_modify (fun x _ => ⟨Kept.of_core rfl, rfl⟩)
    · rw [createNextCover_bin hx hd (fun h => hc (.inl h)) (fun h => hc (.inr h))]
      exact quiet_withBin s o _
  · unfold createNextCover
    rw [bind_eq_of_error ho]
    exact Quiet.refl s

theorem createBin_quiet (o : Nat) (n : String) (src : Option SrcInfo) (a c : Int) (k : Nat) (s : Heap) :
    Quiet s (createBin o n src a c k s).2 := by
  rcases obj_cases s o with ⟨x, hx, ho⟩ | ⟨_, ho⟩
  · by_cases hc : x.cls = .coverpoint ∨ x.cls = .cross
    · rw [createBin_eq hx hc]
      exact (quiet_addData s _).trans (quiet_withBin _ o _)
    · rw [createBin_error hx (fun h => hc (.inl h)) (fun h => hc (.inr h))]
      exact Quiet.refl s
  · unfold createBin
    rw [bind_eq_of_error ho]
    exact Quiet.refl s

theorem incrementCover_quiet (b : Nat) (a : Int) (s : Heap) : Quiet s (incrementCover b a s).2 := by
  cases hb : s.bins[b]? with
  | none => unfold incrementCover; rw [bind_eq_of_error (bin_none hb)]; exact Quiet.refl s
  | some x =>
    cases hd : s.datas[x.data]? with
    | none =>
      unfold incrementCover
      rw [bind_eq_of_ok (bin_some hb), bind_eq_of_error (cdata_none hd)]
      exact Quiet.refl s
    | some d =>
      rw [incrementCover_eq hb hd]
      exact quiet_modData s _ (fun _ => ⟨rfl, rfl⟩)

theorem setIntProperty_quiet (o : Nat) (i v : Int) (p : IProp) (s : Heap) : Quiet s (setIntProperty o i p v s).2 := by
  rcases h : setIntProperty o i p v s with ⟨r, s'⟩
  cases r with
  | error e => rw [setIntProperty_error h]; exact Quiet.refl s
  | ok u =>
    obtain ⟨x, y, hx, hy, rfl⟩ := setIntProperty_ok.1 h
    have e : s.objs.set o y = s.objs.modify o (fun _ => y) := by
      apply List.ext_getElem?
      intro j
      rw [List.getElem?_modify, List.getElem?_set]
      by_cases hj : o = j
      · subst hj; simp [hx, (List.getElem?_eq_some_iff.1 hx).1]
      · simp [hj]
    simp only [e]
    refine quiet_modify (fun x' hx' => ?_)
    rw [hx] at hx'
    cases hx'
    have hc := objSet_core hy
    refine ⟨Kept.of_core hc, ?_⟩
    simp only [core, Core.mk.injEq] at hc
    simp [shape, hc]

theorem createFileHandle_quiet (o : Nat) (n : String) (s : Heap) : Quiet s (createFileHandle o n s).2 := by
  rcases obj_cases s o with ⟨x, hx, ho⟩ | ⟨_, ho⟩
  · have e : createFileHandle o n s = _ := bind_eq_of_ok ho
    cases hc : x.cls <;> rw [hc] at e <;> try (rw [e]; exact Quiet.refl s)
    cases hf : x.files.get? n with
    | some h => rw [hf] at e; rw [e]; exact Quiet.refl s
    | none =>
      rw [hf] at e
      rw [e]
      refine (quiet_addHandle s n).trans (quiet_modify (s := { s with handles := s.handles ++ [n] })
        (f := fun x => { x with files := x.files.set n s.handles.length }) (fun y hy => ⟨{ Kept.refl y with files := ?_ }, rfl⟩))
      intro m h hm
      have : y = x := by
        have : s.objs[o]? = some y := hy
        rw [hx] at this; exact (Option.some.inj this).symm
      subst this
      have hmn : m ≠ n := by rintro rfl; rw [hf] at hm; cases hm
      show Dict.get? (Dict.set y.files n s.handles.length) m = some h
      rw [Dict.get?_set, if_neg (Ne.symm hmn)]
      exact hm
  · unfold createFileHandle
    rw [bind_eq_of_error ho]
    exact Quiet.refl s

theorem createHistoryNode_quiet (o : Nat) (now : Int) (p : Option Nat) (l ph : Option String) (k : KindVal) (s : Heap) :
    Quiet s (createHistoryNode o now p l ph k s).2 := by
  rcases obj_cases s o with ⟨x, hx, ho⟩ | ⟨_, ho⟩
  · have e : createHistoryNode o now p l ph k s = _ := bind_eq_of_ok ho
    cases hc : x.cls <;> rw [hc] at e <;> rw [e] <;> try exact Quiet.refl s
    exact (quiet_addNode s _).trans (quiet_modify
      (f := fun x => { x with hist := x.hist ++ [s.nodes.length] })
      (fun y _ => ⟨{ Kept.refl y with hist := List.prefix_append _ _ }, rfl⟩))
  · unfold createHistoryNode
    rw [bind_eq_of_error ho]
    exact Quiet.refl s

theorem createInstanceCoverage_quiet (o : Nat) (n : String) (s : Heap) : Quiet s (createInstanceCoverage o n s).2 := by
  rcases obj_cases s o with ⟨x, hx, ho⟩ | ⟨_, ho⟩
  · have e : createInstanceCoverage o n s = _ := bind_eq_of_ok ho
    cases hc : x.cls <;> rw [hc] at e <;> rw [e] <;> try exact Quiet.refl s
    exact quiet_modify (f := fun x => { x with covInsts := x.covInsts ++ [(n, toString x.covInsts.length)] })
      (fun y _ => ⟨{ Kept.refl y with covInsts := List.prefix_append _ _ }, rfl⟩)
  · unfold createInstanceCoverage
    rw [bind_eq_of_error ho]
    exact Quiet.refl s

theorem setNodeProperty_quiet (n : Nat) (p : IProp) (v : Int) (s : Heap) : Quiet s (setNodeProperty n p v s).2 := by
  cases hn : s.nodes[n]? with
  | none => unfold setNodeProperty; rw [bind_eq_of_error (node_none hn)]; exact Quiet.refl s
  | some x =>
    have e : setNodeProperty n p v s = _ := bind_eq_of_ok (node_some hn)
    rw [e]
    cases hy : nodeSet x p v with
    | error er => simp only [bind_def, read, hy]; exact Quiet.refl s
    | ok y =>
      simp only [bind_def, read, hy, modNode]
      refine quiet_modNode (fun x' hx' => ?_)
      rw [hn] at hx'
      cases hx'
      cases p <;> simp only [nodeSet, reduceCtorEq, Except.ok.injEq] at hy
      subst hy
      exact ⟨rfl, rfl, rfl, rfl⟩

theorem setTestData_quiet (n : Nat) (t : TestData) (s : Heap) : Quiet s (setTestData n t s).2 := by
  cases hn : s.nodes[n]? with
  | none => unfold setTestData; rw [bind_eq_of_error (node_none hn)]; exact Quiet.refl s
  | some x =>
    have e : setTestData n t s = _ := bind_eq_of_ok (node_some hn)
    rw [e]
    exact quiet_modNode (fun x' _ => ⟨rfl, rfl, rfl, rfl⟩)

theorem assignNode_quiet (n : Nat) (a : NodeAttr) (s : Heap) : Quiet s (assignNode n a s).2 := by
  cases hn : s.nodes[n]? with
  | none => unfold assignNode; rw [bind_eq_of_error (node_none hn)]; exact Quiet.refl s
  | some x =>
    have e : assignNode n a s = _ := bind_eq_of_ok (node_some hn)
    rw [e]
    exact quiet_modNode (fun x' _ => by cases a <;> exact ⟨rfl, rfl, rfl, rfl⟩)

theorem setComment_quiet (o : Nat) (c : String) (s : Heap) : Quiet s (setComment o c s).2 := by
  rcases obj_cases s o with ⟨x, hx, ho⟩ | ⟨_, ho⟩
  · have e : setComment o c s = _ := bind_eq_of_ok ho
    cases hc : x.cls <;> rw [hc] at e <;> rw [e] <;>
      first | exact Quiet.refl s | exact quiet_modify (fun x _ => ⟨Kept.of_core rfl, rfl⟩)
  · unfold setComment
    rw [bind_eq_of_error ho]
    exact Quiet.refl s

/-- A call that creates no scope changes no scope's place, class or children. -/
theorem exec_quiet {c : Call} (hc : c.creates = none) (hn : c ≠ .newDb) (s : Heap) : Quiet s (exec c s).2 := by
  cases c with
  | newDb => exact absurd rfl hn
  | createScope => cases hc
  | createInstance => cases hc
  | createCovergroup => cases hc
  | createToggle => cases hc
  | createCoverpoint => cases hc
  | createCross => cases hc
  | createCoverInstance => cases hc
  | newCoverData k f => exact quiet_addData s _
  | assignData d f v =>
    show Quiet s ((Store.assignData d f v >>= fun _ => pure Ret.none) s).2
    rw [snd_bind_pure]
    cases hd : s.datas[d]? with
    | none => rw [assignData_none hd]; exact Quiet.refl s
    | some x => rw [assignData_eq hd]; exact quiet_modData s d (assign_kind f v)
  | createNextCover o n d src =>
    show Quiet s ((Store.createNextCover o n d src >>= fun a => pure (Ret.cover a)) s).2
    rw [snd_bind_pure]; exact createNextCover_quiet ..
  | createBin o n src a c k =>
    show Quiet s ((Store.createBin o n src a c k >>= fun a => pure (Ret.cover a)) s).2
    rw [snd_bind_pure]; exact createBin_quiet ..
  | incrementCover b a =>
    show Quiet s ((Store.incrementCover b a >>= fun _ => pure Ret.none) s).2
    rw [snd_bind_pure]; exact incrementCover_quiet ..
  | setIntProperty o i p v =>
    show Quiet s ((Store.setIntProperty o i p v >>= fun _ => pure Ret.none) s).2
    rw [snd_bind_pure]; exact setIntProperty_quiet ..
  | setStringProperty o p v =>
    show Quiet s ((Store.setStringProperty o p v >>= fun _ => pure Ret.none) s).2
    rw [snd_bind_pure]
    rcases obj_cases s o with ⟨x, hx, ho⟩ | ⟨_, ho⟩
    · unfold Store.setStringProperty; rw [bind_eq_of_ok ho]; exact Quiet.refl s
    · unfold Store.setStringProperty; rw [bind_eq_of_error ho]; exact Quiet.refl s
  | setWeight o w =>
    show Quiet s ((Store.setWeight o w >>= fun _ => pure Ret.none) s).2
    rw [snd_bind_pure]
    rcases obj_cases s o with ⟨x, hx, ho⟩ | ⟨_, ho⟩
    · unfold Store.setWeight; rw [bind_eq_of_ok ho]; exact quiet_modify (fun x _ => ⟨Kept.of_core rfl, rfl⟩)
    · unfold Store.setWeight; rw [bind_eq_of_error ho]; exact Quiet.refl s
  | setGoal o g =>
    show Quiet s ((Store.setGoal o g >>= fun _ => pure Ret.none) s).2
    rw [snd_bind_pure]
    rcases obj_cases s o with ⟨x, hx, ho⟩ | ⟨_, ho⟩
    · unfold Store.setGoal; rw [bind_eq_of_ok ho]; exact quiet_modify (fun x _ => ⟨Kept.of_core rfl, rfl⟩)
    · unfold Store.setGoal; rw [bind_eq_of_error ho]; exact Quiet.refl s
  | setComment o c =>
    show Quiet s ((Store.setComment o c >>= fun _ => pure Ret.none) s).2
    rw [snd_bind_pure]; exact setComment_quiet ..
  | createFileHandle o n =>
    show Quiet s ((Store.createFileHandle o n >>= fun a => pure (Ret.handle a)) s).2
    rw [snd_bind_pure]; exact createFileHandle_quiet ..
  | createHistoryNode o now p l ph k =>
    show Quiet s ((Store.createHistoryNode o now p l ph k >>= fun a => pure (Ret.node a)) s).2
    rw [snd_bind_pure]; exact createHistoryNode_quiet ..
  | createInstanceCoverage o n =>
    show Quiet s ((Store.createInstanceCoverage o n >>= fun a => pure (Ret.record a)) s).2
    rw [snd_bind_pure]; exact createInstanceCoverage_quiet ..
  | setTestData n t =>
    show Quiet s ((Store.setTestData n t >>= fun _ => pure Ret.none) s).2
    rw [snd_bind_pure]; exact setTestData_quiet ..
  | setNodeProperty n p v =>
    show Quiet s ((Store.setNodeProperty n p v >>= fun _ => pure Ret.none) s).2
    rw [snd_bind_pure]; exact setNodeProperty_quiet ..
  | assignNode n a =>
    show Quiet s ((Store.assignNode n a >>= fun _ => pure Ret.none) s).2
    rw [snd_bind_pure]; exact assignNode_quiet ..

theorem withChild_evolves (s : Heap) (o : Nat) (y : Obj) : Evolves s (s.withChild o y) :=
  { Evolves.refl s with
    objs := by
      intro p x hp
      have hl := (List.getElem?_eq_some_iff.1 hp).1
      by_cases hpo : o = p
      · subst hpo
        refine ⟨{ x with children := x.children ++ [s.objs.length] }, ?_, { Kept.refl x with children := List.prefix_append _ _ }⟩
        simp [Heap.withChild, List.getElem?_modify, List.getElem?_append_left hl, hp]
      · refine ⟨x, ?_, Kept.refl x⟩
        simp [Heap.withChild, List.getElem?_modify, List.getElem?_append_left hl, hp, hpo] }

/-- Existing objects only change in the ways of `Evolves`, whatever is called. -/
theorem exec_evolves (c : Call) (s : Heap) : Evolves s (exec c s).2 := by
  cases hc : c.creates with
  | none =>
    by_cases hn : c = .newDb
    · subst hn
      exact { Evolves.refl s with
        objs := fun p x hp => ⟨x, by
          show (s.objs ++ [memUcis])[p]? = some x
          rw [List.getElem?_append_left (List.getElem?_eq_some_iff.1 hp).1]; exact hp, Kept.refl x⟩ }
    · exact (exec_quiet hc hn s).evolves
  | some on =>
    obtain ⟨o, n⟩ := on
    rcases exec_creates hc s with ⟨x, y, _, _, h⟩ | ⟨e, h⟩
    · rw [h]; exact withChild_evolves s o y
    · rw [h]; exact Evolves.refl s

theorem run_evolves (cs : List Call) (s : Heap) : Evolves s (run s cs) := by
  induction cs generalizing s with
  | nil => exact Evolves.refl s
  | cons c t ih => exact (exec_evolves c s).trans (ih _)

end Store
end Verif
