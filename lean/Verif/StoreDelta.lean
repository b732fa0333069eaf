import Verif.StoreEvolve
/-!
# The possible effects of one call

`Delta` lists everything one call can do to the scopes, bins, handles and history nodes.  Every invariant
of the store is proved by going through this list.
-/

namespace Verif
namespace Store

theorem modify_eq_set {α : Type} {l : List α} {o : Nat} {x : α} (h : l[o]? = some x) (f : α → α) : l.modify o f = l.set o (f x) := by
  apply List.ext_getElem?
  intro j
  rw [List.getElem?_modify, List.getElem?_set]
  by_cases hj : o = j
  · subst hj; rw [h]; simp [(List.getElem?_eq_some_iff.1 h).1]
  · simp [hj]

theorem get_set {α : Type} {l : List α} {o : Nat} {x : α} (h : l[o]? = some x) (y : α) (p : Nat) :
    (l.set o y)[p]? = if o = p then some y else l[p]? := by
  rw [List.getElem?_set]
  have := (List.getElem?_eq_some_iff.1 h).1
  by_cases hp : o = p
  · subst hp; simp [this]
  · simp [hp]

inductive Delta (s s' : Heap) : Prop where
  | same (ho : s'.objs = s.objs) (hb : s'.bins = s.bins) (hh : s'.handles = s.handles) (hn : s'.nodes.length = s.nodes.length)
  | attrs (o : Nat) (x y : Obj) (hx : s.objs[o]? = some x) (hy : core y = core x) (ho : s'.objs = s.objs.set o y)
      (hb : s'.bins = s.bins) (hh : s'.handles = s.handles) (hn : s'.nodes.length = s.nodes.length)
  | item (o : Nat) (x : Obj) (b : Bin) (hx : s.objs[o]? = some x) (h1 : x.cls ≠ .inst) (h2 : x.cls ≠ .toggle)
      (ho : s'.objs = s.objs.set o { x with items := x.items ++ [s.bins.length] }) (hb : s'.bins = s.bins ++ [b])
      (hh : s'.handles = s.handles) (hn : s'.nodes.length = s.nodes.length) (hd : b.data < s'.datas.length)
  | file (o : Nat) (x : Obj) (n : String) (hx : s.objs[o]? = some x) (hc : x.cls = .db) (hf : x.files.get? n = none)
      (ho : s'.objs = s.objs.set o { x with files := x.files.set n s.handles.length }) (hb : s'.bins = s.bins)
      (hh : s'.handles = s.handles ++ [n]) (hn : s'.nodes.length = s.nodes.length)
  | hist (o : Nat) (x : Obj) (hx : s.objs[o]? = some x) (hc : x.cls = .db)
      (ho : s'.objs = s.objs.set o { x with hist := x.hist ++ [s.nodes.length] }) (hb : s'.bins = s.bins)
      (hh : s'.handles = s.handles) (hn : s'.nodes.length = s.nodes.length + 1)
  | record (o : Nat) (x : Obj) (n : String) (hx : s.objs[o]? = some x) (hc : x.cls = .db)
      (ho : s'.objs = s.objs.set o { x with covInsts := x.covInsts ++ [(n, toString x.covInsts.length)] }) (hb : s'.bins = s.bins)
      (hh : s'.handles = s.handles) (hn : s'.nodes.length = s.nodes.length)
  | child (o : Nat) (x y : Obj) (n : String) (hx : s.objs[o]? = some x) (hy : Fresh o n y) (h : s' = s.withChild o y)
  | root (h : s' = { s with objs := s.objs ++ [memUcis] })

theorem Delta.refl (s : Heap) : Delta s s := .same rfl rfl rfl rfl

theorem Delta.modify {s : Heap} {o : Nat} {f : Obj → Obj} (h : ∀ x, s.objs[o]? = some x → core (f x) = core x) :
    Delta s { s with objs := s.objs.modify o f } := by
  cases hx : s.objs[o]? with
  | none =>
    refine .same ?_ rfl rfl rfl
    show s.objs.modify o f = s.objs
    exact List.modify_eq_self (List.getElem?_eq_none_iff.1 hx)
  | some x => exact .attrs o x (f x) hx (h x hx) (modify_eq_set hx f) rfl rfl rfl

theorem createNextCover_delta (o : Nat) (n : String) (d : Nat) (src : Option SrcInfo) (s : Heap) :
    Delta s (createNextCover o n d src s).2 := by
  cases hd : s.datas[d]? with
  | none => rw [createNextCover_none hd]; exact Delta.refl s
  | some c =>
  rcases obj_cases s o with ⟨x, hx, ho⟩ | ⟨_, ho⟩
  · by_cases hc : x.cls = .inst ∨ x.cls = .toggle
    · rw [createNextCover_inst hx hd hc]
      exact Delta.modify (fun _ _ => rfl)
    · rw [createNextCover_bin hx hd (fun h => hc (.inl h)) (fun h => hc (.inr h))]
      exact .item o x ⟨n, d, src⟩ hx (fun h => hc (.inl h)) (fun h => hc (.inr h)) (modify_eq_set hx _) rfl
        rfl rfl (List.getElem?_eq_some_iff.1 hd).1
  · unfold createNextCover
    rw [bind_eq_of_error ho]
    exact Delta.refl s

theorem createBin_delta (o : Nat) (n : String) (src : Option SrcInfo) (a c : Int) (k : Nat) (s : Heap) :
    Delta s (createBin o n src a c k s).2 := by
  rcases obj_cases s o with ⟨x, hx, ho⟩ | ⟨_, ho⟩
  · by_cases hc : x.cls = .coverpoint ∨ x.cls = .cross
    · rw [createBin_eq hx hc]
      exact .item o x ⟨n, s.datas.length, src⟩ hx (by rcases hc with h | h <;> simp [h]) (by rcases hc with h | h <;> simp [h])
        (modify_eq_set hx _) rfl rfl rfl (by simp)
    · rw [createBin_error hx (fun h => hc (.inl h)) (fun h => hc (.inr h))]
      exact Delta.refl s
  · unfold createBin
    rw [bind_eq_of_error ho]
    exact Delta.refl s

theorem incrementCover_delta (b : Nat) (a : Int) (s : Heap) : Delta s (incrementCover b a s).2 := by
  cases hb : s.bins[b]? with
  | none => unfold incrementCover; rw [bind_eq_of_error (bin_none hb)]; exact Delta.refl s
  | some x =>
    cases hd : s.datas[x.data]? with
    | none =>
      unfold incrementCover
      rw [bind_eq_of_ok (bin_some hb), bind_eq_of_error (cdata_none hd)]
      exact Delta.refl s
    | some d => rw [incrementCover_eq hb hd]; exact .same rfl rfl rfl rfl

theorem setIntProperty_delta (o : Nat) (i v : Int) (p : IProp) (s : Heap) : Delta s (setIntProperty o i p v s).2 := by
  rcases h : setIntProperty o i p v s with ⟨r, s'⟩
  cases r with
  | error e => rw [setIntProperty_error h]; exact Delta.refl s
  | ok u =>
    obtain ⟨x, y, hx, hy, rfl⟩ := setIntProperty_ok.1 h
    exact .attrs o x y hx (objSet_core hy) rfl rfl rfl rfl

theorem createFileHandle_delta (o : Nat) (n : String) (s : Heap) : Delta s (createFileHandle o n s).2 := by
  rcases obj_cases s o with ⟨x, hx, ho⟩ | ⟨_, ho⟩
  · have e : createFileHandle o n s = _ := bind_eq_of_ok ho
    cases hc : x.cls <;> rw [hc] at e <;> try (rw [e]; exact Delta.refl s)
    cases hf : x.files.get? n with
    | some h => rw [hf] at e; rw [e]; exact Delta.refl s
    | none =>
      rw [hf] at e
      rw [e]
      exact .file o x n hx hc hf (modify_eq_set hx _) rfl rfl rfl
  · unfold createFileHandle
    rw [bind_eq_of_error ho]
    exact Delta.refl s

theorem createHistoryNode_delta (o : Nat) (now : Int) (p : Option Nat) (l ph : Option String) (k : KindVal) (s : Heap) :
    Delta s (createHistoryNode o now p l ph k s).2 := by
  rcases obj_cases s o with ⟨x, hx, ho⟩ | ⟨_, ho⟩
  · have e : createHistoryNode o now p l ph k s = _ := bind_eq_of_ok ho
    cases hc : x.cls <;> rw [hc] at e <;> rw [e] <;> try exact Delta.refl s
    exact .hist o x hx hc (modify_eq_set hx _) rfl rfl (by simp)
  · unfold createHistoryNode
    rw [bind_eq_of_error ho]
    exact Delta.refl s

theorem createInstanceCoverage_delta (o : Nat) (n : String) (s : Heap) : Delta s (createInstanceCoverage o n s).2 := by
  rcases obj_cases s o with ⟨x, hx, ho⟩ | ⟨_, ho⟩
  · have e : createInstanceCoverage o n s = _ := bind_eq_of_ok ho
    cases hc : x.cls <;> rw [hc] at e <;> rw [e] <;> try exact Delta.refl s
    exact .record o x n hx hc (modify_eq_set hx _) rfl rfl rfl
  · unfold createInstanceCoverage
    rw [bind_eq_of_error ho]
    exact Delta.refl s

theorem setNodeProperty_delta (n : Nat) (p : IProp) (v : Int) (s : Heap) : Delta s (setNodeProperty n p v s).2 := by
  cases hn : s.nodes[n]? with
  | none => unfold setNodeProperty; rw [bind_eq_of_error (node_none hn)]; exact Delta.refl s
  | some x =>
    have e : setNodeProperty n p v s = _ := bind_eq_of_ok (node_some hn)
    rw [e]
    cases hy : nodeSet x p v with
    | error er => simp only [bind_def, read]; exact Delta.refl s
    | ok y => simp only [bind_def, read, modNode]; exact .same rfl rfl rfl (by simp)

theorem setTestData_delta (n : Nat) (t : TestData) (s : Heap) : Delta s (setTestData n t s).2 := by
  cases hn : s.nodes[n]? with
  | none => unfold setTestData; rw [bind_eq_of_error (node_none hn)]; exact Delta.refl s
  | some x =>
    have e : setTestData n t s = _ := bind_eq_of_ok (node_some hn)
    rw [e]
    exact .same rfl rfl rfl (by simp [modNode])

theorem assignNode_delta (n : Nat) (a : NodeAttr) (s : Heap) : Delta s (assignNode n a s).2 := by
  cases hn : s.nodes[n]? with
  | none => unfold assignNode; rw [bind_eq_of_error (node_none hn)]; exact Delta.refl s
  | some x =>
    have e : assignNode n a s = _ := bind_eq_of_ok (node_some hn)
    rw [e]
    exact .same rfl rfl rfl (by simp [modNode])

theorem setComment_delta (o : Nat) (c : String) (s : Heap) : Delta s (setComment o c s).2 := by
  rcases obj_cases s o with ⟨x, hx, ho⟩ | ⟨_, ho⟩
  · have e : setComment o c s = _ := bind_eq_of_ok ho
    cases hc : x.cls <;> rw [hc] at e <;> rw [e] <;>
      first | exact Delta.refl s | exact Delta.modify (fun _ _ => rfl)
  · unfold setComment
    rw [bind_eq_of_error ho]
    exact Delta.refl s

/-- Everything a call can do. -/
theorem exec_delta (c : Call) (s : Heap) : Delta s (exec c s).2 := by
  cases hc : c.creates with
  | some on =>
    obtain ⟨o, n⟩ := on
    rcases exec_creates hc s with ⟨x, y, hx, hy, h⟩ | ⟨e, h⟩
    · rw [h]; exact .child o x y n hx hy rfl
    · rw [h]; exact Delta.refl s
  | none =>
  cases c with
  | newDb => exact .root rfl
  | createScope => cases hc
  | createInstance => cases hc
  | createCovergroup => cases hc
  | createToggle => cases hc
  | createCoverpoint => cases hc
  | createCross => cases hc
  | createCoverInstance => cases hc
  | newCoverData k f => exact .same rfl rfl rfl rfl
  | assignData d f v =>
    show Delta s ((Store.assignData d f v >>= fun _ => pure Ret.none) s).2
    rw [snd_bind_pure]
    cases hd : s.datas[d]? with
    | none => rw [assignData_none hd]; exact Delta.refl s
    | some x => rw [assignData_eq hd]; exact .same rfl rfl rfl rfl
  | createNextCover o n d src =>
    show Delta s ((Store.createNextCover o n d src >>= fun a => pure (Ret.cover a)) s).2
    rw [snd_bind_pure]; exact createNextCover_delta ..
  | createBin o n src a c k =>
    show Delta s ((Store.createBin o n src a c k >>= fun a => pure (Ret.cover a)) s).2
    rw [snd_bind_pure]; exact createBin_delta ..
  | incrementCover b a =>
    show Delta s ((Store.incrementCover b a >>= fun _ => pure Ret.none) s).2
    rw [snd_bind_pure]; exact incrementCover_delta ..
  | setIntProperty o i p v =>
    show Delta s ((Store.setIntProperty o i p v >>= fun _ => pure Ret.none) s).2
    rw [snd_bind_pure]; exact setIntProperty_delta ..
  | setStringProperty o p v =>
    show Delta s ((Store.setStringProperty o p v >>= fun _ => pure Ret.none) s).2
    rw [snd_bind_pure]
    rcases obj_cases s o with ⟨x, hx, ho⟩ | ⟨_, ho⟩
    · unfold Store.setStringProperty; rw [bind_eq_of_ok ho]; exact Delta.refl s
    · unfold Store.setStringProperty; rw [bind_eq_of_error ho]; exact Delta.refl s
  | setWeight o w =>
    show Delta s ((Store.setWeight o w >>= fun _ => pure Ret.none) s).2
    rw [snd_bind_pure]
    rcases obj_cases s o with ⟨x, hx, ho⟩ | ⟨_, ho⟩
    · unfold Store.setWeight; rw [bind_eq_of_ok ho]; exact Delta.modify (fun _ _ => rfl)
    · unfold Store.setWeight; rw [bind_eq_of_error ho]; exact Delta.refl s
  | setGoal o g =>
    show Delta s ((Store.setGoal o g >>= fun _ => pure Ret.none) s).2
    rw [snd_bind_pure]
    rcases obj_cases s o with ⟨x, hx, ho⟩ | ⟨_, ho⟩
    · unfold Store.setGoal; rw [bind_eq_of_ok ho]; exact Delta.modify (fun _ _ => rfl)
    · unfold Store.setGoal; rw [bind_eq_of_error ho]; exact Delta.refl s
  | setComment o c =>
    show Delta s ((Store.setComment o c >>= fun _ => pure Ret.none) s).2
    rw [snd_bind_pure]; exact setComment_delta ..
  | createFileHandle o n =>
    show Delta s ((Store.createFileHandle o n >>= fun a => pure (Ret.handle a)) s).2
    rw [snd_bind_pure]; exact createFileHandle_delta ..
  | createHistoryNode o now p l ph k =>
    show Delta s ((Store.createHistoryNode o now p l ph k >>= fun a => pure (Ret.node a)) s).2
    rw [snd_bind_pure]; exact createHistoryNode_delta ..
  | createInstanceCoverage o n =>
    show Delta s ((Store.createInstanceCoverage o n >>= fun a => pure (Ret.record a)) s).2
    rw [snd_bind_pure]; exact createInstanceCoverage_delta ..
  | setTestData n t =>
    show Delta s ((Store.setTestData n t >>= fun _ => pure Ret.none) s).2
    rw [snd_bind_pure]; exact setTestData_delta ..
  | setNodeProperty n p v =>
    show Delta s ((Store.setNodeProperty n p v >>= fun _ => pure Ret.none) s).2
    rw [snd_bind_pure]; exact setNodeProperty_delta ..
  | assignNode n a =>
    show Delta s ((Store.assignNode n a >>= fun _ => pure Ret.none) s).2
    rw [snd_bind_pure]; exact assignNode_delta ..

end Store
end Verif
