import Verif.StoreFrame
import Verif.StoreMergeOut
/-!
# Options of new objects (C139)

No new code.  The defaults that the specification names are those of the XML schema (`ucis.xsd:449-452`, `:475-480`, `:507-516`).
-/

namespace Verif

namespace Spec

/-- Objects with options. -/
inductive OptKind where
  | database | unit | instance | toggle | covergroup | coverpoint | cross
  deriving DecidableEq, Repr

/-- What a creation call makes, and the weight that it is given.  The types are those that `createScope` is documented for; for combinations of several types
nothing is said. -/
def newKind : Store.Call → Option (OptKind × Int)
  | .newDb => some (.database, 1)
  | .createScope _ _ _ w _ t _ =>
    if t = ST.COVERGROUP ∨ t = ST.COVERINSTANCE then some (.covergroup, w) else if t = ST.COVERPOINT then some (.coverpoint, w)
    else if t ∈ [ST.DU_MODULE, ST.DU_ARCH, ST.DU_PACKAGE, ST.DU_PROGRAM, ST.DU_INTERFACE] then some (.unit, w) else none
  | .createInstance _ _ _ w .. => some (.instance, w)
  | .createCovergroup _ _ _ w _ => some (.covergroup, w)
  | .createToggle .. => some (.toggle, 0)
  | .createCoverpoint _ _ _ w _ => some (.coverpoint, w)
  | .createCross _ _ _ w .. => some (.cross, w)
  | .createCoverInstance _ _ _ w _ => some (.covergroup, w)
  | _ => none

/-- The defaults of the XML schema, which it states for the options of covergroup instances, coverpoints and crosses. -/
def schemaDefault : OptKind → Store.IProp → Option Int
  | .covergroup, p =>
    match p with
    | .coverGoal | .scopeGoal => some 100
    | .cvgAtleast => some 1
    | .cvgAutobinmax => some 64
    | .cvgDetectoverlap | .cvgPerinstance | .cvgMergeinstances => some 0
    | _ => none
  | .coverpoint, p =>
    match p with
    | .coverGoal | .scopeGoal => some 100
    | .cvgAtleast => some 1
    | .cvgAutobinmax => some 64
    | .cvgDetectoverlap => some 0
    | _ => none
  | .cross, p =>
    match p with
    | .coverGoal | .scopeGoal => some 100
    | .cvgAtleast => some 1
    | _ => none
  | _, _ => none

/-- The values that the code starts with. -/
def initially (w : Int) : OptKind → Store.IProp → Option Int
  | _, .scopeWeight => some w
  | _, .scopeSourceType | _, .scopeIsUnderDu => some 0
  | .instance, .coverGoal | .instance, .scopeGoal | .toggle, .coverGoal | .toggle, .scopeGoal => some 100
  | _, .coverGoal | _, .scopeGoal => some (-1)
  | .covergroup, .cvgAtleast => some 0
  | .coverpoint, .cvgAtleast | .cross, .cvgAtleast => some 1
  | .covergroup, .cvgAutobinmax | .coverpoint, .cvgAutobinmax | .cross, .cvgAutobinmax => some 64
  | .covergroup, .cvgDetectoverlap | .coverpoint, .cvgDetectoverlap | .cross, .cvgDetectoverlap => some 0
  | .covergroup, .cvgStrobe | .coverpoint, .cvgStrobe | .cross, .cvgStrobe => some 0
  | .covergroup, .cvgPerinstance | .covergroup, .cvgMergeinstances => some 1
  | _, _ => none

/-- The call sets the property of the object; the two names of the goal mean one property. -/
def SetsProp (o : Nat) (p : Store.IProp) : Store.Call → Prop
  | .setIntProperty o' _ p' _ => o' = o ∧ (p' = p ∨ GoalName p' ∧ GoalName p)
  | .setWeight o' _ => o' = o ∧ p = .scopeWeight
  | .setGoal o' _ => o' = o ∧ GoalName p
  | _ => False

/-- The call sets the comment of the object. -/
def SetsComment (o : Nat) : Store.Call → Prop
  | .setComment o' _ => o' = o
  | _ => False

end Spec

namespace Store
open Spec

/-! ## Calls that keep options -/

/-- What `getIntProperty` looks at, except for statement indices. -/
def optsOf (x : Obj) : Cls × Int × Int × Int × Int × Int × Int × Bool × Int × Bool × Bool :=
  (x.cls, x.weight, x.goal, x.sourceType, x.underDu, x.atLeast, x.autoBinMax, x.detectOverlap, x.strobe, x.perInstance, x.mergeInstances)

section
variable {γ : Type} (v : Obj → γ)

/-- Options of the objects that exist are kept. -/
abbrev KeepsV {α : Type} (act : M α) : Prop := Keeps (fun s => s.objs.map v) (fun _ => False) act

theorem keepsV_modObj {o : Nat} {f : Obj → Obj} (h : ∀ x, v (f x) = v x) : KeepsV v (modObj o f) := by
  refine .of_same (fun s => ?_)
  show (s.objs.modify o f).map v = s.objs.map v
  apply List.ext_getElem?
  intro i
  rw [List.getElem?_map, List.getElem?_map, List.getElem?_modify]
  cases s.objs[i]? with
  | none => rfl
  | some x => by_cases ho : o = i <;> simp [ho, h]

theorem keepsV_alloc (y : Obj) : KeepsV v (allocObj y) := by
  intro s i x _ hx
  show ((s.objs ++ [y]).map v)[i]? = _
  rw [List.map_append]
  exact append_old hx

theorem keepsV_attach (hc : ∀ x l, v { x with children := l } = v x) {o : Nat} (y : Obj) : KeepsV v (attach o y) :=
  .bind (keepsV_alloc v y) (fun _ => .bind (keepsV_modObj v (fun _ => hc _ _)) (fun _ => .pure _))

/-- The parts of an object that calls other than those for options change. -/
structure Blind : Prop where
  children : ∀ x l, v { x with children := l } = v x
  items : ∀ x l, v { x with items := l } = v x
  stmts : ∀ x l, v { x with stmts := l } = v x
  files : ∀ x l, v { x with files := l } = v x
  hist : ∀ x l, v { x with hist := l } = v x
  covInsts : ∀ x l, v { x with covInsts := l } = v x

variable {v}

theorem Blind.next (b : Blind v) {o : Nat} (n : String) (d : Nat) (src : Option SrcInfo) : KeepsV v (createNextCover o n d src) := by
  refine .bind (.obj o) (fun x => .bind (.cdata d) (fun _ => ?_))
  have h1 : KeepsV v (modObj o (fun x => { x with stmts := x.stmts ++ [⟨n, d, 0⟩] }) >>= fun _ => (pure (.index x.stmts.length) : M Cover)) :=
    .bind (keepsV_modObj v (fun _ => b.stmts _ _)) (fun _ => .pure _)
  have h2 : KeepsV v (allocBin ⟨n, d, src⟩ >>= fun b => modObj o (fun x => { x with items := x.items ++ [b] }) >>= fun _ => (pure (.bin b) : M Cover)) :=
    .bind (.of_same (fun _ => rfl)) (fun _ => .bind (keepsV_modObj v (fun _ => b.items _ _)) (fun _ => .pure _))
  cases x.cls <;> first | exact h1 | exact h2

theorem Blind.scope (b : Blind v) {o : Nat} (n : String) (src : Option SrcInfo) (w so : Int) (t : Nat) (f : Int) :
    KeepsV v (createScope o n src w so t f) := by
  refine .bind (.obj o) (fun x => ?_)
  cases x.cls <;> simp only <;> (repeat' split) <;> first | exact keepsV_attach v b.children _ | exact .fail _

/-- Calls that are not for options. -/
def optionCall : Call → Bool
  | .setIntProperty .. | .setWeight .. | .setGoal .. | .setComment .. => true
  | _ => false

theorem Blind.exec (b : Blind v) {c : Call} (hc : optionCall c = false) : KeepsV v (exec c) := by
  have at_ : ∀ (o : Nat) (y : Obj), KeepsV v (attach o y) := fun o y => keepsV_attach v b.children y
  have ad : ∀ (d : Nat) (f : DField) (w : Int), KeepsV v (assignData d f w) := fun d f w => .bind (.cdata d) (fun _ => .of_same (fun _ => rfl))
  cases c with
  | newDb => exact .bind (keepsV_alloc v _) (fun _ => .pure _)
  | createScope o n src w so t f => exact .bind (b.scope n src w so t f) (fun _ => .pure _)
  | createInstance o n src w so t du f =>
    exact .bind (act := Store.createInstance o n src w so t du f) (.bind (.obj o) (fun _ => at_ _ _)) (fun _ => .pure _)
  | createCovergroup o n src w so => exact .bind (act := Store.createCovergroup o n src w so) (.bind (.obj o) (fun _ => at_ _ _)) (fun _ => .pure _)
  | createToggle o n f =>
    refine .bind (act := Store.createToggle o n f) (.bind (.obj o) (fun x => ?_)) (fun _ => .pure _)
    cases x.cls <;> first | exact at_ _ _ | exact .fail _
  | createCoverpoint o n src w so =>
    refine .bind (act := Store.createCoverpoint o n src w so) (.bind (.obj o) (fun x => ?_)) (fun _ => .pure _)
    cases x.cls <;> first | exact at_ _ _ | exact .fail _
  | createCross o n src w so cps =>
    refine .bind (act := Store.createCross o n src w so cps) (.bind (.obj o) (fun x => ?_)) (fun _ => .pure _)
    cases x.cls <;> first | exact at_ _ _ | exact .fail _
  | createCoverInstance o n src w so =>
    refine .bind (act := Store.createCoverInstance o n src w so) (.bind (.obj o) (fun x => ?_)) (fun _ => .pure _)
    cases x.cls <;> first | exact b.scope _ _ _ _ _ _ | exact .fail _
  | newCoverData k f => exact .of_same (fun _ => rfl)
  | assignData d f w => exact .bind (ad d f w) (fun _ => .pure _)
  | createNextCover o n d src => exact .bind (b.next n d src) (fun _ => .pure _)
  | createBin o n src a c k =>
    refine .bind (act := Store.createBin o n src a c k) (.bind (.obj o) (fun x => ?_)) (fun _ => .pure _)
    have h : KeepsV v (allocData { kind := k, flags := binFlags, count := 0, goal := 0, weight := 0, atLeast := none } >>= fun d =>
        assignData d .data c >>= fun _ => assignData d .atLeast a >>= fun _ => assignData d .goal 1 >>= fun _ => assignData d .weight 1 >>= fun _ =>
        createNextCover o n d src) :=
      .bind (.of_same (fun _ => rfl)) (fun d => .bind (ad _ _ _) (fun _ => .bind (ad _ _ _) (fun _ => .bind (ad _ _ _)
        (fun _ => .bind (ad _ _ _) (fun _ => b.next n d src)))))
    cases x.cls <;> first | exact h | exact .fail _
  | incrementCover i a =>
    exact .bind (act := Store.incrementCover i a) (.bind (.bin i) (fun _ => .bind (.cdata _) (fun _ => ad _ _ _))) (fun _ => .pure _)
  | setIntProperty o i p w => cases hc
  | setStringProperty o p w => exact .bind (act := Store.setStringProperty o p w) (.bind (.obj o) (fun _ => .pure _)) (fun _ => .pure _)
  | setWeight o w => cases hc
  | setGoal o w => cases hc
  | setComment o w => cases hc
  | createFileHandle o n =>
    refine .bind (act := Store.createFileHandle o n) (.bind (.obj o) (fun x => ?_)) (fun _ => .pure _)
    cases x.cls <;> try exact .fail _
    cases x.files.get? n with
    | some h => exact .pure _
    | none =>
      intro s
      exact keepsV_modObj v (f := fun x => { x with files := x.files.set n s.handles.length }) (fun _ => b.files _ _) s
  | createHistoryNode o now p l ph k =>
    refine .bind (act := Store.createHistoryNode o now p l ph k) (.bind (.obj o) (fun x => ?_)) (fun _ => .pure _)
    cases x.cls <;> try exact .fail _
    intro s
    exact keepsV_modObj v (f := fun x => { x with hist := x.hist ++ [s.nodes.length] }) (fun _ => b.hist _ _) s
  | createInstanceCoverage o n =>
    refine .bind (act := Store.createInstanceCoverage o n) (.bind (.obj o) (fun x => ?_)) (fun _ => .pure _)
    cases x.cls <;> try exact .fail _
    exact .bind (keepsV_modObj v (fun _ => b.covInsts _ _)) (fun _ => .pure _)
  | assignNode n a => exact .bind (.bind (.node n) (fun _ => .of_same (fun _ => rfl))) (fun _ => .pure _)
  | setTestData n t => exact .bind (.bind (.node n) (fun _ => .of_same (fun _ => rfl))) (fun _ => .pure _)
  | setNodeProperty n p w =>
    exact .bind (.bind (.node n) (fun _ => .bind (.read _) (fun _ => .of_same (fun _ => rfl)))) (fun _ => .pure _)

end

theorem blind_opts : Blind optsOf := ⟨fun _ _ => rfl, fun _ _ => rfl, fun _ _ => rfl, fun _ _ => rfl, fun _ _ => rfl, fun _ _ => rfl⟩

theorem blind_comment : Blind Obj.comment := ⟨fun _ _ => rfl, fun _ _ => rfl, fun _ _ => rfl, fun _ _ => rfl, fun _ _ => rfl, fun _ _ => rfl⟩

theorem Blind.obj {γ : Type} {v : Obj → γ} (b : Blind v) {c : Call} (hc : optionCall c = false) {s : Heap} {o : Nat} {x : Obj} (h : s.objs[o]? = some x) :
    ∃ y, (Store.exec c s).2.objs[o]? = some y ∧ v y = v x := by
  have := b.exec hc s o (v x) (fun h => h) (by simp [h])
  simpa using this

/-- Reading a property depends on the options only. -/
theorem objGet_opts {x y : Obj} (h : optsOf y = optsOf x) (i : Int) {p : IProp} (hp : p ≠ .stmtIndex) : objGet y i p = objGet x i p := by
  simp only [optsOf, Prod.mk.injEq] at h
  obtain ⟨h1, h2, h3, h4, h5, h6, h7, h8, h9, h10, h11⟩ := h
  unfold objGet
  rw [h1]
  cases p <;> simp only [h2, h3, h4, h5] <;> cases x.cls <;>
    simp_all [ucisGet, scopeGet, instGet, covergroupGet, cvgGet]

/-- One call that does not set the property. -/
theorem prop_step {c : Call} {s : Heap} {o : Nat} {x : Obj} (hx : s.objs[o]? = some x) {p : IProp} (hp : p ≠ .stmtIndex) (hc : ¬ SetsProp o p c) (i : Int) :
    (∃ y, (exec c s).2.objs[o]? = some y) ∧ (getIntProperty o i p (exec c s).2).1 = (getIntProperty o i p s).1 := by
  have hset : ∀ o' i' p' w, ¬ (o' = o ∧ (p' = p ∨ GoalName p' ∧ GoalName p)) →
      (∃ y, (setIntProperty o' i' p' w s).2.objs[o]? = some y) ∧ (getIntProperty o i p (setIntProperty o' i' p' w s).2).1 = (getIntProperty o i p s).1 := by
    intro o' i' p' w hn
    rcases hr : setIntProperty o' i' p' w s with ⟨r, s'⟩
    cases r with
    | error e =>
      have := C50_raise (c := .setIntProperty o' i' p' w) (s := s) (e := e) (s' := s') (by
        show (Store.setIntProperty o' i' p' w >>= fun _ => (pure Ret.none : M Ret)) s = _
        rw [bind_def, hr])
      rw [this]
      exact ⟨⟨x, hx⟩, rfl⟩
    | ok u =>
      obtain ⟨f1, f2, _, f4, _⟩ := C51_frame hr
      obtain ⟨y, hy, _⟩ := f4 o x hx
      refine ⟨⟨y, hy⟩, ?_⟩
      by_cases ho : o = o'
      · subst ho
        exact f2 i p (fun e => hn ⟨rfl, .inl e.symm⟩) (fun e => hn ⟨rfl, .inr e⟩)
      · exact f1 o i p ho
  have hget : ∀ s' y, s'.objs[o]? = some y → optsOf y = optsOf x → (getIntProperty o i p s').1 = (getIntProperty o i p s).1 := by
    intro s' y hy he
    rw [getIntProperty_eq hy, getIntProperty_eq hx, objGet_opts he i hp]
  have hw : ∀ {α : Type} (act : M α) (r : Ret), ((act >>= fun _ => (pure r : M Ret)) s).2 = (act s).2 := by
    intro α act r
    rw [bind_def]
    rcases act s with ⟨_ | _, _⟩ <;> rfl
  cases hoc : optionCall c with
  | false =>
    obtain ⟨y, hy, he⟩ := blind_opts.obj hoc hx
    exact ⟨⟨y, hy⟩, hget _ y hy he⟩
  | true =>
    cases c <;> try (exfalso; revert hoc; simp [optionCall]; done)
    case setIntProperty o' i' p' w =>
      rw [show (exec (.setIntProperty o' i' p' w) s).2 = _ from hw (Store.setIntProperty o' i' p' w) .none]
      exact hset o' i' p' w hc
    case setWeight o' w =>
      rw [show (exec (.setWeight o' w) s).2 = _ from hw (Store.setWeight o' w) .none]
      cases ho : s.objs[o']? with
      | none =>
        have e : Store.setWeight o' w s = (.error .attributeError, s) := by
          unfold Store.setWeight; rw [bind_def, obj_none ho]
        rw [e]; exact ⟨⟨x, hx⟩, rfl⟩
      | some z =>
        rw [(C51_setWeight_setGoal ho w 0).1]
        refine hset _ _ _ _ (fun ⟨h1, h2⟩ => hc ⟨h1, ?_⟩)
        rcases h2 with h2 | ⟨h2, _⟩
        · exact h2.symm
        · rcases h2 with h2 | h2 <;> cases h2
    case setGoal o' w =>
      rw [show (exec (.setGoal o' w) s).2 = _ from hw (Store.setGoal o' w) .none]
      cases ho : s.objs[o']? with
      | none =>
        have e : Store.setGoal o' w s = (.error .attributeError, s) := by
          unfold Store.setGoal; rw [bind_def, obj_none ho]
        rw [e]; exact ⟨⟨x, hx⟩, rfl⟩
      | some z =>
        rw [(C51_setWeight_setGoal ho w 0).2]
        refine hset _ _ _ _ (fun ⟨h1, h2⟩ => hc ⟨h1, ?_⟩)
        rcases h2 with h2 | ⟨_, h2⟩
        · rw [← h2]; first | exact .inl rfl | exact .inr rfl
        · exact h2
    case setComment o' w =>
      rw [show (exec (.setComment o' w) s).2 = _ from hw (Store.setComment o' w) .none]
      have key : KeepsV optsOf (Store.setComment o' w) := by
        refine .bind (.obj o') (fun z => ?_)
        cases z.cls <;> first | exact keepsV_modObj optsOf (fun _ => rfl) | exact .fail _
      have := key s o (optsOf x) (fun h => h) (by simp [hx])
      obtain ⟨y, hy, he⟩ : ∃ y, (Store.setComment o' w s).2.objs[o]? = some y ∧ optsOf y = optsOf x := by simpa using this
      exact ⟨⟨y, hy⟩, hget _ y hy he⟩

theorem comment_step {c : Call} {s : Heap} {o : Nat} {x : Obj} (hx : s.objs[o]? = some x) (hc : ¬ SetsComment o c) :
    ∃ y, (exec c s).2.objs[o]? = some y ∧ y.comment = x.comment ∧ y.cls = x.cls := by
  obtain ⟨y, hy, hcl⟩ : ∃ y, (exec c s).2.objs[o]? = some y ∧ y.cls = x.cls := by
    obtain ⟨y, hy, h⟩ := (exec_evolves c s).objs o x hx
    exact ⟨y, hy, h.cls⟩
  have det : (∃ z, (exec c s).2.objs[o]? = some z ∧ z.comment = x.comment) → ∃ y, (exec c s).2.objs[o]? = some y ∧ y.comment = x.comment ∧ y.cls = x.cls := by
    rintro ⟨z, hz, he⟩
    cases hy.symm.trans hz
    exact ⟨_, hy, he, hcl⟩
  apply det
  have fin : KeepsV Obj.comment (exec c) → ∃ z, (exec c s).2.objs[o]? = some z ∧ z.comment = x.comment := by
    intro h
    simpa using h s o x.comment (fun h => h) (by simp [hx])
  cases hoc : optionCall c with
  | false => exact blind_comment.obj hoc hx
  | true =>
    cases c <;> try (exfalso; revert hoc; simp [optionCall]; done)
    case setIntProperty o' i' p' w =>
      rcases hr : setIntProperty o' i' p' w s with ⟨r, s'⟩
      have e : (exec (.setIntProperty o' i' p' w) s).2 = s' := by
        show ((Store.setIntProperty o' i' p' w >>= fun _ => (pure Ret.none : M Ret)) s).2 = _
        rw [bind_def, hr]
        cases r <;> rfl
      rw [e]
      cases r with
      | error e' =>
        have := C50_raise (c := .setIntProperty o' i' p' w) (s := s) (e := e') (s' := s') (by
          show (Store.setIntProperty o' i' p' w >>= fun _ => (pure Ret.none : M Ret)) s = _
          rw [bind_def, hr])
        rw [this]
        exact ⟨x, hx, rfl⟩
      | ok u =>
        obtain ⟨x1, y1, hx1, hy1, rfl⟩ := setIntProperty_ok.1 hr
        by_cases ho : o = o'
        · subst ho
          cases hx.symm.trans hx1
          refine ⟨y1, by show (s.objs.set o y1)[o]? = _; rw [get_set hx]; simp, ?_⟩
          rcases objSet_inv hy1 with ⟨_, rfl⟩ | ⟨_, rfl⟩ | ⟨_, rfl⟩ | ⟨_, ⟨_, rfl⟩ | ⟨_, rfl⟩ | ⟨_, rfl⟩ | ⟨_, rfl⟩⟩ | ⟨_, ⟨_, rfl⟩ | ⟨_, rfl⟩⟩ | ⟨_, _, _, _, rfl⟩ <;> rfl
        · exact ⟨x, by show (s.objs.set o' y1)[o]? = _; rw [List.getElem?_set_ne (Ne.symm ho)]; exact hx, rfl⟩
    case setWeight o' w =>
      exact fin (.bind (act := Store.setWeight o' w) (.bind (.obj o') (fun _ => keepsV_modObj _ (fun _ => rfl))) (fun _ => .pure _))
    case setGoal o' w =>
      exact fin (.bind (act := Store.setGoal o' w) (.bind (.obj o') (fun _ => keepsV_modObj _ (fun _ => rfl))) (fun _ => .pure _))
    case setComment o' w =>
      have ho : ¬ Receiver (.setComment o' w) o := fun e => hc (show o' = o from (show o = o' from e).symm)
      exact ⟨x, (C85_frame _ s).1 o x ho hx, rfl⟩

/-! ## Which properties can be read -/

/-- **C51.** Which properties can be read: those that can be set, and whether a scope is under a design unit, which can only be read.  Reading any other raises,
the statement index out of range as an index error and the rest as not implemented, and nothing changes. -/
theorem C51_readable {s : Heap} {o : Nat} {x : Obj} (hx : s.objs[o]? = some x) (i v : Int) (p : IProp) :
    ((∃ r, getIntProperty o i p s = (.ok r, s)) ↔ p = .scopeIsUnderDu ∨ ∃ s', setIntProperty o i p v s = (.ok (), s')) ∧
    ((∃ r, getIntProperty o i p s = (.ok r, s)) ∨
      getIntProperty o i p s = (.error (if p = .stmtIndex ∧ (x.cls = .inst ∨ x.cls = .toggle) then .indexError else .unimpl), s)) := by
  have hs : (∃ s', setIntProperty o i p v s = (.ok (), s')) ↔ ∃ y, objSet x i p v = .ok y := by
    constructor
    · rintro ⟨s', h⟩
      obtain ⟨x1, y, h1, h2, _⟩ := setIntProperty_ok.1 h
      cases hx.symm.trans h1
      exact ⟨y, h2⟩
    · rintro ⟨y, h⟩
      exact ⟨_, setIntProperty_ok.2 ⟨x, y, hx, h, rfl⟩⟩
  rw [hs, getIntProperty_eq hx]
  cases hc : x.cls <;> cases p <;>
    simp [objGet, objSet, hc, ucisGet, scopeGet, instGet, covergroupGet, cvgGet, scopeSet, instSet, covergroupSet, cvgSet]
  all_goals
    cases hk : pyPos x.stmts.length i with
    | none => simp
    | some k => simp [pyPos_lt hk]

/-- A database and a covergroup: what can be read differs. -/
example : ∃ s x y, s.objs[0]? = some x ∧ s.objs[1]? = some y ∧ (getIntProperty 1 0 .cvgPerinstance s).1 = .ok 1 ∧
    (getIntProperty 0 0 .cvgPerinstance s).1 = .error .unimpl ∧ (getIntProperty 0 0 .numTests s).1 = .error .unimpl :=
  ⟨(exec (.createCovergroup 0 "cg" none 1 0) (exec .newDb ⟨[], [], [], [], []⟩).2).2, _, _, rfl, rfl, rfl, rfl, rfl⟩

/-! ## New objects -/

/-- The class of the objects of a kind. -/
def _root_.Verif.Spec.OptKind.cls : OptKind → Cls
  | .database => .db
  | .unit => .unit
  | .instance => .inst
  | .toggle => .toggle
  | .covergroup => .covergroup
  | .coverpoint => .coverpoint
  | .cross => .cross

/-- An object has the initial values. -/
def NewlyMade (k : OptKind) (w : Int) (y : Obj) : Prop :=
  y.comment = "" ∧ y.cls = k.cls ∧ ∀ i p, p ≠ .stmtIndex → objGet y i p = (initially w k p).elim (.error .unimpl) .ok

/-- The object that a creation call makes. -/
theorem new_obj {c : Call} {k : OptKind} {w : Int} (hk : newKind c = some (k, w)) {s s' : Heap} {n : Nat} (h : exec c s = (.ok (.scope n), s')) :
    ∃ y, s'.objs[n]? = some y ∧ NewlyMade k w y := by
  have inst : ∀ o a b d e f g, NewlyMade .instance w (memInstance o a b w d e f g) := by
    intro o a b d e f g
    refine ⟨rfl, rfl, fun i p hp => ?_⟩
    cases p <;> first | rfl | exact absurd rfl hp
  have tog : ∀ o a b, NewlyMade .toggle 0 (memToggle o a b) := by
    intro o a b
    refine ⟨rfl, rfl, fun i p hp => ?_⟩
    cases p <;> first | rfl | exact absurd rfl hp
  have grp : ∀ o a b d t, NewlyMade .covergroup w { memCovergroup o a b w d with stype := t } := by
    intro o a b d t
    refine ⟨rfl, rfl, fun i p hp => ?_⟩
    cases p <;> rfl
  have grp' : ∀ o a b d, NewlyMade .covergroup w (memCovergroup o a b w d) := fun o a b d => grp o a b d ST.COVERGROUP
  have pt : ∀ o a b d, NewlyMade .coverpoint w (memCoverpoint o a b w d) := by
    intro o a b d
    refine ⟨rfl, rfl, fun i p hp => ?_⟩
    cases p <;> rfl
  have cr : ∀ o a b d e, NewlyMade .cross w (memCross o a b w d e) := by
    intro o a b d e
    refine ⟨rfl, rfl, fun i p hp => ?_⟩
    cases p <;> rfl
  have un : ∀ o a b d e f, NewlyMade .unit w (memScope .unit (some o) a b w d e f) := by
    intro o a b d e f
    refine ⟨rfl, rfl, fun i p hp => ?_⟩
    cases p <;> rfl
  have fin : ∀ {act : M Nat}, (act >>= fun a => (pure (Ret.scope a) : M Ret)) s = (.ok (.scope n), s') → act s = (.ok n, s') := by
    intro act e
    rw [bind_def] at e
    rcases ha : act s with ⟨_ | m, t⟩ <;> rw [ha] at e <;> cases e
    rfl
  have att : ∀ {o : Nat} {x Y : Obj}, s.objs[o]? = some x → attach o Y s = (.ok n, s') → NewlyMade k w Y → ∃ y, s'.objs[n]? = some y ∧ NewlyMade k w y := by
    intro o x Y hx e hY
    rw [attach_eq] at e
    cases e
    exact ⟨Y, withChild_new hx, hY⟩
  have ob : ∀ {o : Nat} {f : Obj → M Nat}, (Store.obj o >>= f) s = (.ok n, s') → ∃ x, s.objs[o]? = some x ∧ f x s = (.ok n, s') := by
    intro o f e
    rw [bind_def] at e
    rcases obj_cases s o with ⟨x, hx, h⟩ | ⟨_, h⟩ <;> rw [h] at e
    · exact ⟨x, hx, e⟩
    · cases e
  have sc : ∀ {o : Nat} {a b d t f}, createScope o a b w d t f s = (.ok n, s') →
      newKind (.createScope o a b w d t f) = some (k, w) → ∃ y, s'.objs[n]? = some y ∧ NewlyMade k w y := by
    intro o a b d t f e ht
    obtain ⟨x, hx, e⟩ := ob e
    have hg : maskHit ST.COVERGROUP ST.COVERGROUP = true ∧ maskHit ST.COVERINSTANCE ST.COVERGROUP = false ∧ maskHit ST.COVERPOINT ST.COVERGROUP = false ∧
        ST.duAny ST.COVERGROUP = false ∧ ST.duAny ST.COVERINSTANCE = false ∧ ST.duAny ST.COVERPOINT = false := by decide
    have hu : ∀ t ∈ [ST.DU_MODULE, ST.DU_ARCH, ST.DU_PACKAGE, ST.DU_PROGRAM, ST.DU_INTERFACE], maskHit t ST.COVERGROUP = false ∧ ST.duAny t = true := by decide
    have hn : ST.COVERINSTANCE ≠ ST.COVERGROUP ∧ ST.COVERPOINT ≠ ST.COVERGROUP ∧ ST.COVERPOINT ≠ ST.COVERINSTANCE := by decide
    obtain ⟨g1, g2, g3, g4, g5, g6⟩ := hg
    obtain ⟨n1, n2, n3⟩ := hn
    simp only [newKind] at ht
    split at ht
    · rename_i h1
      cases ht
      rcases h1 with rfl | rfl
      · cases hcl : x.cls <;> simp only [hcl, g1, g4, if_true, Bool.false_eq_true, if_false] at e <;> exact att hx e (grp' ..)
      · cases hcl : x.cls <;> simp only [hcl, g2, g5, if_true, Bool.false_eq_true, if_false, n1] at e <;> first | exact att hx e (grp ..) | cases e
    · split at ht
      · rename_i h1
        cases ht
        subst h1
        cases hcl : x.cls <;> simp only [hcl, g3, g6, if_true, Bool.false_eq_true, if_false, n2, n3] at e <;> first | exact att hx e (pt ..) | cases e
      · split at ht
        · rename_i h1
          cases ht
          obtain ⟨u1, u2⟩ := hu t h1
          cases hcl : x.cls <;> simp only [hcl, u1, u2, if_true, Bool.false_eq_true, if_false] at e <;> first | exact att hx e (un ..) | cases e
        · cases ht
  cases c <;> try cases hk
  case newDb =>
    have e := fin (act := Store.newDb) h
    cases e
    refine ⟨memUcis, by simp, rfl, rfl, fun i p hp => ?_⟩
    cases p <;> rfl
  case createScope o a b v d t f =>
    have : v = w := by
      simp only [newKind] at hk
      repeat' split at hk
      all_goals cases hk; try rfl
    subst this
    exact sc (fin (act := Store.createScope o a b v d t f) h) hk
  case createInstance o a b d t du f =>
    obtain ⟨x, hx, e⟩ := ob (fin (act := Store.createInstance o a b w d t du f) h)
    exact att hx e (inst ..)
  case createCovergroup o a b d =>
    obtain ⟨x, hx, e⟩ := ob (fin (act := Store.createCovergroup o a b w d) h)
    exact att hx e (grp' ..)
  case createToggle o a f =>
    obtain ⟨x, hx, e⟩ := ob (fin (act := Store.createToggle o a f) h)
    cases hcl : x.cls <;> rw [hcl] at e <;> first | exact att hx e (tog ..) | cases e
  case createCoverpoint o a b d =>
    obtain ⟨x, hx, e⟩ := ob (fin (act := Store.createCoverpoint o a b w d) h)
    cases hcl : x.cls <;> rw [hcl] at e <;> first | exact att hx e (pt ..) | cases e
  case createCross o a b d cps =>
    obtain ⟨x, hx, e⟩ := ob (fin (act := Store.createCross o a b w d cps) h)
    cases hcl : x.cls <;> rw [hcl] at e <;> first | exact att hx e (cr ..) | cases e
  case createCoverInstance o a b d =>
    obtain ⟨x, hx, e⟩ := ob (fin (act := Store.createCoverInstance o a b w d) h)
    cases hcl : x.cls <;> rw [hcl] at e <;> first | exact sc e (by simp [newKind]) | cases e

/-! ## C139 -/

/-- Properties keep their values while they are not set. -/
theorem prop_run {cs : List Call} {s : Heap} {o : Nat} {x : Obj} (hx : s.objs[o]? = some x) {p : IProp} (hp : p ≠ .stmtIndex)
    (hc : ∀ c ∈ cs, ¬ SetsProp o p c) (i : Int) : (getIntProperty o i p (run s cs)).1 = (getIntProperty o i p s).1 := by
  induction cs generalizing s x with
  | nil => rfl
  | cons c t ih =>
    obtain ⟨⟨y, hy⟩, h⟩ := prop_step hx hp (hc c (by simp)) i
    exact (ih hy (fun c hc' => hc c (by simp [hc']))).trans h

/-- **C139** (partial) The options of a new object, as long as they are not set: the weight given at creation, and for the others the values in `initially`;
all other properties cannot be read.  Full statement: the values are those of the XML schema; see `C139_schema_partial`. -/
theorem C139_options_partial {c : Call} {k : OptKind} {w : Int} (hk : newKind c = some (k, w)) {cs cs' : List Call} {n : Nat}
    (h : (exec c (run Heap.empty cs)).1 = .ok (.scope n)) {p : IProp} (hp : p ≠ .stmtIndex) (hno : ∀ c' ∈ cs', ¬ SetsProp n p c') (i : Int) :
    (getIntProperty n i p (run Heap.empty (cs ++ c :: cs'))).1 = (initially w k p).elim (.error .unimpl) .ok := by
  obtain ⟨y, hy, _, _, h3⟩ := new_obj hk (s := run Heap.empty cs) (s' := (exec c (run Heap.empty cs)).2) (n := n) (by rw [← h])
  have e : run Heap.empty (cs ++ c :: cs') = run (exec c (run Heap.empty cs)).2 cs' := by rw [run_append]; rfl
  rw [e, prop_run hy hp hno, getIntProperty_eq hy]
  exact h3 i p hp

/-- **C139** for the comment, which covergroups, coverpoints and crosses have. -/
theorem C139_comment {c : Call} {k : OptKind} {w : Int} (hk : newKind c = some (k, w)) {cs cs' : List Call} {n : Nat}
    (h : (exec c (run Heap.empty cs)).1 = .ok (.scope n)) (hno : ∀ c' ∈ cs', ¬ SetsComment n c') :
    (getComment n (run Heap.empty (cs ++ c :: cs'))).1 = if k ∈ [.covergroup, .coverpoint, .cross] then .ok "" else .error .attributeError := by
  obtain ⟨y, hy, h1, h2, _⟩ := new_obj hk (s := run Heap.empty cs) (s' := (exec c (run Heap.empty cs)).2) (n := n) (by rw [← h])
  have e : run Heap.empty (cs ++ c :: cs') = run (exec c (run Heap.empty cs)).2 cs' := by rw [run_append]; rfl
  rw [e]
  have key : ∀ (l : List Call) (s : Heap) (x : Obj), s.objs[n]? = some x → (∀ c' ∈ l, ¬ SetsComment n c') → x.comment = "" → x.cls = k.cls →
      ∃ z, (run s l).objs[n]? = some z ∧ z.comment = "" ∧ z.cls = k.cls := by
    intro l
    induction l with
    | nil => exact fun s x hx _ h1 h2 => ⟨x, hx, h1, h2⟩
    | cons c t ih =>
      intro s x hx hc h1 h2
      obtain ⟨y, hy, e1, e2⟩ := comment_step hx (hc c (by simp))
      exact ih _ y hy (fun c hc' => hc c (by simp [hc'])) (e1.trans h1) (e2.trans h2)
  obtain ⟨z, hz, z1, z2⟩ := key cs' _ y hy hno h1 h2
  unfold getComment
  rw [bind_def, obj_some hz]
  simp only [z2]
  cases k <;> simp [OptKind.cls, z1, fail, pure_def]

/-- **C139**, where the values are those of the XML schema: except for the goal of all three kinds, and for the required hits, the option `per_instance` and the
option `merge_instances` of covergroups. -/
theorem C139_schema_partial {c : Call} {k : OptKind} {w : Int} (hk : newKind c = some (k, w)) {cs cs' : List Call} {n : Nat}
    (h : (exec c (run Heap.empty cs)).1 = .ok (.scope n)) {p : IProp} (hno : ∀ c' ∈ cs', ¬ SetsProp n p c') (i : Int) {v : Int}
    (hv : schemaDefault k p = some v) :
    (getIntProperty n i p (run Heap.empty (cs ++ c :: cs'))).1 = .ok v ↔
      ¬ GoalName p ∧ ¬ (k = .covergroup ∧ p ∈ [IProp.cvgAtleast, .cvgPerinstance, .cvgMergeinstances]) := by
  have hp : p ≠ .stmtIndex := by rintro rfl; cases k <;> cases hv
  rw [C139_options_partial hk h hp hno i]
  cases k <;> cases p <;> simp only [schemaDefault, reduceCtorEq, Option.some.injEq] at hv <;> subst hv <;> simp [initially, GoalName]

/-- A database with an instance, a covergroup in it, a coverpoint, and a cross; afterwards options are set, but not those of the covergroup. -/
def exDefaults : List Call :=
  [.newDb, .createInstance 0 "i" none 1 0 ST.INSTANCE none 0, .createCovergroup 1 "g" none 3 0]

/-- Calls that set options of other objects, and others of the covergroup. -/
def exLater : List Call :=
  [.createCoverpoint 2 "p" none 1 0, .setGoal 3 90, .setIntProperty 2 0 .cvgAtleast 4, .setComment 3 "c", .createCross 2 "x" none 1 0 [3], .setWeight 1 7]

/-- The hypotheses of `C139_options_partial`, `C139_comment` and `C139_schema_partial` are met. -/
example : newKind (.createCovergroup 1 "g" none 3 0) = some (.covergroup, 3) ∧
    (exec (.createCovergroup 1 "g" none 3 0) (run Heap.empty (exDefaults.take 2))).1 = .ok (.scope 2) ∧ (∀ c ∈ exLater, ¬ SetsProp 2 .coverGoal c) ∧
    (∀ c ∈ exLater, ¬ SetsComment 2 c) ∧ (∀ c ∈ exLater, ¬ SetsProp 2 .cvgAutobinmax c) ∧ schemaDefault .covergroup .cvgAutobinmax = some 64 := by
  refine ⟨rfl, rfl, ?_, ?_, ?_, rfl⟩ <;> simp [exLater, SetsProp, SetsComment, GoalName]

/-- And the calls made later succeed. -/
example : (exLater.foldl (fun (b, s) c => (b && (exec c s).1.isOk, (exec c s).2)) (true, run Heap.empty exDefaults)).1 = true := by rfl

/-- The values are not those of the schema. -/
theorem C139_schema_refuted : ¬ ∀ (c : Call) (k : OptKind) (w : Int) (cs cs' : List Call) (n : Nat) (p : IProp) (i v : Int), newKind c = some (k, w) →
    (exec c (run Heap.empty cs)).1 = .ok (.scope n) → (∀ c' ∈ cs', ¬ SetsProp n p c') → schemaDefault k p = some v →
    (getIntProperty n i p (run Heap.empty (cs ++ c :: cs'))).1 = .ok v := by
  intro h
  have := (C139_schema_partial (c := .createCovergroup 1 "g" none 3 0) (k := .covergroup) (w := 3) rfl (cs := exDefaults.take 2) (cs' := []) (n := 2) rfl
    (p := .coverGoal) (by simp) 0 (v := 100) rfl).1 (h _ _ _ _ _ _ _ _ _ rfl rfl (by simp) rfl)
  exact this.1 (.inr rfl)

end Store
end Verif
