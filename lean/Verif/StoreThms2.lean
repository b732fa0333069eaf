import Verif.StoreThms
/-!
# Properties of scopes, counts, side tables and test data (C51–C53, C55–C58)
-/

namespace Verif
namespace Spec
open Store

/-- The integer properties that can be set on a scope of the given class. -/
def Settable (c : Cls) (p : IProp) : Prop :=
  p ∈ [IProp.scopeWeight, .scopeGoal, .coverGoal, .scopeSourceType] ∨
  (p ∈ [IProp.cvgAtleast, .cvgAutobinmax, .cvgDetectoverlap, .cvgStrobe] ∧ c ∈ [Cls.covergroup, .coverpoint, .cross]) ∨
  (p ∈ [IProp.cvgPerinstance, .cvgMergeinstances] ∧ c = .covergroup) ∨
  (p = .stmtIndex ∧ c ∈ [Cls.inst, .toggle])

/-- The options that are on or off. -/
def OnOff (p : IProp) : Prop := p ∈ [IProp.cvgDetectoverlap, .cvgPerinstance, .cvgMergeinstances]

/-- The two names of the goal of a scope. -/
def GoalName (p : IProp) : Prop := p = .scopeGoal ∨ p = .coverGoal

instance (p : IProp) : Decidable (OnOff p) := by unfold OnOff; infer_instance
instance (p : IProp) : Decidable (GoalName p) := by unfold GoalName; infer_instance

end Spec

namespace Store

/-! ## C51: integer properties -/

/-- What setting a property does. -/
theorem objSet_inv {x y : Obj} {i v : Int} {p : IProp} (h : objSet x i p v = .ok y) :
    (p = .scopeWeight ∧ y = { x with weight := v }) ∨ (Spec.GoalName p ∧ y = { x with goal := v }) ∨
    (p = .scopeSourceType ∧ y = { x with sourceType := v }) ∨
    (x.cls ∈ [Cls.covergroup, .coverpoint, .cross] ∧
      ((p = .cvgAtleast ∧ y = { x with atLeast := v }) ∨ (p = .cvgAutobinmax ∧ y = { x with autoBinMax := v }) ∨
       (p = .cvgDetectoverlap ∧ y = { x with detectOverlap := v == 1 }) ∨ (p = .cvgStrobe ∧ y = { x with strobe := v }))) ∨
    (x.cls = .covergroup ∧
      ((p = .cvgPerinstance ∧ y = { x with perInstance := v == 1 }) ∨ (p = .cvgMergeinstances ∧ y = { x with mergeInstances := v == 1 }))) ∨
    (x.cls ∈ [Cls.inst, .toggle] ∧ p = .stmtIndex ∧
      ∃ k, pyPos x.stmts.length i = some k ∧ y = { x with stmts := x.stmts.modify k (fun t => { t with index := v }) }) := by
  cases hc : x.cls <;> cases p <;>
    simp only [objSet, hc, scopeSet, instSet, covergroupSet, cvgSet, Except.ok.injEq, reduceCtorEq] at h <;>
    first
    | (simp [Spec.GoalName, ← h, hc]; done)
    | (split at h
       · rename_i k hk
         cases h
         simp [Spec.GoalName, hk, hc]
       · cases h)

theorem pyPos_lt {n k : Nat} {i : Int} (h : pyPos n i = some k) : k < n := by
  unfold pyPos at h
  split at h
  · split at h
    · cases h; assumption
    · cases h
  · split at h
    · cases h; omega
    · cases h

theorem objSet_get {x y : Obj} {i v : Int} {p : IProp} (h : objSet x i p v = .ok y) :
    objGet y i p = .ok (if Spec.OnOff p then (if v = 1 then 1 else 0) else v) := by
  rcases objSet_inv h with ⟨rfl, rfl⟩ | ⟨hg, rfl⟩ | ⟨rfl, rfl⟩ | ⟨hc, ⟨rfl, rfl⟩ | ⟨rfl, rfl⟩ | ⟨rfl, rfl⟩ | ⟨rfl, rfl⟩⟩ |
    ⟨hc, ⟨rfl, rfl⟩ | ⟨rfl, rfl⟩⟩ | ⟨hc, rfl, k, hk, rfl⟩
  · rfl
  · rcases hg with rfl | rfl
    · cases hc : x.cls <;> simp [objGet, hc, ucisGet, scopeGet, instGet, covergroupGet, cvgGet, Spec.OnOff]
    · rfl
  · rfl
  all_goals
    try simp only [List.mem_cons, List.not_mem_nil, or_false] at hc
  · rcases hc with hc | hc | hc <;> simp [objGet, hc, covergroupGet, cvgGet, Spec.OnOff]
  · rcases hc with hc | hc | hc <;> simp [objGet, hc, covergroupGet, cvgGet, Spec.OnOff]
  · rcases hc with hc | hc | hc <;> by_cases hv : v = 1 <;> simp [objGet, hc, covergroupGet, cvgGet, Spec.OnOff, ofBool, hv]
  · rcases hc with hc | hc | hc <;> simp [objGet, hc, covergroupGet, cvgGet, Spec.OnOff]
  · by_cases hv : v = 1 <;> simp [objGet, hc, covergroupGet, Spec.OnOff, ofBool, hv]
  · by_cases hv : v = 1 <;> simp [objGet, hc, covergroupGet, Spec.OnOff, ofBool, hv]
  · have hl := pyPos_lt hk
    rcases hc with hc | hc <;>
      simp [objGet, hc, instGet, hk, hl, Spec.OnOff]

/-- Setting a property leaves the others of the same scope. -/
theorem objSet_frame {x y : Obj} {i v : Int} {p : IProp} (h : objSet x i p v = .ok y) (i' : Int) (p' : IProp)
    (hne : p' ≠ p ∨ (p = .stmtIndex ∧ pyPos x.stmts.length i' ≠ pyPos x.stmts.length i)) (hg : ¬ (Spec.GoalName p ∧ Spec.GoalName p')) :
    objGet y i' p' = objGet x i' p' := by
  rcases objSet_inv h with ⟨rfl, rfl⟩ | ⟨hgp, rfl⟩ | ⟨rfl, rfl⟩ | ⟨hc, ⟨rfl, rfl⟩ | ⟨rfl, rfl⟩ | ⟨rfl, rfl⟩ | ⟨rfl, rfl⟩⟩ |
    ⟨hc, ⟨rfl, rfl⟩ | ⟨rfl, rfl⟩⟩ | ⟨hc, rfl, k, hk, rfl⟩
  case inr.inl =>
    cases p' <;> first | rfl | exact absurd ⟨hgp, .inl rfl⟩ hg | exact absurd ⟨hgp, .inr rfl⟩ hg
  case inr.inr.inr.inr.inr =>
    cases p' <;> first | rfl | skip
    rcases hne with hne | ⟨_, hne⟩
    · exact absurd rfl hne
    · have key : (pyPos x.stmts.length i').bind ((x.stmts.modify k (fun t => { t with index := v }))[·]?) =
          (pyPos x.stmts.length i').bind (x.stmts[·]?) := by
        cases hp : pyPos x.stmts.length i' with
        | none => rfl
        | some k' =>
          simp only [Option.bind_some, List.getElem?_modify]
          have : k ≠ k' := by rintro rfl; rw [hp, hk] at hne; exact hne rfl
          simp [this]
      simp only [List.mem_cons, List.not_mem_nil, or_false] at hc
      rcases hc with hc | hc <;> simp only [objGet, hc, instGet, List.length_modify, key]
  all_goals
    have hne : p' ≠ _ := hne.resolve_right (fun h => by cases h.1)
    cases p' <;> first | rfl | exact absurd rfl hne

theorem getIntProperty_eq {s : Heap} {o : Nat} {x : Obj} (h : s.objs[o]? = some x) (i : Int) (p : IProp) :
    getIntProperty o i p s = (objGet x i p, s) := by
  have e : getIntProperty o i p s = _ := bind_eq_of_ok (obj_some h)
  rw [e]; rfl

/-- **C51.** After an integer property has been set, reading it gives the value set; the on/off options give 1 if the
value was 1 and 0 otherwise.  Reading changes nothing. -/
theorem C51_readback {s s' : Heap} {o : Nat} {i v : Int} {p : IProp} (h : setIntProperty o i p v s = (.ok (), s')) :
    getIntProperty o i p s' = (.ok (if Spec.OnOff p then (if v = 1 then 1 else 0) else v), s') := by
  obtain ⟨x, y, hx, hy, rfl⟩ := setIntProperty_ok.1 h
  rw [getIntProperty_eq (x := y) (by rw [get_set hx]; simp), objSet_get hy]

/-- **C51.** The two names of the goal are one property. -/
theorem C51_goal_alias {s s' : Heap} {o : Nat} {i v : Int} {p p' : IProp} (hp : Spec.GoalName p) (hp' : Spec.GoalName p')
    (h : setIntProperty o i p v s = (.ok (), s')) (i' : Int) : getIntProperty o i' p' s' = (.ok v, s') := by
  obtain ⟨x, y, hx, hy, rfl⟩ := setIntProperty_ok.1 h
  rw [getIntProperty_eq (x := y) (by rw [get_set hx]; simp)]
  have hy' : objSet x i p' v = .ok y := by
    rw [← hy]
    rcases hp with rfl | rfl <;> rcases hp' with rfl | rfl <;>
      cases hc : x.cls <;> simp [objSet, hc, scopeSet, instSet, covergroupSet, cvgSet]
  have e : objGet y i' p' = objGet y i p' := by
    rcases hp' with rfl | rfl <;> rfl
  rw [e, objSet_get hy']
  rcases hp' with rfl | rfl <;> rfl

/-- **C51.** Every other property of every scope is read as before, and so is everything that is not an integer
property.  Of the statement items of an instance only the indexed one changes. -/
theorem C51_frame {s s' : Heap} {o : Nat} {i v : Int} {p : IProp} (h : setIntProperty o i p v s = (.ok (), s')) :
    (∀ o' i' p', o' ≠ o → (getIntProperty o' i' p' s').1 = (getIntProperty o' i' p' s).1) ∧
    (∀ i' p', p' ≠ p → ¬ (Spec.GoalName p ∧ Spec.GoalName p') → (getIntProperty o i' p' s').1 = (getIntProperty o i' p' s).1) ∧
    (∀ x i', s.objs[o]? = some x → p = .stmtIndex → pyPos x.stmts.length i' ≠ pyPos x.stmts.length i →
      (getIntProperty o i' p s').1 = (getIntProperty o i' p s).1) ∧
    (∀ (o' : Nat) x, s.objs[o']? = some x → ∃ y, s'.objs[o']? = some y ∧ core y = core x) ∧
    s'.objs.length = s.objs.length ∧ s'.bins = s.bins ∧ s'.datas = s.datas ∧ s'.handles = s.handles ∧ s'.nodes = s.nodes := by
  obtain ⟨x, y, hx, hy, rfl⟩ := setIntProperty_ok.1 h
  have ho : (s.objs.set o y)[o]? = some y := by rw [get_set hx]; simp
  refine ⟨fun o' i' p' hne => ?_, fun i' p' hne hg => ?_, fun x' i' hx' hp hne => ?_, fun o' z hz => ?_, by simp, rfl, rfl, rfl, rfl⟩
  · have e : ({ s with objs := s.objs.set o y } : Heap).objs[o']? = s.objs[o']? := by
      simp only
      rw [get_set hx]; simp [Ne.symm hne]
    cases hz : s.objs[o']? with
    | none =>
      unfold getIntProperty
      rw [bind_eq_of_error (obj_none hz), bind_eq_of_error (obj_none (e.trans hz))]
    | some z => rw [getIntProperty_eq hz, getIntProperty_eq (e.trans hz)]
  · rw [getIntProperty_eq hx, getIntProperty_eq (s := { s with objs := s.objs.set o y }) ho]
    exact objSet_frame hy i' p' (.inl hne) hg
  · rw [hx] at hx'; cases hx'
    rw [getIntProperty_eq hx, getIntProperty_eq (s := { s with objs := s.objs.set o y }) ho]
    exact objSet_frame hy i' p (.inr ⟨hp, hne⟩) (by subst hp; simp [Spec.GoalName])
  · by_cases hoo : o = o'
    · subst hoo
      rw [hx] at hz; cases hz
      exact ⟨y, ho, objSet_core hy⟩
    · exact ⟨z, by simp only; rw [get_set hx]; simp [hoo, hz], rfl⟩

/-- **C51.** Which properties can be set: exactly those of the table, the statement index only within the range of the items
(negative numbers count from the end). -/
theorem C51_supported {s : Heap} {o : Nat} {x : Obj} (hx : s.objs[o]? = some x) (i v : Int) (p : IProp) :
    (∃ s', setIntProperty o i p v s = (.ok (), s')) ↔
      Spec.Settable x.cls p ∧ (p = .stmtIndex → -(x.stmts.length : Int) ≤ i ∧ i < x.stmts.length) := by
  have h1 : (∃ s', setIntProperty o i p v s = (.ok (), s')) ↔ ∃ y, objSet x i p v = .ok y := by
    constructor
    · rintro ⟨s', h⟩
      obtain ⟨x', y, hx', hy, _⟩ := setIntProperty_ok.1 h
      rw [hx] at hx'; cases hx'; exact ⟨y, hy⟩
    · rintro ⟨y, hy⟩
      exact ⟨_, setIntProperty_ok.2 ⟨x, y, hx, hy, rfl⟩⟩
  have hpos : (∃ k, pyPos x.stmts.length i = some k) ↔ (-(x.stmts.length : Int) ≤ i ∧ i < x.stmts.length) := by
    unfold pyPos
    split
    · split
      · simp; omega
      · simp; omega
    · split
      · simp; omega
      · simp; omega
  rw [h1]
  constructor
  · rintro ⟨y, hy⟩
    rcases objSet_inv hy with ⟨rfl, _⟩ | ⟨hg, _⟩ | ⟨rfl, _⟩ | ⟨hc, ⟨rfl, _⟩ | ⟨rfl, _⟩ | ⟨rfl, _⟩ | ⟨rfl, _⟩⟩ |
      ⟨hc, ⟨rfl, _⟩ | ⟨rfl, _⟩⟩ | ⟨hc, rfl, k, hk, _⟩
    · exact ⟨.inl (by simp), fun h => by cases h⟩
    · rcases hg with rfl | rfl <;> exact ⟨.inl (by simp), fun h => by cases h⟩
    · exact ⟨.inl (by simp), fun h => by cases h⟩
    · exact ⟨.inr (.inl ⟨by simp, hc⟩), fun h => by cases h⟩
    · exact ⟨.inr (.inl ⟨by simp, hc⟩), fun h => by cases h⟩
    · exact ⟨.inr (.inl ⟨by simp, hc⟩), fun h => by cases h⟩
    · exact ⟨.inr (.inl ⟨by simp, hc⟩), fun h => by cases h⟩
    · exact ⟨.inr (.inr (.inl ⟨by simp, hc⟩)), fun h => by cases h⟩
    · exact ⟨.inr (.inr (.inl ⟨by simp, hc⟩)), fun h => by cases h⟩
    · exact ⟨.inr (.inr (.inr ⟨rfl, hc⟩)), fun _ => hpos.1 ⟨k, hk⟩⟩
  · rintro ⟨hs, hi⟩
    rcases hs with hs | ⟨hs, hc⟩ | ⟨hs, hc⟩ | ⟨rfl, hc⟩
    · simp only [List.mem_cons, List.not_mem_nil, or_false] at hs
      rcases hs with rfl | rfl | rfl | rfl
      · exact ⟨_, rfl⟩
      · cases hc : x.cls <;> simp [objSet, hc, scopeSet, instSet, covergroupSet, cvgSet]
      · exact ⟨_, rfl⟩
      · exact ⟨_, rfl⟩
    · simp only [List.mem_cons, List.not_mem_nil, or_false] at hs hc
      rcases hs with rfl | rfl | rfl | rfl <;> rcases hc with hc | hc | hc <;>
        simp [objSet, hc, covergroupSet, cvgSet]
    · simp only [List.mem_cons, List.not_mem_nil, or_false] at hs
      rcases hs with rfl | rfl <;> simp [objSet, hc, covergroupSet]
    · obtain ⟨k, hk⟩ := hpos.2 (hi rfl)
      simp only [List.mem_cons, List.not_mem_nil, or_false] at hc
      rcases hc with hc | hc <;> simp [objSet, hc, instSet, hk]

/-- The covergroup of the sample takes the option "detect overlap"; the instance does not. -/
example : (∃ s', setIntProperty 3 (-1) .cvgDetectoverlap 1 (run Heap.empty sample) = (.ok (), s')) ∧
    ∃ s', setIntProperty 2 (-1) .cvgDetectoverlap 1 (run Heap.empty sample) = (.error .unimpl, s') := ⟨⟨_, rfl⟩, _, rfl⟩

/-- **C51** for the setters of weight and goal. -/
theorem C51_setWeight_setGoal {s : Heap} {o : Nat} {x : Obj} (h : s.objs[o]? = some x) (v i : Int) :
    setWeight o v s = setIntProperty o i .scopeWeight v s ∧ setGoal o v s = setIntProperty o i .coverGoal v s := by
  constructor
  · have e : setWeight o v s = (.ok (), { s with objs := s.objs.modify o (fun x => { x with weight := v }) }) :=
      bind_eq_of_ok (obj_some h)
    rw [e, modify_eq_set h]
    exact (setIntProperty_ok.2 ⟨x, _, h, rfl, rfl⟩).symm
  · have e : setGoal o v s = (.ok (), { s with objs := s.objs.modify o (fun x => { x with goal := v }) }) :=
      bind_eq_of_ok (obj_some h)
    rw [e, modify_eq_set h]
    exact (setIntProperty_ok.2 ⟨x, _, h, rfl, rfl⟩).symm

/-! ## C52: string properties -/

/-- **C52, partial.** Full statement: a comment set through the string property interface can be read back through it.
That fails (`C52_refuted`); it holds for the dedicated setter and getter, which only the functional coverage scopes have. -/
theorem C52_comment_partial {s s' : Heap} {o : Nat} {c : String} (h : setComment o c s = (.ok (), s')) :
    getComment o s' = (.ok c, s') ∧ ∃ x, s.objs[o]? = some x ∧ x.cls ∈ [Cls.covergroup, .coverpoint, .cross] ∧
      s' = { s with objs := s.objs.set o { x with comment := c } } := by
  rcases obj_cases s o with ⟨x, hx, ho⟩ | ⟨_, ho⟩
  · have e : setComment o c s = _ := bind_eq_of_ok ho
    rw [e] at h
    have key : ∀ (hcl : x.cls ∈ [Cls.covergroup, .coverpoint, .cross]),
        s' = { s with objs := s.objs.modify o (fun x => { x with comment := c }) } →
        getComment o s' = (.ok c, s') ∧ ∃ x, s.objs[o]? = some x ∧ x.cls ∈ [Cls.covergroup, .coverpoint, .cross] ∧
          s' = { s with objs := s.objs.set o { x with comment := c } } := by
      rintro hcl rfl
      refine ⟨?_, x, hx, hcl, by rw [modify_eq_set hx]⟩
      have ho' : ({ s with objs := s.objs.modify o (fun x => { x with comment := c }) } : Heap).objs[o]? = some { x with comment := c } := by
        simp only
        rw [modify_eq_set hx, get_set hx]; simp
      unfold getComment
      rw [bind_eq_of_ok (obj_some ho')]
      simp only [List.mem_cons, List.not_mem_nil, or_false] at hcl
      rcases hcl with h | h | h <;> simp only [h] <;> rfl
    cases hcl : x.cls <;> rw [hcl] at h <;> first
      | (simp only [fail, Prod.mk.injEq, reduceCtorEq, false_and] at h; done)
      | (refine key (by simp [hcl]) ?_; cases h; rfl)
  · unfold setComment at h
    rw [bind_eq_of_error ho] at h; cases h

/-- **C52, refuted.** Whatever string property is set on whatever scope, the call succeeds, changes nothing, and reading gives no
value. -/
theorem C52_refuted {s : Heap} {o : Nat} {x : Obj} (h : s.objs[o]? = some x) (p v : String) :
    setStringProperty o p v s = (.ok (), s) ∧ getStringProperty o p s = (.ok none, s) :=
  ⟨bind_eq_of_ok (obj_some h), bind_eq_of_ok (obj_some h)⟩

example : ∃ x s', (run Heap.empty sample).objs[4]? = some x ∧ setComment 4 "text" (run Heap.empty sample) = (.ok (), s') :=
  ⟨_, _, rfl, rfl⟩

/-! ## C53: counts -/

/-- A call that overwrites the count of a `CoverData` directly. -/
def Call.overwrites (d : Nat) : Call → Bool
  | .assignData d' .data _ => d' == d
  | _ => false

/-- The amount a call adds to a bin. -/
def Call.adds (b : Nat) : Call → Int
  | .incrementCover b' a => if b' = b then a else 0
  | _ => 0

/-- The calls that deal with bins or `CoverData`. -/
def Call.binCall : Call → Bool
  | .newCoverData .. | .assignData .. | .createNextCover .. | .createBin .. | .incrementCover .. => true
  | _ => false

theorem exec_idle {c : Call} (hb : c.binCall = false) (s : Heap) : (exec c s).2.datas = s.datas ∧ (exec c s).2.bins = s.bins := by
  cases hc : c.creates with
  | some on =>
    obtain ⟨o, n⟩ := on
    rcases exec_creates hc s with ⟨_, y, _, _, h⟩ | ⟨e, h⟩ <;> rw [h] <;> exact ⟨rfl, rfl⟩
  | none =>
  cases c with
  | newDb => exact ⟨rfl, rfl⟩
  | createScope => cases hc
  | createInstance => cases hc
  | createCovergroup => cases hc
  | createToggle => cases hc
  | createCoverpoint => cases hc
  | createCross => cases hc
  | createCoverInstance => cases hc
  | newCoverData => cases hb
  | assignData => cases hb
  | createNextCover => cases hb
  | createBin => cases hb
  | incrementCover => cases hb
  | setIntProperty o i p v =>
    have e : (exec (.setIntProperty o i p v) s).2 = (Store.setIntProperty o i p v s).2 := snd_bind_pure ..
    rw [e]
    rcases h : Store.setIntProperty o i p v s with ⟨r, s'⟩
    cases r with
    | error er => rw [setIntProperty_error h]; exact ⟨rfl, rfl⟩
    | ok u => obtain ⟨_, _, _, _, rfl⟩ := setIntProperty_ok.1 h; exact ⟨rfl, rfl⟩
  | setStringProperty o p v =>
    have e : (exec (.setStringProperty o p v) s).2 = (Store.setStringProperty o p v s).2 := snd_bind_pure ..
    rw [e]; unfold Store.setStringProperty
    rcases obj_cases s o with ⟨x, _, ho⟩ | ⟨_, ho⟩
    · rw [bind_eq_of_ok ho]; exact ⟨rfl, rfl⟩
    · rw [bind_eq_of_error ho]; exact ⟨rfl, rfl⟩
  | setWeight o w =>
    have e : (exec (.setWeight o w) s).2 = (Store.setWeight o w s).2 := snd_bind_pure ..
    rw [e]; unfold Store.setWeight
    rcases obj_cases s o with ⟨x, _, ho⟩ | ⟨_, ho⟩
    · rw [bind_eq_of_ok ho]; exact ⟨rfl, rfl⟩
    · rw [bind_eq_of_error ho]; exact ⟨rfl, rfl⟩
  | setGoal o g =>
    have e : (exec (.setGoal o g) s).2 = (Store.setGoal o g s).2 := snd_bind_pure ..
    rw [e]; unfold Store.setGoal
    rcases obj_cases s o with ⟨x, _, ho⟩ | ⟨_, ho⟩
    · rw [bind_eq_of_ok ho]; exact ⟨rfl, rfl⟩
    · rw [bind_eq_of_error ho]; exact ⟨rfl, rfl⟩
  | setComment o c =>
    have e : (exec (.setComment o c) s).2 = (Store.setComment o c s).2 := snd_bind_pure ..
    rw [e]; unfold Store.setComment
    rcases obj_cases s o with ⟨x, _, ho⟩ | ⟨_, ho⟩
    · rw [bind_eq_of_ok ho]; cases x.cls <;> exact ⟨rfl, rfl⟩
    · rw [bind_eq_of_error ho]; exact ⟨rfl, rfl⟩
  | createFileHandle o n =>
    have e : (exec (.createFileHandle o n) s).2 = (Store.createFileHandle o n s).2 := snd_bind_pure ..
    rw [e]; unfold Store.createFileHandle
    rcases obj_cases s o with ⟨x, _, ho⟩ | ⟨_, ho⟩
    · rw [bind_eq_of_ok ho]
      cases x.cls <;> first | exact ⟨rfl, rfl⟩ | (cases x.files.get? n <;> exact ⟨rfl, rfl⟩)
    · rw [bind_eq_of_error ho]; exact ⟨rfl, rfl⟩
  | createHistoryNode o now p l ph k =>
    have e : (exec (.createHistoryNode o now p l ph k) s).2 = (Store.createHistoryNode o now p l ph k s).2 := snd_bind_pure ..
    rw [e]; unfold Store.createHistoryNode
    rcases obj_cases s o with ⟨x, _, ho⟩ | ⟨_, ho⟩
    · rw [bind_eq_of_ok ho]; cases x.cls <;> exact ⟨rfl, rfl⟩
    · rw [bind_eq_of_error ho]; exact ⟨rfl, rfl⟩
  | createInstanceCoverage o n =>
    have e : (exec (.createInstanceCoverage o n) s).2 = (Store.createInstanceCoverage o n s).2 := snd_bind_pure ..
    rw [e]; unfold Store.createInstanceCoverage
    rcases obj_cases s o with ⟨x, _, ho⟩ | ⟨_, ho⟩
    · rw [bind_eq_of_ok ho]; cases x.cls <;> exact ⟨rfl, rfl⟩
    · rw [bind_eq_of_error ho]; exact ⟨rfl, rfl⟩
  | setTestData n t =>
    have e : (exec (.setTestData n t) s).2 = (Store.setTestData n t s).2 := snd_bind_pure ..
    rw [e]; unfold Store.setTestData
    cases hn : s.nodes[n]? with
    | none => rw [bind_eq_of_error (node_none hn)]; exact ⟨rfl, rfl⟩
    | some x => rw [bind_eq_of_ok (node_some hn)]; exact ⟨rfl, rfl⟩
  | assignNode n a =>
    have e : (exec (.assignNode n a) s).2 = (Store.assignNode n a s).2 := snd_bind_pure ..
    rw [e]; unfold Store.assignNode
    cases hn : s.nodes[n]? with
    | none => rw [bind_eq_of_error (node_none hn)]; exact ⟨rfl, rfl⟩
    | some x => rw [bind_eq_of_ok (node_some hn)]; exact ⟨rfl, rfl⟩
  | setNodeProperty n p v =>
    have e : (exec (.setNodeProperty n p v) s).2 = (Store.setNodeProperty n p v s).2 := snd_bind_pure ..
    rw [e]; unfold Store.setNodeProperty
    cases hn : s.nodes[n]? with
    | none => rw [bind_eq_of_error (node_none hn)]; exact ⟨rfl, rfl⟩
    | some x =>
      rw [bind_eq_of_ok (node_some hn)]
      cases hy : nodeSet x p v <;> exact ⟨rfl, rfl⟩

/-- The counts are touched by increments and assignments only. -/
theorem exec_count {c : Call} {s : Heap} {d : Nat} {x : CData} (hx : s.datas[d]? = some x) (ho : c.overwrites d = false) :
    ∃ y, (exec c s).2.datas[d]? = some y ∧
      ((∃ b a z, c = .incrementCover b a ∧ s.bins[b]? = some z ∧ z.data = d ∧ y.count = x.count + a) ∨
       ((∀ b a z, c = .incrementCover b a → s.bins[b]? = some z → z.data ≠ d) ∧ y.count = x.count)) := by
  have hl := (List.getElem?_eq_some_iff.1 hx).1
  have same : (exec c s).2.datas = s.datas → (∀ b a z, c = .incrementCover b a → s.bins[b]? = some z → z.data ≠ d) →
      ∃ y, (exec c s).2.datas[d]? = some y ∧
      ((∃ b a z, c = .incrementCover b a ∧ s.bins[b]? = some z ∧ z.data = d ∧ y.count = x.count + a) ∨
       ((∀ b a z, c = .incrementCover b a → s.bins[b]? = some z → z.data ≠ d) ∧ y.count = x.count)) :=
    fun h hn => ⟨x, by rw [h]; exact hx, .inr ⟨hn, rfl⟩⟩
  cases hc : c.creates with
  | some on =>
    obtain ⟨o, n⟩ := on
    refine same ?_ (fun b a z e => by subst e; cases hc)
    rcases exec_creates hc s with ⟨_, y, _, _, h⟩ | ⟨e, h⟩ <;> rw [h] <;> rfl
  | none =>
  cases c with
  | newDb => exact same rfl (fun b a z e => by cases e)
  | createScope => cases hc
  | createInstance => cases hc
  | createCovergroup => cases hc
  | createToggle => cases hc
  | createCoverpoint => cases hc
  | createCross => cases hc
  | createCoverInstance => cases hc
  | newCoverData k f =>
    refine ⟨x, ?_, .inr ⟨fun b a z e => (by cases e), rfl⟩⟩
    show (s.datas ++ [_])[d]? = some x
    rw [List.getElem?_append_left hl]; exact hx
  | assignData d' f v =>
    have e : (exec (.assignData d' f v) s).2 = (Store.assignData d' f v s).2 := snd_bind_pure ..
    cases hd : s.datas[d']? with
    | none => exact same (by rw [e, assignData_none hd]) (fun b a z e => by cases e)
    | some x' =>
      rw [e, assignData_eq hd]
      by_cases hdd : d' = d
      · subst hdd
        rw [hx] at hd; cases hd
        refine ⟨CData.assign f v x, by simp [List.getElem?_modify, hx], .inr ⟨fun b a z e => (by cases e), ?_⟩⟩
        cases f <;> first | rfl | (simp [Call.overwrites] at ho)
      · exact ⟨x, by simp [List.getElem?_modify, hdd, hx], .inr ⟨fun b a z e => (by cases e), rfl⟩⟩
  | createNextCover o n d' src =>
    refine same ?_ (fun b a z e => by cases e)
    have e : (exec (.createNextCover o n d' src) s).2 = (Store.createNextCover o n d' src s).2 := snd_bind_pure ..
    rw [e]
    rcases h : Store.createNextCover o n d' src s with ⟨r, s'⟩
    cases r with
    | error er => rw [C50_raise (c := .createNextCover o n d' src) (s := s) (e := er) (s' := s') (bind_eq_of_error h)]
    | ok r =>
      obtain ⟨z, _, _, hz⟩ := C50_createNextCover h
      split at hz <;> (rw [hz.2])
  | createBin o n src a c k =>
    have e : (exec (.createBin o n src a c k) s).2 = (Store.createBin o n src a c k s).2 := snd_bind_pure ..
    rw [e]
    rcases h : Store.createBin o n src a c k s with ⟨r, s'⟩
    cases r with
    | error er =>
      rw [C50_raise (c := .createBin o n src a c k) (s := s) (e := er) (s' := s') (bind_eq_of_error h)]
      exact ⟨x, hx, .inr ⟨fun b a z e => (by cases e), rfl⟩⟩
    | ok r =>
      obtain ⟨_, z, dd, _, _, hz, _⟩ := C50_createBin h
      subst hz
      exact ⟨x, by simp only; rw [List.getElem?_append_left hl]; exact hx, .inr ⟨fun b a z e => (by cases e), rfl⟩⟩
  | incrementCover b a =>
    have e : (exec (.incrementCover b a) s).2 = (Store.incrementCover b a s).2 := snd_bind_pure ..
    rw [e]
    cases hb : s.bins[b]? with
    | none =>
      unfold Store.incrementCover
      rw [bind_eq_of_error (bin_none hb)]
      refine ⟨x, hx, .inr ⟨fun b' a' z e hz => ?_, rfl⟩⟩
      cases e; rw [hb] at hz; cases hz
    | some z =>
      cases hd : s.datas[z.data]? with
      | none =>
        unfold Store.incrementCover
        rw [bind_eq_of_ok (bin_some hb), bind_eq_of_error (cdata_none hd)]
        refine ⟨x, hx, .inr ⟨fun b' a' z' e hz => ?_, rfl⟩⟩
        cases e; rw [hb] at hz; cases hz
        rintro rfl; rw [hd] at hx; cases hx
      | some x' =>
        rw [incrementCover_eq hb hd]
        by_cases hzd : z.data = d
        · subst hzd
          rw [hd] at hx; cases hx
          exact ⟨_, by simp [List.getElem?_modify, hd]; rfl, .inl ⟨b, a, z, rfl, hb, rfl, rfl⟩⟩
        · refine ⟨x, by simp [List.getElem?_modify, hzd, hx], .inr ⟨fun b' a' z' e hz => ?_, rfl⟩⟩
          cases e; rw [hb] at hz; cases hz; exact hzd
  | _ => exact same (exec_idle rfl s).1 (fun b a z e => by cases e)

/-- A bin with data of its own keeps having it in the past. -/
theorem ownData_back {s s' : Heap} (h : Evolves s s') {b : Nat} {x : Bin} (hx : s.bins[b]? = some x) (ho : Spec.OwnData s' b) :
    Spec.OwnData s b := by
  obtain ⟨r, hr⟩ := h.bins
  have up : ∀ (b : Nat) x, s.bins[b]? = some x → s'.bins[b]? = some x := by
    intro b x hx
    rw [← hr, List.getElem?_append_left (List.getElem?_eq_some_iff.1 hx).1]; exact hx
  obtain ⟨y, hy, hu⟩ := ho
  have := up b x hx
  rw [this] at hy; cases hy
  exact ⟨x, hx, fun b' x' hx' e => hu b' x' (up b' x' hx') e⟩

/-- **C53, partial.** Full statement: after any increments the count of a bin is its initial count plus the increments on
it, and increments on other bins do not change it.  Here for any program, with arbitrary other calls in between, and bins
whose `CoverData` is not shared with another bin (`C53_refuted` for shared ones) and not assigned directly. -/
theorem C53_count_partial (cs : List Call) {s : Heap} {b : Nat} {x : Bin} {k : Int} (hx : s.bins[b]? = some x)
    (hk : Spec.Count s b k) (hown : Spec.OwnData (run s cs) b) (ho : ∀ c ∈ cs, c.overwrites x.data = false) :
    Spec.Count (run s cs) b (k + (cs.map (Call.adds b)).sum) := by
  induction cs generalizing s k with
  | nil => simpa [run] using hk
  | cons c t ih =>
    have ev := exec_evolves c s
    have hown' : Spec.OwnData s b := ownData_back (run_evolves (c :: t) s) hx hown
    obtain ⟨x1, d, hx1, hd, hcount⟩ := hk
    rw [hx] at hx1; cases hx1
    have hx' : (exec c s).2.bins[b]? = some x := by
      obtain ⟨r, hr⟩ := ev.bins
      rw [← hr, List.getElem?_append_left (List.getElem?_eq_some_iff.1 hx).1]; exact hx
    obtain ⟨y, hy, hcase⟩ := exec_count hd (ho c (by simp))
    have hstep : y.count = k + Call.adds b c := by
      rcases hcase with ⟨b', a, z, rfl, hz, hzd, e⟩ | ⟨hn, e⟩
      · obtain ⟨x2, hx2, hu⟩ := hown'
        rw [hx] at hx2; cases hx2
        have := hu b' z hz hzd
        subst this
        simp [Call.adds, e, hcount]
      · rw [e, hcount]
        cases c <;> simp only [Call.adds, Int.add_zero]
        split
        · rename_i b' a hbb
          subst hbb
          exact absurd rfl (hn _ _ _ rfl hx)
        · simp
    have := ih hx' ⟨x, y, hx', hy, hstep⟩ hown (fun c hc => ho c (by simp [hc]))
    rw [List.map_cons, List.sum_cons, ← Int.add_assoc]
    exact this

/-- **C53, refuted for shared data.** Two bins that were created with one `CoverData` are incremented together. -/
theorem C53_refuted : ∃ (cs : List Call) (b b' : Nat), b ≠ b' ∧ Spec.Count (run Heap.empty cs) b' 0 ∧
    Spec.Count (run (run Heap.empty cs) [.incrementCover b 5]) b' 5 :=
  ⟨[.newDb, .createCovergroup 0 "cg" none 1 1, .createCoverpoint 1 "cp" none 1 1, .newCoverData 1 0,
      .createNextCover 2 "a" 0 none, .createNextCover 2 "b" 0 none], 0, 1, by decide, ⟨_, _, rfl, rfl, rfl⟩, ⟨_, _, rfl, rfl, rfl⟩⟩

/-- Bins created with `createBin` only have data of their own. -/
theorem C53_createBin_own (cs : List Call) (h : ∀ c ∈ cs, ∀ o n d src, c ≠ .createNextCover o n d src) :
    ∀ b < (run Heap.empty cs).bins.length, Spec.OwnData (run Heap.empty cs) b := by
  have key : ∀ (s : Heap), (∀ (b b' : Nat) x x', s.bins[b]? = some x → s.bins[b']? = some x' → x'.data = x.data → b' = b) → HasData s →
      ∀ (b b' : Nat) x x', (run s cs).bins[b]? = some x → (run s cs).bins[b']? = some x' → x'.data = x.data → b' = b := by
    induction cs with
    | nil => exact fun s hs _ => hs
    | cons c t ih =>
      intro s hs hd
      refine ih (fun c hc => h c (by simp [hc])) (exec c s).2 ?_ (delta_hasData (exec_delta c s) (exec_evolves c s) hd)
      have same : (exec c s).2.bins = s.bins → ∀ (b b' : Nat) x x', (exec c s).2.bins[b]? = some x → (exec c s).2.bins[b']? = some x' →
          x'.data = x.data → b' = b := fun e => by rw [e]; exact hs
      by_cases hcb : ∃ o n src a k kd, c = .createBin o n src a k kd
      · obtain ⟨o, n, src, a, k, kd, rfl⟩ := hcb
        have e : (exec (.createBin o n src a k kd) s).2 = (createBin o n src a k kd s).2 := snd_bind_pure ..
        rcases hr : createBin o n src a k kd s with ⟨r, s'⟩
        cases r with
        | error er =>
          exact same (by rw [e, hr, C50_raise (c := .createBin o n src a k kd) (s := s) (e := er) (s' := s') (bind_eq_of_error hr)])
        | ok r =>
          obtain ⟨_, z, dd, _, _, hz, _⟩ := C50_createBin hr
          have eb : (exec (.createBin o n src a k kd) s).2.bins = s.bins ++ [⟨n, s.datas.length, src⟩] := by rw [e, hr, hz]
          rw [eb]
          have gk : ∀ (b : Nat) x, (s.bins ++ [⟨n, s.datas.length, src⟩])[b]? = some x →
              s.bins[b]? = some x ∨ (b = s.bins.length ∧ x.data = s.datas.length) := by
            intro b x hb
            rw [List.getElem?_append] at hb
            split at hb
            · exact .inl hb
            · rw [List.getElem?_cons] at hb
              split at hb
              · cases hb; exact .inr ⟨by omega, rfl⟩
              · simp at hb
          intro b b' x x' hb hb' hdat
          rcases gk b x hb with hb | ⟨rfl, hb⟩ <;> rcases gk b' x' hb' with hb' | ⟨rfl, hb'⟩
          · exact hs b b' x x' hb hb' hdat
          · have := hd b x hb; omega
          · have := hd b' x' hb'; omega
          · rfl
      · refine same ?_
        cases c with
        | createNextCover o n d src => exact absurd rfl (h _ (by simp) o n d src)
        | createBin o n src a k kd => exact absurd ⟨o, n, src, a, k, kd, rfl⟩ hcb
        | newCoverData k f => rfl
        | assignData d f v =>
          have e : (exec (.assignData d f v) s).2 = (assignData d f v s).2 := snd_bind_pure ..
          rw [e]
          cases hdd : s.datas[d]? with
          | none => rw [assignData_none hdd]
          | some y => rw [assignData_eq hdd]
        | incrementCover b a =>
          have e : (exec (.incrementCover b a) s).2 = (incrementCover b a s).2 := snd_bind_pure ..
          rw [e]
          cases hb : s.bins[b]? with
          | none => unfold incrementCover; rw [bind_eq_of_error (bin_none hb)]
          | some z =>
            cases hdd : s.datas[z.data]? with
            | none => unfold incrementCover; rw [bind_eq_of_ok (bin_some hb), bind_eq_of_error (cdata_none hdd)]
            | some y => rw [incrementCover_eq hb hdd]
        | _ => exact (exec_idle rfl s).2
  intro b hb
  refine ⟨_, List.getElem?_eq_getElem hb, fun b' x' hx' e => ?_⟩
  exact key Heap.empty (by simp [Heap.empty]) (by intro b x h; simp [Heap.empty] at h) b b' _ x' (List.getElem?_eq_getElem hb) hx' e

/-- The premises of **C53** hold: the first bin of the sample, three increments, one on the other bin. -/
example : Spec.Count (run Heap.empty sample) 0 3 ∧ Spec.OwnData (run (run Heap.empty sample)
    [.incrementCover 0 2, .incrementCover 1 7, .createInstance 0 "x" none 1 1 1 none 0, .incrementCover 0 1]) 0 := by
  refine ⟨⟨_, _, rfl, rfl, rfl⟩, ?_⟩
  have := C53_createBin_own (sample ++ [.incrementCover 0 2, .incrementCover 1 7, .createInstance 0 "x" none 1 1 1 none 0, .incrementCover 0 1])
    (by intro c hc o n d src; simp [sample] at hc; rcases hc with h | h | h | h | h | h | h | h | h | h | h <;> subst h <;> simp)
    0 (by decide)
  simpa [run, List.foldl_append] using this

/-! ## C55: file handles -/

theorem createFileHandle_ok {s s' : Heap} {o h : Nat} {n : String} (e : createFileHandle o n s = (.ok h, s')) :
    ∃ x y, s.objs[o]? = some x ∧ x.cls = .db ∧ s'.objs[o]? = some y ∧ y.files.get? n = some h ∧
      (s'.handles[h]? = some n ∨ (x.files.get? n = some h ∧ s' = s)) := by
  rcases obj_cases s o with ⟨x, hx, ho⟩ | ⟨_, ho⟩
  · have e' : createFileHandle o n s = _ := bind_eq_of_ok ho
    rw [e'] at e
    cases hc : x.cls <;> rw [hc] at e <;> try (cases e; done)
    cases hf : x.files.get? n with
    | some k =>
      rw [hf] at e
      cases e
      exact ⟨x, x, hx, hc, hx, hf, .inr ⟨hf, rfl⟩⟩
    | none =>
      rw [hf] at e
      cases e
      refine ⟨x, { x with files := x.files.set n s.handles.length }, hx, hc, ?_, ?_, .inl (by simp)⟩
      · simp only
        rw [modify_eq_set hx, get_set hx]; simp
      · show (Dict.set x.files n s.handles.length).get? n = _
        rw [Dict.get?_set]; simp
  · unfold createFileHandle at e
    rw [bind_eq_of_error ho] at e; cases e

/-- **C55.** In any program: two requests of file handles of one database, whatever happens before, in between, give the same
handle if and only if the names are equal. -/
theorem C55_interned (cs cs' : List Call) {o h h' : Nat} {n n' : String} {s1 s2 : Heap}
    (e : createFileHandle o n (run Heap.empty cs) = (.ok h, s1)) (e' : createFileHandle o n' (run s1 cs') = (.ok h', s2)) :
    h = h' ↔ n = n' := by
  obtain ⟨x, y, hx, hc, hy, hf, hh⟩ := createFileHandle_ok e
  have hh1 : s1.handles[h]? = some n := by
    rcases hh with hh | ⟨hf', rfl⟩
    · exact hh
    · exact (run_side cs o x hx).files n h hf'
  have hs1 : s1 = run Heap.empty (cs ++ [.createFileHandle o n]) := by
    have : (exec (.createFileHandle o n) (run Heap.empty cs)).2 = (createFileHandle o n (run Heap.empty cs)).2 := snd_bind_pure ..
    rw [e] at this
    simp [run, List.foldl_append] at this ⊢
    exact this.symm
  have ev := run_evolves cs' s1
  have hh2 : (run s1 cs').handles[h]? = some n := by
    obtain ⟨r, hr⟩ := ev.handles
    rw [← hr, List.getElem?_append_left (List.getElem?_eq_some_iff.1 hh1).1]; exact hh1
  obtain ⟨z, hz, hk⟩ := ev.objs o y hy
  obtain ⟨x', y', hx', hc', hy', hf', hh'⟩ := createFileHandle_ok e'
  rw [hz] at hx'; cases hx'
  have hzn := hk.files n h hf
  have ev2 : Evolves (run s1 cs') s2 := by
    have : (exec (.createFileHandle o n') (run s1 cs')).2 = s2 := by
      have : (exec (.createFileHandle o n') (run s1 cs')).2 = (createFileHandle o n' (run s1 cs')).2 := snd_bind_pure ..
      rw [this, e']
    rw [← this]; exact exec_evolves _ _
  constructor
  · rintro rfl
    rcases hh' with hh' | ⟨hf'', _⟩
    · obtain ⟨r, hr⟩ := ev2.handles
      rw [← hr, List.getElem?_append_left (List.getElem?_eq_some_iff.1 hh2).1, hh2] at hh'
      exact Option.some.inj hh'
    · have : (run s1 cs').handles[h]? = some n' := by
        have hs2 : run s1 cs' = run Heap.empty (cs ++ [.createFileHandle o n] ++ cs') := by
          rw [hs1]; simp [run, List.foldl_append]
        have hz2 := hz
        rw [hs2] at hz2 ⊢
        exact (run_side _ o z hz2).files n' h hf''
      rw [hh2] at this; exact Option.some.inj this
  · rintro rfl
    obtain ⟨w, hw, hkw⟩ := ev2.objs o z hz
    rw [hy'] at hw; cases hw
    have := hkw.files n h hzn
    rw [hf'] at this
    exact (Option.some.inj this).symm

example : ∃ s1 s2 h h', createFileHandle 0 "f" (run Heap.empty sample) = (.ok h, s1) ∧
    createFileHandle 0 "g" (run s1 [.createFileHandle 0 "x"]) = (.ok h', s2) ∧ h ≠ h' :=
  ⟨_, _, _, _, rfl, rfl, by decide⟩

/-! ## C56: keys of instance coverage records -/

/-- **C56.** The keys of the records of a database are pairwise different. -/
theorem C56_keys (cs : List Call) {o : Nat} {x : Obj} (h : (run Heap.empty cs).objs[o]? = some x) :
    (x.covInsts.map (·.2)).Nodup := by
  have t := (run_side cs o x h).records
  rw [List.nodup_iff_injective_getElem]
  intro ⟨i, hi⟩ ⟨j, hj⟩ e
  simp only [List.length_map] at hi hj
  simp only [List.getElem_map] at e
  have h1 := t i _ (List.getElem?_eq_getElem hi)
  have h2 := t j _ (List.getElem?_eq_getElem hj)
  rw [e] at h1
  have := toString_inj (h1.symm.trans h2)
  exact Fin.ext this

example : ∃ x, (run Heap.empty (sample ++ [.createInstanceCoverage 0 "a", .createInstanceCoverage 0 "a"])).objs[0]? = some x ∧
    x.covInsts.length = 2 := ⟨_, rfl, rfl⟩

/-! ## C57: test data -/

/-- **C57.** Test data stored on a history node: each of the thirteen values is what was given, everything else about
the node, all other nodes and all other objects are as before. -/
theorem C57_testData {s : Heap} {n : Nat} {x : Node} (t : TestData) (h : s.nodes[n]? = some x) :
    ∃ s' y, setTestData n t s = (.ok (), s') ∧ s'.nodes[n]? = some y ∧
      y.data.status = t.teststatus ∧ y.data.toolCategory = t.toolcategory ∧ y.data.date = t.date ∧ y.data.simTime = t.simtime ∧
      y.data.timeUnit = t.timeunit ∧ y.data.runCwd = t.runcwd ∧ y.data.cpuTime = t.cputime ∧ y.data.seed = t.seed ∧
      y.data.cmd = t.cmd ∧ y.data.args = t.args ∧ y.data.compulsory = t.compulsory ∧ y.data.userName = t.user ∧ y.data.cost = t.cost ∧
      y.parent = x.parent ∧ y.kind = x.kind ∧
      y.data = { x.data with
        status := t.teststatus, toolCategory := t.toolcategory, date := t.date, simTime := t.simtime, timeUnit := t.timeunit,
        runCwd := t.runcwd, cpuTime := t.cputime, seed := t.seed, cmd := t.cmd, args := t.args, compulsory := t.compulsory,
        userName := t.user, cost := t.cost } ∧
      (∀ m, m ≠ n → s'.nodes[m]? = s.nodes[m]?) ∧
      s'.objs = s.objs ∧ s'.bins = s.bins ∧ s'.datas = s.datas ∧ s'.handles = s.handles := by
  refine ⟨{ s with nodes := s.nodes.modify n (fun x => { x with data := Hist.setTestData x.data t }) },
    { x with data := Hist.setTestData x.data t }, bind_eq_of_ok (node_some h), ?_, rfl, rfl, rfl, rfl, rfl, rfl, rfl, rfl, rfl, rfl, rfl, rfl,
    rfl, rfl, rfl, rfl, ?_, rfl, rfl, rfl, rfl⟩
  · simp [List.getElem?_modify, h]
  · intro m hm
    simp only [List.getElem?_modify]
    simp [Ne.symm hm]

example : ∃ x, (run Heap.empty [.newDb, .createHistoryNode 0 5 none (some "t") none (.num 1)]).nodes[0]? = some x := ⟨_, rfl⟩

/-! ## C58: the test status as integer property -/

/-- **C58, partial.** Full statement: the integer property distinguishes passed from failed tests.  That holds if the status has
been set through the same interface (1 or not 1); see `C58_refuted` for statuses from test data. -/
theorem C58_status_partial {s s' : Heap} {n : Nat} {v : Int} (h : setNodeProperty n .testStatus v s = (.ok (), s')) :
    getNodeProperty n .testStatus s' = (.ok (if v = 1 then 1 else 0), s') := by
  cases hn : s.nodes[n]? with
  | none => unfold setNodeProperty at h; rw [bind_eq_of_error (node_none hn)] at h; cases h
  | some x =>
    have e : setNodeProperty n .testStatus v s =
        (.ok (), { s with nodes := s.nodes.modify n (fun _ => { x with data := { x.data with status := ofBool (v == 1) } }) }) :=
      bind_eq_of_ok (node_some hn)
    rw [e] at h
    cases h
    have hg : (s.nodes.modify n (fun _ => { x with data := { x.data with status := ofBool (v == 1) } }))[n]? =
        some { x with data := { x.data with status := ofBool (v == 1) } } := by simp [List.getElem?_modify, hn]
    unfold getNodeProperty
    rw [bind_eq_of_ok (node_some hg)]
    by_cases hv : v = 1
    · subst hv; rfl
    · simp [read, nodeGet, ofBool, hv]

/-- **C58, refuted.** After storing test data with any of the statuses of the standard (1 = passed, 2 = warning, 3 = error,
4 = fatal, 5 = missing, 6 = merge error) the property reads 1. -/
theorem C58_refuted {s s' : Heap} {n : Nat} {t : TestData} (h : setTestData n t s = (.ok (), s')) (ht : 1 ≤ t.teststatus ∧ t.teststatus ≤ 6) :
    getNodeProperty n .testStatus s' = (.ok 1, s') := by
  cases hn : s.nodes[n]? with
  | none => unfold setTestData at h; rw [bind_eq_of_error (node_none hn)] at h; cases h
  | some x =>
    have e : setTestData n t s =
        (.ok (), { s with nodes := s.nodes.modify n (fun x => { x with data := Hist.setTestData x.data t }) }) :=
      bind_eq_of_ok (node_some hn)
    rw [e] at h
    cases h
    have hg : (s.nodes.modify n (fun x => { x with data := Hist.setTestData x.data t }))[n]? =
        some { x with data := Hist.setTestData x.data t } := by simp [List.getElem?_modify, hn]
    unfold getNodeProperty
    rw [bind_eq_of_ok (node_some hg)]
    have : t.teststatus ≠ 0 := by omega
    simp [read, nodeGet, Hist.setTestData, ofBool, this]

/-- A passed and a failed test are reported alike. -/
example : ∃ (s s1 s2 : Heap) (t1 t2 : TestData), setTestData 0 t1 s = (.ok (), s1) ∧ setTestData 0 t2 s = (.ok (), s2) ∧
    t1.teststatus = 1 ∧ t2.teststatus = 3 ∧ (getNodeProperty 0 .testStatus s1).1 = (getNodeProperty 0 .testStatus s2).1 := by
  let t : Int → TestData := fun st => ⟨st, "", .stamp 0, 0, none, none, 0, none, none, none, none, none, 0⟩
  refine ⟨run Heap.empty [.newDb, .createHistoryNode 0 5 none (some "t") none (.num 1)], _, _, t 1, t 3, rfl, rfl, rfl, rfl, rfl⟩

end Store
end Verif
