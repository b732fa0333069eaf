import Verif.StoreBuild
/-!
# The procedural interface: the functions `ucis_*` of `ucis/__init__.py`

They take the database and an object that may be `None`.  The databases are those in memory (`Verif.Store`).
-/

namespace Verif
namespace Proc
open Store

/-- An object that has properties: a scope (also a database) or a history node. -/
inductive Target where
  | scope (o : Nat)
  | node (n : Nat)
  deriving DecidableEq, Repr

/-- The functions of `__init__.py:258-452` that change something, and what is needed besides to make a database:
`MemFactory.create()` (`mem_factory.py:28-34`), `CoverData(...)` and assignments to its attributes (`cover_data.py`).
Arguments that the in-memory database does not look at are left out: canonical name, metric, type and direction of a
toggle, the working directory of a file, the arguments of `ucis_Write`, values of real and handle properties. -/
inductive Fn where
  | create
  | coverData (kind : Nat) (flags : Int)
  | assign (d : Nat) (f : DField) (v : Int)
  | setInt (db : Nat) (obj : Option Target) (i : Int) (p : IProp) (v : Int)
  | setReal (db : Nat) (obj : Option Target)
  | setString (db : Nat) (obj : Option Target) (p v : String)
  | setHandle (db : Nat) (obj : Option Target)
  | createScope (db : Nat) (parent : Option Nat) (name : String) (src : Option SrcInfo) (weight source : Int) (stype : Nat) (flags : Int)
  | createInstance (db : Nat) (parent : Option Nat) (name : String) (src : Option SrcInfo) (weight source : Int) (stype : Nat) (du : Option Nat)
      (flags : Int)
  | createToggle (db : Nat) (parent : Option Nat) (name : String) (flags : Int)
  | createNextCover (db : Nat) (parent : Option Nat) (name : String) (data : Nat) (src : Option SrcInfo)
  | removeScope (db : Nat) (scope : Option Nat)
  | createHistoryNode (db : Nat) (now : Int) (parent : Option Nat) (logical physical : Option String) (kind : KindVal)
  | createFileHandle (db : Nat) (name : String)
  | setTestData (db : Nat) (node : Option Nat) (t : TestData)
  | write (db : Nat)
  | close (db : Nat)

/-- `obj.setIntProperty(...)`: a scope (`Store.setIntProperty`) or a history node (`mem_history_node.py:74-82`). -/
def setIntOf (t : Target) (i : Int) (p : IProp) (v : Int) : M Unit :=
  match t with
  | .scope o => Store.setIntProperty o i p v
  | .node n => Store.setNodeProperty n p v

/-- `obj.setStringProperty(...)`: scopes have `MemObj.setStringProperty`, history nodes only `Obj.setStringProperty` (`obj.py:68-73`). -/
def setStringOf (t : Target) (p v : String) : M Unit :=
  match t with
  | .scope o => Store.setStringProperty o p v
  | .node n => do
    let _ ← node n
    fail .unimpl

/-- `obj.setRealProperty(...)`, `obj.setHandleProperty(...)` and their getters: only `Obj` has them (`obj.py:49-60`, `:75-86`), and they raise. -/
def unimplOf (t : Target) : M Unit :=
  match t with
  | .scope o => do
    let _ ← Store.obj o
    fail .unimpl
  | .node n => do
    let _ ← node n
    fail .unimpl

/-- `obj if obj is not None else db` (`__init__.py:264-267` and the others). -/
def orDb (db : Nat) (obj : Option Target) : Target :=
  match obj with
  | some t => t
  | none => .scope db

/-- A method of the class `UCIS` that the other scopes do not have. -/
def onDb (db : Nat) (act : M Ret) : M Ret := do
  let x ← Store.obj db
  match x.cls with
  | .db => act
  | _ => fail .attributeError

/-- The functions (`__init__.py:269-452`).
* `ucis_CreateNextCover` (`:396-402`) does not look for `None`: `None.createNextCover` raises.
* `ucis_RemoveScope` (`:404-407`) calls `db.removeScope`, a method that no class has.
* `ucis_SetTestData` (`:424-428`) calls a method of the history node.
* `ucis_Write` (`:430-444`) calls `UCIS.write` (`ucis.py:114-115`), which raises.
* `ucis_Close` (`:446-448`) calls `MemUCIS.close` (`mem_ucis.py:108-110`), which does nothing. -/
def call : Fn → M Ret
  | .create => do return .scope (← Store.newDb)
  | .coverData k f => do return .data (← Store.newCoverData k f)
  | .assign d f v => do Store.assignData d f v; return .none
  | .setInt db t i p v => do setIntOf (orDb db t) i p v; return .none
  | .setReal db t => do unimplOf (orDb db t); return .none
  | .setString db t p v => do setStringOf (orDb db t) p v; return .none
  | .setHandle db t => do unimplOf (orDb db t); return .none
  | .createScope db o n s w so t f =>
    match o with
    | some o => do return .scope (← Store.createScope o n s w so t f)
    | none => do return .scope (← Store.createScope db n s w so t f)
  | .createInstance db o n s w so t du f =>
    match o with
    | some o => do return .scope (← Store.createInstance o n s w so t du f)
    | none => do return .scope (← Store.createInstance db n s w so t du f)
  | .createToggle db o n f =>
    match o with
    | some o => do return .scope (← Store.createToggle o n f)
    | none => do return .scope (← Store.createToggle db n f)
  | .createNextCover _ o n d s =>
    match o with
    | some o => do return .cover (← Store.createNextCover o n d s)
    | none => fail .attributeError
  | .removeScope _ _ => fail .attributeError
  | .createHistoryNode db now p l ph k => do return .node (← Store.createHistoryNode db now p l ph k)
  | .createFileHandle db n => do return .handle (← Store.createFileHandle db n)
  | .setTestData _ n t =>
    match n with
    | some n => do Store.setTestData n t; return .none
    | none => fail .attributeError
  | .write db => onDb db (fail .unimpl)
  | .close db => onDb db (pure .none)

/-- `ucis_GetIntProperty` (`__init__.py:258-267`). -/
def getInt (db : Nat) (obj : Option Target) (i : Int) (p : IProp) : M Int :=
  match obj with
  | some (.scope o) => Store.getIntProperty o i p
  | some (.node n) => Store.getNodeProperty n p
  | none => Store.getIntProperty db i p

/-- `ucis_GetStringProperty` (`__init__.py:304-313`); history nodes only have `Obj.getStringProperty` (`obj.py:62-66`). -/
def getString (db : Nat) (obj : Option Target) (p : String) : M (Option String) :=
  match obj with
  | some (.scope o) => Store.getStringProperty o p
  | some (.node n) => do
    let _ ← node n
    fail .unimpl
  | none => Store.getStringProperty db p

/-- A program: one call after the other, exceptions are caught. -/
def runs (s : Heap) (fs : List Fn) : Heap := fs.foldl (fun s f => (call f s).2) s

/-- The scopes that a call refers to besides its receiver exist: the design unit of an instance. -/
def RealFn (s : Heap) : Fn → Prop
  | .createInstance _ _ _ _ _ _ _ du _ => ∀ u, du = some u → u < s.objs.length
  | _ => True

/-- All calls of a program refer to existing scopes. -/
def RealFns : Heap → List Fn → Prop
  | _, [] => True
  | s, f :: t => RealFn s f ∧ RealFns (call f s).2 t

end Proc

namespace Spec

/-- The method call that a function call is meant to be: the receiver is the object, or the database if there is none. -/
inductive Means : Proc.Fn → Store.Call → Prop
  | create : Means .create .newDb
  | coverData {k f} : Means (.coverData k f) (.newCoverData k f)
  | assign {d f v} : Means (.assign d f v) (.assignData d f v)
  | setInt {db o i p v} : Means (.setInt db (some (.scope o)) i p v) (.setIntProperty o i p v)
  | setIntNode {db n i p v} : Means (.setInt db (some (.node n)) i p v) (.setNodeProperty n p v)
  | setIntDb {db i p v} : Means (.setInt db none i p v) (.setIntProperty db i p v)
  | setString {db o p v} : Means (.setString db (some (.scope o)) p v) (.setStringProperty o p v)
  | setStringDb {db p v} : Means (.setString db none p v) (.setStringProperty db p v)
  | createScope {db o n s w so t f} : Means (.createScope db (some o) n s w so t f) (.createScope o n s w so t f)
  | createScopeDb {db n s w so t f} : Means (.createScope db none n s w so t f) (.createScope db n s w so t f)
  | createInstance {db o n s w so t du f} : Means (.createInstance db (some o) n s w so t du f) (.createInstance o n s w so t du f)
  | createInstanceDb {db n s w so t du f} : Means (.createInstance db none n s w so t du f) (.createInstance db n s w so t du f)
  | createToggle {db o n f} : Means (.createToggle db (some o) n f) (.createToggle o n f)
  | createToggleDb {db n f} : Means (.createToggle db none n f) (.createToggle db n f)
  | createNextCover {db o n d s} : Means (.createNextCover db (some o) n d s) (.createNextCover o n d s)
  | createNextCoverDb {db n d s} : Means (.createNextCover db none n d s) (.createNextCover db n d s)
  | createHistoryNode {db now p l ph k} : Means (.createHistoryNode db now p l ph k) (.createHistoryNode db now p l ph k)
  | createFileHandle {db n} : Means (.createFileHandle db n) (.createFileHandle db n)
  | setTestData {db n t} : Means (.setTestData db (some n) t) (.setTestData n t)

end Spec

namespace Proc
open Store Spec

/-- **C107** (part).  A function call does what the method call does that it stands for: same result, same effect.  Missing: bins
without a scope, see `C107_cover_refuted`. -/
theorem C107_call_partial {f : Fn} {c : Call} (h : Means f c) (hc : ∀ db n d s, f ≠ .createNextCover db none n d s) (s : Heap) : call f s = exec c s := by
  cases h with
  | createNextCoverDb => exact absurd rfl (hc _ _ _ _)
  | _ => rfl

theorem node_cases (s : Heap) (n : Nat) : (∃ x, node n s = (.ok x, s)) ∨ ∃ e, node n s = (.error e, s) := by
  cases h : s.nodes[n]? with
  | none => exact .inr ⟨.attributeError, by simp [node, Store.read, h]⟩
  | some x => exact .inl ⟨x, by simp [node, Store.read, h]⟩

theorem unimplOf_raises (t : Target) (s : Heap) : ∃ e, unimplOf t s = (.error e, s) := by
  cases t with
  | scope o =>
    rcases obj_cases s o with ⟨x, hx, ho⟩ | ⟨hx, ho⟩
    · exact ⟨.unimpl, bind_eq_of_ok ho⟩
    · exact ⟨_, bind_eq_of_error ho⟩
  | node n =>
    rcases node_cases s n with ⟨x, hn⟩ | ⟨e, hn⟩
    · exact ⟨.unimpl, bind_eq_of_ok hn⟩
    · exact ⟨e, bind_eq_of_error hn⟩

theorem onDb_eq (db : Nat) (act : M Ret) (s : Heap) : onDb db act s = act s ∨ ∃ e, onDb db act s = (.error e, s) := by
  rcases obj_cases s db with ⟨x, hx, ho⟩ | ⟨hx, ho⟩
  · have : onDb db act s = _ := bind_eq_of_ok ho
    rw [this]
    cases x.cls <;> first | exact .inl rfl | exact .inr ⟨_, rfl⟩
  · exact .inr ⟨_, bind_eq_of_error ho⟩

/-- **C107.** The other function calls change nothing, and all but closing a database raise. -/
theorem C107_others {f : Fn} (h : ∀ c, ¬ Means f c) (s : Heap) :
    (call f s).2 = s ∧ ((∃ e, (call f s).1 = .error e) ∨ ∃ db, f = .close db) := by
  have un : ∀ t, (do unimplOf t; return Ret.none : M Ret) s = (call f s) → (call f s).2 = s ∧ ((∃ e, (call f s).1 = .error e) ∨ ∃ db, f = .close db) := by
    intro t ht
    obtain ⟨e, he⟩ := unimplOf_raises t s
    rw [← ht, bind_eq_of_error he]
    exact ⟨rfl, .inl ⟨e, rfl⟩⟩
  cases f with
  | create => exact absurd .create (h _)
  | coverData => exact absurd .coverData (h _)
  | assign => exact absurd .assign (h _)
  | setInt db t i p v =>
    match t with
    | none => exact absurd .setIntDb (h _)
    | some (.scope o) => exact absurd .setInt (h _)
    | some (.node n) => exact absurd .setIntNode (h _)
  | setReal db t => exact un (orDb db t) rfl
  | setHandle db t => exact un (orDb db t) rfl
  | setString db t p v =>
    match t with
    | none => exact absurd .setStringDb (h _)
    | some (.scope o) => exact absurd .setString (h _)
    | some (.node n) => exact un (.node n) rfl
  | createScope db o n s w so t f => cases o with
    | none => exact absurd .createScopeDb (h _)
    | some o => exact absurd .createScope (h _)
  | createInstance db o n s w so t du f => cases o with
    | none => exact absurd .createInstanceDb (h _)
    | some o => exact absurd .createInstance (h _)
  | createToggle db o n f => cases o with
    | none => exact absurd .createToggleDb (h _)
    | some o => exact absurd .createToggle (h _)
  | createNextCover db o n d s => cases o with
    | none => exact absurd .createNextCoverDb (h _)
    | some o => exact absurd .createNextCover (h _)
  | removeScope => exact ⟨rfl, .inl ⟨_, rfl⟩⟩
  | createHistoryNode => exact absurd .createHistoryNode (h _)
  | createFileHandle => exact absurd .createFileHandle (h _)
  | setTestData db n t => cases n with
    | none => exact ⟨rfl, .inl ⟨_, rfl⟩⟩
    | some n => exact absurd .setTestData (h _)
  | write db =>
    show (onDb db _ s).2 = s ∧ ((∃ e, (onDb db _ s).1 = .error e) ∨ _)
    rcases onDb_eq db (fail .unimpl) s with h | ⟨e, h⟩ <;> rw [h] <;> exact ⟨rfl, .inl ⟨_, rfl⟩⟩
  | close db =>
    refine ⟨?_, .inr ⟨db, rfl⟩⟩
    show (onDb db _ s).2 = s
    rcases onDb_eq db (pure .none) s with h | ⟨e, h⟩ <;> (rw [h]; try rfl)

/-- **C107.** What they raise: "not implemented" for real and handle properties, for string properties of history nodes (also when they are read)
and for writing; an attribute error for removing scopes and for test data without a history node.  Writing and closing are for databases only. -/
theorem C107_raises (db : Nat) (s : Heap) :
    (∀ t, (∃ o x, orDb db t = .scope o ∧ s.objs[o]? = some x) ∨ (∃ n x, orDb db t = .node n ∧ s.nodes[n]? = some x) →
      (call (.setReal db t) s).1 = .error .unimpl ∧ (call (.setHandle db t) s).1 = .error .unimpl) ∧
    (∀ n x p v, s.nodes[n]? = some x → (call (.setString db (some (.node n)) p v) s).1 = .error .unimpl ∧
      getString db (some (.node n)) p s = (.error .unimpl, s)) ∧
    (∀ o, (call (.removeScope db o) s).1 = .error .attributeError) ∧
    (∀ t, (call (.setTestData db none t) s).1 = .error .attributeError) ∧
    (∀ x, s.objs[db]? = some x → (call (.write db) s).1 = .error (if x.cls = .db then .unimpl else .attributeError) ∧
      (call (.close db) s).1 = if x.cls = .db then .ok .none else .error .attributeError) := by
  have un : ∀ t, (∃ o x, t = .scope o ∧ s.objs[o]? = some x) ∨ (∃ n x, t = .node n ∧ s.nodes[n]? = some x) → unimplOf t s = (.error .unimpl, s) := by
    rintro t (⟨o, x, rfl, hx⟩ | ⟨n, x, rfl, hx⟩)
    · exact bind_eq_of_ok (obj_some hx)
    · exact bind_eq_of_ok (by simp [node, Store.read, hx] : node n s = (.ok x, s))
  refine ⟨?_, ?_, fun _ => rfl, fun _ => rfl, ?_⟩
  · intro t ht
    have h := un (orDb db t) ht
    have h1 : call (.setReal db t) s = _ := bind_eq_of_error h
    have h2 : call (.setHandle db t) s = _ := bind_eq_of_error h
    rw [h1, h2]
    exact ⟨rfl, rfl⟩
  · intro n x p v hx
    have h := un (.node n) (.inr ⟨n, x, rfl, hx⟩)
    have h1 : call (.setString db (some (.node n)) p v) s = _ := bind_eq_of_error h
    refine ⟨by rw [h1], ?_⟩
    exact bind_eq_of_ok (by simp [node, Store.read, hx] : node n s = (.ok x, s))
  · intro x hx
    have h1 : call (.write db) s = _ := bind_eq_of_ok (obj_some hx)
    have h2 : call (.close db) s = _ := bind_eq_of_ok (obj_some hx)
    rw [h1, h2]
    cases x.cls <;> exact ⟨rfl, rfl⟩

/-- **C107.** Refutation: a bin without a scope is not a bin of the database; the call raises and the method call works. -/
theorem C107_cover_refuted :
    ∃ f c s, Means f c ∧ (call f s).1 = .error .attributeError ∧ (exec c s).1 = .ok (.cover (.bin 0)) ∧ (call f s).2 ≠ (exec c s).2 := by
  refine ⟨.createNextCover 0 none "b" 0 none, .createNextCover 0 "b" 0 none,
    run Heap.empty [.newDb, .newCoverData 1 0], .createNextCoverDb, rfl, rfl, ?_⟩
  intro h
  have := congrArg (fun h : Heap => h.bins.length) h
  exact absurd this (by decide)

/-- No object of the store is a cross. -/
def Crossless (s : Heap) : Prop := ∀ (q : Nat) y, s.objs[q]? = some y → y.cls ≠ .cross

theorem crossless_quiet {s s' : Heap} (q : Quiet s s') (h : Crossless s) : Crossless s' := by
  intro o y hy
  have hl : s'.objs.length = s.objs.length := by
    have := congrArg List.length q.shapes
    simpa using this
  have ho : o < s.objs.length := hl ▸ (List.getElem?_eq_some_iff.1 hy).1
  obtain ⟨y', hy', k⟩ := q.evolves.objs o _ (List.getElem?_eq_getElem ho)
  rw [hy] at hy'
  cases hy'
  rw [k.cls]
  exact h o _ (List.getElem?_eq_getElem ho)

theorem crossless_child {s : Heap} {o : Nat} {x y : Obj} (hx : s.objs[o]? = some x) (hy : y.cls ≠ .cross) (h : Crossless s) :
    Crossless (s.withChild o y) := by
  have hl := (List.getElem?_eq_some_iff.1 hx).1
  intro q z hz
  simp only [Heap.withChild] at hz
  rw [modify_eq_set (x := x) (by rw [List.getElem?_append_left hl]; exact hx),
    get_set (x := x) (by rw [List.getElem?_append_left hl]; exact hx)] at hz
  split at hz
  · cases hz
    exact h o x hx
  · rw [List.getElem?_append] at hz
    split at hz
    · exact h q z hz
    · rw [List.getElem?_cons] at hz
      split at hz
      · cases hz; exact hy
      · simp at hz

theorem crossless_createScope {s : Heap} (h : Crossless s) (o : Nat) (n : String) (src : Option SrcInfo) (w so : Int) (t : Nat) (f : Int) :
    Crossless (createScope o n src w so t f s).2 := by
  rcases obj_cases s o with ⟨x, hx, ho⟩ | ⟨hx, ho⟩
  · rw [createScope_eq hx n src w so t f]
    cases x.cls <;> simp only <;> (repeat' split) <;>
      first | exact crossless_child hx (by intro e; cases e) h | exact h
  · have : createScope o n src w so t f s = _ := bind_eq_of_error ho
    rw [this]; exact h

/-- Only `createCross` makes crosses. -/
theorem crossless_exec {c : Call} {s : Heap} (hc : ∀ o n src w so us, c ≠ .createCross o n src w so us) (h : Crossless s) : Crossless (exec c s).2 := by
  have lift : ∀ {act : M Nat}, Crossless (act s).2 → exec c = (do return .scope (← act)) → Crossless (exec c s).2 := by
    intro act ha hex
    rw [hex, snd_bind_pure]
    exact ha
  have ok : ∀ {act : M Nat} {r : Except Err Nat} {o : Nat} {x y : Obj}, s.objs[o]? = some x → act s = (r, s.withChild o y) → y.cls ≠ .cross →
      Crossless (act s).2 := by
    intro act r o x y hx ha hy
    rw [ha]; exact crossless_child hx hy h
  have no : ∀ {act : M Nat} {r : Except Err Nat}, act s = (r, s) → Crossless (act s).2 := by
    intro act r ha
    rw [ha]; exact h
  cases hcr : c.creates with
  | none =>
    by_cases hn : c = .newDb
    · subst hn
      have ho : (exec .newDb s).2.objs = s.objs ++ [memUcis] := rfl
      intro q z hz
      rw [ho, List.getElem?_append] at hz
      split at hz
      · exact h q z hz
      · rw [List.getElem?_cons] at hz
        split at hz
        · cases hz
          intro e; cases e
        · simp at hz
    · exact crossless_quiet (exec_quiet hcr hn s) h
  | some on =>
    cases c with
    | createScope o n src w so t f => exact lift (crossless_createScope h o n src w so t f) rfl
    | createInstance o n src w so t du f =>
      refine lift ?_ rfl
      rcases obj_cases s o with ⟨x, hx, ho⟩ | ⟨hx, ho⟩
      · exact ok hx (bind_eq_of_ok ho) (by intro e; cases e)
      · exact no (bind_eq_of_error ho)
    | createCovergroup o n src w so =>
      refine lift ?_ rfl
      rcases obj_cases s o with ⟨x, hx, ho⟩ | ⟨hx, ho⟩
      · exact ok hx (bind_eq_of_ok ho) (by intro e; cases e)
      · exact no (bind_eq_of_error ho)
    | createToggle o n f =>
      refine lift ?_ rfl
      rcases obj_cases s o with ⟨x, hx, ho⟩ | ⟨hx, ho⟩
      · have h : createToggle o n f s = _ := bind_eq_of_ok ho
        cases hc : x.cls <;> rw [hc] at h <;> first | exact no h | exact ok hx h (by intro e; cases e)
      · exact no (bind_eq_of_error ho)
    | createCoverpoint o n src w so =>
      refine lift ?_ rfl
      rcases obj_cases s o with ⟨x, hx, ho⟩ | ⟨hx, ho⟩
      · have h : createCoverpoint o n src w so s = _ := bind_eq_of_ok ho
        cases hc : x.cls <;> rw [hc] at h <;> first | exact no h | exact ok hx h (by intro e; cases e)
      · exact no (bind_eq_of_error ho)
    | createCross => exact absurd rfl (hc _ _ _ _ _ _)
    | createCoverInstance o n src w so =>
      refine lift ?_ rfl
      rcases obj_cases s o with ⟨x, hx, ho⟩ | ⟨hx, ho⟩
      · have h' : createCoverInstance o n src w so s = _ := bind_eq_of_ok ho
        cases hc : x.cls <;> rw [hc] at h' <;> try exact no h'
        have := crossless_createScope h o n src w so ST.COVERINSTANCE 0
        rwa [h']
      · exact no (bind_eq_of_error ho)
    | _ => cases hcr

theorem crossless_shows {s : Heap} (hs : Crossless s) {n : Nat} : ∀ {o : Nat} {v : Scope}, ShowsIn (fun _ => True) s n o v → NoCross v := by
  induction n with
  | zero => exact fun h => h.elim
  | succ n ih =>
    intro o v h
    obtain ⟨_, x, hx, _, _, _, _, _, h6, h7, _⟩ := h
    unfold ShowsCps at h6
    rw [if_neg (hs o x hx)] at h6
    refine .mk h6 (fun c hc => ?_)
    obtain ⟨hl, hg⟩ := List.forall₂_iff_get.1 h7
    obtain ⟨i, hi⟩ := List.mem_iff_get.1 hc
    have hk := hg i.1 (by omega) i.2
    have hi' : v.children.get ⟨i.1, i.2⟩ = c := hi
    rw [hi'] at hk
    exact ih hk

/-- What a function call does is nothing or what a method call does, other than creating a cross. -/
theorem call_step (f : Fn) (s : Heap) : (call f s).2 = s ∨
    ∃ c, (call f s).2 = (exec c s).2 ∧ (RealFn s f → RealCall s c) ∧ ∀ o n src w so us, c ≠ .createCross o n src w so us := by
  by_cases h : ∃ c, Means f c
  · obtain ⟨c, hm⟩ := h
    by_cases hn : ∃ db n d src, f = .createNextCover db none n d src
    · obtain ⟨db, n, d, src, rfl⟩ := hn
      exact .inl rfl
    · refine .inr ⟨c, by rw [C107_call_partial hm (fun db n d src e => hn ⟨db, n, d, src, e⟩)], ?_, ?_⟩
      · cases hm <;> exact id
      · cases hm <;> (intro o n src w so us e; cases e)
  · exact .inl (C107_others (fun c hc => h ⟨c, hc⟩) s).1

theorem runs_run (fs : List Fn) : ∀ s, Crossless s → ∃ cs, (RealFns s fs → RealCalls s cs) ∧ runs s fs = run s cs ∧ Crossless (runs s fs) := by
  induction fs with
  | nil => exact fun s h => ⟨[], fun _ => trivial, rfl, h⟩
  | cons f t ih =>
    intro s hs
    rcases call_step f s with h | ⟨c, h, hr, hc⟩
    · obtain ⟨cs, h1, h2, h3⟩ := ih s hs
      have e : runs s (f :: t) = runs s t := by simp only [runs, List.foldl_cons, h]
      refine ⟨cs, fun hf => h1 ?_, e ▸ h2, e ▸ h3⟩
      have := hf.2
      rwa [h] at this
    · obtain ⟨cs, h1, h2, h3⟩ := ih (exec c s).2 (crossless_exec hc hs)
      have e : runs s (f :: t) = runs (exec c s).2 t := by simp only [runs, List.foldl_cons, h]
      refine ⟨c :: cs, fun hf => ⟨hr hf.1, h1 ?_⟩, e.trans h2, e ▸ h3⟩
      have := hf.2
      rwa [h] at this

/-- The calls that build trees without crosses are function calls. -/
theorem basic_call {c : Call} (h : Basic c) : ∃ f, Means f c ∧ (∀ db n d s, f ≠ .createNextCover db none n d s) ∧ ∀ s, RealCall s c → RealFn s f := by
  cases c with
  | newDb => exact ⟨_, .create, by (intros; intro e; cases e), fun _ _ => trivial⟩
  | createScope => exact ⟨_, .createScope (db := 0), by (intros; intro e; cases e), fun _ _ => trivial⟩
  | createInstance => exact ⟨_, .createInstance (db := 0), by (intros; intro e; cases e), fun _ h => h⟩
  | newCoverData => exact ⟨_, .coverData, by (intros; intro e; cases e), fun _ _ => trivial⟩
  | assignData => exact ⟨_, .assign, by (intros; intro e; cases e), fun _ _ => trivial⟩
  | createNextCover => exact ⟨_, .createNextCover (db := 0), by (intros; intro e; cases e), fun _ _ => trivial⟩
  | setIntProperty => exact ⟨_, .setInt (db := 0), by (intros; intro e; cases e), fun _ _ => trivial⟩
  | _ => exact h.elim

theorem uses_runs {cs : List Call} (h : Uses False cs) : ∀ s, RealCalls s cs → ∃ fs, RealFns s fs ∧ runs s fs = run s cs := by
  induction cs with
  | nil => exact fun s _ => ⟨[], trivial, rfl⟩
  | cons c t ih =>
    intro s hr
    have hb : Basic c := (h c (by simp)).resolve_right (fun x => x.1)
    obtain ⟨f, hm, hn, hf⟩ := basic_call hb
    obtain ⟨fs, h1, h2⟩ := ih (fun c hc => h c (by simp [hc])) _ hr.2
    have e := C107_call_partial hm hn s
    refine ⟨f :: fs, ⟨hf s hr.1, by rw [e]; exact h1⟩, ?_⟩
    simp only [runs, run, List.foldl_cons, e] at h2 ⊢
    exact h2

/-- **C107.** The contents of the databases that programs of function calls create are exactly the possible trees without crosses. -/
theorem C107_exact (v : Scope) :
    (∃ fs d x, RealFns Heap.empty fs ∧ (runs Heap.empty fs).objs[d]? = some x ∧ x.cls = .db ∧ Shows (runs Heap.empty fs) d v) ↔
      Possible .db v ∧ NoCross v := by
  constructor
  · rintro ⟨fs, d, x, _, hx, hc, n, hs⟩
    obtain ⟨cs, _, h2, h3⟩ := runs_run fs Heap.empty (by intro q y hy; simp [Heap.empty] at hy)
    refine ⟨?_, crossless_shows h3 hs⟩
    rw [h2] at hx hs
    have := shows_possible hx hs
    rwa [hc] at this
  · rintro ⟨hp, hn⟩
    have hx : (run Heap.empty [.newDb, .setIntProperty 0 (-1) .scopeWeight v.weight]).objs[0]? = some { memUcis with weight := v.weight } := rfl
    obtain ⟨h1, h2, h3, h4, h5⟩ : RoleOk .db v := by cases hp with | mk r o h k => exact o
    obtain ⟨s', g, hs⟩ := build (X := False) hp (.inr hn) _ 0 _ hx ⟨rfl, rfl, rfl, h1, h2, h3, rfl, h4, h5⟩
    obtain ⟨y, i, hy⟩ := g.self _ hx
    obtain ⟨cs2, hr, hu, rfl⟩ := g.calls
    obtain ⟨fs, hf, e⟩ := uses_runs (cs := [.newDb, .setIntProperty 0 (-1) .scopeWeight v.weight] ++ cs2)
      (uses_append (uses_basic (by simp [Basic])) hu) Heap.empty
      (realCalls_append (a := [.newDb, .setIntProperty 0 (-1) .scopeWeight v.weight]) ⟨trivial, trivial, trivial⟩ hr)
    rw [run_append] at e
    exact ⟨fs, 0, grow y i { memUcis with weight := v.weight }, hf, by rw [e]; exact hy, rfl, by rw [e]; exact hs⟩

/-- A cross of no coverpoints. -/
def crossItself : Scope :=
  { stype := ST.CROSS, name := "x", src := SrcInfo.none, weight := 1, du := none, cps := some [], children := [], items := [] }

/-- A covergroup with it. -/
def crossGroup : Scope :=
  { stype := ST.COVERGROUP, name := "cg", src := SrcInfo.none, weight := 1, du := none, cps := none, children := [crossItself], items := [] }

/-- A database with it. -/
def crossTree : Scope := { emptyDb with children := [crossGroup] }

theorem crossTree_possible : Possible .db crossTree := by
  rw [← C106_exact]
  exact ⟨[.newDb, .createCovergroup 0 "cg" none 1 0, .createCross 1 "x" none 1 0 []], 0, _, ⟨trivial, trivial, by simp [RealCall], trivial⟩, rfl, rfl,
    3, trivial, _, rfl, rfl, rfl, rfl, rfl, rfl, rfl, .cons ⟨trivial, _, rfl, rfl, rfl, rfl, rfl, rfl, rfl, .cons ⟨trivial, _, rfl, rfl,
      rfl, rfl, rfl, rfl, ⟨[], rfl, .nil⟩, .nil, .nil⟩ .nil, .nil⟩ .nil, .nil⟩

/-- **C107.** Refutation: not all contents that method calls create can be created by function calls, since no function creates crosses. -/
theorem C107_cross_refuted : ∃ v, Possible .db v ∧
    ¬ ∃ fs d x, RealFns Heap.empty fs ∧ (runs Heap.empty fs).objs[d]? = some x ∧ x.cls = .db ∧ Shows (runs Heap.empty fs) d v := by
  refine ⟨crossTree, crossTree_possible, ?_⟩
  rw [C107_exact]
  rintro ⟨_, h⟩
  have h1 := noCross_child h (c := crossGroup) (by simp [crossTree])
  have h2 := noCross_child h1 (c := crossItself) (by simp [crossGroup])
  exact absurd (noCross_own h2) (by simp [crossItself])

/-- **C107.** Without an object the functions work on the database, for every function that takes an object and a database,
other than `ucis_CreateNextCover`. -/
theorem C107_null (db : Nat) :
    (∀ i p v, call (.setInt db none i p v) = call (.setInt db (some (.scope db)) i p v)) ∧
    (∀ p v, call (.setString db none p v) = call (.setString db (some (.scope db)) p v)) ∧
    (∀ n s w so t f, call (.createScope db none n s w so t f) = call (.createScope db (some db) n s w so t f)) ∧
    (∀ n s w so t du f, call (.createInstance db none n s w so t du f) = call (.createInstance db (some db) n s w so t du f)) ∧
    (∀ n f, call (.createToggle db none n f) = call (.createToggle db (some db) n f)) ∧
    (∀ i p, getInt db none i p = getInt db (some (.scope db)) i p) ∧
    (∀ p, getString db none p = getString db (some (.scope db)) p) :=
  ⟨fun _ _ _ => rfl, fun _ _ => rfl, fun _ _ _ _ _ _ => rfl, fun _ _ _ _ _ _ _ => rfl, fun _ _ => rfl, fun _ _ => rfl, fun _ => rfl⟩

/-- **C107.** A non-trivial content: made by function calls. -/
example : ∃ fs d x, RealFns Heap.empty fs ∧ (runs Heap.empty fs).objs[d]? = some x ∧ x.cls = .db ∧ Shows (runs Heap.empty fs) d editTree :=
  (C107_exact _).2 ⟨editTree_possible, .mk rfl (by
    intro c hc
    simp only [editTree, List.mem_singleton] at hc
    subst hc
    exact .mk rfl (by
      intro c hc
      simp only [List.mem_singleton] at hc
      subst hc
      exact .mk rfl (by intro c hc; simp at hc)))⟩

/-- A program of function calls, with the database as the null parent, a failing removal and a close. -/
def demo : List Fn :=
  [.create, .createScope 0 none "cg" none 1 0 ST.COVERGROUP 0, .removeScope 0 (some 1), .createScope 0 (some 1) "cp" none 2 0 ST.COVERPOINT 0,
    .coverData 1 0, .createNextCover 0 (some 2) "a" 0 none, .createNextCover 0 none "b" 0 none, .close 0]

/-- **C107** applies: what the program made. -/
example : (runs Heap.empty demo).objs.length = 3 ∧ (runs Heap.empty demo).bins.length = 1 := by decide

example : Means (.createScope 0 none "cg" none 1 0 ST.COVERGROUP 0) (.createScope 0 "cg" none 1 0 ST.COVERGROUP 0) := .createScopeDb

example : ∀ c, ¬ Means (.removeScope 0 none) c := by intro c h; cases h

end Proc
end Verif
