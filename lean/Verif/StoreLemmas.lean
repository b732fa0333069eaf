import Verif.Store
import Mathlib.Data.List.Nodup
/-!
# Effects of the store calls

Every call either raises and leaves the store as it is, or has one of a few simple effects.
-/

namespace Verif
namespace Store

/-! ## The monad -/

theorem bind_def {α β : Type} (x : M α) (f : α → M β) (s : Heap) :
    (x >>= f) s = match x s with
      | (.ok a, s') => f a s'
      | (.error e, s') => (.error e, s') := rfl

theorem pure_def {α : Type} (a : α) (s : Heap) : (pure a : M α) s = (.ok a, s) := rfl

theorem bind_eq_of_ok {α β : Type} {x : M α} {f : α → M β} {s s' : Heap} {a : α} (h : x s = (.ok a, s')) : (x >>= f) s = f a s' := by
  rw [bind_def, h]

theorem bind_eq_of_error {α β : Type} {x : M α} {f : α → M β} {s s' : Heap} {e : Err} (h : x s = (.error e, s')) :
    (x >>= f) s = (.error e, s') := by
  rw [bind_def, h]

theorem bind_ok {α β : Type} {x : M α} {f : α → M β} {s s' : Heap} {b : β} :
    (x >>= f) s = (.ok b, s') ↔ ∃ a s1, x s = (.ok a, s1) ∧ f a s1 = (.ok b, s') := by
  rw [bind_def]
  rcases h : x s with ⟨r, s1⟩
  cases r with
  | error e => simp
  | ok a => simp

theorem bind_error {α β : Type} {x : M α} {f : α → M β} {s s' : Heap} {e : Err} :
    (x >>= f) s = (.error e, s') ↔ x s = (.error e, s') ∨ ∃ a s1, x s = (.ok a, s1) ∧ f a s1 = (.error e, s') := by
  rw [bind_def]
  rcases h : x s with ⟨r, s1⟩
  cases r with
  | error e => simp
  | ok a => simp

theorem obj_some {s : Heap} {o : Nat} {x : Obj} (h : s.objs[o]? = some x) : obj o s = (.ok x, s) := by
  simp [obj, read, h]

theorem obj_none {s : Heap} {o : Nat} (h : s.objs[o]? = none) : obj o s = (.error .attributeError, s) := by
  simp [obj, read, h]

theorem cdata_some {s : Heap} {o : Nat} {x : CData} (h : s.datas[o]? = some x) : cdata o s = (.ok x, s) := by
  simp [cdata, read, h]

theorem cdata_none {s : Heap} {o : Nat} (h : s.datas[o]? = none) : cdata o s = (.error .attributeError, s) := by
  simp [cdata, read, h]

theorem bin_some {s : Heap} {o : Nat} {x : Bin} (h : s.bins[o]? = some x) : bin o s = (.ok x, s) := by
  simp [bin, read, h]

theorem bin_none {s : Heap} {o : Nat} (h : s.bins[o]? = none) : bin o s = (.error .attributeError, s) := by
  simp [bin, read, h]

theorem node_some {s : Heap} {o : Nat} {x : Node} (h : s.nodes[o]? = some x) : node o s = (.ok x, s) := by
  simp [node, read, h]

theorem node_none {s : Heap} {o : Nat} (h : s.nodes[o]? = none) : node o s = (.error .attributeError, s) := by
  simp [node, read, h]

/-! ## Effects -/

/-- The store after creating the scope `y` as last child of `o`. -/
def Heap.withChild (s : Heap) (o : Nat) (y : Obj) : Heap :=
  { s with objs := (s.objs ++ [y]).modify o (fun x => { x with children := x.children ++ [s.objs.length] }) }

theorem attach_eq (s : Heap) (o : Nat) (y : Obj) : attach o y s = (.ok s.objs.length, s.withChild o y) := rfl

/-- The store after creating a bin with the given data as last bin of `o`. -/
def Heap.withBin (s : Heap) (o : Nat) (b : Bin) : Heap :=
  { s with bins := s.bins ++ [b], objs := s.objs.modify o (fun x => { x with items := x.items ++ [s.bins.length] }) }

/-- The outcomes of the first step `obj o`. -/
theorem obj_cases (s : Heap) (o : Nat) :
    (∃ x, s.objs[o]? = some x ∧ obj o s = (.ok x, s)) ∨ (s.objs[o]? = none ∧ obj o s = (.error .attributeError, s)) := by
  cases h : s.objs[o]? with
  | none => exact .inr ⟨rfl, obj_none h⟩
  | some x => exact .inl ⟨x, rfl, obj_some h⟩

theorem createScope_eq {s : Heap} {o : Nat} {x : Obj} (h : s.objs[o]? = some x) (n : String) (src : Option SrcInfo) (w so : Int) (t : Nat) (f : Int) :
    createScope o n src w so t f s =
      match x.cls with
      | .inst | .toggle =>
        if maskHit t ST.COVERGROUP then (.ok s.objs.length, s.withChild o (memCovergroup o n src w so)) else (.error .unimpl, s)
      | _ =>
        if ST.duAny t then (.ok s.objs.length, s.withChild o (memScope .unit (some o) n src w so t f))
        else if t = ST.COVERGROUP then (.ok s.objs.length, s.withChild o (memCovergroup o n src w so))
        else if t = ST.COVERINSTANCE then
          (.ok s.objs.length, s.withChild o { memCovergroup o n src w so with stype := ST.COVERINSTANCE })
        else if t = ST.COVERPOINT then (.ok s.objs.length, s.withChild o (memCoverpoint o n src w so))
        else (.error .notImplemented, s) := by
  unfold createScope
  rw [bind_eq_of_ok (obj_some h)]
  cases x.cls <;> simp only <;> (repeat' split) <;> rfl

/-- A created scope: a fresh object of the receiver with the given name and nothing below. -/
structure Fresh (o : Nat) (n : String) (y : Obj) : Prop where
  parent : y.parent = some o
  name : y.name = n
  children : y.children = []
  items : y.items = []
  stmts : y.stmts = []
  notDb : y.cls ≠ .db
  side : y.files = [] ∧ y.hist = [] ∧ y.covInsts = []

theorem fresh_scope {o : Nat} {n : String} {src : Option SrcInfo} {w so : Int} {t : Nat} {f : Int} :
    Fresh o n (memScope .unit (some o) n src w so t f) := ⟨rfl, rfl, rfl, rfl, rfl, by simp [memScope], rfl, rfl, rfl⟩
theorem fresh_covergroup {o : Nat} {n : String} {src : Option SrcInfo} {w so : Int} :
    Fresh o n (memCovergroup o n src w so) := ⟨rfl, rfl, rfl, rfl, rfl, by simp [memCovergroup, memCvg, memScope], rfl, rfl, rfl⟩
theorem fresh_coverinst {o : Nat} {n : String} {src : Option SrcInfo} {w so : Int} :
    Fresh o n { memCovergroup o n src w so with stype := ST.COVERINSTANCE } :=
  ⟨rfl, rfl, rfl, rfl, rfl, by simp [memCovergroup, memCvg, memScope], rfl, rfl, rfl⟩
theorem fresh_coverpoint {o : Nat} {n : String} {src : Option SrcInfo} {w so : Int} :
    Fresh o n (memCoverpoint o n src w so) := ⟨rfl, rfl, rfl, rfl, rfl, by simp [memCoverpoint, memCvg, memScope], rfl, rfl, rfl⟩
theorem fresh_cross {o : Nat} {n : String} {src : Option SrcInfo} {w so : Int} {cps : List Nat} :
    Fresh o n (memCross o n src w so cps) := ⟨rfl, rfl, rfl, rfl, rfl, by simp [memCross, memCvg, memScope], rfl, rfl, rfl⟩
theorem fresh_instance {o : Nat} {n : String} {src : Option SrcInfo} {w so : Int} {t : Nat} {du : Option Nat} {f : Int} :
    Fresh o n (memInstance o n src w so t du f) := ⟨rfl, rfl, rfl, rfl, rfl, by simp [memInstance, memScope], rfl, rfl, rfl⟩
theorem fresh_toggle {o : Nat} {n : String} {f : Int} :
    Fresh o n (memToggle o n f) := ⟨rfl, rfl, rfl, rfl, rfl, by simp [memToggle], rfl, rfl, rfl⟩

/-- The receiver and name of a call that creates a scope below another. -/
def Call.creates : Call → Option (Nat × String)
  | .createScope o n _ _ _ _ _ => some (o, n)
  | .createInstance o n _ _ _ _ _ _ => some (o, n)
  | .createCovergroup o n _ _ _ => some (o, n)
  | .createToggle o n _ => some (o, n)
  | .createCoverpoint o n _ _ _ => some (o, n)
  | .createCross o n _ _ _ _ => some (o, n)
  | .createCoverInstance o n _ _ _ => some (o, n)
  | _ => none

/-- Outcome of a creation call: a fresh scope is attached, or nothing happens. -/
def Attaches (act : M Nat) (o : Nat) (n : String) (s : Heap) : Prop :=
  (∃ x y, s.objs[o]? = some x ∧ Fresh o n y ∧ act s = (.ok s.objs.length, s.withChild o y)) ∨ ∃ e, act s = (.error e, s)

theorem attaches_ok {act : M Nat} {o : Nat} {n : String} {s : Heap} {x y : Obj} (hx : s.objs[o]? = some x) (hy : Fresh o n y)
    (h : act s = (.ok s.objs.length, s.withChild o y)) : Attaches act o n s := .inl ⟨x, y, hx, hy, h⟩

theorem attaches_none {act : M Nat} {o : Nat} {n : String} {s : Heap} {e : Err} (h : act s = (.error e, s)) : Attaches act o n s :=
  .inr ⟨e, h⟩

theorem createScope_attaches (o : Nat) (n : String) (src : Option SrcInfo) (w so : Int) (t : Nat) (f : Int) (s : Heap) :
    Attaches (createScope o n src w so t f) o n s := by
  rcases obj_cases s o with ⟨x, hx, ho⟩ | ⟨hx, ho⟩
  · have h := createScope_eq hx n src w so t f
    have scopeCase : createScope o n src w so t f s =
        (if ST.duAny t then (.ok s.objs.length, s.withChild o (memScope .unit (some o) n src w so t f))
        else if t = ST.COVERGROUP then (.ok s.objs.length, s.withChild o (memCovergroup o n src w so))
        else if t = ST.COVERINSTANCE then
          (.ok s.objs.length, s.withChild o { memCovergroup o n src w so with stype := ST.COVERINSTANCE })
        else if t = ST.COVERPOINT then (.ok s.objs.length, s.withChild o (memCoverpoint o n src w so))
        else (.error .notImplemented, s)) → Attaches (createScope o n src w so t f) o n s := by
      intro h
      split_ifs at h
      · exact attaches_ok hx fresh_scope h
      · exact attaches_ok hx fresh_covergroup h
      · exact attaches_ok hx fresh_coverinst h
      · exact attaches_ok hx fresh_coverpoint h
      · exact attaches_none h
    have instCase : createScope o n src w so t f s =
        (if maskHit t ST.COVERGROUP then (.ok s.objs.length, s.withChild o (memCovergroup o n src w so)) else (.error .unimpl, s)) →
        Attaches (createScope o n src w so t f) o n s := by
      intro h
      split_ifs at h
      · exact attaches_ok hx fresh_covergroup h
      · exact attaches_none h
    cases hc : x.cls <;> rw [hc] at h
    · exact scopeCase h
    · exact scopeCase h
    · exact instCase h
    · exact instCase h
    · exact scopeCase h
    · exact scopeCase h
    · exact scopeCase h
  · exact attaches_none (bind_eq_of_error ho)

theorem createInstance_attaches (o : Nat) (n : String) (src : Option SrcInfo) (w so : Int) (t : Nat) (du : Option Nat) (f : Int) (s : Heap) :
    Attaches (createInstance o n src w so t du f) o n s := by
  rcases obj_cases s o with ⟨x, hx, ho⟩ | ⟨hx, ho⟩
  · exact attaches_ok hx fresh_instance (bind_eq_of_ok ho)
  · exact attaches_none (bind_eq_of_error ho)

theorem createCovergroup_attaches (o : Nat) (n : String) (src : Option SrcInfo) (w so : Int) (s : Heap) :
    Attaches (createCovergroup o n src w so) o n s := by
  rcases obj_cases s o with ⟨x, hx, ho⟩ | ⟨hx, ho⟩
  · exact attaches_ok hx fresh_covergroup (bind_eq_of_ok ho)
  · exact attaches_none (bind_eq_of_error ho)

theorem createToggle_attaches (o : Nat) (n : String) (f : Int) (s : Heap) : Attaches (createToggle o n f) o n s := by
  rcases obj_cases s o with ⟨x, hx, ho⟩ | ⟨hx, ho⟩
  · have h : createToggle o n f s = _ := bind_eq_of_ok ho
    cases hc : x.cls <;> rw [hc] at h <;>
      first | exact attaches_none h | exact attaches_ok hx fresh_toggle h
  · exact attaches_none (bind_eq_of_error ho)

theorem createCoverpoint_attaches (o : Nat) (n : String) (src : Option SrcInfo) (w so : Int) (s : Heap) :
    Attaches (createCoverpoint o n src w so) o n s := by
  rcases obj_cases s o with ⟨x, hx, ho⟩ | ⟨hx, ho⟩
  · have h : createCoverpoint o n src w so s = _ := bind_eq_of_ok ho
    cases hc : x.cls <;> rw [hc] at h <;>
      first | exact attaches_none h | exact attaches_ok hx fresh_coverpoint h
  · exact attaches_none (bind_eq_of_error ho)

theorem createCross_attaches (o : Nat) (n : String) (src : Option SrcInfo) (w so : Int) (cps : List Nat) (s : Heap) :
    Attaches (createCross o n src w so cps) o n s := by
  rcases obj_cases s o with ⟨x, hx, ho⟩ | ⟨hx, ho⟩
  · have h : createCross o n src w so cps s = _ := bind_eq_of_ok ho
    cases hc : x.cls <;> rw [hc] at h <;>
      first | exact attaches_none h | exact attaches_ok hx fresh_cross h
  · exact attaches_none (bind_eq_of_error ho)

theorem createCoverInstance_attaches (o : Nat) (n : String) (src : Option SrcInfo) (w so : Int) (s : Heap) :
    Attaches (createCoverInstance o n src w so) o n s := by
  rcases obj_cases s o with ⟨x, hx, ho⟩ | ⟨hx, ho⟩
  · have h : createCoverInstance o n src w so s = _ := bind_eq_of_ok ho
    cases hc : x.cls <;> rw [hc] at h <;> try exact attaches_none h
    have := createScope_attaches o n src w so ST.COVERINSTANCE 0 s
    unfold Attaches at this ⊢
    rwa [h]
  · exact attaches_none (bind_eq_of_error ho)

/-- A creation call either attaches a fresh scope or raises without effect. -/
theorem exec_creates {c : Call} {o : Nat} {n : String} (hc : c.creates = some (o, n)) (s : Heap) :
    (∃ x y, s.objs[o]? = some x ∧ Fresh o n y ∧ exec c s = (.ok (.scope s.objs.length), s.withChild o y)) ∨
    ∃ e, exec c s = (.error e, s) := by
  have lift : ∀ act : M Nat, Attaches act o n s → exec c = (do return .scope (← act)) →
      (∃ x y, s.objs[o]? = some x ∧ Fresh o n y ∧ exec c s = (.ok (.scope s.objs.length), s.withChild o y)) ∨
      ∃ e, exec c s = (.error e, s) := by
    rintro act (⟨x, y, hx, hy, h⟩ | ⟨e, h⟩) hex
    · exact .inl ⟨x, y, hx, hy, by rw [hex, bind_eq_of_ok h]; rfl⟩
    · exact .inr ⟨e, by rw [hex, bind_eq_of_error h]⟩
  cases c <;> simp only [Call.creates, reduceCtorEq, Option.some.injEq, Prod.mk.injEq] at hc <;> obtain ⟨rfl, rfl⟩ := hc
  · exact lift _ (createScope_attaches ..) rfl
  · exact lift _ (createInstance_attaches ..) rfl
  · exact lift _ (createCovergroup_attaches ..) rfl
  · exact lift _ (createToggle_attaches ..) rfl
  · exact lift _ (createCoverpoint_attaches ..) rfl
  · exact lift _ (createCross_attaches ..) rfl
  · exact lift _ (createCoverInstance_attaches ..) rfl

end Store
end Verif
