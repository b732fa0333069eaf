import Verif.Lib
import Verif.Merge
/-!
# Properties of the native binding (C88–C95)

All statements are for every native library `o` and every trace `t` of calls made before.
-/

namespace Verif
namespace Lib
open Tools

/-! ## Specification -/

namespace Spec

/-- Numbers a C `int` can hold. -/
def Int32 (x : Int) : Prop := -2 ^ 31 ≤ x ∧ x < 2 ^ 31
instance (x : Int) : Decidable (Int32 x) := inferInstanceAs (Decidable (_ ∧ _))
/-- Numbers a 64-bit unsigned type can hold. -/
def UInt64 (x : Int) : Prop := 0 ≤ x ∧ x < 2 ^ 64

/-- A location the binding can pass on: none, or one in a file of the same binding, with C numbers; and its C form. -/
def SrcForm : Option PySrc → Option CSrc → Prop
  | none, c => c = none
  | some s, c => ∃ fh, s.file = .native fh ∧ Int32 s.line ∧ Int32 s.token ∧ c = some ⟨fh, s.line, s.token⟩

/-- Objects a user can create below a scope. -/
inductive Req where
  | scope (name : Option String) (weight source type flags : Int)
  | instance (name : String) (weight source type : Int) (du : Ref) (flags : Int)
  | covergroup (name : String) (weight source : Int)
  | coverInstance (name : String) (weight source : Int)
  | coverpoint (name : String) (weight source : Int)
  | cross (name : String) (weight source : Int) (points : List Ref)
  | toggle (name : String) (canonical : Option String) (flags metric type dir : Int)

/-- All numbers of a request fit their C types. -/
def Req.Fits : Req → Prop
  | .scope _ w so ty fl => Int32 w ∧ Int32 so ∧ UInt64 ty ∧ Int32 fl
  | .instance _ w so ty _ fl => Int32 w ∧ Int32 so ∧ UInt64 ty ∧ Int32 fl
  | .covergroup _ w so => Int32 w ∧ Int32 so
  | .coverInstance _ w so => Int32 w ∧ Int32 so
  | .coverpoint _ w so => Int32 w ∧ Int32 so
  | .cross _ w so _ => Int32 w ∧ Int32 so
  | .toggle _ _ fl m ty d => (0 ≤ fl ∧ fl < 2 ^ 32) ∧ Int32 m ∧ Int32 ty ∧ Int32 d

/-- The call of the UCIS C API that a request stands for, below the object `parent` of the database `db`. -/
def Req.cCall (db : Nat) (parent : Option Nat) (src : Option CSrc) : Req → CCall
  | .scope n w so ty fl => .createScope db parent n src w so ty.toNat fl
  | .instance n w so ty du fl => .createInstance db parent n src w so ty.toNat du.obj fl
  | .covergroup n w so => .createScope db parent (some n) src w so 0x1000 0
  | .coverInstance n w so => .createScope db parent (some n) src w so 0x2000 0
  | .coverpoint n w so => .createScope db parent (some n) src w so 0x4000 0
  | .cross n w so ps => .createCross db parent n src w so (ps.map Ref.obj)
  | .toggle n c fl m ty d => .createToggle db parent n c fl.toNat m ty d

/-- Calls that create something. -/
def IsCreate : CCall → Bool
  | .createHistoryNode .. | .createScope .. | .createInstance .. | .createCross .. | .createNextCover .. | .createToggle ..
  | .createFileHandle .. => true
  | _ => false

/-- Calls that change the content of a database. -/
def Modifies : CCall → Bool
  | .setInt .. | .setString .. | .setTestData .. => true
  | c => IsCreate c

/-- Calls that only set options of the object `h`. -/
def SetsOptionOf (h : Nat) : CCall → Prop
  | .setInt _ obj ci _ _ => obj = h ∧ ci = -1
  | .setString _ obj ci _ _ => obj = h ∧ ci = -1
  | _ => False

/-- The value of an integer option of the object `h` after the calls: the last one set. -/
def intOption (h : Nat) (p : Int) (l : List CCall) : Option Int :=
  l.foldl (fun v c => match c with
    | .setInt _ obj (-1) q x => if obj = h ∧ q = p then some x else v
    | _ => v) none

/-- The documented default options (UCIS standard and SystemVerilog LRM): goal of every scope, options of coverpoints and crosses,
options of covergroups. -/
def defaults : Req → List (Int × Int)
  | .scope .. | .instance .. | .toggle .. => [(4, 100)]
  | .coverpoint .. | .cross .. => [(4, 100), (24, 1), (25, 64), (26, 0), (28, 0)]
  | .covergroup .. | .coverInstance .. => [(4, 100), (24, 1), (25, 64), (26, 0), (28, 0), (29, 0), (30, 0), (31, 1)]

end Spec
open Lib.Spec

/-- The method of the binding for a request. -/
def perform (s : Ref) (src : Option PySrc) : Req → L Ref
  | .scope n w so ty fl => createScope s n src w so ty fl
  | .instance n w so ty du fl => createInstance s (some n) src w so ty (some du) fl
  | .covergroup n w so => createCovergroup s (some n) src w so
  | .coverInstance n w so => createCoverInstance s (some n) src w so
  | .coverpoint n w so => createCoverpoint s (some n) src w so
  | .cross n w so ps => createCross s (some n) src w so ps
  | .toggle n c fl m ty d => createToggle s (some n) c fl m ty d

/-- Toggles have no location in the C API. -/
def srcFor (src : Option PySrc) : Req → Option PySrc
  | .toggle .. => none
  | _ => src

/-! ## Lemmas -/

theorem bind_def {α β : Type} (x : L α) (f : α → L β) (o : Native) (t : List CCall) :
    (x >>= f) o t = match x o t with
      | (.ok a, t') => f a o t'
      | (.error e, t') => (.error e, t') := rfl

theorem pure_def {α : Type} (a : α) (o : Native) (t : List CCall) : (pure a : L α) o t = (.ok a, t) := rfl

theorem call_def (c : CCall) (o : Native) (t : List CCall) : call c o t = (.ok (o t c), t ++ [c]) := rfl

theorem toCInt_id {x : Int} (h : Int32 x) : toCInt x = x := by
  unfold toCInt
  obtain ⟨h1, h2⟩ := h
  simp only
  split <;> omega

theorem toUnsigned64_id {x : Int} (h : UInt64 x) : toUnsigned 64 x = x.toNat := by
  unfold toUnsigned
  obtain ⟨h1, h2⟩ := h
  congr 1
  omega

theorem toUnsigned32_id {x : Int} (h : 0 ≤ x ∧ x < 2 ^ 32) : toUnsigned 32 x = x.toNat := by
  unfold toUnsigned
  congr 1
  omega

theorem srcPtr_ok {src : Option PySrc} {c : Option CSrc} (h : SrcForm src c) (o : Native) (t : List CCall) :
    srcPtr src o t = (.ok c, t) := by
  cases src with
  | none => cases h; rfl
  | some s =>
    obtain ⟨fh, h1, h2, h3, rfl⟩ := h
    simp only [srcPtr, bind_def, lift, srcCtor, h1, toCInt_id h2, toCInt_id h3, pure_def]

theorem setInt_run (r : Ref) (p v : Int) (o : Native) (t : List CCall) :
    setIntProperty r (-1) p v o t = (.ok (), t ++ [.setInt r.db r.target (-1) (toCInt p) (toCInt v)]) := rfl

/-- The calls that `LibScope.__init__` makes. -/
def scopeCalls (r : Ref) : List CCall := [.setInt r.db r.target (-1) 4 100]
/-- The calls that `CvgScope.__init__` makes. -/
def cvgCalls (r : Ref) : List CCall :=
  [.setInt r.db r.target (-1) 24 1, .setInt r.db r.target (-1) 25 64, .setInt r.db r.target (-1) 26 0, .setInt r.db r.target (-1) 28 0]
/-- The calls after the creation call, for each kind of object. -/
def initCalls (r : Ref) : Req → List CCall
  | .scope .. | .instance .. | .toggle .. => scopeCalls r
  | .coverpoint .. => scopeCalls r ++ scopeCalls r ++ cvgCalls r ++ cvgCalls r ++ [.setString r.db r.target (-1) 14 ""]
  | .cross .. => scopeCalls r ++ cvgCalls r
  | .covergroup .. | .coverInstance .. => scopeCalls r ++ cvgCalls r ++ cvgCalls r ++
      [.setInt r.db r.target (-1) 29 0, .setInt r.db r.target (-1) 31 1, .setInt r.db r.target (-1) 30 0, .setString r.db r.target (-1) 14 ""]

theorem mkScope_run (db : Nat) (obj : Option Nat) (o : Native) (t : List CCall) :
    mkScope db obj o t = (.ok ⟨db, obj⟩, t ++ scopeCalls ⟨db, obj⟩) := rfl

theorem initCvg_run (r : Ref) (o : Native) (t : List CCall) : initCvgScope r o t = (.ok (), t ++ cvgCalls r) := by
  show (Except.ok (), _) = _
  simp only [cvgCalls, List.append_assoc]
  rfl

theorem mkCvgScope_run (db : Nat) (obj : Option Nat) (o : Native) (t : List CCall) :
    mkCvgScope db obj o t = (.ok ⟨db, obj⟩, t ++ (scopeCalls ⟨db, obj⟩ ++ cvgCalls ⟨db, obj⟩)) := by
  simp only [mkCvgScope, bind_def, mkScope_run, initCvg_run, pure_def, List.append_assoc]

theorem mkCovergroup_run (db : Nat) (obj : Option Nat) (o : Native) (t : List CCall) :
    mkCovergroup db obj o t = (.ok ⟨db, obj⟩, t ++ initCalls ⟨db, obj⟩ (.covergroup "" 0 0)) := by
  simp only [mkCovergroup, bind_def, mkCvgScope_run, initCvg_run, pure_def, List.append_assoc]
  show (Except.ok _, _) = _
  simp only [initCalls, List.append_assoc]
  rfl

theorem mkCoverpoint_run (db : Nat) (obj : Option Nat) (o : Native) (t : List CCall) :
    mkCoverpoint db obj o t = (.ok ⟨db, obj⟩, t ++ (scopeCalls ⟨db, obj⟩ ++ cvgCalls ⟨db, obj⟩ ++ cvgCalls ⟨db, obj⟩ ++
      [.setString db (Ref.target ⟨db, obj⟩) (-1) 14 ""])) := by
  simp only [mkCoverpoint, bind_def, mkCvgScope_run, initCvg_run, pure_def, List.append_assoc]
  show (Except.ok _, _) = _
  simp only [List.append_assoc]
  rfl

/-- Whether the method looks at the handle it gets (`lib_scope.py:86-88`, `:110-112`). -/
def checksHandle : Req → Bool
  | .scope .. | .instance .. | .coverpoint .. => true
  | _ => false

/-- What a creation method does, in terms of the answer of the library. -/
theorem perform_run {r : Req} {s : Ref} {src : Option PySrc} {c : Option CSrc} (hf : r.Fits) (hs : SrcForm (srcFor src r) c)
    (o : Native) (t : List CCall) :
    perform s src r o t =
      match (o t (r.cCall s.db s.obj c)).ptr, checksHandle r with
      | none, true => (.error .userError, t ++ [r.cCall s.db s.obj c])
      | p, _ => (.ok ⟨s.db, p⟩, t ++ [r.cCall s.db s.obj c] ++ initCalls ⟨s.db, p⟩ r) := by
  cases r with
  | scope n w so ty fl =>
    obtain ⟨h1, h2, h3, h4⟩ := hf
    replace hs : SrcForm src c := hs
    simp only [perform, createScope, bind_def, srcPtr_ok hs, call_def, toCInt_id h1, toCInt_id h2, toCInt_id h4, toUnsigned64_id h3,
      Req.cCall, checksHandle]
    cases (o t (.createScope s.db s.obj n c w so ty.toNat fl)).ptr <;> rfl
  | «instance» n w so ty du fl =>
    obtain ⟨h1, h2, h3, h4⟩ := hf
    replace hs : SrcForm src c := hs
    simp only [perform, createInstance, encode, pure_def, bind_def, srcPtr_ok hs, call_def, toCInt_id h1, toCInt_id h2, toCInt_id h4,
      toUnsigned64_id h3, Req.cCall, checksHandle]
    cases (o t (.createInstance s.db s.obj n c w so ty.toNat du.obj fl)).ptr <;> rfl
  | covergroup n w so =>
    obtain ⟨h1, h2⟩ := hf
    replace hs : SrcForm src c := hs
    simp only [perform, createCovergroup, encode, pure_def, bind_def, srcPtr_ok hs, call_def, toCInt_id h1, toCInt_id h2, Req.cCall,
      checksHandle, mkCovergroup_run]
    rw [show ST.COVERGROUP = 0x1000 from rfl]
    cases (o t (.createScope s.db s.obj (some n) c w so 0x1000 0)).ptr <;> rfl
  | coverInstance n w so =>
    obtain ⟨h1, h2⟩ := hf
    replace hs : SrcForm src c := hs
    simp only [perform, createCoverInstance, encode, pure_def, bind_def, srcPtr_ok hs, call_def, toCInt_id h1, toCInt_id h2, Req.cCall,
      checksHandle, mkCovergroup_run]
    rw [show ST.COVERINSTANCE = 0x2000 from rfl]
    cases (o t (.createScope s.db s.obj (some n) c w so 0x2000 0)).ptr <;> rfl
  | coverpoint n w so =>
    obtain ⟨h1, h2⟩ := hf
    replace hs : SrcForm src c := hs
    have e : toUnsigned 64 (ST.COVERPOINT : Nat) = 0x4000 := by decide
    have e0 : toCInt 0 = 0 := by decide
    simp only [perform, createCoverpoint, createScope, bind_def, srcPtr_ok hs, call_def, toCInt_id h1, toCInt_id h2, e, e0,
      Req.cCall, checksHandle]
    cases (o t (.createScope s.db s.obj (some n) c w so 0x4000 0)).ptr with
    | none => rfl
    | some h =>
      simp only [mkScope_run, mkCoverpoint_run, initCalls, List.append_assoc]
  | cross n w so ps =>
    obtain ⟨h1, h2⟩ := hf
    replace hs : SrcForm src c := hs
    simp only [perform, createCross, encode, pure_def, bind_def, srcPtr_ok hs, call_def, toCInt_id h1, toCInt_id h2, Req.cCall,
      checksHandle, mkCross, mkCvgScope_run]
    cases (o t (.createCross s.db s.obj n c w so (ps.map Ref.obj))).ptr <;> rfl
  | toggle n cn fl m ty d =>
    obtain ⟨h1, h2, h3, h4⟩ := hf
    cases hs
    simp only [perform, createToggle, encode, pure_def, bind_def, call_def, toCInt_id h2, toCInt_id h3, toCInt_id h4,
      toUnsigned32_id h1, Req.cCall, checksHandle, mkScope_run]
    cases (o t (.createToggle s.db s.obj n cn fl.toNat m ty d)).ptr <;> rfl

theorem initCalls_options (r : Req) (ref : Ref) : ∀ x ∈ initCalls ref r, SetsOptionOf ref.target x := by
  cases r <;> simp [initCalls, scopeCalls, cvgCalls, SetsOptionOf]

theorem initCalls_values (r : Req) (ref : Ref) : ∀ d ∈ defaults r, intOption ref.target d.1 (initCalls ref r) = some d.2 := by
  cases r <;> simp [defaults, initCalls, scopeCalls, cvgCalls, intOption]

/-! ## C88: creation through the binding -/

/-- **C88** Creating an object below `s`: when the library returns a handle, the method succeeds and returns the object of that
handle.  The library got exactly one creation call, with the arguments of the request; the calls after it only set options of the
new object, and leave these options at their defaults. -/
theorem C88_create {r : Req} {s : Ref} {src : Option PySrc} {c : Option CSrc} (hf : r.Fits) (hs : SrcForm (srcFor src r) c)
    (o : Native) (t : List CCall) {h : Nat} (hh : (o t (r.cCall s.db s.obj c)).ptr = some h) :
    ∃ rest, perform s src r o t = (.ok ⟨s.db, some h⟩, t ++ r.cCall s.db s.obj c :: rest) ∧ (∀ x ∈ rest, SetsOptionOf h x) ∧
      ∀ d ∈ defaults r, intOption h d.1 rest = some d.2 := by
  refine ⟨initCalls ⟨s.db, some h⟩ r, ?_, initCalls_options r ⟨s.db, some h⟩, initCalls_values r ⟨s.db, some h⟩⟩
  rw [perform_run hf hs, hh]
  simp

/-! ## C89: failed creations -/

/-- **C89** (partial) If the library cannot create the object, creating a scope, an instance or a coverpoint raises, after this one call.  Full
statement: the same for all requests; see `C89_failed_creation_refuted`. -/
theorem C89_failed_creation_partial {r : Req} {s : Ref} {src : Option PySrc} {c : Option CSrc} (hf : r.Fits)
    (hs : SrcForm (srcFor src r) c) (o : Native) (t : List CCall) (hn : (o t (r.cCall s.db s.obj c)).ptr = none)
    (hr : (∃ n w so ty fl, r = .scope n w so ty fl) ∨ (∃ n w so ty du fl, r = .instance n w so ty du fl) ∨
      ∃ n w so, r = .coverpoint n w so) :
    ∃ e, perform s src r o t = (.error e, t ++ [r.cCall s.db s.obj c]) := by
  refine ⟨.userError, ?_⟩
  rw [perform_run hf hs, hn]
  rcases hr with ⟨n, w, so, ty, fl, rfl⟩ | ⟨n, w, so, ty, du, fl, rfl⟩ | ⟨n, w, so, rfl⟩ <;> rfl

/-- **C89** fails for every covergroup, cover-instance, cross and toggle: when the library cannot create it, the method returns an object as if
it had been created, and has set the goal of the database itself to 100. -/
theorem C89_failed_creation_refuted {r : Req} {s : Ref} {src : Option PySrc} {c : Option CSrc} (hf : r.Fits)
    (hs : SrcForm (srcFor src r) c) (o : Native) (t : List CCall) (hn : (o t (r.cCall s.db s.obj c)).ptr = none)
    (hr : (∃ n w so, r = .covergroup n w so) ∨ (∃ n w so, r = .coverInstance n w so) ∨ (∃ n w so ps, r = .cross n w so ps) ∨
      ∃ n cn fl m ty d, r = .toggle n cn fl m ty d) :
    ∃ rest, perform s src r o t = (.ok ⟨s.db, none⟩, t ++ r.cCall s.db s.obj c :: rest) ∧ .setInt s.db s.db (-1) 4 100 ∈ rest := by
  refine ⟨initCalls ⟨s.db, none⟩ r, ?_, ?_⟩
  · rw [perform_run hf hs, hn]
    rcases hr with ⟨n, w, so, rfl⟩ | ⟨n, w, so, rfl⟩ | ⟨n, w, so, ps, rfl⟩ | ⟨n, cn, fl, m, ty, d, rfl⟩ <;> simp [checksHandle]
  · rcases hr with ⟨n, w, so, rfl⟩ | ⟨n, w, so, rfl⟩ | ⟨n, w, so, ps, rfl⟩ | ⟨n, cn, fl, m, ty, d, rfl⟩ <;>
      simp [initCalls, scopeCalls, Ref.target]

/-- **C89** for the database itself: if the library cannot open the file (or create a database), opening raises and makes no further
call. -/
theorem C89_failed_open (file : Option String) (o : Native) (t : List CCall) (hn : (o t (.open file)).ptr = none) :
    openDb file o t = (.error .userError, t ++ [.open file]) := by
  simp only [openDb, bind_def, call_def, hn]; rfl

/-- A library that opens nothing. -/
example : openDb (some "a.ucis") (fun _ _ => {}) [] = (.error .userError, [.open (some "a.ucis")]) := C89_failed_open _ _ _ rfl

/-! ## Iteration -/

/-- What a sequence of `n` scans gives, for a library that answers them with `l` and then with the null pointer: the calls. -/
theorem collect_run (it : Ref) (o : Native) : ∀ (n : Nat) (t t' : List CCall) (l : List Ref), collect n it o t = (.ok (some l), t') →
    t' = t ++ l.flatMap (fun r => [.scopeScan it.db it.obj, .setInt it.db r.target (-1) 4 100]) ++
      [.scopeScan it.db it.obj, .freeIterator it.db it.obj] ∧
    (∀ (i : Nat) (r : Ref), l[i]? = some r → r.db = it.db ∧ r.obj ≠ none ∧
      (o (t ++ (l.take i).flatMap (fun r => [.scopeScan it.db it.obj, .setInt it.db r.target (-1) 4 100])) (.scopeScan it.db it.obj)).ptr = r.obj) ∧
    (o (t ++ l.flatMap (fun r => [.scopeScan it.db it.obj, .setInt it.db r.target (-1) 4 100])) (.scopeScan it.db it.obj)).ptr = none
  | 0, t, t', l, h => by simp [collect, pure_def] at h
  | n + 1, t, t', l, h => by
    simp only [collect, bind_def, scopeNext, call_def] at h
    cases hp : (o t (.scopeScan it.db it.obj)).ptr with
    | none =>
      simp only [hp, bind_def, call_def, pure_def] at h
      obtain ⟨rfl, rfl⟩ : l = [] ∧ t' = t ++ [.scopeScan it.db it.obj] ++ [.freeIterator it.db it.obj] := by
        simpa [eq_comm] using h
      refine ⟨by simp, by simp, by simpa using hp⟩
    | some k =>
      simp only [hp, bind_def, mkScope_run, pure_def] at h
      cases hc : collect n it o (t ++ [.scopeScan it.db it.obj] ++ scopeCalls ⟨it.db, some k⟩) with
      | mk x t1 =>
        rw [hc] at h
        cases x with
        | error e => simp at h
        | ok x =>
          cases x with
          | none => simp at h
          | some l1 =>
            simp only [Option.map_some] at h
            obtain ⟨rfl, rfl⟩ : l = ⟨it.db, some k⟩ :: l1 ∧ t' = t1 := by simpa [eq_comm] using h
            obtain ⟨e1, e2, e3⟩ := collect_run it o n _ _ _ hc
            refine ⟨?_, ?_, ?_⟩
            · rw [e1]; simp [scopeCalls]
            · intro i r hi
              cases i with
              | zero =>
                simp only [List.getElem?_cons_zero, Option.some.injEq] at hi
                subst hi
                exact ⟨rfl, by simp, by simpa using hp⟩
              | succ i =>
                simp only [List.getElem?_cons_succ] at hi
                have := e2 i r hi
                simpa [scopeCalls] using this
            · simpa [scopeCalls] using e3

/-- More steps do not change the result of a loop that ends. -/
theorem collect_mono (it : Ref) (o : Native) : ∀ {n m : Nat} {t t' : List CCall} {l : List Ref}, n ≤ m →
    collect n it o t = (.ok (some l), t') → collect m it o t = (.ok (some l), t')
  | 0, _, t, t', l, _, h => by simp [collect, pure_def] at h
  | n + 1, 0, _, _, _, hm, _ => by omega
  | n + 1, m + 1, t, t', l, hm, h => by
    simp only [collect, bind_def] at h ⊢
    cases hx : scopeNext it o t with
    | mk x t1 =>
      rw [hx] at h
      cases x with
      | error e => simp at h
      | ok x =>
        cases x with
        | none => exact h
        | some r =>
          simp only [bind_def] at h ⊢
          cases hc : collect n it o t1 with
          | mk y t2 =>
            rw [hc] at h
            cases y with
            | error e => simp at h
            | ok y =>
              cases y with
              | none => simp [pure_def] at h
              | some l1 => rw [collect_mono it o (by omega) hc]; exact h

/-- The calls made while a loop visits `l`. -/
def loopCalls (db : Nat) (it : Option Nat) (l : List Ref) : List CCall :=
  l.flatMap (fun (r : Ref) => [.scopeScan db it, .setInt db r.target (-1) 4 100])

theorem loopCalls_scans (db : Nat) (it : Option Nat) (l : List Ref) :
    ((loopCalls db it l ++ [CCall.scopeScan db it]).filter (· = CCall.scopeScan db it)).length = l.length + 1 := by
  induction l with
  | nil => simp [loopCalls]
  | cons a l ih => simpa [loopCalls] using ih

theorem loopCalls_at (db : Nat) (it : Option Nat) : ∀ (l : List Ref) (i : Nat) (r : Ref), l[i]? = some r →
    (loopCalls db it l ++ [CCall.scopeScan db it])[2 * i]? = some (CCall.scopeScan db it) ∧
    (loopCalls db it l ++ [CCall.scopeScan db it]).take (2 * i) = loopCalls db it (l.take i)
  | [], i, r, h => by simp at h
  | a :: l, 0, r, h => by simp [loopCalls]
  | a :: l, i + 1, r, h => by
    obtain ⟨h1, h2⟩ := loopCalls_at db it l i r (by simpa using h)
    rw [show 2 * (i + 1) = 2 * i + 1 + 1 by omega]
    exact ⟨by simpa [loopCalls] using h1, by simpa [loopCalls] using h2⟩

theorem loopCalls_count (db : Nat) (it : Option Nat) (l : List Ref) :
    ((loopCalls db it l).filter (· = CCall.scopeScan db it)).length = l.length := by
  induction l with
  | nil => simp [loopCalls]
  | cons a l ih => simpa [loopCalls] using ih

/-- **C92** (partial) A complete `for` loop over `s.scopes(mask)`: one iterator is made, the elements are the handles that the library's scans return, in
order, up to the first null pointer; the iterator is freed exactly once, after the last scan, and not used afterwards.  Full statement: the same for
history nodes, and a finished iterator is never handed to the library again; see `C92_use_after_free_refuted`, `C92_history_refuted`. -/
theorem C92_iteration_partial {n : Nat} {s : Ref} {mask : Int} {o : Native} {t t' : List CCall} {l : List Ref}
    (h : listScopes n s mask o t = (.ok (some l), t')) :
    ∃ (m : Nat) (it : Option Nat) (scans : List CCall),
      t' = t ++ .scopeIterate s.db s.obj m :: scans ++ [.freeIterator s.db it] ∧
      (o t (.scopeIterate s.db s.obj m)).ptr = it ∧
      (∀ x ∈ scans, x = .scopeScan s.db it ∨ ∃ r ∈ l, x = .setInt s.db r.target (-1) 4 100) ∧
      (scans.filter (· = .scopeScan s.db it)).length = l.length + 1 ∧
      (∀ (i : Nat) (r : Ref), l[i]? = some r → r.db = s.db ∧ r.obj ≠ none ∧
        ∃ k, scans[k]? = some (.scopeScan s.db it) ∧ ((scans.take k).filter (· = .scopeScan s.db it)).length = i ∧
          (o (t ++ .scopeIterate s.db s.obj m :: scans.take k) (.scopeScan s.db it)).ptr = r.obj) ∧
      scans.getLast? = some (.scopeScan s.db it) ∧
      (o (t ++ .scopeIterate s.db s.obj m :: scans.dropLast) (.scopeScan s.db it)).ptr = none := by
  simp only [listScopes, scopes, bind_def, call_def, pure_def] at h
  generalize hm : toUnsigned 32 mask = m at h
  generalize hit : (o t (.scopeIterate s.db s.obj m)).ptr = it at h
  obtain ⟨e1, e2, e3⟩ := collect_run _ o n _ _ _ h
  refine ⟨m, it, loopCalls s.db it l ++ [.scopeScan s.db it], ?_, hit, ?_, loopCalls_scans s.db it l, ?_, by simp, ?_⟩
  · rw [e1]; simp [loopCalls]
  · intro x hx
    simp only [loopCalls, List.mem_append, List.mem_flatMap, List.mem_cons, List.not_mem_nil, or_false] at hx
    rcases hx with ⟨r, hr, rfl | rfl⟩ | rfl
    · exact .inl rfl
    · exact .inr ⟨r, hr, rfl⟩
    · exact .inl rfl
  · intro i r hi
    obtain ⟨h1, h2, h3⟩ := e2 i r hi
    obtain ⟨g1, g2⟩ := loopCalls_at s.db it l i r hi
    have hlt : i < l.length := (List.getElem?_eq_some_iff.1 hi).1
    refine ⟨h1, h2, 2 * i, g1, ?_, ?_⟩
    · rw [g2, loopCalls_count, List.length_take]; omega
    · rw [g2]; simpa [loopCalls] using h3
  · simpa [loopCalls] using e3

/-- **C92** does not extend to asking a finished iterator again: `next` then scans with the freed iterator and frees it a second time, for
every library that keeps answering the null pointer. -/
theorem C92_use_after_free_refuted (it : Ref) (o : Native) (t : List CCall) (ho : ∀ t, (o t (.scopeScan it.db it.obj)).ptr = none) :
    ∃ t1, scopeNext it o t = (.ok none, t1) ∧ t1 = t ++ [.scopeScan it.db it.obj, .freeIterator it.db it.obj] ∧
      scopeNext it o t1 = (.ok none, t1 ++ [.scopeScan it.db it.obj, .freeIterator it.db it.obj]) := by
  have h : ∀ t, scopeNext it o t = (.ok none, t ++ [.scopeScan it.db it.obj, .freeIterator it.db it.obj]) := by
    intro t
    simp only [scopeNext, bind_def, call_def, ho, pure_def]
    simp
  exact ⟨_, h t, rfl, h _⟩

/-- **C92** fails for history nodes: at the end of the sequence the iterator raises instead of stopping, and is never freed; and the database offers
no iteration over its history nodes at all. -/
theorem C92_history_refuted (it s : Ref) (kind : Int) (o : Native) (t : List CCall) :
    ((o t (.historyScan it.db it.obj)).ptr = none → historyNext it o t = (.error .typeError, t ++ [.historyScan it.db it.obj])) ∧
    historyNodes s kind o t = (.error .unimpl, t) ∧ getHistoryNodes s kind o t = (.error .unimpl, t) := by
  refine ⟨fun h => ?_, rfl, rfl⟩
  simp only [historyNext, bind_def, call_def, h]
  rfl

/-! ## C90: reading -/

/-- **C90** (partial) Asking for a location, a file name or a property, and making an iterator, changes nothing in the database (asking for a property raises
`NotImplementedError`).  A loop over scopes
changes nothing but goals: every change is to set the goal of a visited scope to 100.  Full statement: none of these changes anything;
see `C90_read_only_refuted`. -/
theorem C90_read_only_partial (s : Ref) (o : Native) (t : List CCall) :
    (∃ x c, getSourceInfo s o t = (x, t ++ [c]) ∧ Modifies c = false) ∧
    (∀ fh, ∃ x c, getFileName s.db fh o t = (x, t ++ [c]) ∧ Modifies c = false) ∧
    (∀ ci p, getIntProperty s ci p o t = (.error .notImplemented, t) ∧ getStringProperty s ci p o t = (.error .notImplemented, t) ∧
      getRealProperty s ci p o t = (.error .notImplemented, t) ∧ getHandleProperty s ci p o t = (.error .notImplemented, t)) ∧
    (∀ mask, ∃ x c, scopes s mask o t = (x, t ++ [c]) ∧ Modifies c = false) ∧
    ∀ n mask l t', listScopes n s mask o t = (.ok (some l), t') →
      ∃ new, t' = t ++ new ∧ ∀ c ∈ new, Modifies c = true → ∃ r ∈ l, c = .setInt s.db r.target (-1) 4 100 := by
  refine ⟨⟨_, _, rfl, rfl⟩, fun _ => ⟨_, _, rfl, rfl⟩, fun _ _ => ⟨rfl, rfl, rfl, rfl⟩, fun _ => ⟨_, _, rfl, rfl⟩, ?_⟩
  intro n mask l t' h
  obtain ⟨m, it, scans, e1, -, e2, -⟩ := C92_iteration_partial h
  refine ⟨.scopeIterate s.db s.obj m :: scans ++ [.freeIterator s.db it], by rw [e1]; simp, ?_⟩
  intro c hc hm
  simp only [List.cons_append, List.mem_cons, List.mem_append, List.not_mem_nil, or_false] at hc
  rcases hc with rfl | hc | rfl
  · simp [Modifies, IsCreate] at hm
  · rcases e2 c hc with rfl | ⟨r, hr, rfl⟩
    · simp [Modifies, IsCreate] at hm
    · exact ⟨r, hr, rfl⟩
  · simp [Modifies, IsCreate] at hm

/-- **C90** fails: every loop over scopes sets the goal of every scope it visits to 100; opening a database sets its goal to 100; asking for the test data of a
history node overwrites them with zeros and then raises. -/
theorem C90_read_only_refuted (s : Ref) (o : Native) (t : List CCall) :
    (∀ n mask l t', listScopes n s mask o t = (.ok (some l), t') → ∀ r ∈ l, .setInt s.db r.target (-1) 4 100 ∈ t'.drop t.length) ∧
    (∀ file db, (o t (.open file)).ptr = some db →
      openDb file o t = (.ok ⟨db, none⟩, t ++ [.open file, .setInt db db (-1) 4 100])) ∧
    getTestData s o t = (.error .attributeError, t ++ [.setTestData s.db s.obj ⟨0, 0, none, none, 0, none, none, none, 0, none, none, 0, none⟩]) := by
  refine ⟨?_, ?_, rfl⟩
  · intro n mask l t' h r hr
    simp only [listScopes, scopes, bind_def, call_def, pure_def] at h
    obtain ⟨e1, -, -⟩ := collect_run _ o n _ _ _ h
    rw [e1]
    simp only [List.append_assoc, List.drop_left]
    simp only [List.mem_append, List.mem_flatMap]
    exact .inr (.inl ⟨r, hr, by simp⟩)
  · intro file db h
    simp only [openDb, bind_def, call_def, h, mkScope_run, scopeCalls]
    simp [Ref.target]

/-! ## C91: properties -/

/-- **C91** (partial) Setting a property of an object hands the value to the library, for the object and property asked for (for the database if the
object is the database).  Reading any property never gives a wrong value: it raises.  Full statement: reading gives the value set last;
see `C91_property_refuted`. -/
theorem C91_property_partial (r : Ref) (ci p v : Int) (x : String) (hc : Int32 ci) (hp : Int32 p) (hv : Int32 v) (o : Native) (t : List CCall) :
    setIntProperty r ci p v o t = (.ok (), t ++ [.setInt r.db (r.obj.getD r.db) ci p v]) ∧
    setStringProperty r ci p (some x) o t = (.ok (), t ++ [.setString r.db (r.obj.getD r.db) ci p x]) ∧
    ∀ y, (getIntProperty r ci p o t).1 ≠ .ok y := by
  refine ⟨?_, ?_, fun y h => by simp [getIntProperty, fail] at h⟩
  · simp only [setIntProperty, bind_def, call_def, toCInt_id hc, toCInt_id hp, toCInt_id hv, pure_def]; rfl
  · simp only [setStringProperty, encode, bind_def, call_def, toCInt_id hc, toCInt_id hp, pure_def]; rfl

/-- **C91** fails for every object and property, whatever the library does: no property that was set can be read, nor the goal, the options of a
covergroup, the test status, nor the state of the database. -/
theorem C91_property_refuted (r : Ref) (ci p v : Int) (x : String) (o : Native) (t : List CCall) :
    ((do setIntProperty r ci p v; getIntProperty r ci p) o t).1 = .error .notImplemented ∧
    ((do setStringProperty r ci p (some x); getStringProperty r ci p) o t).1 = .error .notImplemented ∧
    ((do setGoal r v; getGoal r) o t).1 = .error .notImplemented ∧
    ((do setAtLeast r v; getAtLeast r) o t).1 = .error .notImplemented ∧
    ((do setPerInstance r true; getPerInstance r) o t).1 = .error .notImplemented ∧
    ((do setComment r (some x); getComment r) o t).1 = .error .notImplemented ∧
    ((do setTestStatus r v; getTestStatus r) o t).1 = .error .notImplemented ∧
    (setRealProperty r ci p 0 o t).1 = .error .notImplemented ∧ (getRealProperty r ci p o t).1 = .error .notImplemented ∧
    (getNumTests r o t).1 = .error .userError ∧ (isModified r o t).1 = .error .userError ∧ (modifiedSinceSim r o t).1 = .error .userError :=
  ⟨rfl, rfl, rfl, rfl, rfl, rfl, rfl, rfl, rfl, rfl, rfl, rfl⟩

/-! ## C93: masks -/

/-- **C93** (partial) A mask of scope types below `2^32` reaches the library unchanged.  Full statement: so does every mask of scope types
(`scope_type_t.py` defines types up to `2^34`); see `C93_mask_refuted`. -/
theorem C93_mask_partial (s : Ref) (mask : Nat) (hm : mask < 2 ^ 32) (o : Native) (t : List CCall) :
    ∃ x, scopes s mask o t = (.ok x, t ++ [.scopeIterate s.db s.obj mask]) := by
  refine ⟨⟨s.db, (o t (.scopeIterate s.db s.obj mask)).ptr⟩, ?_⟩
  simp only [scopes, bind_def, call_def, pure_def]
  rw [toUnsigned32_id ⟨by omega, by exact_mod_cast hm⟩]
  simp

/-- **C93** fails: a mask of types from `2^32` on (bin scopes, illegal bin scopes, ignore bin scopes) reaches the library as 0, so it selects
nothing; in general only the low 32 bits arrive. -/
theorem C93_mask_refuted (s : Ref) (o : Native) (t : List CCall) :
    (∀ k : Nat, ∃ x, scopes s (2 ^ 32 * k : Nat) o t = (.ok x, t ++ [.scopeIterate s.db s.obj 0])) ∧
    ∀ mask : Nat, ∃ x, scopes s mask o t = (.ok x, t ++ [.scopeIterate s.db s.obj (mask % 2 ^ 32)]) := by
  have h : ∀ mask : Nat, ∃ x, scopes s mask o t = (.ok x, t ++ [.scopeIterate s.db s.obj (mask % 2 ^ 32)]) := by
    intro mask
    refine ⟨⟨s.db, (o t (.scopeIterate s.db s.obj (mask % 2 ^ 32))).ptr⟩, ?_⟩
    have e : toUnsigned 32 mask = mask % 2 ^ 32 := by unfold toUnsigned; omega
    simp only [scopes, bind_def, call_def, pure_def, e]
  refine ⟨fun k => ?_, h⟩
  obtain ⟨x, hx⟩ := h (2 ^ 32 * k)
  exact ⟨x, by rw [hx, Nat.mul_mod_right]⟩

/-! ## C94: bins -/

/-- **C94** (partial) A bin of a coverpoint reaches the library with its name, kind and count, if the count is below `2^32`; a bin of a cross
(called without a kind) as an ordinary bin.  Full statement: also with its threshold, for every count and, for crosses, every kind; see
`C94_bin_refuted`. -/
theorem C94_bin_partial (s : Ref) (n : String) (src : Option PySrc) (c : Option CSrc) (hs : SrcForm src c) (a : Int) (count kind : Nat)
    (hc : count < 2 ^ 32) (hk : kind < 2 ^ 64) (o : Native) (t : List CCall) :
    (∃ d, createBin s (some n) src a count kind o t =
        (.ok (s, (o t (.createNextCover s.db s.obj n d c)).int), t ++ [.createNextCover s.db s.obj n d c]) ∧
      d.type = kind ∧ getInt32 d.data = count ∧ getInt64 d.data = count) ∧
    ∃ d, createCrossBin s (some n) src a count none o t =
        (.ok (s, (o t (.createNextCover s.db s.obj n d c)).int), t ++ [.createNextCover s.db s.obj n d c]) ∧
      d.type = CT.CVGBIN ∧ getInt32 d.data = count := by
  have hd : ∀ k : Nat, k < 2 ^ 64 → libCoverData (binData k count) = .ok ⟨k, 25, count, 1, 1, 0, 0⟩ := by
    intro k hk
    have e1 : toUnsigned 64 (k : Int) = k := by unfold toUnsigned; omega
    have e2 : setInt32 (count : Int) = count := by
      show toUnsigned 32 (count : Int) = count
      unfold toUnsigned; omega
    have e3 : maskHit 25 IS_32BIT = true := by decide
    simp only [libCoverData, binData, e1, e2, e3]
    rfl
  constructor
  · refine ⟨⟨kind, 25, count, 1, 1, 0, 0⟩, ?_, rfl, ?_, rfl⟩
    · simp only [createBin, createNextCover, bind_def, srcPtr_ok hs, lift, hd kind hk, encode, pure_def, call_def]
    · simp only [getInt32]; omega
  · refine ⟨⟨CT.CVGBIN, 25, count, 1, 1, 0, 0⟩, ?_, rfl, ?_⟩
    · simp only [createCrossBin, createNextCover, bind_def, srcPtr_ok hs, lift, hd CT.CVGBIN (by decide), encode, pure_def, call_def]
    · simp only [getInt32]; omega

/-- **C94** fails: bins that differ in their thresholds only, or in their counts by `2^32`, are the same to the library; a bin of a cross
cannot be created with a kind, as merging does (`db_merger.py:244-250`). -/
theorem C94_bin_refuted (s : Ref) (n : Option String) (src : Option PySrc) (a a' count : Int) (kind : Nat) (o : Native) (t : List CCall) :
    createBin s n src a count kind o t = createBin s n src a' count kind o t ∧
    createCrossBin s n src a count none o t = createCrossBin s n src a' count none o t ∧
    createBin s n src a (count + 2 ^ 32) kind o t = createBin s n src a count kind o t ∧
    createCrossBin s n src a count (some kind) o t = (.error .typeError, t) := by
  refine ⟨rfl, rfl, ?_, rfl⟩
  have e : libCoverData (binData kind (count + 2 ^ 32)) = libCoverData (binData kind count) := by
    have e2 : setInt32 (count + 2 ^ 32) = setInt32 count := by
      show toUnsigned 32 (count + 2 ^ 32) = toUnsigned 32 count
      unfold toUnsigned; congr 1; omega
    have e3 : maskHit 25 IS_32BIT = true := by decide
    simp only [libCoverData, binData, e2, e3]
    rfl
  simp only [createBin, createNextCover, bind_def, lift, e]

/-! ## C95: history -/

/-- **C95** (partial) A test without parent and with a file name is recorded with these names and its kind.  Test data that fit the C structure are
handed over in full.  Full statement: also with a parent and without a file name; see `C95_history_refuted`. -/
theorem C95_history_partial (s : Ref) (l p : String) (kind : Int) (hk : Int32 kind) (o : Native) (t : List CCall) :
    createHistoryNode s none (some l) (some p) kind o t =
      (.ok ⟨s.db, (o t (.createHistoryNode s.db none l p kind)).ptr⟩, t ++ [.createHistoryNode s.db none l p kind]) ∧
    ∀ (d : TestData) (c : CTestData), libTestData d = .ok c → setTestData s d o t = (.ok (), t ++ [.setTestData s.db s.obj c]) := by
  constructor
  · simp only [createHistoryNode, encode, bind_def, pure_def, call_def, toCInt_id hk]
  · intro d c h
    simp only [setTestData, bind_def, lift, h, call_def, pure_def]

/-- **C95** fails: no history node can be created below another one (as for the tests of a merge), none without a file name (which the in-memory
database allows), for any library. -/
theorem C95_history_refuted (s parent : Ref) (l p : String) (kind : Int) (o : Native) (t : List CCall) :
    createHistoryNode s (some parent) (some l) (some p) kind o t = (.error .typeError, t) ∧
    createHistoryNode s none (some l) none kind o t = (.error .typeError, t) := ⟨rfl, rfl⟩

/-! ## Examples -/

/-- A library with handles counting the calls; scanning the iterator gives two scopes, then the null pointer. -/
def Ex.native : Native := fun t c =>
  match c with
  | .scopeScan _ _ => if (t.filter (fun c => match c with | .scopeScan _ _ => true | _ => false)).length < 2 then { ptr := some (t.length + 2) } else {}
  | _ => { ptr := some (t.length + 2) }

/-- A library that creates nothing. -/
def Ex.refusing : Native := fun _ _ => {}

example : perform ⟨1, none⟩ (some ⟨.native (some 7), 3, 4⟩) (.covergroup "cg" 1 10) Ex.native [] =
    (.ok ⟨1, some 2⟩, .createScope 1 none (some "cg") (some ⟨some 7, 3, 4⟩) 1 10 0x1000 0 :: initCalls ⟨1, some 2⟩ (.covergroup "" 0 0)) := rfl

example : (Req.covergroup "cg" 1 10).Fits ∧ SrcForm (some ⟨.native (some 7), 3, 4⟩) (some ⟨some 7, 3, 4⟩) :=
  ⟨⟨by decide, by decide⟩, some 7, rfl, by decide, by decide, rfl⟩

example : (Ex.refusing [] ((Req.cross "x" 1 1 []).cCall 1 none none)).ptr = none := rfl

example : ∃ t', listScopes 5 ⟨1, none⟩ 0x10 Ex.native [] = (.ok (some [⟨1, some 3⟩, ⟨1, some 5⟩]), t') := ⟨_, rfl⟩

end Lib
end Verif
