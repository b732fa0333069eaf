import Verif.LibSave
/-!
# Options, locations and file names of native databases (C137; more on C91 and C92)

No new code: the named accessors of `src/ucis/lib` are those of `Verif/Lib.lean`.
-/

namespace Verif
namespace Lib
open Tools Lib.Spec

namespace Spec

/-- From the calls `t` to the calls `t'`, the integer option `p` of the object `h` has become `v`; no other option of any object has
changed. -/
def Sets (h : Nat) (p v : Int) (t t' : List CCall) : Prop :=
  intOption h p t' = some v ∧ ∀ h' p', (h', p') ≠ (h, p) → intOption h' p' t' = intOption h' p' t

/-- The location with which a call creates a scope in the database. -/
def createdAt (db : Nat) : CCall → Option CSrc
  | .createScope d _ _ c _ _ _ _ => if d = db then c else none
  | .createInstance d _ _ c _ _ _ _ _ => if d = db then c else none
  | .createCross d _ _ c _ _ _ => if d = db then c else none
  | _ => none

/-- The library knows the location of every scope that was created with one. -/
def KeepsLocations (o : Native) : Prop :=
  ∀ db t c x l h, createdAt db c = some x → (o t c).ptr = some h → (o (t ++ c :: l) (.getScopeSourceInfo db (some h))).src = x

/-- The library knows the name of every file that was registered. -/
def KeepsFiles (o : Native) : Prop :=
  ∀ db t f dir l h, (o t (.createFileHandle db f dir)).ptr = some h → (o (t ++ .createFileHandle db f dir :: l) (.getFileName db (some h))).text = some f

/-- The handles of history nodes that the library gives when asked `n` times in a row for the next one. -/
def scanned (o : Native) (db : Nat) (it : Option Nat) : Nat → List CCall → List (Option Nat)
  | 0, _ => []
  | n + 1, t => (o t (.historyScan db it)).ptr :: scanned o db it n (t ++ [.historyScan db it])

end Spec

/-! ## C91: options by name -/

theorem intOption_set (h db obj : Nat) (p q v : Int) (t : List CCall) :
    intOption h p (t ++ [.setInt db obj (-1) q v]) = if obj = h ∧ q = p then some v else intOption h p t := by
  simp only [intOption, List.foldl_append, List.foldl_cons, List.foldl_nil]

theorem sets_set (db obj : Nat) (p v : Int) (t : List CCall) : Sets obj p v t (t ++ [.setInt db obj (-1) p v]) := by
  refine ⟨by rw [intOption_set]; simp, fun h' p' hne => ?_⟩
  rw [intOption_set, if_neg]
  rintro ⟨rfl, rfl⟩
  exact hne rfl

/-- **C91**, options by name: each of them sets the option of that name (numbers of the UCIS standard) of the object to the value, a yes/no option
to 1 or 0, and nothing else. -/
theorem C91_options_partial (r : Ref) (v : Int) (hv : Int32 v) (b : Bool) (o : Native) (t : List CCall) :
    (∃ t', setGoal r v o t = (.ok (), t') ∧ Sets (r.obj.getD r.db) 4 v t t') ∧
    (∃ t', setAtLeast r v o t = (.ok (), t') ∧ Sets (r.obj.getD r.db) 24 v t t') ∧
    (∃ t', setAutoBinMax r v o t = (.ok (), t') ∧ Sets (r.obj.getD r.db) 25 v t t') ∧
    (∃ t', setDetectOverlap r b o t = (.ok (), t') ∧ Sets (r.obj.getD r.db) 26 (if b then 1 else 0) t t') ∧
    (∃ t', setStrobe r b o t = (.ok (), t') ∧ Sets (r.obj.getD r.db) 28 (if b then 1 else 0) t t') ∧
    (∃ t', setPerInstance r b o t = (.ok (), t') ∧ Sets (r.obj.getD r.db) 29 (if b then 1 else 0) t t') ∧
    (∃ t', setGetInstCoverage r b o t = (.ok (), t') ∧ Sets (r.obj.getD r.db) 30 (if b then 1 else 0) t t') ∧
    (∃ t', setMergeInstances r b o t = (.ok (), t') ∧ Sets (r.obj.getD r.db) 31 (if b then 1 else 0) t t') ∧
    (∃ t', setTestStatus r v o t = (.ok (), t') ∧ Sets (r.obj.getD r.db) 19 v t t') ∧
    ∀ x, setComment r (some x) o t = (.ok (), t ++ [.setString r.db (r.obj.getD r.db) (-1) 14 x]) := by
  have key : ∀ (p : Int), Int32 p → ∀ v, Int32 v →
      ∃ t', setIntProperty r (-1) p v o t = (.ok (), t') ∧ Sets (r.obj.getD r.db) p v t t' := by
    intro p hp v hv
    refine ⟨_, setInt_run r p v o t, ?_⟩
    rw [toCInt_id hp, toCInt_id hv]
    exact sets_set _ _ _ _ _
  have hb : Int32 (if b then 1 else 0) := by cases b <;> decide
  exact ⟨key 4 (by decide) _ hv, key 24 (by decide) _ hv, key 25 (by decide) _ hv, key 26 (by decide) _ hb, key 28 (by decide) _ hb,
    key 29 (by decide) _ hb, key 30 (by decide) _ hb, key 31 (by decide) _ hb, key 19 (by decide) _ hv, fun _ => rfl⟩

example : Sets 7 24 3 [.setInt 1 7 (-1) 4 100] [.setInt 1 7 (-1) 4 100, .setInt 1 7 (-1) 24 3] := sets_set 1 7 24 3 _

/-! ## C92: history nodes -/

/-- `n` times `next(it)`, the handles. -/
def takeHistory : Nat → Ref → L (List (Option Nat))
  | 0, _ => pure []
  | n + 1, it => do
    let x ← historyNext it
    let l ← takeHistory n it
    pure ((x.bind Ref.obj) :: l)

/-- **C92**, history nodes: an iterator gives the handles that the library gives for the node and kind asked for, in order and without other calls, as long as it
is not asked again after the last one.  Full statement: the loop also ends and frees the iterator; see `C92_history_refuted`. -/
theorem C92_history_partial (n : Nat) (db : Nat) (node : Option Nat) (kind : Int) (hk : 0 ≤ kind ∧ kind < 2 ^ 32) (o : Native) (t : List CCall)
    (hs : ∀ x ∈ scanned o db (o t (.historyIterate db node kind.toNat)).ptr n (t ++ [.historyIterate db node kind.toNat]), x ≠ none) :
    (do let it ← historyIter db node kind; takeHistory n it) o t =
      (.ok (scanned o db (o t (.historyIterate db node kind.toNat)).ptr n (t ++ [.historyIterate db node kind.toNat])),
        t ++ .historyIterate db node kind.toNat :: List.replicate n (.historyScan db (o t (.historyIterate db node kind.toNat)).ptr)) := by
  have key : ∀ (n : Nat) (it : Option Nat) (t : List CCall), (∀ x ∈ scanned o db it n t, x ≠ none) →
      takeHistory n ⟨db, it⟩ o t = (.ok (scanned o db it n t), t ++ List.replicate n (.historyScan db it)) := by
    intro n it
    induction n with
    | zero => intro t _; simp only [takeHistory, pure_def, scanned, List.replicate_zero, List.append_nil]
    | succ n ih =>
      intro t h
      simp only [scanned, List.mem_cons, forall_eq_or_imp] at h
      obtain ⟨h1, h2⟩ := h
      obtain ⟨k, hk⟩ := Option.ne_none_iff_exists'.1 h1
      simp only [takeHistory, historyNext, bind_def, call_def, hk, pure_def, ih _ h2, scanned, List.replicate_succ, List.append_assoc,
        List.cons_append, List.nil_append, Option.bind_some]
  simp only [historyIter, bind_def, call_def, toUnsigned32_id hk, pure_def]
  rw [key _ _ _ hs]
  simp

/-- A library with two history nodes. -/
example : (do let it ← historyIter 1 none 1; takeHistory 2 it) (fun t _ => { ptr := some (t.length + 7) }) [] =
    (.ok [some 8, some 9], [.historyIterate 1 none 1, .historyScan 1 (some 7), .historyScan 1 (some 7)]) :=
  C92_history_partial 2 1 none 1 ⟨by decide, by decide⟩ _ [] (by decide)

/-! ## C137: locations and file names -/

theorem createdAt_cCall {r : Req} {db : Nat} {parent : Option Nat} {src : Option PySrc} {s : PySrc} {c : Option CSrc} (h : srcFor src r = some s) :
    createdAt db (r.cCall db parent c) = c := by
  cases r <;> simp_all [createdAt, Req.cCall, srcFor]

/-- **C137** (partial) A scope, instance, covergroup, cover-instance, coverpoint or cross that was created with a location has that location when asked
for it at any later time, if the library keeps locations.  Full statement: also no location if it was created without one; see
`C137_locations_refuted`. -/
theorem C137_locations_partial {o : Native} (ho : KeepsLocations o) {r : Req} {s : Ref} {src : PySrc} {c : Option CSrc} {h : Nat} {t : List CCall}
    (hf : r.Fits) (ht : srcFor (some src) r = some src) (hs : SrcForm (some src) c) (hp : (o t (r.cCall s.db s.obj c)).ptr = some h) :
    ∃ ref t', perform s (some src) r o t = (.ok ref, t') ∧ ∀ l, (getSourceInfo ref o (t' ++ l)).1 = .ok src := by
  obtain ⟨rest, h1, _, _⟩ := C88_create (s := s) hf (by rw [ht]; exact hs) o t hp
  refine ⟨_, _, h1, fun l => ?_⟩
  obtain ⟨fh, e1, _, _, rfl⟩ := hs
  have h2 := ho s.db t _ _ (rest ++ l) h (createdAt_cCall (db := s.db) (parent := s.obj) ht) hp
  simp only [getSourceInfo, bind_def, call_def, pure_def, List.append_assoc, List.cons_append, h2]
  rw [← e1]

/-- **C137** fails for objects without a location: what is read is a location, whatever the library says. With a library that leaves the answer empty it is line 0
of a file with the null handle, and asking that file for its name asks the library about the null handle. -/
theorem C137_locations_refuted (s : Ref) (o : Native) (t : List CCall) (ho : (o t (.getScopeSourceInfo s.db s.obj)).src = ⟨none, 0, 0⟩) :
    ∃ src, (getSourceInfo s o t).1 = .ok src ∧ src.file = .native none ∧ src.line = 0 ∧
      ∀ t, (getFileName s.db none o t).2 = t ++ [.getFileName s.db none] := by
  refine ⟨⟨.native none, 0, 0⟩, ?_, rfl, rfl, fun _ => rfl⟩
  simp only [getSourceInfo, bind_def, call_def, pure_def, ho]

/-- **C137** (partial) The name of a registered file, read at any later time, has the text of the name it was registered with, if the library keeps names; it is the
name of the file asked for in every case.  Full statement: the name is a string; see `C137_files_refuted`. -/
theorem C137_files_partial (o : Native) (s : Ref) (f : String) (dir : Option String) (t : List CCall) :
    (KeepsFiles o → ∀ h, (o t (.createFileHandle s.db f dir)).ptr = some h → ∃ t', createFileHandle s (some f) dir o t = (.ok (some h), t') ∧
      ∀ l, (getFileName s.db (some h) o (t' ++ l)).1 = .ok (.bytes f)) ∧
    ∀ fh x, (o t (.getFileName s.db fh)).text = some x → (getFileName s.db fh o t).1 = .ok (.bytes x) := by
  refine ⟨fun ho h hp => ?_, fun fh x hx => ?_⟩
  · refine ⟨t ++ [.createFileHandle s.db f dir], by simp only [createFileHandle, encode, bind_def, pure_def, call_def, hp], fun l => ?_⟩
    have h2 := ho s.db t f dir l h hp
    simp only [getFileName, bind_def, call_def, pure_def, List.append_assoc, List.cons_append, List.nil_append, h2, charResult]
  · simp only [getFileName, bind_def, call_def, pure_def, hx, charResult]

/-- **C137** fails for file names, with every library: what is read is never a string. -/
theorem C137_files_refuted (o : Native) (db : Nat) (fh : Option Nat) (t : List CCall) (f : String) : (getFileName db fh o t).1 ≠ .ok (.str f) := by
  simp only [getFileName, bind_def, call_def, pure_def]
  cases (o t (.getFileName db fh)).text <;> simp [charResult]

/-- A library that looks up the calls it got: handles are positions in the list of calls. -/
def Ex.keeping : Native := fun t c =>
  match c with
  | .getScopeSourceInfo db (some h) => { src := ((t[h]?).bind (createdAt db)).getD ⟨none, 0, 0⟩ }
  | .getFileName db (some h) => { text := (t[h]?).bind (fun c => match c with
      | .createFileHandle d f _ => if d = db then some f else none
      | _ => none) }
  | .getScopeSourceInfo _ none | .getFileName _ none => {}
  | _ => { ptr := some t.length }

theorem Ex.keeping_locations : KeepsLocations Ex.keeping := by
  intro db t c x l h hc hp
  have e : h = t.length := by
    cases c <;> simp [createdAt] at hc <;> simp [Ex.keeping] at hp <;> exact hp.symm
  subst e
  simp [Ex.keeping, hc]

theorem Ex.keeping_files : KeepsFiles Ex.keeping := by
  intro db t f dir l h hp
  have e : h = t.length := by
    simp [Ex.keeping] at hp
    exact hp.symm
  subst e
  simp [Ex.keeping]

example : ∃ ref t', perform ⟨1, none⟩ (some ⟨.native (some 7), 3, 4⟩) (.covergroup "cg" 1 10) Ex.keeping [] = (.ok ref, t') ∧
    ∀ l, (getSourceInfo ref Ex.keeping (t' ++ l)).1 = .ok ⟨.native (some 7), 3, 4⟩ :=
  C137_locations_partial Ex.keeping_locations ⟨by decide, by decide⟩ rfl ⟨some 7, rfl, by decide, by decide, rfl⟩ rfl

example : (getFileName 1 (some 0) Ex.keeping [.createFileHandle 1 "a.sv" none, .close 1]).1 = .ok (.bytes "a.sv") := by rfl

end Lib
end Verif
