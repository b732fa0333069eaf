import Verif.PipelineThms
import Verif.XmlThms4
import Verif.XmlFactory
/-!
# C121: which exception a database or document that is refused causes

The problems of a database, or of a document, are listed in the order of the document; the exception is that of the first problem.
-/

namespace Verif
namespace Spec
open Xml (Elem FloatText Env)

/-! ## Problems of a database that is to be written -/

/-- Text that XML cannot hold: `ValueError`. -/
def textProblem (s : String) : List Err := if Printable s then [] else [.valueError]

/-- Optional text; nothing is written if it is absent. -/
def optProblem : Option String → List Err
  | none => []
  | some s => textProblem s

/-- A number is written unless it is negative. -/
def numProblem (flt : FloatText) (x : Rat) : List Err := if 0 ≤ x then textProblem (flt.show_ x) else []

/-- A date has to be text (`TypeError`) and a valid date (`ValueError`). -/
def dateProblem : DateVal → List Err
  | .stamp _ => [.typeError]
  | .text s =>
    match DateTime.strptime DateTime.compactFmt s.toList with
    | .ok _ => []
    | .error _ => [.valueError]

def histProblems (flt : FloatText) (h : Hist) : List Err :=
  (match h.logicalName with
    | none => [.typeError]
    | some s => textProblem s) ++
  optProblem h.physicalName ++ optProblem h.kind ++ numProblem flt h.simTime ++ optProblem h.timeUnit ++ optProblem h.runCwd ++
  numProblem flt h.cpuTime ++ optProblem h.seed ++ optProblem h.cmd ++ optProblem h.args ++ optProblem h.compulsory ++
  dateProblem h.date ++ optProblem h.userName ++ numProblem flt h.cost ++ textProblem h.toolCategory ++ textProblem h.ucisVersion ++
  textProblem h.vendorId ++ textProblem h.vendorTool ++ textProblem h.vendorToolVersion ++ optProblem h.comment

/-- Name of a bin, then its kind: `AttributeError` unless it is one of the three kinds. -/
def binProblems (i : Item) : List Err := textProblem i.name ++ if IsKind i.kind then [] else [.attributeError]

def cpProblems (c : Scope) : List Err := textProblem c.name ++ (covBins c).flatMap binProblems

/-- `AttributeError` for a scope of type cross that was not created as a cross. -/
def crossProblems (c : Scope) : List Err :=
  textProblem c.name ++
  (match c.cps with
    | none => [.attributeError]
    | some l => l.flatMap textProblem ++ (covBins c).flatMap (fun i => textProblem i.name))

def groupProblems (cgName : String) (g : Scope) : List Err :=
  textProblem g.name ++ textProblem cgName ++ (kids ST.COVERPOINT g).flatMap cpProblems ++ (kids ST.CROSS g).flatMap crossProblems

def instProblems (i : Scope) : List Err :=
  textProblem i.name ++ (kids ST.COVERGROUP i).flatMap (fun g => (writtenGroups g).flatMap (groupProblems g.name))

/-- All problems of a database in the order of the document. -/
def writeProblems (env : Env) (db : Database) : List Err :=
  (fileNames db.root).flatMap textProblem ++ db.hist.flatMap (histProblems env.flt) ++ (kids ST.INSTANCE db.root).flatMap instProblems

/-! ## Problems of a document that is to be read -/

/-- A required attribute is missing: `KeyError`. -/
def keyProblem (e : Elem) (n : String) : List Err := if attr e n = none then [.keyError] else []

/-- A number: `KeyError` (or the given exception) if missing, `ValueError` if it is none. -/
def intProblem (e : Elem) (n : String) (absent : List Err) : List Err :=
  match attr e n with
  | none => absent
  | some v =>
    match PyNum.parseInt v with
    | .ok _ => []
    | .error _ => [.valueError]

def floatProblem (flt : FloatText) (e : Elem) (n : String) : List Err :=
  match attr e n with
  | none => []
  | some v => if flt.read v = none then [.valueError] else []

/-- A missing date is a `TypeError`, an invalid one a `ValueError`. -/
def isoProblem (e : Elem) (n : String) : List Err :=
  match attr e n with
  | none => [.typeError]
  | some s =>
    match DateTime.strptime DateTime.isoFmt s.toList with
    | .ok _ => []
    | .error _ => [.valueError]

def histElemProblems (flt : FloatText) (e : Elem) : List Err :=
  keyProblem e "testStatus" ++ floatProblem flt e "simtime" ++ floatProblem flt e "cpuTime" ++ isoProblem e "date" ++
  floatProblem flt e "cost" ++ keyProblem e "toolCategory" ++ keyProblem e "vendorId" ++ keyProblem e "vendorTool" ++
  keyProblem e "vendorToolVersion" ++ intProblem e "sameTests" []

/-- A bin without values: an exception of the library, or `StopIteration` if the values have no contents.  Then an unknown type and the count. -/
def binElemProblems (b : Elem) : List Err :=
  match binContents b with
  | none => if (within "sequence" b).head? = none ∧ (within "range" b).head? = none then [.userError] else [.stopIteration]
  | some c =>
    (if (attr b "type").getD "default" ∈ ["bins", "default", "ignore", "illegal"] then [] else [.userError]) ++
      intProblem c "coverageCount" [.keyError]

def crossBinElemProblems (b : Elem) : List Err :=
  match (within "contents" b).head? with
  | none => [.stopIteration]
  | some c => intProblem c "coverageCount" [.keyError]

/-- What a cross refers to: `AttributeError` without text, an exception of the library for a name that is not among `known`. -/
def exprProblems (known : List String) (x : Elem) : List Err :=
  (within "crossExpr" x).flatMap (fun e => if e.text = none then [.attributeError] else if crossed e ∈ known then [] else [.userError])

/-- A cross is looked up among the coverpoints of the type so far, if it is the first of its name (`seen`), then among those of its instance. -/
def crossElemProblems (typeCps instCps seen : List String) (x : Elem) : List Err :=
  (if cpName x ∈ seen then [] else exprProblems typeCps x) ++ exprProblems instCps x ++ (within "crossBin" x).flatMap crossBinElemProblems

def crossElemsProblems (typeCps instCps : List String) : List String → List Elem → List Err
  | _, [] => []
  | seen, x :: t => crossElemProblems typeCps instCps seen x ++ crossElemsProblems typeCps instCps (cpName x :: seen) t

/-- The instances of one covergroup type, after others with the coverpoints `typeCps` and crosses `seen`. -/
def groupsProblems : List String → List String → List Elem → List Err
  | _, _, [] => []
  | typeCps, seen, g :: t =>
    (within "coverpoint" g).flatMap (fun p => (within "coverpointBin" p).flatMap binElemProblems) ++
    crossElemsProblems (typeCps ++ (within "coverpoint" g).map cpName) ((within "coverpoint" g).map cpName) seen (within "cross" g) ++
    groupsProblems (typeCps ++ (within "coverpoint" g).map cpName) (seen ++ (within "cross" g).map cpName) t

/-- The types of a covergroupCoverage element one after the other. -/
def coverageProblems (c : Elem) : List Err :=
  (distinct ((within "cgInstance" c).map typeOf)).flatMap (fun t => groupsProblems [] [] ((within "cgInstance" c).filter (fun g => typeOf g = t)))

/-- An `id` element: three numbers, and the file has to be declared. -/
def idProblems (files : List Int) (d : Elem) : List Err :=
  intProblem d "file" [.keyError] ++ intProblem d "line" [.keyError] ++ intProblem d "inlineCount" [.keyError] ++
  if intAttr d "file" ∈ files then [] else [.keyError]

def instElemProblems (files : List Int) (i : Elem) : List Err :=
  keyProblem i "name" ++ (within "id" i).flatMap (idProblems files) ++ (within "covergroupCoverage" i).flatMap coverageProblems

/-- All problems of a document in the order in which they are met. -/
def readProblems (flt : FloatText) (doc : Elem) : List Err :=
  (within "sourceFiles" doc).flatMap (fun f => intProblem f "id" [.typeError]) ++ (within "historyNodes" doc).flatMap (histElemProblems flt) ++
  (within "instanceCoverages" doc).flatMap (instElemProblems ((within "sourceFiles" doc).map (fun f => intAttr f "id")))

end Spec

namespace FirstError
open Spec Xml PyNum

/-- The exception is the first one of the list; none if the list is empty. -/
def Fails {α : Type} (x : Except Err α) (p : List Err) : Prop := ∀ e, x = .error e ↔ p.head? = some e

variable {α β σ : Type}

theorem fails_ok {a : α} : Fails (.ok a : Except Err α) [] := fun e => by simp

theorem fails_pure {a : α} : Fails (pure a : Except Err α) [] := fun e => by simp [pure, Except.pure]

theorem fails_error {e : Err} : Fails (.error e : Except Err α) [e] := fun x => by simp

theorem Fails.nil {a : α} {p : List Err} (h : Fails (.ok a) p) : p = [] := by
  cases p with
  | nil => rfl
  | cons e t => cases (h e).2 rfl

theorem fails_bind {x : Except Err α} {f : α → Except Err β} {p q : List Err} (hx : Fails x p) (hf : ∀ a, x = .ok a → Fails (f a) q) :
    Fails (x >>= f) (p ++ q) := by
  cases x with
  | error e =>
    have h := (hx e).1 rfl
    intro e'
    rw [List.head?_append, h]
    show Except.error e = Except.error e' ↔ _
    simp
  | ok a =>
    rw [hx.nil]
    exact hf a rfl

theorem fails_congr {x : Except Err α} {p q : List Err} (hx : Fails x p) (h : p.head? = q.head?) : Fails x q :=
  fun e => (hx e).trans (by rw [h])

theorem fails_mapM {f : α → Except Err β} {p : α → List Err} : ∀ {l : List α}, (∀ a ∈ l, Fails (f a) (p a)) → Fails (l.mapM f) (l.flatMap p)
  | [], _ => fails_ok
  | a :: t, h => by
    rw [List.mapM_cons, List.flatMap_cons]
    refine fails_bind (h a (by simp)) (fun b _ => ?_)
    rw [← List.append_nil (t.flatMap p)]
    exact fails_bind (fails_mapM (fun x hx => h x (by simp [hx]))) (fun _ _ => fails_pure)

theorem fails_last {x : Except Err α} {f : α → β} {p : List Err} (hx : Fails x p) : Fails (x >>= fun a => pure (f a)) p := by
  rw [← List.append_nil p]
  exact fails_bind hx (fun _ _ => fails_pure)

/-- If success and failure are described by the same list, success means that the list is empty. -/
theorem Fails.ok_iff {x : Except Err α} {p : List Err} (h : Fails x p) : (∃ a, x = .ok a) ↔ p = [] := by
  cases x with
  | ok a => simp [h.nil]
  | error e =>
    have := (h e).1 rfl
    constructor
    · rintro ⟨a, ha⟩; cases ha
    · rintro rfl; cases this

/-! ## Writing -/

theorem fails_setA (n v : String) : Fails (setA n v) (textProblem v) := by
  unfold setA textProblem
  by_cases h : Printable v
  · rw [if_pos ((xmlStr_iff v).2 h), if_pos h]; exact fails_ok
  · rw [if_neg (fun x => h ((xmlStr_iff v).1 x)), if_neg h]; exact fails_error

theorem fails_optA (n : String) (o : Option String) : Fails (optA n o) (optProblem o) := by
  cases o with
  | none => exact fails_ok
  | some v => exact fails_last (fails_setA n v)

theorem fails_numA (env : Env) (n : String) (x : Rat) : Fails (numA env n x) (numProblem env.flt x) := by
  unfold numA numProblem
  split
  · exact fails_last (fails_setA _ _)
  · exact fails_ok

theorem fails_intA (n : String) (z : Int) : Fails (intA n z) [] := by
  intro e
  rw [(intA_ok (r := eInt n z)).2 rfl]
  simp

theorem strptime_error {f : List DateTime.Tok} {s : List Char} {e : Err} (h : DateTime.strptime f s = .error e) : e = .valueError := by
  unfold DateTime.strptime at h
  split at h
  · split at h
    · cases h
    · cases h; rfl
  · cases h; rfl

theorem fails_dateA (n : String) (d : DateVal) : Fails (dateA n d) (dateProblem d) := by
  cases d with
  | stamp t => exact fails_error
  | text s =>
    rw [← List.append_nil (dateProblem _)]
    refine fails_bind (f := setA n) ?_ (fun t ht => ?_)
    · unfold dateProblem DateTime.toIso
      dsimp only
      cases h : DateTime.strptime DateTime.compactFmt s.toList with
      | error e =>
        have := strptime_error h
        subst this
        exact fails_error
      | ok d => exact fails_ok
    · obtain ⟨d, _, hd⟩ := Ex.bind_ok.1 ht
      cases hd
      have := fails_setA n (String.ofList (DateTime.iso d))
      rw [textProblem, if_pos (printable_iso d)] at this
      exact this

theorem fails_binType (k : Nat) : Fails (binType k) (if IsKind k then [] else [.attributeError]) := by
  by_cases h : IsKind k
  · rw [if_pos h]
    rw [(binType_ok (t := kindText k)).2 ⟨h, rfl⟩]
    exact fails_ok
  · rw [if_neg h]
    unfold binType
    unfold IsKind at h
    rw [if_neg (fun x => h (.inl x)), if_neg (fun x => h (.inr (.inl x))), if_neg (fun x => h (.inr (.inr x)))]
    exact fails_error

theorem fails_writeBin (i : Item) : Fails (writeBin i) (binProblems i) :=
  fails_bind (fails_setA _ _) (fun _ _ => fails_last (fails_binType _))

theorem fails_writeCoverpoint (c : Scope) : Fails (writeCoverpoint c) (cpProblems c) := by
  unfold writeCoverpoint cpProblems
  rw [coverItems_binMask]
  exact fails_bind (fails_setA _ _) (fun _ _ => fails_last (fails_mapM (fun i _ => fails_writeBin i)))

theorem fails_writeCross (c : Scope) : Fails (writeCross c) (crossProblems c) := by
  unfold writeCross crossProblems
  rw [coverItems_binMask]
  refine fails_bind (fails_setA _ _) (fun _ _ => ?_)
  cases c.cps with
  | none => exact fails_error
  | some l =>
    exact fails_bind (fails_mapM (fun n _ => fails_last (fails_setA _ _))) (fun _ _ =>
      fails_last (fails_mapM (fun i _ => fails_last (fails_setA _ _))))

theorem textProblem_twice (s : String) (q : List Err) : (textProblem s ++ (textProblem s ++ q)).head? = (textProblem s ++ q).head? := by
  unfold textProblem
  split <;> rfl

theorem fails_writeCoverinstance (n : String) (g : Scope) : Fails (writeCoverinstance n g) (groupProblems n g) := by
  unfold writeCoverinstance groupProblems
  have h : Fails (writeCoverinstance n g) (textProblem g.name ++ (textProblem n ++ (textProblem n ++
      ((kids ST.COVERPOINT g).flatMap cpProblems ++ (kids ST.CROSS g).flatMap crossProblems)))) :=
    fails_bind (fails_setA _ _) (fun _ _ => fails_bind (fails_setA _ _) (fun _ _ => fails_bind (fails_setA _ _) (fun _ _ =>
      fails_bind (fails_mapM (fun c _ => fails_writeCoverpoint c)) (fun _ _ => fails_last (fails_mapM (fun c _ => fails_writeCross c))))))
  refine fails_congr h ?_
  rw [List.append_assoc, List.append_assoc, List.head?_append, textProblem_twice]
  simp only [List.head?_append]

theorem fails_writeCovergroup (g : Scope) : Fails (writeCovergroup g) ((writtenGroups g).flatMap (groupProblems g.name)) := by
  unfold writeCovergroup
  have : toWrite g = writtenGroups g := by
    unfold writtenGroups toWrite kids Scope.scopes
    split
    · rename_i h; rw [if_pos h]
    · rename_i h; rw [h]; simp
  rw [this]
  exact fails_last (fails_mapM (fun c _ => fails_writeCoverinstance _ c))

theorem fails_writeInstance (i : Scope) : Fails (writeInstance i) (instProblems i) :=
  fails_bind (fails_setA _ _) (fun _ _ => fails_last (fails_mapM (fun g _ => fails_writeCovergroup g)))

theorem fails_writeHist (env : Env) (i : Nat) (h : Hist) : Fails (writeHist env i h) (histProblems env.flt h) := by
  have hl : ∀ {k : String × String → Except Err Elem} {q : List Err}, (∀ a, Fails (k a) q) →
      Fails (match h.logicalName with
        | none => (.error .typeError : Except Err (String × String)) >>= k
        | some s => setA "logicalName" s >>= k) ((match h.logicalName with
        | none => [.typeError]
        | some s => textProblem s) ++ q) := by
    intro k q hk
    cases h.logicalName with
    | none => exact fails_bind fails_error (fun a _ => hk a)
    | some s => exact fails_bind (fails_setA _ _) (fun a _ => hk a)
  unfold writeHist histProblems
  simp only [List.append_assoc]
  refine hl (fun _ => ?_)
  refine fails_bind (fails_optA _ _) (fun _ _ => ?_)
  refine fails_bind (fails_optA _ _) (fun _ _ => ?_)
  refine fails_bind (fails_numA _ _ _) (fun _ _ => ?_)
  refine fails_bind (fails_optA _ _) (fun _ _ => ?_)
  refine fails_bind (fails_optA _ _) (fun _ _ => ?_)
  refine fails_bind (fails_numA _ _ _) (fun _ _ => ?_)
  refine fails_bind (fails_optA _ _) (fun _ _ => ?_)
  refine fails_bind (fails_optA _ _) (fun _ _ => ?_)
  refine fails_bind (fails_optA _ _) (fun _ _ => ?_)
  refine fails_bind (fails_optA _ _) (fun _ _ => ?_)
  refine fails_bind (fails_dateA _ _) (fun _ _ => ?_)
  refine fails_bind (fails_optA _ _) (fun _ _ => ?_)
  refine fails_bind (fails_numA _ _ _) (fun _ _ => ?_)
  refine fails_bind (fails_setA _ _) (fun _ _ => ?_)
  refine fails_bind (fails_setA _ _) (fun _ _ => ?_)
  refine fails_bind (fails_setA _ _) (fun _ _ => ?_)
  refine fails_bind (fails_setA _ _) (fun _ _ => ?_)
  refine fails_bind (fails_setA _ _) (fun _ _ => ?_)
  rw [← List.nil_append (optProblem h.comment)]
  refine fails_bind (fails_intA _ _) (fun _ _ => ?_)
  exact fails_last (fails_optA _ _)

theorem fails_writeHists (env : Env) : ∀ (l : List Hist) (i : Nat), Fails (writeHists env i l) (l.flatMap (histProblems env.flt))
  | [], _ => fails_ok
  | h :: t, i => by
    rw [List.flatMap_cons]
    exact fails_bind (fails_writeHist env i h) (fun _ _ => fails_last (fails_writeHists env t (i + 1)))

theorem fails_writeHistory {env : Env} (hn : Printable env.now) (l : List Hist) : Fails (writeHistory env l) (l.flatMap (histProblems env.flt)) := by
  cases l with
  | nil =>
    have : Fails (writeHistory env []) (textProblem env.now) := fails_last (fails_last (fails_setA _ _))
    rw [textProblem, if_pos hn] at this
    exact this
  | cons h t => exact fails_writeHists env (h :: t) 0

/-- A list of texts has a problem exactly if one of them has. -/
theorem texts_head (l : List String) : (l.flatMap textProblem).head? = if ∀ s ∈ l, Printable s then none else some .valueError := by
  induction l with
  | nil => simp
  | cons a t ih =>
    rw [List.flatMap_cons, List.head?_append, ih]
    unfold textProblem
    by_cases ha : Printable a <;> simp [ha]

theorem fails_files (db : Scope) (hp : PlainTypes db) : Fails ((fileTable db).mapM writeFile) ((fileNames db).flatMap textProblem) := by
  have h : Fails ((fileTable db).mapM writeFile) ((fileTable db).flatMap (fun f => textProblem f.1)) :=
    fails_mapM (fun f _ => fails_last (fails_setA _ _))
  refine fails_congr h ?_
  have e : (fileTable db).flatMap (fun f => textProblem f.1) = (Dict.keys (fileTable db)).flatMap textProblem := by
    unfold Dict.keys
    rw [List.flatMap_map]
  rw [e, texts_head, texts_head]
  have hm : fileTable db = (fileNames db).foldl addFile [("__null__file__", 1)] := findFilesL_eq _ _ hp
  have h0 : Numbered ([("__null__file__", 1)] : Dict Nat) := ⟨by simp [Dict.keys], rfl⟩
  obtain ⟨_, _, i3⟩ := foldl_addFile_numbered (fileNames db) h0
  have hf : (∀ f ∈ Dict.keys (fileTable db), Printable f) ↔ ∀ f ∈ fileNames db, Printable f := by
    rw [hm]
    constructor
    · intro h f hf
      exact h f ((i3 f).2 (.inr hf))
    · intro h f hf
      rcases (i3 f).1 hf with h1 | h1
      · have : f = "__null__file__" := by simpa [Dict.keys] using h1
        subst this
        unfold Printable
        decide
      · exact h f h1
  simp only [hf]

/-- **C121**, writing: the exception is that of the first problem of the database, and there is none if it has no problem. -/
theorem C121_write {env : Env} (he : GoodEnv env) (db : Database) (hp : PlainTypes db.root) (e : Err) :
    write env db = .error e ↔ (writeProblems env db).head? = some e := by
  have hu : textProblem env.user = [] := if_pos he.user
  have ht : textProblem env.today = [] := if_pos (he.envOk.today)
  have hn : Printable env.now := he.envOk.now
  have h : Fails (write env db) (textProblem env.user ++ (textProblem env.today ++ ((fileNames db.root).flatMap textProblem ++
      (db.hist.flatMap (histProblems env.flt) ++ (kids ST.INSTANCE db.root).flatMap instProblems)))) :=
    fails_bind (fails_setA _ _) (fun _ _ => fails_bind (fails_setA _ _) (fun _ _ => fails_bind (fails_files _ hp) (fun _ _ =>
      fails_bind (fails_writeHistory hn _) (fun _ _ => fails_last (fails_mapM (fun i _ => fails_writeInstance i))))))
  rw [hu, ht, List.nil_append, List.nil_append, ← List.append_assoc] at h
  exact h e

/-! ## Reading -/

theorem fails_getE (e : Elem) (n : String) : Fails (e.getE n) (keyProblem e n) := by
  unfold keyProblem
  rw [← get_attr]
  unfold Elem.getE Elem.get Dict.getE
  cases Dict.get? e.attrs n with
  | none => exact fails_error
  | some v => exact fails_ok

theorem parseInt_error {v : String} {e : Err} (h : parseInt v = .error e) : e = .valueError := by
  unfold parseInt at h
  split at h
  · cases h
  · cases h; rfl

theorem fails_parseInt (v : String) : Fails (parseInt v) (match parseInt v with
    | .ok _ => []
    | .error _ => [.valueError]) := by
  cases h : parseInt v with
  | ok z => exact fails_ok
  | error e =>
    have := parseInt_error h
    subst this
    exact fails_error

theorem fails_getInt (e : Elem) (n : String) : Fails (e.getInt n) (intProblem e n [.keyError]) := by
  unfold Elem.getInt intProblem
  cases h : attr e n with
  | none =>
    have h1 := fails_getE e n
    rw [keyProblem, if_pos h] at h1
    have : e.getE n = .error .keyError := (h1 _).2 rfl
    rw [this]
    exact fails_error
  | some v =>
    rw [(getE_attr e n v).2 h]
    exact fails_parseInt v

theorem fails_nextE (e : Elem) (t : String) : Fails (nextE e t) (if (within t e).head? = none then [.stopIteration] else []) := by
  unfold nextE
  rw [iter_within]
  cases within t e with
  | nil => exact fails_error
  | cons a l => exact fails_ok

theorem contentsE_error (b : Elem) : Fails (contentsE b) (match binContents b with
    | none => if (within "sequence" b).head? = none ∧ (within "range" b).head? = none then [.userError] else [.stopIteration]
    | some _ => []) := by
  unfold contentsE binContents next?
  rw [iter_within, iter_within]
  cases (within "sequence" b).head? with
  | some s =>
    dsimp only [Option.some_or, Option.bind_some]
    have := fails_nextE s "contents"
    cases h : (within "contents" s).head? with
    | none => rw [h] at this; simpa using this
    | some c => rw [h] at this; simpa using this
  | none =>
    cases (within "range" b).head? with
    | some s =>
      dsimp only [Option.none_or, Option.bind_some]
      have := fails_nextE s "contents"
      cases h : (within "contents" s).head? with
      | none => rw [h] at this; simpa using this
      | some c => rw [h] at this; simpa using this
    | none => simpa using fails_error

theorem fails_readKind (a : String) : Fails (readKind a) (if a ∈ ["bins", "default", "ignore", "illegal"] then [] else [.userError]) := by
  by_cases h : a ∈ ["bins", "default", "ignore", "illegal"]
  · rw [if_pos h, (readKind_iff a _).2 ⟨h, rfl⟩]; exact fails_ok
  · rw [if_neg h]
    unfold readKind
    simp only [List.mem_cons, List.not_mem_nil, or_false, not_or] at h
    obtain ⟨h1, h2, h3, h4⟩ := h
    simp only [h1, h2, h3, h4, or_self, if_false]
    exact fails_error

theorem contentsE_ok (b c : Elem) : contentsE b = .ok c ↔ binContents b = some c := by
  unfold contentsE binContents next?
  rw [iter_within, iter_within]
  cases (within "sequence" b).head? with
  | some s => simp [nextE_iff]
  | none =>
    cases (within "range" b).head? with
    | some s => simp [nextE_iff]
    | none => simp

theorem fails_readBin (b : Elem) : Fails (readBin b) (binElemProblems b) := by
  have h := contentsE_error b
  unfold readBin binElemProblems
  cases hc : binContents b with
  | none =>
    rw [hc] at h
    dsimp only at h ⊢
    rw [← List.append_nil (ite _ _ _)]
    refine fails_bind h (fun a ha => ?_)
    rw [contentsE_ok, hc] at ha
    cases ha
  | some c =>
    rw [(contentsE_ok b c).2 hc, getD_attr]
    exact fails_bind (x := readKind _) (fails_readKind _) (fun _ _ => fails_last (fails_getInt _ _))

theorem fails_readCrossBin (b : Elem) : Fails (readCrossBin b) (crossBinElemProblems b) := by
  have h := fails_nextE b "contents"
  unfold readCrossBin crossBinElemProblems
  cases hc : (within "contents" b).head? with
  | none =>
    rw [hc] at h
    rw [← List.append_nil [Err.stopIteration]]
    refine fails_bind (by simpa using h) (fun a ha => ?_)
    rw [nextE_iff, hc] at ha
    cases ha
  | some c =>
    rw [(nextE_iff b "contents" c).2 hc]
    exact fails_last (fails_getInt _ _)

theorem fails_resolve {K K' : List String} (hK : ∀ n, n ∈ K ↔ n ∈ K') (x : Elem) : Fails (resolve K x) (exprProblems K' x) := by
  unfold resolve exprProblems
  rw [iter_within]
  refine fails_mapM (fun e _ => ?_)
  unfold exprName crossed
  cases e.text with
  | none => exact fails_error
  | some t =>
    dsimp only [Option.getD_some]
    rw [if_neg (by simp)]
    show Fails (if String.ofList (stripL t.toList) ∈ K then pure _ else _) _
    by_cases h : String.ofList (stripL t.toList) ∈ K
    · rw [if_pos h, if_pos ((hK _).1 h)]; exact fails_pure
    · rw [if_neg h, if_neg (fun z => h ((hK _).2 z))]; exact fails_error

/-- The tables of the reader hold these coverpoints and crosses. -/
structure Tables (T S : List String) (cpM : Dict (Dict (Nat × Int))) (crM : Dict (Dict Int)) : Prop where
  cps : ∀ n, n ∈ Dict.keys cpM ↔ n ∈ T
  crs : ∀ n, n ∈ Dict.keys crM ↔ n ∈ S

/-- Problems met by a loop; `g` says what is known after a round. -/
def probs {τ : Type} (p : τ → α → List Err) (g : τ → α → τ) : τ → List α → List Err
  | _, [] => []
  | t, a :: l => p t a ++ probs p g (g t a) l

theorem fails_fold {τ : Type} {f : σ → α → Except Err σ} {R : σ → τ → Prop} {p : τ → α → List Err} {g : τ → α → τ}
    (step : ∀ s t a, R s t → Fails (f s a) (p t a) ∧ ∀ s', f s a = .ok s' → R s' (g t a)) :
    ∀ (l : List α) (s : σ) (t : τ), R s t → Fails (l.foldlM f s) (probs p g t l) ∧ ∀ s', l.foldlM f s = .ok s' → R s' (l.foldl g t)
  | [], s, t, h => by
    rw [List.foldlM_nil]
    refine ⟨fails_pure, fun s' h' => ?_⟩
    rw [← Ex.pure_ok.1 h']
    exact h
  | a :: l, s, t, h => by
    rw [List.foldlM_cons]
    obtain ⟨h1, h2⟩ := step s t a h
    refine ⟨fails_bind h1 (fun s1 e => (fails_fold step l s1 _ (h2 s1 e)).1), fun s' h' => ?_⟩
    obtain ⟨s1, e, h'⟩ := Ex.bind_ok.1 h'
    exact (fails_fold step l s1 _ (h2 s1 e)).2 s' h'

theorem mem_keys_set {β : Type} (m : Dict β) (k n : String) (v : β) : n ∈ Dict.keys (Dict.set m k v) ↔ n ∈ Dict.keys m ∨ n = k := by
  rw [Dict.keys_set]
  split
  · rename_i h
    constructor
    · exact .inl
    · rintro (h' | rfl)
      · exact h'
      · exact h
  · simp

/-- State of the reader within an instance: coverpoints of the type, coverpoints of the instance, crosses of the type. -/
def IKnows (st : IState) (t : List String × List String × List String) : Prop :=
  Tables t.1 t.2.2 st.cpM st.crM ∧ ∀ n, n ∈ st.known ↔ n ∈ t.2.1

theorem fails_readCp (st : IState) (t : List String × List String × List String) (p : Elem) (h : IKnows st t) :
    Fails (readCp st p) ((within "coverpointBin" p).flatMap binElemProblems) ∧
      ∀ st', readCp st p = .ok st' → IKnows st' (t.1 ++ [cpName p], t.2.1 ++ [cpName p], t.2.2) := by
  unfold readCp
  rw [iter_within]
  refine ⟨fails_last (fails_mapM (fun b _ => fails_readBin b)), fun st' h' => ?_⟩
  obtain ⟨bins, _, h'⟩ := Ex.bind_ok.1 h'
  rw [← Ex.pure_ok.1 h']
  obtain ⟨⟨h1, h2⟩, h3⟩ := h
  have e : p.getD "name" "<unknown>" = cpName p := getD_attr ..
  refine ⟨⟨fun n => ?_, h2⟩, fun n => ?_⟩
  · dsimp only
    rw [mem_keys_set, h1, e]
    simp
  · dsimp only
    rw [List.mem_cons, h3, e]
    simp [or_comm]

theorem fails_readCr (st : IState) (t : List String × List String × List String) (x : Elem) (h : IKnows st t) :
    Fails (readCr st x) (crossElemProblems t.1 t.2.1 t.2.2 x) ∧
      ∀ st', readCr st x = .ok st' → IKnows st' (t.1, t.2.1, cpName x :: t.2.2) := by
  obtain ⟨⟨h1, h2⟩, h3⟩ := h
  have e : x.getD "name" "<unknown>" = cpName x := getD_attr ..
  constructor
  · unfold readCr crossElemProblems
    rw [iter_within, e, List.append_assoc]
    refine fails_bind ?_ (fun a _ => fails_bind (fails_resolve h3 x) (fun _ _ => fails_last (fails_mapM (fun b _ => fails_readCrossBin b))))
    cases hg : Dict.get? st.crM (cpName x) with
    | none =>
      rw [if_neg (fun hm => Dict.get?_eq_none.1 hg ((h2 _).2 hm))]
      exact fails_last (fails_resolve h1 x)
    | some d =>
      rw [if_pos]
      · exact fails_pure
      · rw [← h2]
        by_contra hn
        rw [Dict.get?_eq_none.2 hn] at hg
        cases hg
  · intro st' h'
    unfold readCr at h'
    obtain ⟨a, _, h'⟩ := Ex.bind_ok.1 h'
    obtain ⟨_, _, h'⟩ := Ex.bind_ok.1 h'
    obtain ⟨_, _, h'⟩ := Ex.bind_ok.1 h'
    rw [← Ex.pure_ok.1 h']
    refine ⟨⟨h1, fun n => ?_⟩, h3⟩
    dsimp only
    rw [mem_keys_set, h2, e]
    simp [or_comm]

theorem probs_cross (T K : List String) : ∀ (l : List Elem) (S : List String),
    probs (fun (t : List String × List String × List String) x => crossElemProblems t.1 t.2.1 t.2.2 x)
      (fun t x => (t.1, t.2.1, cpName x :: t.2.2)) (T, K, S) l = crossElemsProblems T K S l
  | [], _ => rfl
  | x :: l, S => by
    rw [probs, crossElemsProblems]
    exact congrArg _ (probs_cross T K l _)

theorem probs_cp (t : List String × List String × List String) : ∀ l : List Elem,
    probs (fun (_ : List String × List String × List String) p => (within "coverpointBin" p).flatMap binElemProblems)
      (fun t p => (t.1 ++ [cpName p], t.2.1 ++ [cpName p], t.2.2)) t l = l.flatMap (fun p => (within "coverpointBin" p).flatMap binElemProblems) := by
  intro l
  induction l generalizing t with
  | nil => rfl
  | cons a l ih => rw [probs, ih, List.flatMap_cons]

theorem fold_cp (l : List Elem) : ∀ t : List String × List String × List String,
    l.foldl (fun t p => (t.1 ++ [cpName p], t.2.1 ++ [cpName p], t.2.2)) t = (t.1 ++ l.map cpName, t.2.1 ++ l.map cpName, t.2.2) := by
  induction l with
  | nil => simp
  | cons a l ih =>
    intro t
    rw [List.foldl_cons, ih]
    simp

theorem fold_cr (l : List Elem) : ∀ t : List String × List String × List String,
    l.foldl (fun t x => (t.1, t.2.1, cpName x :: t.2.2)) t = (t.1, t.2.1, (l.map cpName).reverse ++ t.2.2) := by
  induction l with
  | nil => simp
  | cons a l ih =>
    intro t
    rw [List.foldl_cons, ih]
    simp

/-- What is known after some instances of a type. -/
def GKnows (st : GState) (t : List String × List String) : Prop := Tables t.1 t.2 st.cpM st.crM

theorem fails_readCgInst (st : GState) (t : List String × List String) (g : Elem) (h : GKnows st t) :
    Fails (readCgInst st g) ((within "coverpoint" g).flatMap (fun p => (within "coverpointBin" p).flatMap binElemProblems) ++
      crossElemsProblems (t.1 ++ (within "coverpoint" g).map cpName) ((within "coverpoint" g).map cpName) t.2 (within "cross" g)) ∧
      ∀ st', readCgInst st g = .ok st' → GKnows st' (t.1 ++ (within "coverpoint" g).map cpName, t.2 ++ (within "cross" g).map cpName) := by
  have h0 : IKnows { slots := [], cpM := st.cpM, crM := st.crM, kids := [], known := [] } (t.1, [], t.2) := ⟨h, fun n => Iff.rfl⟩
  obtain ⟨a1, a2⟩ := fails_fold fails_readCp (within "coverpoint" g) _ _ h0
  rw [probs_cp] at a1
  rw [fold_cp, List.nil_append] at a2
  unfold readCgInst
  rw [iter_within, iter_within]
  constructor
  · refine fails_bind a1 (fun s1 e1 => fails_last ?_)
    have := (fails_fold fails_readCr (within "cross" g) s1 _ (a2 s1 e1)).1
    rw [probs_cross] at this
    exact this
  · intro st' h'
    obtain ⟨s1, e1, h'⟩ := Ex.bind_ok.1 h'
    obtain ⟨s2, e2, h'⟩ := Ex.bind_ok.1 h'
    rw [← Ex.pure_ok.1 h']
    have := (fails_fold fails_readCr (within "cross" g) s1 _ (a2 s1 e1)).2 s2 e2
    rw [fold_cr] at this
    refine ⟨this.1.cps, fun n => ?_⟩
    rw [this.1.crs]
    simp [or_comm]

theorem probs_groups : ∀ (l : List Elem) (T S : List String),
    probs (fun (t : List String × List String) g =>
        (within "coverpoint" g).flatMap (fun p => (within "coverpointBin" p).flatMap binElemProblems) ++
        crossElemsProblems (t.1 ++ (within "coverpoint" g).map cpName) ((within "coverpoint" g).map cpName) t.2 (within "cross" g))
      (fun t g => (t.1 ++ (within "coverpoint" g).map cpName, t.2 ++ (within "cross" g).map cpName)) (T, S) l = groupsProblems T S l
  | [], _, _ => rfl
  | x :: l, T, S => by
    rw [probs, groupsProblems]
    exact congrArg _ (probs_groups l _ _)

theorem fails_readCovergroup (n : String) (l : List Elem) : Fails (readCovergroup n l) (groupsProblems [] [] l) := by
  have h0 : GKnows { slots := [], cpM := [], crM := [] } ([], []) := ⟨fun n => Iff.rfl, fun n => Iff.rfl⟩
  have := (fails_fold fails_readCgInst l _ _ h0).1
  rw [probs_groups] at this
  exact fails_last this

theorem fails_readCovergroups (c : Elem) : Fails (readCovergroups c) (coverageProblems c) := by
  unfold readCovergroups coverageProblems
  rw [iter_within, groupTypes_closed, funext typeName_eq, Ex.mapM_map', distinct_eq]
  exact fails_mapM (fun t _ => fails_readCovergroup _ _)

theorem fails_readStatementId (files : List Int) (d : Elem) : Fails (readStatementId files d) (idProblems files d) := by
  unfold readStatementId idProblems
  rw [List.append_assoc, List.append_assoc]
  refine fails_bind (fails_getInt _ _) (fun f hf => fails_bind (fails_getInt _ _) (fun _ _ => fails_bind (fails_getInt _ _) (fun _ _ => ?_)))
  rw [((getInt_iff _ _ _).1 hf).2]
  split
  · exact fails_pure
  · exact fails_error

theorem fails_readInstance (files : List Int) (tops : List Scope) (i : Elem) : Fails (readInstance files tops i) (instElemProblems files i) := by
  unfold readInstance instElemProblems
  rw [List.append_assoc, iter_within, iter_within]
  exact fails_bind (fails_getE _ _) (fun _ _ => fails_bind (fails_mapM (fun d _ => fails_readStatementId files d)) (fun _ _ =>
    fails_last (fails_mapM (fun c _ => fails_readCovergroups c))))

theorem fails_readInsts (files : List Int) (l : List Elem) (tops : List Scope) :
    Fails (l.foldlM (readInstance files) tops) (l.flatMap (instElemProblems files)) := by
  have h := (fails_fold (R := fun _ (_ : Unit) => True) (p := fun _ => instElemProblems files) (g := fun _ _ => ())
    (fun s _ a _ => ⟨fails_readInstance files s a, fun _ _ => trivial⟩) l tops () trivial).1
  have e : probs (fun (_ : Unit) => instElemProblems files) (fun _ _ => ()) () l = l.flatMap (instElemProblems files) := by
    clear h
    induction l with
    | nil => rfl
    | cons a t ih => rw [probs, ih, List.flatMap_cons]
  rw [e] at h
  exact h

theorem fails_readFile (f : Elem) : Fails (readFile f) (intProblem f "id" [.typeError]) := by
  unfold readFile intProblem
  rw [get_attr]
  cases attr f "id" with
  | none => exact fails_error
  | some s => exact fails_last (fails_parseInt s)

theorem fails_floatIf (flt : FloatText) (e : Elem) (n : String) (d : Rat) : Fails (floatIf flt e n d) (floatProblem flt e n) := by
  unfold floatIf floatProblem
  rw [get_attr]
  cases attr e n with
  | none => exact fails_ok
  | some s =>
    dsimp only
    cases flt.read s with
    | none => exact fails_error
    | some x => exact fails_ok

theorem fails_intIf (e : Elem) (n : String) (d : Int) : Fails (intIf e n d) (intProblem e n []) := by
  unfold intIf intProblem
  rw [get_attr]
  cases attr e n with
  | none => exact fails_ok
  | some s => exact fails_parseInt s

theorem fails_dateOf (e : Elem) (n : String) : Fails (dateOf e n) (isoProblem e n) := by
  unfold dateOf isoProblem DateTime.fromIso
  rw [get_attr]
  cases attr e n with
  | none => exact fails_error
  | some s =>
    dsimp only
    cases h : DateTime.strptime DateTime.isoFmt s.toList with
    | error e =>
      have := strptime_error h
      subst this
      exact fails_error
    | ok d => exact fails_ok

theorem fails_readHist (flt : FloatText) (e : Elem) : Fails (readHist flt e) (histElemProblems flt e) := by
  unfold readHist histElemProblems
  simp only [List.append_assoc]
  refine fails_bind (fails_getE _ _) (fun _ _ => ?_)
  refine fails_bind (fails_floatIf _ _ _ _) (fun _ _ => ?_)
  refine fails_bind (fails_floatIf _ _ _ _) (fun _ _ => ?_)
  refine fails_bind (fails_dateOf _ _) (fun _ _ => ?_)
  refine fails_bind (fails_floatIf _ _ _ _) (fun _ _ => ?_)
  refine fails_bind (fails_getE _ _) (fun _ _ => ?_)
  refine fails_bind (fails_getE _ _) (fun _ _ => ?_)
  refine fails_bind (fails_getE _ _) (fun _ _ => ?_)
  refine fails_bind (fails_getE _ _) (fun _ _ => ?_)
  exact fails_last (fails_intIf _ _ _)

/-- **C121**, reading: the exception is that of the first problem of the document, and there is none if it has no problem. -/
theorem C121_read (flt : FloatText) (doc : Elem) (e : Err) : Xml.read flt doc = .error e ↔ (readProblems flt doc).head? = some e := by
  have h : Fails (Xml.read flt doc) (readProblems flt doc) := by
    unfold Xml.read readProblems
    rw [iter_within, iter_within, iter_within, List.append_assoc]
    refine fails_bind (fails_mapM (fun f _ => fails_readFile f)) (fun files hf => fails_bind (fails_mapM (fun h _ => fails_readHist flt h)) (fun _ _ =>
      fails_last ?_))
    rw [((Ex.mapM_iff (fun x _ y => readFile_iff x y) _).1 hf).2, List.map_map]
    exact fails_readInsts _ _ _
  exact h e

/-- **C121**: a database without problems is written, and a document without problems is read. -/
theorem C121_no_problem {env : Env} (he : GoodEnv env) (db : Database) (hp : PlainTypes db.root) (flt : FloatText) (doc : Elem) :
    ((∃ d, write env db = .ok d) ↔ writeProblems env db = []) ∧ ((∃ d, Xml.read flt doc = .ok d) ↔ readProblems flt doc = []) :=
  ⟨Fails.ok_iff (C121_write he db hp), Fails.ok_iff (C121_read flt doc)⟩

/-- **C121**, the library function that reads a file: validation comes first. -/
theorem C121_library (flt : FloatText) (doc : Elem) (e : Err) :
    factoryRead flt doc = .error e ↔
      (Xsd.valid Xsd.ucisXsd doc = false ∧ e = .userError) ∨ (Xsd.valid Xsd.ucisXsd doc = true ∧ (readProblems flt doc).head? = some e) := by
  unfold factoryRead
  cases Xsd.valid Xsd.ucisXsd doc with
  | true => simp [C121_read]
  | false => simp [eq_comm]

theorem textProblem_mem {s : String} {e : Err} (h : e ∈ textProblem s) : e = .valueError := by
  unfold textProblem at h
  split at h
  · cases h
  · simpa using h

theorem optProblem_mem {o : Option String} {e : Err} (h : e ∈ optProblem o) : e = .valueError := by
  cases o with
  | none => cases h
  | some s => exact textProblem_mem h

theorem numProblem_mem {flt : FloatText} {x : Rat} {e : Err} (h : e ∈ numProblem flt x) : e = .valueError := by
  unfold numProblem at h
  split at h
  · exact textProblem_mem h
  · cases h

theorem histProblems_mem {flt : FloatText} {h : Hist} {e : Err} (he : e ∈ histProblems flt h) :
    e = .valueError ∨ e = .typeError ∧ (h.logicalName = none ∨ ∃ z, h.date = .stamp z) := by
  unfold histProblems at he
  simp only [List.mem_append, or_assoc] at he
  rcases he with he | he | he | he | he | he | he | he | he | he | he | he | he | he | he | he | he | he | he | he
  · cases hl : h.logicalName with
    | none => rw [hl] at he; exact .inr ⟨by simpa using he, .inl rfl⟩
    | some s => rw [hl] at he; exact .inl (textProblem_mem he)
  all_goals try exact .inl (optProblem_mem he)
  all_goals try exact .inl (numProblem_mem he)
  all_goals try exact .inl (textProblem_mem he)
  cases hd : h.date with
  | stamp z => rw [hd] at he; exact .inr ⟨by simpa [dateProblem] using he, .inr ⟨z, rfl⟩⟩
  | text s =>
    rw [hd] at he
    unfold dateProblem at he
    dsimp only at he
    split at he
    · cases he
    · exact .inl (by simpa using he)

/-- **C121**: what each exception of the writer means.  `TypeError` is caused by a history node without name or with a number as date,
`AttributeError` by a bin of another kind or by a scope of type cross that crosses nothing; every other failure is a `ValueError`. -/
theorem C121_write_meaning {env : Env} (he : GoodEnv env) {db : Database} (hp : PlainTypes db.root) {e : Err} (h : write env db = .error e) :
    e = .valueError ∨ (e = .typeError ∧ ∃ x ∈ db.hist, x.logicalName = none ∨ ∃ z, x.date = .stamp z) ∨
      (e = .attributeError ∧ ∃ i ∈ kids ST.INSTANCE db.root, ∃ g ∈ kids ST.COVERGROUP i, ∃ c ∈ writtenGroups g,
        (∃ p ∈ kids ST.COVERPOINT c, ∃ b ∈ covBins p, ¬ IsKind b.kind) ∨ ∃ x ∈ kids ST.CROSS c, x.cps = none) := by
  have hm : e ∈ writeProblems env db := List.mem_of_mem_head? ((C121_write he db hp e).1 h)
  unfold writeProblems at hm
  rcases List.mem_append.1 hm with hm | hm
  · rcases List.mem_append.1 hm with hm | hm
    · obtain ⟨f, _, hf⟩ := List.mem_flatMap.1 hm
      exact .inl (textProblem_mem hf)
    · obtain ⟨x, hx, hf⟩ := List.mem_flatMap.1 hm
      rcases histProblems_mem hf with h1 | ⟨h1, h2⟩
      · exact .inl h1
      · exact .inr (.inl ⟨h1, x, hx, h2⟩)
  · obtain ⟨i, hi, hm⟩ := List.mem_flatMap.1 hm
    unfold instProblems at hm
    rcases List.mem_append.1 hm with hm | hm
    · exact .inl (textProblem_mem hm)
    obtain ⟨g, hg, hm⟩ := List.mem_flatMap.1 hm
    obtain ⟨c, hc, hm⟩ := List.mem_flatMap.1 hm
    unfold groupProblems at hm
    simp only [List.mem_append, or_assoc] at hm
    rcases hm with hm | hm | hm | hm
    · exact .inl (textProblem_mem hm)
    · exact .inl (textProblem_mem hm)
    · obtain ⟨p, hp', hm⟩ := List.mem_flatMap.1 hm
      unfold cpProblems at hm
      rcases List.mem_append.1 hm with hm | hm
      · exact .inl (textProblem_mem hm)
      obtain ⟨b, hb, hm⟩ := List.mem_flatMap.1 hm
      unfold binProblems at hm
      rcases List.mem_append.1 hm with hm | hm
      · exact .inl (textProblem_mem hm)
      split at hm
      · cases hm
      · rename_i hk
        exact .inr (.inr ⟨by simpa using hm, i, hi, g, hg, c, hc, .inl ⟨p, hp', b, hb, hk⟩⟩)
    · obtain ⟨x, hx, hm⟩ := List.mem_flatMap.1 hm
      unfold crossProblems at hm
      rcases List.mem_append.1 hm with hm | hm
      · exact .inl (textProblem_mem hm)
      cases hx' : x.cps with
      | none =>
        rw [hx'] at hm
        exact .inr (.inr ⟨by simpa using hm, i, hi, g, hg, c, hc, .inr ⟨x, hx, hx'⟩⟩)
      | some l =>
        rw [hx'] at hm
        rcases List.mem_append.1 hm with hm | hm
        · obtain ⟨n, _, hm⟩ := List.mem_flatMap.1 hm
          exact .inl (textProblem_mem hm)
        · obtain ⟨n, _, hm⟩ := List.mem_flatMap.1 hm
          exact .inl (textProblem_mem hm)

/-! ## Examples -/

/-- A database with two problems: the number as a date comes first, the bin of mixed kind later. -/
def exBadDb : Database where
  root := { emptyDb with children := [mkInstance "top" SrcInfo.none 1 none
    [mkCovergroup "cg" SrcInfo.none 1 [mkCoverpoint "a" SrcInfo.none 1 [mkBin "x" (CT.CVGBIN ||| CT.IGNOREBIN) 1 3]]]] }
  hist := [{ Hist.create 0 (some "t1") none (some "k") with date := .stamp 0 }]
  files := []

example : PlainTypes exBadDb.root := by unfold PlainTypes; decide +kernel
example : writeProblems exEnv exBadDb = [.typeError, .attributeError] := by decide +kernel
example : (match write exEnv exBadDb with
    | .error e => some e
    | .ok _ => none) = some .typeError := by decide +kernel
/-- Without history nodes the other problem shows. -/
example : writeProblems exEnv { exBadDb with hist := [] } = [.attributeError] := by decide +kernel

/-- Two instances of a type; the second one crosses a coverpoint that only the first one has, and something without text. -/
def exBadDoc : Elem :=
  let inst (kids : List Elem) : Elem := ⟨"cgInstance", [("name", "i")], none, ⟨"cgId", [("cgName", "cg")], none, []⟩ :: kids⟩
  ⟨"UCIS", [], none, [⟨"sourceFiles", [("id", "1")], none, []⟩, ⟨"instanceCoverages", [("name", "top")], none, [⟨"covergroupCoverage", [], none,
    [inst [⟨"coverpoint", [("name", "a")], none, []⟩],
     inst [⟨"cross", [("name", "x")], none, [⟨"crossExpr", [], some "a", []⟩, ⟨"crossExpr", [], none, []⟩]⟩]]⟩]⟩]⟩

/-- The first look-up, in the type, stops at the missing text; the second one would have stopped at the name. -/
example : readProblems decText exBadDoc = [.attributeError, .userError, .attributeError] := by decide +kernel
example : (match Xml.read decText exBadDoc with
    | .error e => some e
    | .ok _ => none) = some .attributeError := by decide +kernel

end FirstError
end Verif
