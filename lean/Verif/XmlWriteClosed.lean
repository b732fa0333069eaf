import Verif.XmlSpec
import Verif.ExceptLemmas
/-!
# Closed form of the XML writer
-/

namespace Verif
namespace Xml
open PyNum Spec

theorem xmlChar_iff (c : Char) : xmlChar c = true ↔
    (32 ≤ c.toNat ∨ c.toNat = 9 ∨ c.toNat = 10 ∨ c.toNat = 13) ∧ c.toNat ≠ 0xFFFE ∧ c.toNat ≠ 0xFFFF := by
  unfold xmlChar
  simp only [Bool.and_eq_true, Bool.or_eq_true, decide_eq_true_eq, and_assoc, or_assoc]

theorem xmlStr_iff (s : String) : xmlStr s = true ↔ Printable s := by
  unfold xmlStr Printable
  rw [List.all_eq_true]
  exact forall₂_congr (fun c _ => xmlChar_iff c)

theorem setA_ok {n v : String} {r : String × String} : setA n v = .ok r ↔ Printable v ∧ r = (n, v) := by
  unfold setA
  rw [← xmlStr_iff]
  split
  · rename_i h; simp [h, eq_comm]
  · rename_i h; simp [h]

theorem maskHit_or (a b c : Nat) : maskHit a (b ||| c) = (maskHit a b || maskHit a c) := by
  unfold maskHit
  rw [Nat.and_or_distrib_left, Bool.eq_iff_iff]
  simp only [Bool.or_eq_true, bne_iff_ne, ne_eq, Nat.or_eq_zero_iff]
  tauto

theorem coverItems_binMask (s : Scope) : s.coverItems binMask = covBins s := by
  unfold Scope.coverItems covBins binMask
  congr 1
  funext i
  rw [maskHit_or, maskHit_or]

/-- Type attribute of a bin. -/
def kindText (k : Nat) : String := if k = CT.CVGBIN then "bins" else if k = CT.IGNOREBIN then "ignore" else "illegal"

theorem binType_ok {k : Nat} {t : String} : binType k = .ok t ↔ IsKind k ∧ t = kindText k := by
  unfold binType kindText IsKind
  by_cases h1 : k = CT.CVGBIN
  · simp [h1, eq_comm]
  · by_cases h2 : k = CT.IGNOREBIN
    · subst h2; simp [h1, eq_comm]
    · by_cases h3 : k = CT.ILLEGALBIN
      · subst h3; simp [h1, h2, eq_comm]
      · simp [h1, h2, h3]

def eContents (z : Int) : Elem := ⟨"contents", [("coverageCount", strInt z)], none, []⟩

def eBin (i : Item) : Elem :=
  ⟨"coverpointBin", [("name", i.name), ("type", kindText i.kind), ("key", "0")], none,
    [⟨"range", [("from", "-1"), ("to", "-1")], none, [eContents i.count]⟩]⟩

def eCp (cp : Scope) : Elem :=
  ⟨"coverpoint", [("name", cp.name), ("key", "0")], none, optionsElem :: (covBins cp).map eBin⟩

def eCrossBin (i : Item) : Elem :=
  ⟨"crossBin", [("name", i.name), ("key", "0"), ("type", "default")], none, [⟨"index", [], some "-1", []⟩, eContents i.count]⟩

/-- `f` is the text of a crossExpr: `some` as written, `textOf` after parsing. -/
def eExpr (f : String → Option String) (n : String) : Elem := ⟨"crossExpr", [], f n, []⟩

def eCross (f : String → Option String) (cr : Scope) : Elem :=
  ⟨"cross", [("name", cr.name), ("key", "0")], none,
    optionsElem :: ((cr.cps.getD []).map (eExpr f) ++ (covBins cr).map eCrossBin)⟩

def eCgId (cgName : String) : Elem :=
  ⟨"cgId", [("cgName", cgName), ("moduleName", cgName)], none, [sourceIdElem "cginstSourceId", sourceIdElem "cgSourceId"]⟩

def eGroup (f : String → Option String) (cgName : String) (g : Scope) : Elem :=
  ⟨"cgInstance", [("name", g.name), ("key", "0")], none,
    optionsElem :: eCgId cgName :: ((kids ST.COVERPOINT g).map eCp ++ (kids ST.CROSS g).map (eCross f))⟩

def eCg (f : String → Option String) (g : Scope) : Elem :=
  ⟨"covergroupCoverage", [], none, (writtenGroups g).map (eGroup f g.name)⟩

def eInst (f : String → Option String) (i : Scope) : Elem :=
  ⟨"instanceCoverages", [("name", i.name), ("key", "0")], none, idElem :: (kids ST.COVERGROUP i).map (eCg f)⟩

theorem writeBin_ok (i : Item) (e : Elem) : writeBin i = .ok e ↔ (Printable i.name ∧ IsKind i.kind) ∧ e = eBin i := by
  unfold writeBin
  simp only [Ex.bind_ok, Ex.pure_ok, setA_ok, binType_ok]
  constructor
  · rintro ⟨_, ⟨h1, rfl⟩, _, ⟨h2, rfl⟩, rfl⟩; exact ⟨⟨h1, h2⟩, rfl⟩
  · rintro ⟨⟨h1, h2⟩, rfl⟩; exact ⟨_, ⟨h1, rfl⟩, _, ⟨h2, rfl⟩, rfl⟩

theorem writeCoverpoint_ok (cp : Scope) (e : Elem) : writeCoverpoint cp = .ok e ↔ WritableCp cp ∧ e = eCp cp := by
  unfold writeCoverpoint WritableCp
  rw [coverItems_binMask]
  simp only [Ex.bind_ok, Ex.pure_ok, setA_ok, Ex.mapM_iff (fun x _ y => writeBin_ok x y)]
  constructor
  · rintro ⟨_, ⟨h1, rfl⟩, _, ⟨h2, rfl⟩, rfl⟩; exact ⟨⟨h1, h2⟩, rfl⟩
  · rintro ⟨⟨h1, h2⟩, rfl⟩; exact ⟨_, ⟨h1, rfl⟩, _, ⟨h2, rfl⟩, rfl⟩

theorem writeCrossBin_ok (i : Item) (e : Elem) : writeCrossBin i = .ok e ↔ Printable i.name ∧ e = eCrossBin i := by
  unfold writeCrossBin
  simp only [Ex.bind_ok, Ex.pure_ok, setA_ok]
  constructor
  · rintro ⟨_, ⟨h1, rfl⟩, rfl⟩; exact ⟨h1, rfl⟩
  · rintro ⟨h1, rfl⟩; exact ⟨_, ⟨h1, rfl⟩, rfl⟩

theorem writeCrossExpr_ok (n : String) (e : Elem) : writeCrossExpr n = .ok e ↔ Printable n ∧ e = eExpr some n := by
  unfold writeCrossExpr
  simp only [Ex.bind_ok, Ex.pure_ok, setA_ok]
  constructor
  · rintro ⟨_, ⟨h1, rfl⟩, rfl⟩; exact ⟨h1, rfl⟩
  · rintro ⟨h1, rfl⟩; exact ⟨_, ⟨h1, rfl⟩, rfl⟩

theorem writeCross_ok (cr : Scope) (e : Elem) : writeCross cr = .ok e ↔ WritableCross cr ∧ e = eCross some cr := by
  unfold writeCross WritableCross
  rw [coverItems_binMask]
  cases hc : cr.cps with
  | none => simp [Ex.bind_ok]
  | some l =>
    simp only [Ex.bind_ok, Ex.pure_ok, setA_ok, Ex.mapM_iff (fun x _ y => writeCrossBin_ok x y),
      Ex.mapM_iff (fun x _ y => writeCrossExpr_ok x y)]
    constructor
    · rintro ⟨_, ⟨h1, rfl⟩, _, ⟨h2, rfl⟩, _, ⟨h3, rfl⟩, rfl⟩
      exact ⟨⟨h1, ⟨l, rfl, h2⟩, h3⟩, by simp [eCross, hc]⟩
    · rintro ⟨⟨h1, ⟨l', hl, h2⟩, h3⟩, rfl⟩
      cases hl
      exact ⟨_, ⟨h1, rfl⟩, _, ⟨h2, rfl⟩, _, ⟨h3, rfl⟩, by simp [eCross, hc]⟩

theorem writeCoverinstance_ok (n : String) (g : Scope) (e : Elem) :
    writeCoverinstance n g = .ok e ↔ (Printable n ∧ WritableGroup g) ∧ e = eGroup some n g := by
  unfold writeCoverinstance WritableGroup
  show _ ↔ (_ ∧ _ ∧ (∀ c ∈ g.scopes ST.COVERPOINT, _) ∧ ∀ c ∈ g.scopes ST.CROSS, _) ∧ _
  simp only [Ex.bind_ok, Ex.pure_ok, setA_ok, Ex.mapM_iff (fun x _ y => writeCoverpoint_ok x y),
      Ex.mapM_iff (fun x _ y => writeCross_ok x y)]
  constructor
  · rintro ⟨_, ⟨h1, rfl⟩, _, ⟨h2, rfl⟩, _, ⟨_, rfl⟩, _, ⟨h3, rfl⟩, _, ⟨h4, rfl⟩, rfl⟩
    exact ⟨⟨h2, h1, h3, h4⟩, rfl⟩
  · rintro ⟨⟨h2, h1, h3, h4⟩, rfl⟩
    exact ⟨_, ⟨h1, rfl⟩, _, ⟨h2, rfl⟩, _, ⟨h2, rfl⟩, _, ⟨h3, rfl⟩, _, ⟨h4, rfl⟩, rfl⟩

theorem writtenGroups_ne_nil (g : Scope) : writtenGroups g ≠ [] := by
  unfold writtenGroups
  split
  · simp
  · assumption

theorem writeCovergroup_ok (g : Scope) (e : Elem) : writeCovergroup g = .ok e ↔ WritableCg g ∧ e = eCg some g := by
  unfold writeCovergroup WritableCg
  have : toWrite g = writtenGroups g := by
    unfold writtenGroups toWrite kids Scope.scopes
    split
    · rename_i h; rw [if_pos h]
    · rename_i h; rw [h]; simp
  simp only [this, Ex.bind_ok, Ex.pure_ok, Ex.mapM_iff (fun x _ y => writeCoverinstance_ok g.name x y)]
  constructor
  · rintro ⟨_, ⟨h, rfl⟩, rfl⟩
    obtain ⟨c, hc⟩ := List.exists_mem_of_ne_nil _ (writtenGroups_ne_nil g)
    exact ⟨⟨(h c hc).1, fun x hx => (h x hx).2⟩, rfl⟩
  · rintro ⟨⟨h1, h2⟩, rfl⟩
    exact ⟨_, ⟨fun x hx => ⟨h1, h2 x hx⟩, rfl⟩, rfl⟩

theorem writeInstance_ok (s : Scope) (e : Elem) : writeInstance s = .ok e ↔ WritableInst s ∧ e = eInst some s := by
  unfold writeInstance WritableInst
  show _ ↔ (_ ∧ (∀ c ∈ s.scopes ST.COVERGROUP, _)) ∧ _
  simp only [Ex.bind_ok, Ex.pure_ok, setA_ok, Ex.mapM_iff (fun x _ y => writeCovergroup_ok x y)]
  constructor
  · rintro ⟨_, ⟨h1, rfl⟩, _, ⟨h2, rfl⟩, rfl⟩; exact ⟨⟨h1, h2⟩, rfl⟩
  · rintro ⟨⟨h1, h2⟩, rfl⟩; exact ⟨_, ⟨h1, rfl⟩, _, ⟨h2, rfl⟩, rfl⟩

/-! ## History nodes -/

theorem printable_ofList {l : List Char} (h : ∀ c ∈ l, 32 ≤ c.toNat ∧ c.toNat < 0xFFFE) : Printable (String.ofList l) := by
  intro c hc
  rw [String.toList_ofList] at hc
  have := h c hc
  omega

theorem digit_range {c : Char} (h : c.isDigit = true) : 32 ≤ c.toNat ∧ c.toNat < 0xFFFE := by
  unfold Char.isDigit at h
  simp only [Bool.and_eq_true, decide_eq_true_eq] at h
  obtain ⟨h1, h2⟩ := h
  have h1 : 48 ≤ c.toNat := h1
  have h2 : c.toNat ≤ 57 := h2
  omega

theorem printable_strInt (z : Int) : Printable (strInt z) := by
  apply printable_ofList
  intro c hc
  cases z with
  | ofNat n => exact digit_range (natL_digit hc)
  | negSucc n =>
    rcases List.mem_cons.1 hc with rfl | hc
    · decide
    · exact digit_range (natL_digit hc)

theorem padL_digit {d n : Nat} {c : Char} (hc : c ∈ padL d n) : c.isDigit = true := by
  unfold padL at hc
  rcases List.mem_append.1 hc with hc | hc
  · rw [List.eq_of_mem_replicate hc]; decide
  · exact natL_digit hc

theorem printable_iso (d : DateTime.DT) : Printable (String.ofList (DateTime.iso d)) := by
  apply printable_ofList
  intro c hc
  unfold DateTime.iso at hc
  simp only [List.mem_append, List.mem_cons] at hc
  rcases hc with ((((hc | rfl | hc) | rfl | hc) | rfl | hc) | rfl | hc) | rfl | hc <;>
    first | exact digit_range (padL_digit hc) | decide

def eOpt (n : String) : Option String → List (String × String)
  | none => []
  | some v => [(n, v)]

theorem optA_ok {n : String} {o : Option String} {r : List (String × String)} :
    optA n o = .ok r ↔ OptPrintable o ∧ r = eOpt n o := by
  unfold OptPrintable
  cases o with
  | none => simp [optA, eOpt, eq_comm]
  | some v =>
    simp only [optA, eOpt, Ex.bind_ok, Ex.pure_ok, setA_ok]
    constructor
    · rintro ⟨_, ⟨h, rfl⟩, rfl⟩; exact ⟨fun s hs => by cases hs; exact h, rfl⟩
    · rintro ⟨h, rfl⟩; exact ⟨_, ⟨h v rfl, rfl⟩, rfl⟩

def eNum (flt : FloatText) (n : String) (x : Rat) : List (String × String) := if 0 ≤ x then [(n, flt.show_ x)] else []

theorem numA_ok {env : Env} {n : String} {x : Rat} {r : List (String × String)} :
    numA env n x = .ok r ↔ (0 ≤ x → Printable (env.flt.show_ x)) ∧ r = eNum env.flt n x := by
  unfold numA eNum
  split
  · rename_i h
    simp only [h, Ex.bind_ok, Ex.pure_ok, setA_ok, forall_const]
    constructor
    · rintro ⟨_, ⟨h, rfl⟩, rfl⟩; exact ⟨h, rfl⟩
    · rintro ⟨h, rfl⟩; exact ⟨_, ⟨h, rfl⟩, rfl⟩
  · rename_i h; simp [h, eq_comm]

def eInt (n : String) (z : Int) : List (String × String) := if 0 ≤ z then [(n, strInt z)] else []

theorem intA_ok {n : String} {z : Int} {r : List (String × String)} : intA n z = .ok r ↔ r = eInt n z := by
  unfold intA eInt
  split
  · simp only [Ex.bind_ok, Ex.pure_ok, setA_ok]
    constructor
    · rintro ⟨_, ⟨_, rfl⟩, rfl⟩; rfl
    · rintro rfl; exact ⟨_, ⟨printable_strInt z, rfl⟩, rfl⟩
  · simp [eq_comm]

/-- ISO text of a date. -/
def isoOf : DateVal → String
  | .stamp _ => ""
  | .text s =>
    match DateTime.strptime DateTime.compactFmt s.toList with
    | .ok d => String.ofList (DateTime.iso d)
    | .error _ => ""

theorem dateA_ok {n : String} {d : DateVal} {r : String × String} : dateA n d = .ok r ↔ DateOk d ∧ r = (n, isoOf d) := by
  unfold DateOk
  cases d with
  | stamp t => simp [dateA]
  | text s =>
    simp only [dateA, DateTime.toIso, Ex.bind_ok, Ex.pure_ok, setA_ok, isoOf]
    constructor
    · rintro ⟨t, ⟨d, hd, rfl⟩, _, rfl⟩
      exact ⟨⟨s, d, rfl, hd⟩, by rw [hd]⟩
    · rintro ⟨⟨s', d, hs, hd⟩, rfl⟩
      cases hs
      rw [hd]
      exact ⟨_, ⟨d, rfl, rfl⟩, printable_iso d, rfl⟩

def eHist (flt : FloatText) (i : Nat) (h : Hist) : Elem :=
  ⟨"historyNodes",
    ("historyNodeId", strInt i) :: ("logicalName", h.logicalName.getD "") :: (eOpt "physicalName" h.physicalName ++ eOpt "kind" h.kind ++
      ("testStatus", if h.status ≠ 0 then "true" else "false") ::
      (eNum flt "simtime" h.simTime ++ eOpt "timeunit" h.timeUnit ++ eOpt "runCwd" h.runCwd ++ eNum flt "cpuTime" h.cpuTime ++
        eOpt "seed" h.seed ++ eOpt "cmd" h.cmd ++ eOpt "args" h.args ++ eOpt "compulsory" h.compulsory ++
        ("date", isoOf h.date) :: (eOpt "userName" h.userName ++ eNum flt "cost" h.cost ++
          ("toolCategory", h.toolCategory) :: ("ucisVersion", h.ucisVersion) :: ("vendorId", h.vendorId) ::
            ("vendorTool", h.vendorTool) :: ("vendorToolVersion", h.vendorToolVersion) ::
            (eInt "sameTests" h.sameTests ++ eOpt "comment" h.comment)))),
    none, []⟩

theorem writeHist_ok (env : Env) (i : Nat) (h : Hist) (e : Elem) :
    writeHist env i h = .ok e ↔ WritableHist env.flt h ∧ e = eHist env.flt i h := by
  unfold writeHist WritableHist
  cases hl : h.logicalName with
  | none => simp [Ex.bind_ok]
  | some n =>
    simp only [Ex.bind_ok, Ex.pure_ok, setA_ok, optA_ok, numA_ok, intA_ok, dateA_ok]
    constructor
    · rintro ⟨_, ⟨h1, rfl⟩, _, ⟨h2, rfl⟩, _, ⟨h3, rfl⟩, _, ⟨h4, rfl⟩, _, ⟨h5, rfl⟩, _, ⟨h6, rfl⟩, _, ⟨h7, rfl⟩, _, ⟨h8, rfl⟩,
        _, ⟨h9, rfl⟩, _, ⟨h10, rfl⟩, _, ⟨h11, rfl⟩, _, ⟨h12, rfl⟩, _, ⟨h13, rfl⟩, _, ⟨h14, rfl⟩, _, ⟨h15, rfl⟩, _, ⟨h16, rfl⟩,
        _, ⟨h17, rfl⟩, _, ⟨h18, rfl⟩, _, ⟨h19, rfl⟩, _, rfl, _, ⟨h21, rfl⟩, rfl⟩
      exact ⟨⟨⟨n, rfl, h1⟩, h2, h3, h4, h5, h6, h7, h8, h9, h10, h11, h12, h13, h14, h15, h16, h17, h18, h19, h21⟩,
        by simp [eHist, hl]⟩
    · rintro ⟨⟨⟨n', hn, h1⟩, h2, h3, h4, h5, h6, h7, h8, h9, h10, h11, h12, h13, h14, h15, h16, h17, h18, h19, h21⟩, rfl⟩
      cases hn
      exact ⟨_, ⟨h1, rfl⟩, _, ⟨h2, rfl⟩, _, ⟨h3, rfl⟩, _, ⟨h4, rfl⟩, _, ⟨h5, rfl⟩, _, ⟨h6, rfl⟩, _, ⟨h7, rfl⟩, _, ⟨h8, rfl⟩,
        _, ⟨h9, rfl⟩, _, ⟨h10, rfl⟩, _, ⟨h11, rfl⟩, _, ⟨h12, rfl⟩, _, ⟨h13, rfl⟩, _, ⟨h14, rfl⟩, _, ⟨h15, rfl⟩, _, ⟨h16, rfl⟩,
        _, ⟨h17, rfl⟩, _, ⟨h18, rfl⟩, _, ⟨h19, rfl⟩, _, rfl, _, ⟨h21, rfl⟩, by simp [eHist, hl]⟩

def eHists (flt : FloatText) (i : Nat) : List Hist → List Elem
  | [] => []
  | h :: t => eHist flt i h :: eHists flt (i + 1) t

theorem writeHists_ok (env : Env) (i : Nat) (l : List Hist) (r : List Elem) :
    writeHists env i l = .ok r ↔ (∀ h ∈ l, WritableHist env.flt h) ∧ r = eHists env.flt i l := by
  induction l generalizing i r with
  | nil => simp [writeHists, eHists, eq_comm]
  | cons a t ih =>
    simp only [writeHists, Ex.bind_ok, Ex.pure_ok, writeHist_ok, ih, List.forall_mem_cons]
    constructor
    · rintro ⟨_, ⟨h1, rfl⟩, _, ⟨h2, rfl⟩, rfl⟩; exact ⟨⟨h1, h2⟩, rfl⟩
    · rintro ⟨⟨h1, h2⟩, rfl⟩; exact ⟨_, ⟨h1, rfl⟩, _, ⟨h2, rfl⟩, rfl⟩

def eDummy (now : String) : Elem :=
  ⟨"historyNodes",
    [("historyNodeId", "0"), ("logicalName", "dummy"), ("physicalName", "dummy"), ("kind", "dummy"), ("testStatus", "true"),
      ("simtime", "0"), ("timeunit", "0"), ("runCwd", ""), ("cpuTime", "0"), ("seed", "0"), ("cmd", ""), ("args", ""), ("date", now),
      ("userName", "dummy"), ("toolCategory", "unknown"), ("ucisVersion", "1.0"), ("vendorId", "unknown"),
      ("vendorTool", "PyUCIS"), ("vendorToolVersion", "unknown")], none, []⟩

def eHistory (env : Env) : List Hist → List Elem
  | [] => [eDummy env.now]
  | h :: t => eHists env.flt 0 (h :: t)

theorem writeHistory_ok (env : Env) (hnow : Printable env.now) (l : List Hist) (r : List Elem) :
    writeHistory env l = .ok r ↔ (∀ h ∈ l, WritableHist env.flt h) ∧ r = eHistory env l := by
  unfold writeHistory eHistory
  cases l with
  | nil =>
    simp only [dummyHist, Ex.bind_ok, Ex.pure_ok, setA_ok]
    constructor
    · rintro ⟨_, ⟨_, ⟨h1, rfl⟩, rfl⟩, rfl⟩; exact ⟨by simp, rfl⟩
    · rintro ⟨_, rfl⟩; exact ⟨_, ⟨_, ⟨hnow, rfl⟩, rfl⟩, rfl⟩
  | cons h t => exact writeHists_ok env 0 (h :: t) r

/-! ## Documents -/

def eFile (f : String × Nat) : Elem := ⟨"sourceFiles", [("fileName", f.1), ("id", strInt f.2)], none, []⟩

theorem writeFile_ok (f : String × Nat) (e : Elem) : writeFile f = .ok e ↔ Printable f.1 ∧ e = eFile f := by
  unfold writeFile
  simp only [Ex.bind_ok, Ex.pure_ok, setA_ok]
  constructor
  · rintro ⟨_, ⟨h1, rfl⟩, rfl⟩; exact ⟨h1, rfl⟩
  · rintro ⟨h1, rfl⟩; exact ⟨_, ⟨h1, rfl⟩, rfl⟩

/-- The environment supplies printable texts. -/
structure EnvOk (env : Env) : Prop where
  user : Printable env.user
  today : Printable env.today
  now : Printable env.now

def eDoc (f : String → Option String) (env : Env) (db : Database) : Elem :=
  ⟨"UCIS", [("writtenBy", env.user), ("writtenTime", env.today), ("ucisVersion", "1.0")], none,
    (fileTable db.root).map eFile ++ eHistory env db.hist ++ (kids ST.INSTANCE db.root).map (eInst f)⟩

theorem write_ok {env : Env} (he : EnvOk env) (db : Database) (e : Elem) :
    write env db = .ok e ↔ ((∀ f ∈ fileTable db.root, Printable f.1) ∧ (∀ h ∈ db.hist, WritableHist env.flt h) ∧
      ∀ i ∈ kids ST.INSTANCE db.root, WritableInst i) ∧ e = eDoc some env db := by
  unfold write
  show _ ↔ (_ ∧ _ ∧ (∀ c ∈ db.root.scopes ST.INSTANCE, _)) ∧ _
  simp only [Ex.bind_ok, Ex.pure_ok, setA_ok, Ex.mapM_iff (fun x _ y => writeFile_ok x y), writeHistory_ok env he.now,
    Ex.mapM_iff (fun x _ y => writeInstance_ok x y)]
  constructor
  · rintro ⟨_, ⟨_, rfl⟩, _, ⟨_, rfl⟩, _, ⟨h1, rfl⟩, _, ⟨h2, rfl⟩, _, ⟨h3, rfl⟩, rfl⟩; exact ⟨⟨h1, h2, h3⟩, rfl⟩
  · rintro ⟨⟨h1, h2, h3⟩, rfl⟩
    exact ⟨_, ⟨he.user, rfl⟩, _, ⟨he.today, rfl⟩, _, ⟨h1, rfl⟩, _, ⟨h2, rfl⟩, _, ⟨h3, rfl⟩, rfl⟩

/-! ## Reparsing -/

/-- Text of a leaf after serialising and parsing. -/
def textOf (n : String) : Option String := if n = "" then none else some n

theorem reparseL_append (l m : List Elem) : reparseL (l ++ m) = reparseL l ++ reparseL m := by
  induction l with
  | nil => simp [reparseL]
  | cons a r ih => simp [reparseL, ih]

theorem reparseL_map {α : Type} {f g : α → Elem} {l : List α} (h : ∀ x ∈ l, reparse (f x) = g x) : reparseL (l.map f) = l.map g := by
  induction l with
  | nil => simp [reparseL]
  | cons a r ih => simp [reparseL, h a (by simp), ih (fun x hx => h x (by simp [hx]))]

theorem reparse_eBin (i : Item) : reparse (eBin i) = eBin i := by
  simp [eBin, eContents, reparse, reparseL]

theorem reparse_eCp (c : Scope) : reparse (eCp c) = eCp c := by
  simp only [eCp, reparse, reparseL, optionsElem]
  rw [reparseL_map (fun i _ => reparse_eBin i)]
  simp

theorem reparse_eCrossBin (i : Item) : reparse (eCrossBin i) = eCrossBin i := by
  simp [eCrossBin, eContents, reparse, reparseL]

theorem reparse_eExpr (n : String) : reparse (eExpr some n) = eExpr textOf n := by
  simp [eExpr, textOf, reparse, reparseL]

theorem reparse_eCross (c : Scope) : reparse (eCross some c) = eCross textOf c := by
  simp only [eCross, reparse, reparseL, optionsElem, reparseL_append]
  rw [reparseL_map (fun i _ => reparse_eCrossBin i), reparseL_map (fun i _ => reparse_eExpr i)]
  simp

theorem reparse_eGroup (n : String) (g : Scope) : reparse (eGroup some n g) = eGroup textOf n g := by
  simp only [eGroup, reparse, reparseL, optionsElem, reparseL_append, eCgId, sourceIdElem]
  rw [reparseL_map (fun i _ => reparse_eCp i), reparseL_map (fun i _ => reparse_eCross i)]
  simp

theorem reparse_eCg (g : Scope) : reparse (eCg some g) = eCg textOf g := by
  simp only [eCg, reparse]
  rw [reparseL_map (fun i _ => reparse_eGroup g.name i)]
  simp

theorem reparse_eInst (i : Scope) : reparse (eInst some i) = eInst textOf i := by
  simp only [eInst, reparse, reparseL, idElem]
  rw [reparseL_map (fun i _ => reparse_eCg i)]
  simp

theorem reparse_leaf (t : String) (as : List (String × String)) : reparse ⟨t, as, none, []⟩ = ⟨t, as, none, []⟩ := by
  simp [reparse, reparseL]

theorem reparseL_eHists (flt : FloatText) (i : Nat) (l : List Hist) : reparseL (eHists flt i l) = eHists flt i l := by
  induction l generalizing i with
  | nil => simp [eHists, reparseL]
  | cons a t ih => simp only [eHists, reparseL, ih, eHist, reparse_leaf]

theorem reparse_eDoc (env : Env) (db : Database) : reparse (eDoc some env db) = eDoc textOf env db := by
  simp only [eDoc, reparse, reparseL_append]
  rw [reparseL_map (fun i _ => reparse_eInst i), reparseL_map (g := eFile) (fun f _ => by simp [eFile, reparse, reparseL])]
  have : reparseL (eHistory env db.hist) = eHistory env db.hist := by
    unfold eHistory
    cases db.hist with
    | nil => simp [eDummy, reparse, reparseL]
    | cons h t => exact reparseL_eHists _ _ _
  rw [this]
  simp

end Xml
end Verif
