import Verif.XmlSpec
/-!
# What a UCIS document says

Stated on element trees, without the reader's own functions.
-/

namespace Verif
namespace Spec
open Xml (Elem)

mutual
/-- An element and everything below it, in document order. -/
def preorder : Elem → List Elem
  | ⟨tag, as, tx, ch⟩ => ⟨tag, as, tx, ch⟩ :: preorderL ch
termination_by structural e => e
def preorderL : List Elem → List Elem
  | [] => []
  | e :: t => preorder e ++ preorderL t
termination_by structural l => l
end

/-- Elements with a tag inside an element. -/
def within (t : String) (e : Elem) : List Elem := (preorder e).filter (fun x => x.tag = t)

/-- Value of an attribute: the first pair with that name. -/
def attr (e : Elem) (n : String) : Option String := (e.attrs.find? (fun p => p.1 = n)).map (·.2)

/-- The attribute is present and `int()` accepts it. -/
def IntAttr (e : Elem) (n : String) : Prop := ∃ v z, attr e n = some v ∧ PyNum.parseInt v = .ok z

/-- Value of an integer attribute, 0 if absent or malformed. -/
def intAttr (e : Elem) (n : String) : Int :=
  match attr e n with
  | some v => (match PyNum.parseInt v with
    | .ok z => z
    | .error _ => 0)
  | none => 0

/-- The contents element of a coverpoint bin: the first `contents` inside the first `sequence`, or
inside the first `range` if there is no sequence. -/
def binContents (b : Elem) : Option Elem :=
  ((within "sequence" b).head?.or (within "range" b).head?).bind (fun s => (within "contents" s).head?)

/-- Bin kinds by type attribute. -/
def kindOf : List (String × Nat) :=
  [("bins", CT.CVGBIN), ("default", CT.CVGBIN), ("ignore", CT.IGNOREBIN), ("illegal", CT.ILLEGALBIN)]

/-- Well-formed coverpoint bin. -/
def GoodBin (b : Elem) : Prop :=
  (attr b "type").getD "default" ∈ ["bins", "default", "ignore", "illegal"] ∧ ∃ c, binContents b = some c ∧ IntAttr c "coverageCount"

/-- Well-formed cross bin. -/
def GoodCrossBin (b : Elem) : Prop := ∃ c, (within "contents" b).head? = some c ∧ IntAttr c "coverageCount"

/-- The name given by a `crossExpr`. -/
def crossed (e : Elem) : String := String.ofList (PyNum.stripL (e.text.getD "").toList)

def cpName (p : Elem) : String := (attr p "name").getD "<unknown>"

/-- Well-formed covergroup instance: good bins, and crosses of its own coverpoints only. -/
def GoodGroup (g : Elem) : Prop :=
  (∀ p ∈ within "coverpoint" g, ∀ b ∈ within "coverpointBin" p, GoodBin b) ∧
  ∀ x ∈ within "cross" g,
    (∀ e ∈ within "crossExpr" x, e.text ≠ none ∧ crossed e ∈ (within "coverpoint" g).map cpName) ∧
    ∀ b ∈ within "crossBin" x, GoodCrossBin b

/-- Well-formed instance; `files` are the declared file ids. -/
def GoodInst (files : List Int) (i : Elem) : Prop :=
  attr i "name" ≠ none ∧
  (∀ d ∈ within "id" i, IntAttr d "file" ∧ IntAttr d "line" ∧ IntAttr d "inlineCount" ∧ intAttr d "file" ∈ files) ∧
  ∀ c ∈ within "covergroupCoverage" i, ∀ g ∈ within "cgInstance" c, GoodGroup g

/-- A present attribute is a number. -/
def FloatAttr (flt : Xml.FloatText) (e : Elem) (n : String) : Prop := ∀ v, attr e n = some v → flt.read v ≠ none

/-- Well-formed history node. -/
def GoodHist (flt : Xml.FloatText) (h : Elem) : Prop :=
  (∀ n ∈ ["testStatus", "toolCategory", "vendorId", "vendorTool", "vendorToolVersion"], attr h n ≠ none) ∧
  (∃ s t, attr h "date" = some s ∧ DateTime.strptime DateTime.isoFmt s.toList = .ok t) ∧
  (∀ n ∈ ["simtime", "cpuTime", "cost"], FloatAttr flt h n) ∧
  ∀ v, attr h "sameTests" = some v → IntAttr h "sameTests"

/-- Documents that can be read. -/
def Readable (flt : Xml.FloatText) (doc : Elem) : Prop :=
  (∀ f ∈ within "sourceFiles" doc, IntAttr f "id") ∧ (∀ h ∈ within "historyNodes" doc, GoodHist flt h) ∧
  ∀ i ∈ within "instanceCoverages" doc, GoodInst ((within "sourceFiles" doc).map (fun f => intAttr f "id")) i

/-! ## Content -/

/-- Name, kind and count of a coverpoint bin. -/
def binOf (b : Elem) : String × Nat × Int :=
  ((attr b "name").getD "<unknown>",
   ((kindOf.find? (fun p => p.1 = (attr b "type").getD "default")).map (·.2)).getD 0,
   ((binContents b).map (fun c => intAttr c "coverageCount")).getD 0)

/-- Name, kind and count of a cross bin; the kind is always that of ordinary bins. -/
def crossBinOf (b : Elem) : String × Nat × Int :=
  ((attr b "name").getD "default", CT.CVGBIN, (((within "contents" b).head?).map (fun c => intAttr c "coverageCount")).getD 0)

/-- Coverpoints of a covergroup instance. -/
def cpsOf (g : Elem) : List (String × List (String × Nat × Int)) :=
  (within "coverpoint" g).map (fun p => (cpName p, (within "coverpointBin" p).map binOf))

/-- Crosses of a covergroup instance. -/
def docCrosses (g : Elem) : List (String × Option (List String) × List (String × Nat × Int)) :=
  (within "cross" g).map (fun x => (cpName x, some ((within "crossExpr" x).map crossed), (within "crossBin" x).map crossBinOf))

/-- Type name of a covergroup instance. -/
def typeOf (g : Elem) : String :=
  match (within "cgId" g).head? with
  | none => "default"
  | some i => (attr i "cgName").getD "xxx"

/-- Distinct elements in order of first occurrence. -/
def distinct : List String → List String
  | [] => []
  | x :: t => x :: (distinct t).filter (fun y => y ≠ x)

/-- Everything a document says about coverpoints and crosses of cover-instances, by instance name and
covergroup. -/
def docView (doc : Elem) :
    List (String × List (String × List (String ×
      List (String × List (String × Nat × Int)) × List (String × Option (List String) × List (String × Nat × Int))))) :=
  let insts := within "instanceCoverages" doc
  (distinct (insts.map (fun i => (attr i "name").getD ""))).map (fun n =>
    (n, (insts.filter (fun i => (attr i "name").getD "" = n)).flatMap (fun i =>
      (within "covergroupCoverage" i).flatMap (fun c =>
        (distinct ((within "cgInstance" c).map typeOf)).map (fun t =>
          (t, ((within "cgInstance" c).filter (fun g => typeOf g = t)).map (fun g => (cpName g, cpsOf g, docCrosses g))))))))

/-! ## Type level -/

/-- Bins under coverpoints (or crosses) of a name in the cover-instances of a covergroup. -/
def instBins (m : Nat) (g : Scope) (n : String) : List Item :=
  ((kids ST.COVERINSTANCE g).flatMap (kids m)).filter (fun c => c.name = n) |>.flatMap covBins

/-- The type-level coverpoints (or crosses) of a covergroup carry one bin per bin name, with the sum
of the counts in the cover-instances. -/
structure TypeSums (m : Nat) (g : Scope) : Prop where
  /-- type level names are distinct -/
  names_nodup : ((kids m g).map (·.name)).Nodup
  /-- and are the names occurring in the cover-instances -/
  names : ∀ n, n ∈ (kids m g).map (·.name) ↔ ∃ i ∈ kids ST.COVERINSTANCE g, ∃ c ∈ kids m i, c.name = n
  /-- bins likewise -/
  bins_nodup : ∀ c ∈ kids m g, (c.items.map (·.name)).Nodup
  bins : ∀ c ∈ kids m g, ∀ b, b ∈ c.items.map (·.name) ↔ b ∈ (instBins m g c.name).map (·.name)
  /-- each count is the sum -/
  sums : ∀ c ∈ kids m g, ∀ b ∈ c.items, b.count = (((instBins m g c.name).filter (fun i => i.name = b.name)).map (·.count)).sum

end Spec
end Verif
