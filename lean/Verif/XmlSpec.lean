import Verif.ReportSpec
import Verif.XmlRead
/-!
# Specification vocabulary for the XML interchange

Stated on databases and on element trees, without the writer's and reader's own functions.
-/

namespace Verif
namespace Spec
open Xml (Elem)

/-! ## Databases -/

/-- Text that XML 1.0 can represent. -/
def Printable (s : String) : Prop :=
  ∀ c ∈ s.toList, (32 ≤ c.toNat ∨ c.toNat = 9 ∨ c.toNat = 10 ∨ c.toNat = 13) ∧ c.toNat ≠ 0xFFFE ∧ c.toNat ≠ 0xFFFF

/-- Bins of the three kinds. -/
def covBins (s : Scope) : List Item :=
  s.items.filter (fun i => maskHit i.kind CT.CVGBIN || maskHit i.kind CT.IGNOREBIN || maskHit i.kind CT.ILLEGALBIN)

/-- What of a covergroup goes into a document: its cover-instances, or itself if it has none. -/
def writtenGroups (g : Scope) : List Scope :=
  if kids ST.COVERINSTANCE g = [] then [g] else kids ST.COVERINSTANCE g

/-- Name, kind and count of the bins of a coverpoint. -/
def binTriples (s : Scope) : List (String × Nat × Int) := (covBins s).map (fun i => (i.name, i.kind, i.count))

/-- Name and count of the bins of a cross. -/
def crossBinView (s : Scope) : List (String × Int) := (covBins s).map (fun i => (i.name, i.count))

/-- Coverpoints with names and bins. -/
def cpView (g : Scope) : List (String × List (String × Nat × Int)) := (kids ST.COVERPOINT g).map (fun c => (c.name, binTriples c))

/-- Crosses with name, crossed coverpoints and bins. -/
def crossView (g : Scope) : List (String × Option (List String) × List (String × Int)) :=
  (kids ST.CROSS g).map (fun c => (c.name, c.cps, crossBinView c))

/-- Crosses with the kinds of their bins. -/
def crossKindView (g : Scope) : List (String × Option (List String) × List (String × Nat × Int)) :=
  (kids ST.CROSS g).map (fun c => (c.name, c.cps, binTriples c))

/-- A view of every written group, by instance and covergroup. -/
def dbView {α : Type} (f : Scope → α) (db : Scope) : List (String × List (String × List (String × α))) :=
  (kids ST.INSTANCE db).map (fun i => (i.name, (kids ST.COVERGROUP i).map (fun g =>
    (g.name, (writtenGroups g).map (fun c => (c.name, f c))))))

/-! ## What the writer accepts -/

def WritableCp (cp : Scope) : Prop := Printable cp.name ∧ ∀ i ∈ covBins cp, Printable i.name ∧ IsKind i.kind

def WritableCross (cr : Scope) : Prop :=
  Printable cr.name ∧ (∃ l, cr.cps = some l ∧ ∀ n ∈ l, Printable n) ∧ ∀ i ∈ covBins cr, Printable i.name

def WritableGroup (g : Scope) : Prop :=
  Printable g.name ∧ (∀ c ∈ kids ST.COVERPOINT g, WritableCp c) ∧ ∀ c ∈ kids ST.CROSS g, WritableCross c

def WritableCg (g : Scope) : Prop := Printable g.name ∧ ∀ c ∈ writtenGroups g, WritableGroup c

def WritableInst (i : Scope) : Prop := Printable i.name ∧ ∀ g ∈ kids ST.COVERGROUP i, WritableCg g

def OptPrintable (o : Option String) : Prop := ∀ s, o = some s → Printable s

/-- The date is a text that `strptime` accepts with the format `%Y%m%d%H%M%S`. -/
def DateOk (d : DateVal) : Prop := ∃ s t, d = .text s ∧ DateTime.strptime DateTime.compactFmt s.toList = .ok t

def WritableHist (flt : Xml.FloatText) (h : Hist) : Prop :=
  (∃ n, h.logicalName = some n ∧ Printable n) ∧ OptPrintable h.physicalName ∧ OptPrintable h.kind ∧
  (0 ≤ h.simTime → Printable (flt.show_ h.simTime)) ∧ OptPrintable h.timeUnit ∧ OptPrintable h.runCwd ∧
  (0 ≤ h.cpuTime → Printable (flt.show_ h.cpuTime)) ∧ OptPrintable h.seed ∧ OptPrintable h.cmd ∧ OptPrintable h.args ∧
  OptPrintable h.compulsory ∧ DateOk h.date ∧ OptPrintable h.userName ∧ (0 ≤ h.cost → Printable (flt.show_ h.cost)) ∧
  Printable h.toolCategory ∧ Printable h.ucisVersion ∧ Printable h.vendorId ∧ Printable h.vendorTool ∧
  Printable h.vendorToolVersion ∧ OptPrintable h.comment

/-- File names of the scopes below a scope that are visible through `scopes(ALL)`, in document order
(repetitions included). -/
def fileNames (db : Scope) : List String :=
  (subtreesL (db.children)).filterMap (fun s => s.src.file)

/-- Every scope type word below the root has a bit of the mask `ALL`. -/
def PlainTypes (db : Scope) : Prop := ∀ s ∈ subtreesL db.children, maskHit s.stype ST.ALL = true

end Spec
end Verif
