import Verif.Format
/-!
# Specification of report texts

An outline is a heading with nested outlines; a text report is a list of outlines printed line by
line, four blanks per level.
-/

namespace Verif
namespace Spec
open Report Format PyNum

inductive Outline where
  | node (head : String) (inner : List Outline)

mutual
/-- The lines of an outline with their nesting levels. -/
def Outline.lines (d : Nat) : Outline → List (Nat × String)
  | .node h ks => (d, h) :: Outline.linesL (d + 1) ks
termination_by structural o => o
def Outline.linesL (d : Nat) : List Outline → List (Nat × String)
  | [] => []
  | o :: t => Outline.lines d o ++ Outline.linesL d t
termination_by structural l => l
end

/-- Four blanks per level. -/
def indent (d : Nat) : String := String.ofList (List.replicate (4 * d) ' ')

/-- A printed line. -/
def printed (ind : String) (l : Nat × String) : String := ind ++ indent l.1 ++ l.2 ++ "\n"

/-- The heading of an item: kind, name and percentage. -/
def heading (kind name pct : String) : String := kind ++ " " ++ name ++ " : " ++ pct ++ "%"

/-- A listed bin. -/
def binOutline (b : RBin) : Outline := .node (b.name ++ " : " ++ strInt b.count) []

/-- A list of bins under a heading, left out when `opt` is set and there are none. -/
def binList (order : List RBin → List RBin) (title : String) (opt : Bool) (l : List RBin) : List Outline :=
  if opt && l.isEmpty then [] else [.node title ((order l).map binOutline)]

/-- A coverpoint: heading, then (with details) the lists of its bins on the same level. -/
def cpOutline (cfg : Cfg) (order : List RBin → List RBin) (c : RCp) : List Outline :=
  .node (heading "CVP" c.name (cfg.leafPct c.coverage)) [] ::
    (if cfg.details then
      binList order "Bins:" false c.bins ++ binList order "IgnoreBins:" true c.ignoreBins
        ++ binList order "IllegalBins:" true c.illegalBins
     else [])

/-- A cross: heading, then (with details) the list of its bins. -/
def crossOutline (cfg : Cfg) (order : List RBin → List RBin) (c : RCross) : List Outline :=
  .node (heading "CROSS" c.name (cfg.leafPct c.coverage)) [] ::
    (if cfg.details then binList order "Bins:" false c.bins else [])

mutual
/-- A covergroup (`TYPE`) or cover-instance (`INST`) with its coverpoints, crosses and cover-instances. -/
def groupOutline (cfg : Cfg) (order : List RBin → List RBin) (kind : String) : RCg → Outline
  | ⟨name, _, coverage, _, cps, crs, cgs⟩ =>
    .node (heading kind name (cfg.groupPct coverage))
      (cps.flatMap (cpOutline cfg order) ++ crs.flatMap (crossOutline cfg order) ++ groupOutlines cfg order cgs)
termination_by structural g => g
def groupOutlines (cfg : Cfg) (order : List RBin → List RBin) : List RCg → List Outline
  | [] => []
  | g :: t => groupOutline cfg order "INST" g :: groupOutlines cfg order t
termination_by structural l => l
end

/-- The outline of a report. -/
def reportOutline (cfg : Cfg) (order : List RBin → List RBin) (r : Rpt) : List Outline :=
  r.covergroups.map (groupOutline cfg order "TYPE")

/-- The order in which bins are to be listed: as they are, or reordered. -/
structure BinOrder (byHit : Bool) (order : List RBin → List RBin) : Prop where
  /-- the same bins -/
  perm : ∀ l, (order l).Perm l
  /-- hit bins keep their order -/
  hits : ∀ l, (order l).filter (·.hit) = l.filter (·.hit)
  /-- the other bins keep their order -/
  others : ∀ l, (order l).filter (fun b => !b.hit) = l.filter (fun b => !b.hit)
  /-- ordering by hit: no bin that is not hit comes before a hit bin -/
  sorted : byHit = true → ∀ l, (order l).Pairwise (fun a b => b.hit = true → a.hit = true)
  /-- otherwise nothing is reordered -/
  plain : byHit = false → ∀ l, order l = l

/-- The text lines of a text (each line ends with a newline). -/
def linesOf : List Char → List (List Char)
  | [] => []
  | c :: t =>
    if c = '\n' then [] :: linesOf t
    else match linesOf t with
      | [] => [[c]]
      | l :: ls => (c :: l) :: ls

mutual
/-- All names in a group. -/
def groupNames : RCg → List String
  | ⟨name, _, _, _, cps, crs, cgs⟩ =>
    name :: (cps.flatMap (fun c => c.name :: ((c.bins ++ c.ignoreBins ++ c.illegalBins).map (·.name)))
      ++ crs.flatMap (fun c => c.name :: c.bins.map (·.name)) ++ groupNamesL cgs)
termination_by structural g => g
def groupNamesL : List RCg → List String
  | [] => []
  | g :: t => groupNames g ++ groupNamesL t
termination_by structural l => l
end

mutual
/-- Number of covergroups, cover-instances, coverpoints and crosses in a group. -/
def groupItems : RCg → Nat
  | ⟨_, _, _, _, cps, crs, cgs⟩ => 1 + cps.length + crs.length + groupItemsL cgs
termination_by structural g => g
def groupItemsL : List RCg → Nat
  | [] => 0
  | g :: t => groupItems g + groupItemsL t
termination_by structural l => l
end

end Spec
end Verif
