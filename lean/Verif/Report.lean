import Verif.Db
/-!
# `report/coverage_report.py` and `report/coverage_report_builder.py`

The report builder, function by function.  Percentages are Python floats; the model computes with
rationals and applies a rounding function `rd` after every floating point operation.  Exact
arithmetic is `rd = id`; IEEE arithmetic is `rd` = round to nearest.  Overflow, infinities and NaN
are not modelled (Python raises `OverflowError` when an integer exceeds the float range).
-/

namespace Verif
namespace Report

/-- `CoverageReport.CoverBin` (`coverage_report.py:102-111`). -/
structure RBin where
  name : String
  goal : Int
  count : Int
  deriving Repr, DecidableEq, BEq

/-- `CoverBin.hit` (`coverage_report.py:109-111`). -/
def RBin.hit (b : RBin) : Bool := decide (b.goal ≤ b.count)

/-- `CoverageReport.Coverpoint` (`coverage_report.py:29-43`, `:82-91`). -/
structure RCp where
  name : String
  coverage : Rat
  weight : Int
  bins : List RBin
  ignoreBins : List RBin
  illegalBins : List RBin
  deriving Repr, DecidableEq, BEq

/-- `CoverageReport.Cross` (`coverage_report.py:93-100`). -/
structure RCross where
  name : String
  coverage : Rat
  weight : Int
  bins : List RBin
  deriving Repr, DecidableEq, BEq

/-- `CoverageReport.Covergroup` (`coverage_report.py:45-79`).  The maps `coverpoint_m`, `cross_m`
and `covergroup_m` of a covergroup are never filled by the builder and are left out. -/
structure RCg where
  name : String
  instname : String
  coverage : Rat
  weight : Int
  coverpoints : List RCp
  crosses : List RCross
  covergroups : List RCg
  deriving Repr, BEq

/-- `CoverageReport` (`coverage_report.py:10-23`). -/
structure Rpt where
  covergroups : List RCg
  covergroupM : Dict RCg
  coverage : Rat
  deriving Repr, BEq

/-- `cvg_data.at_least`: `AttributeError` if never assigned. -/
def atLeastE (i : Item) : Except Err Int :=
  match i.atLeast with
  | some a => .ok a
  | none => .error .attributeError

/-- Loop state of the bin loops: `num_hit`, `total`, `bins`. -/
structure BinLoop where
  numHit : Nat
  total : Nat
  bins : List RBin

/-- Body of the loop over ordinary bins of a coverpoint (`coverage_report_builder.py:97-108`). -/
def cpBinStep (st : BinLoop) (i : Item) : Except Err BinLoop := do
  let a ← atLeastE i
  let numHit := if a ≤ i.count then st.numHit + 1 else st.numHit
  pure ⟨numHit, st.total + 1, st.bins ++ [⟨i.name, a, i.count⟩]⟩

/-- Body of the loops over ignore and illegal bins (`coverage_report_builder.py:110-124`). -/
def otherBinStep (l : List RBin) (i : Item) : Except Err (List RBin) := do
  let a ← atLeastE i
  pure (l ++ [⟨i.name, a, i.count⟩])

/-- `(100*num_hit)/total`: correctly rounded quotient of two integers. -/
def percent (rd : Rat → Rat) (numHit total : Nat) : Rat := rd (((100 * numHit : Nat) : Rat) / (total : Rat))

/-- `build_coverpoint` (`coverage_report_builder.py:90-131`). -/
def buildCoverpoint (rd : Rat → Rat) (cp : Scope) : Except Err RCp := do
  let st ← (cp.coverItems CT.CVGBIN).foldlM cpBinStep ⟨0, 0, []⟩
  let ign ← (cp.coverItems CT.IGNOREBIN).foldlM otherBinStep []
  let ill ← (cp.coverItems CT.ILLEGALBIN).foldlM otherBinStep []
  let coverage := if st.total > 0 then percent rd st.numHit st.total else 0
  pure ⟨cp.name, coverage, cp.weight, st.bins, ign, ill⟩

/-- Body of the loop over the bins of a cross (`coverage_report_builder.py:140-151`): hit by
threshold, but listed with `goal`. -/
def crossBinStep (st : BinLoop) (i : Item) : Except Err BinLoop := do
  let a ← atLeastE i
  let numHit := if a ≤ i.count then st.numHit + 1 else st.numHit
  pure ⟨numHit, st.total + 1, st.bins ++ [⟨i.name, i.goal, i.count⟩]⟩

/-- `build_cross` (`coverage_report_builder.py:134-155`): the weight keeps its default 1
(`coverage_report.py:43`). -/
def buildCross (rd : Rat → Rat) (cr : Scope) : Except Err RCross := do
  let st ← (cr.coverItems CT.CVGBIN).foldlM crossBinStep ⟨0, 0, []⟩
  let coverage := if st.total > 0 then percent rd st.numHit st.total else 0
  pure ⟨cr.name, coverage, 1, st.bins⟩

/-- Loop state of a weighted sum: `coverage`, `div`. -/
structure Acc where
  coverage : Rat
  div : Int
  deriving Repr, DecidableEq

/-- `coverage += c * w` in floating point (the integer weight is converted first). -/
def addTerm (rd : Rat → Rat) (cov c : Rat) (w : Int) : Rat := rd (cov + rd (c * rd (w : Rat)))

/-- Loop body with the weight test (`coverage_report_builder.py:75-78`, also `:48-50`). -/
def accStep (rd : Rat → Rat) (st : Acc) (cw : Rat × Int) : Acc :=
  ⟨if cw.2 > 0 then addTerm rd st.coverage cw.1 cw.2 else st.coverage, st.div + cw.2⟩

/-- Loop body without the weight test, for crosses (`coverage_report_builder.py:80-82`). -/
def accStepCross (rd : Rat → Rat) (st : Acc) (cw : Rat × Int) : Acc :=
  ⟨addTerm rd st.coverage cw.1 cw.2, st.div + cw.2⟩

/-- Coverage of a covergroup (`coverage_report_builder.py:71-86`). -/
def groupCoverage (rd : Rat → Rat) (cps : List RCp) (crs : List RCross) : Rat :=
  let st := (cps.map (fun c => (c.coverage, c.weight))).foldl (accStep rd) ⟨0, 0⟩
  let st := (crs.map (fun c => (c.coverage, c.weight))).foldl (accStepCross rd) st
  if st.div > 0 then rd (st.coverage / rd (st.div : Rat)) else st.coverage

mutual
/-- `build_covergroup` (`coverage_report_builder.py:55-88`): recursion into cover-instances. -/
def buildCg (rd : Rat → Rat) : Scope → Except Err RCg
  | ⟨ty, n, src, w, du, cps, ch, it⟩ => do
    let s : Scope := ⟨ty, n, src, w, du, cps, ch, it⟩
    let rcps ← (s.scopes ST.COVERPOINT).mapM (buildCoverpoint rd)
    let rcrs ← (s.scopes ST.CROSS).mapM (buildCross rd)
    let rcgs ← buildCgs rd ch
    pure ⟨n, n, groupCoverage rd rcps rcrs, w, rcps, rcrs, rcgs⟩
termination_by structural s => s
/-- `for cg_in in cg_n.scopes(COVERINSTANCE)` (`coverage_report_builder.py:68-69`). -/
def buildCgs (rd : Rat → Rat) : List Scope → Except Err (List RCg)
  | [] => pure []
  | c :: t =>
    if maskHit c.stype ST.COVERINSTANCE then do
      let r ← buildCg rd c
      let rs ← buildCgs rd t
      pure (r :: rs)
    else buildCgs rd t
termination_by structural l => l
end

/-- Loop state of `build_covergroups`. -/
structure InstLoop where
  rpt : Rpt
  acc : Acc

/-- Loop body of `build_covergroups` (`coverage_report_builder.py:46-52`). -/
def covergroupStep (rd : Rat → Rat) (st : InstLoop) (cgT : Scope) : Except Err InstLoop := do
  let cg ← buildCg rd cgT
  pure { rpt := { st.rpt with covergroups := st.rpt.covergroups ++ [cg]
                              covergroupM := st.rpt.covergroupM.set cg.instname cg },
         acc := accStep rd st.acc (cg.coverage, cg.weight) }

/-- `build_covergroups` (`coverage_report_builder.py:41-53`): note that the overall figure is
assigned, not accumulated, for each instance. -/
def buildCovergroups (rd : Rat → Rat) (rpt : Rpt) (iscope : Scope) : Except Err Rpt := do
  let st ← (iscope.scopes ST.COVERGROUP).foldlM (covergroupStep rd) ⟨rpt, ⟨0, 0⟩⟩
  if st.acc.div = 0 then throw Err.zeroDivision
  else pure { st.rpt with coverage := rd (st.acc.coverage / rd (st.acc.div : Rat)) }

/-- `CoverageReportBuilder.build` (`coverage_report_builder.py:24-38`). -/
def build (rd : Rat → Rat) (db : Scope) : Except Err Rpt :=
  (db.scopes ST.INSTANCE).foldlM (buildCovergroups rd) ⟨[], [], 0⟩

end Report
end Verif
