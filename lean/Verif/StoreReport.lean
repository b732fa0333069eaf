import Verif.StoreMerge
import Verif.Report
/-!
# `report/coverage_report_builder.py` on objects

The functions of `CoverageReportBuilder` once more, as programs on the objects of `Store.lean`.  `StoreReportThms.lean` relates this to
`Report.lean`.
-/

namespace Verif
namespace Store
namespace ReportBuilder
open Report (RBin RCp RCross RCg Rpt BinLoop InstLoop)

/-- `cvg_data.at_least`: `AttributeError` if it was never assigned. -/
def atLeast (d : CData) : M Int :=
  match d.atLeast with
  | some a => pure a
  | none => fail .attributeError

/-- Body of the loop over ordinary bins (`coverage_report_builder.py:97-108`). -/
def cpBinStep (st : BinLoop) (b : Nat) : M BinLoop := do
  let x ← bin b
  let d ← cdata x.data
  let a ← atLeast d
  let numHit := if a ≤ d.count then st.numHit + 1 else st.numHit
  pure ⟨numHit, st.total + 1, st.bins ++ [⟨x.name, a, d.count⟩]⟩

/-- Body of the loops over ignore and illegal bins (`coverage_report_builder.py:110-124`). -/
def otherBinStep (l : List RBin) (b : Nat) : M (List RBin) := do
  let x ← bin b
  let d ← cdata x.data
  let a ← atLeast d
  pure (l ++ [⟨x.name, a, d.count⟩])

/-- `build_coverpoint` (`coverage_report_builder.py:90-131`). -/
def buildCoverpoint (rd : Rat → Rat) (o : Nat) : M RCp := do
  let n ← getScopeName o
  let w ← getWeight o
  let l ← coverItems o CT.CVGBIN
  let st ← l.foldlM cpBinStep ⟨0, 0, []⟩
  let l ← coverItems o CT.IGNOREBIN
  let ign ← l.foldlM otherBinStep []
  let l ← coverItems o CT.ILLEGALBIN
  let ill ← l.foldlM otherBinStep []
  let coverage := if st.total > 0 then Report.percent rd st.numHit st.total else 0
  pure ⟨n, coverage, w, st.bins, ign, ill⟩

/-- Body of the loop over the bins of a cross (`coverage_report_builder.py:140-151`). -/
def crossBinStep (st : BinLoop) (b : Nat) : M BinLoop := do
  let x ← bin b
  let d ← cdata x.data
  let a ← atLeast d
  let numHit := if a ≤ d.count then st.numHit + 1 else st.numHit
  pure ⟨numHit, st.total + 1, st.bins ++ [⟨x.name, d.goal, d.count⟩]⟩

/-- `build_cross` (`coverage_report_builder.py:134-155`). -/
def buildCross (rd : Rat → Rat) (o : Nat) : M RCross := do
  let n ← getScopeName o
  let l ← coverItems o CT.CVGBIN
  let st ← l.foldlM crossBinStep ⟨0, 0, []⟩
  let coverage := if st.total > 0 then Report.percent rd st.numHit st.total else 0
  pure ⟨n, coverage, 1, st.bins⟩

/-- `build_covergroup` (`coverage_report_builder.py:55-88`).  The recursion is bounded by `fuel`; a `RecursionError` is `userError`.  The
computation of the coverage of the group (`:71-86`) is on report objects only and is taken from `Report.lean`. -/
def buildCg (rd : Rat → Rat) : Nat → Nat → M RCg
  | 0, _ => fail .userError
  | fuel + 1, o => do
    let n ← getScopeName o
    let n' ← getScopeName o
    let w ← getWeight o
    let l ← scopes o ST.COVERPOINT
    let rcps ← l.mapM (buildCoverpoint rd)
    let l ← scopes o ST.CROSS
    let rcrs ← l.mapM (buildCross rd)
    let l ← scopes o ST.COVERINSTANCE
    let rcgs ← l.mapM (buildCg rd fuel)
    pure ⟨n, n', Report.groupCoverage rd rcps rcrs, w, rcps, rcrs, rcgs⟩

/-- Loop body of `build_covergroups` (`coverage_report_builder.py:46-52`). -/
def covergroupStep (rd : Rat → Rat) (fuel : Nat) (st : InstLoop) (o : Nat) : M InstLoop := do
  let cg ← buildCg rd fuel o
  pure { rpt := { st.rpt with covergroups := st.rpt.covergroups ++ [cg]
                              covergroupM := st.rpt.covergroupM.set cg.instname cg },
         acc := Report.accStep rd st.acc (cg.coverage, cg.weight) }

/-- `build_covergroups` (`coverage_report_builder.py:41-53`). -/
def buildCovergroups (rd : Rat → Rat) (fuel : Nat) (rpt : Rpt) (o : Nat) : M Rpt := do
  let l ← scopes o ST.COVERGROUP
  let st ← l.foldlM (covergroupStep rd fuel) ⟨rpt, ⟨0, 0⟩⟩
  if st.acc.div = 0 then fail .zeroDivision
  else pure { st.rpt with coverage := rd (st.acc.coverage / rd (st.acc.div : Rat)) }

/-- `CoverageReportBuilder.build` (`coverage_report_builder.py:24-38`). -/
def build (rd : Rat → Rat) (fuel : Nat) (db : Nat) : M Rpt := do
  let l ← scopes db ST.INSTANCE
  l.foldlM (buildCovergroups rd fuel) ⟨[], [], 0⟩

end ReportBuilder
end Store
end Verif
