import Verif.Report
import Verif.PyNum
/-!
# Report formatters: `report/text_coverage_report_formatter.py`, `report/format_rpt_text.py`,
`report/format_rpt_json.py`

The two text formatters are the same program up to the formatting of percentages, which is a
parameter of the model (`Cfg`).
-/

namespace Verif
namespace Format
open Report PyNum

/-- The options of the text formatters and the two ways of printing a percentage. -/
structure Cfg where
  details : Bool
  orderBinsByHit : Bool
  /-- percentage of a covergroup -/
  groupPct : Rat → String
  /-- percentage of a coverpoint or cross -/
  leafPct : Rat → String

/-- `TextCoverageReportFormatter` (`text_coverage_report_formatter.py:11-20`, formats at `:29-32`,
`:43-44`, `:60-61`): `"%.{n}f"` of `round(coverage, n)`. -/
def textCfg (n : Nat) (details orderBinsByHit : Bool) : Cfg :=
  { details, orderBinsByHit
    groupPct := fun x => String.ofList (fixedL n x)
    leafPct := fun x => String.ofList (fixedL n x) }

/-- `'%f' % round(x)`: an integer printed with six decimals (`format_rpt_text.py:57`, `:73`). -/
def wholeL (x : Rat) : List Char := intL (roundHalfEven x) ++ ".000000".toList

/-- `FormatRptText` (`format_rpt_text.py:14-19`, formats at `:43-45`, `:57`, `:73`): `"%f"` prints six
decimals; groups are rounded to two decimals first, coverpoints and crosses to an integer.  The
float nearest to a two-decimal number prints with zeros in the remaining four places (figures below
10^9). -/
def rptCfg (details orderBinsByHit : Bool) : Cfg :=
  { details, orderBinsByHit
    groupPct := fun x => String.ofList (fixedL 2 x ++ "0000".toList)
    leafPct := fun x => String.ofList (wholeL x) }

/-- State of the formatter: `self._ind` and what has been passed to `fp.write` so far. -/
structure W where
  ind : String
  out : List String
  deriving DecidableEq, Repr

/-- `writeln` (`text_coverage_report_formatter.py:80-81`). -/
def writeln (w : W) (msg : String) : W := { w with out := w.out ++ [w.ind ++ msg ++ "\n"] }

/-- `__enter__` (`text_coverage_report_formatter.py:86-87`). -/
def enter (w : W) : W := { w with ind := w.ind ++ "    " }

/-- `s[:-4]` -/
def dropLast4 (s : String) : String := String.ofList (s.toList.take (s.toList.length - 4))

/-- `__exit__` (`text_coverage_report_formatter.py:89-90`). -/
def exit (w : W) : W := { w with ind := dropLast4 w.ind }

/-- `"%s : %d" % (b.name, b.count)` -/
def binText (b : RBin) : String := b.name ++ " : " ++ strInt b.count

/-- `report_bins` (`text_coverage_report_formatter.py:68-78`). -/
def reportBins (cfg : Cfg) (w : W) (bins : List RBin) : W :=
  if cfg.orderBinsByHit then
    let w := bins.foldl (fun w b => if b.hit then writeln w (binText b) else w) w
    bins.foldl (fun w b => if b.hit then w else writeln w (binText b)) w
  else bins.foldl (fun w b => writeln w (binText b)) w

/-- `report_coverpoint` (`text_coverage_report_formatter.py:42-57`). -/
def reportCp (cfg : Cfg) (w : W) (cp : RCp) : W :=
  let w := writeln w ("CVP " ++ cp.name ++ " : " ++ cfg.leafPct cp.coverage ++ "%")
  if cfg.details then
    let w := writeln w "Bins:"
    let w := exit (reportBins cfg (enter w) cp.bins)
    let w := if cp.ignoreBins.length > 0 then
        exit (reportBins cfg (enter (writeln w "IgnoreBins:")) cp.ignoreBins) else w
    if cp.illegalBins.length > 0 then
      exit (reportBins cfg (enter (writeln w "IllegalBins:")) cp.illegalBins) else w
  else w

/-- `report_cross` (`text_coverage_report_formatter.py:59-66`). -/
def reportCross (cfg : Cfg) (w : W) (cr : RCross) : W :=
  let w := writeln w ("CROSS " ++ cr.name ++ " : " ++ cfg.leafPct cr.coverage ++ "%")
  if cfg.details then exit (reportBins cfg (enter (writeln w "Bins:")) cr.bins) else w

mutual
/-- `report_covergroup` (`text_coverage_report_formatter.py:26-40`). -/
def reportCg (cfg : Cfg) (isInst : Bool) : W → RCg → W
  | w, ⟨name, _, coverage, _, cps, crs, cgs⟩ =>
    let w := writeln w ((if isInst then "INST" else "TYPE") ++ " " ++ name ++ " : " ++ cfg.groupPct coverage ++ "%")
    let w := enter w
    let w := cps.foldl (reportCp cfg) w
    let w := crs.foldl (reportCross cfg) w
    let w := reportCgs cfg w cgs
    exit w
termination_by structural _ g => g
/-- The loop `for cg_i in cg.covergroups` (`text_coverage_report_formatter.py:39-40`). -/
def reportCgs (cfg : Cfg) : W → List RCg → W
  | w, [] => w
  | w, g :: t => reportCgs cfg (reportCg cfg true w g) t
termination_by structural _ l => l
end

/-- `report` (`text_coverage_report_formatter.py:22-24`): the text written for a report. -/
def report (cfg : Cfg) (r : Rpt) (w : W) : W := r.covergroups.foldl (reportCg cfg false) w

/-- `FormatRptText.report` (`format_rpt_text.py:29-39`). -/
def reportDb (rd : Rat → Rat) (details orderBinsByHit : Bool) (db : Scope) : Except Err W := do
  let r ← build rd db
  pure (report (rptCfg details orderBinsByHit) r ⟨"", []⟩)

/-! ## JSON -/

/-- `CoverBin` object: `name`, `count` (`format_rpt_json.py:108-111`). -/
structure JBin where
  name : String
  count : Int
  deriving DecidableEq, Repr

/-- `Coverpoint` object; `none` is an absent member (`format_rpt_json.py:100-128`). -/
structure JCp where
  name : Option String
  coverage : Rat
  bins : Option (List JBin)
  ignorebins : Option (List JBin)
  illegalbins : Option (List JBin)
  deriving DecidableEq, Repr

/-- `Cross` object (`format_rpt_json.py:130-147`). -/
structure JCross where
  name : String
  weight : Int
  bins : Option (List JBin)
  deriving DecidableEq, Repr

/-- `CovergroupType` object (`format_rpt_json.py:77-98`). -/
structure JCg where
  name : String
  coverage : Rat
  coverpoints : Option (List JCp)
  crosses : Option (List JCross)
  covergroups : Option (List JCg)

/-- The document (`format_rpt_json.py:47-56`). -/
structure JRpt where
  coverage : Rat
  covergroups : Option (List JCg)

/-- The three loops over bins (`format_rpt_json.py:106-126`). -/
def jBins (l : List RBin) : Option (List JBin) :=
  if l.length > 0 then some (l.map (fun b => ⟨b.name, b.count⟩)) else none

/-- `report_coverpoint` (`format_rpt_json.py:100-128`): the name is not assigned. -/
def jCp (details : Bool) (cp : RCp) : JCp :=
  if details then ⟨none, cp.coverage, jBins cp.bins, jBins cp.ignoreBins, jBins cp.illegalBins⟩
  else ⟨none, cp.coverage, none, none, none⟩

/-- `report_cross` (`format_rpt_json.py:130-147`): calls `self.writeln`, which the class does not
define, so it raises `AttributeError` before the object is complete. -/
def jCross (_cr : RCross) : Except Err JCross := .error .attributeError

/-- Appending to a list member that is created on first use. -/
def someIfNonempty {α : Type} (l : List α) : Option (List α) := if l.isEmpty then none else some l

mutual
/-- `report_covergroup` (`format_rpt_json.py:77-98`). -/
def jCg (details : Bool) : RCg → Except Err JCg
  | ⟨name, _, coverage, _, cps, crs, cgs⟩ => do
    let crs' ← crs.mapM jCross
    let cgs' ← jCgs details cgs
    pure ⟨name, coverage, someIfNonempty (cps.map (jCp details)), someIfNonempty crs', someIfNonempty cgs'⟩
termination_by structural g => g
/-- Loop over the nested groups (`format_rpt_json.py:93-96`). -/
def jCgs (details : Bool) : List RCg → Except Err (List JCg)
  | [] => pure []
  | g :: t => do
    let a ← jCg details g
    let b ← jCgs details t
    pure (a :: b)
termination_by structural l => l
end

/-- `FormatRptJson.report` (`format_rpt_json.py:39-57`), returning the document that is dumped. -/
def jReport (rd : Rat → Rat) (details : Bool) (db : Scope) : Except Err JRpt := do
  let r ← build rd db
  let cgs ← jCgs details r.covergroups
  pure ⟨r.coverage, someIfNonempty cgs⟩

end Format
end Verif
