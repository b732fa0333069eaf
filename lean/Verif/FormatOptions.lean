import Verif.FormatThms2
/-!
# The options of the text reports (C28, C29)

No new code.  The theorems of `FormatThms.lean` are about a configuration; here the options are those that the user of the two formatters sets.
-/

namespace Verif
namespace Format
open Spec Report PyNum

/-- **C28, C29** for the `txt` report of a database: the option for details and the one for the order of bins have their effect, each its own; the figures are within
half a unit of the last place (two decimals for groups, none for coverpoints and crosses).  If no report can be built, the exception is passed on. -/
theorem C28_options_txt (rd : Rat → Rat) (details byHit : Bool) (db : Scope) :
    (∀ e, build rd db = .error e → reportDb rd details byHit db = .error e) ∧
    ∀ r, build rd db = .ok r → ∃ w g l order, reportDb rd details byHit db = .ok w ∧ BinOrder byHit order ∧
      (∀ x, 0 ≤ x → |decVal (g x).toList - x| ≤ 1 / 200 ∧ |decVal (l x).toList - x| ≤ 1 / 2) ∧
      w.out = (Outline.linesL 0 (reportOutline ⟨details, byHit, g, l⟩ order r)).map (printed "") := by
  refine ⟨fun e h => by unfold reportDb; rw [h]; rfl, fun r h => ?_⟩
  obtain ⟨order, h1, h2, _⟩ := C28_text_layout (rptCfg details byHit) r ⟨"", []⟩
  refine ⟨_, (rptCfg details byHit).groupPct, (rptCfg details byHit).leafPct, order, by unfold reportDb; rw [h]; rfl, h1, fun x hx => ?_, h2⟩
  obtain ⟨_, _, a, b⟩ := C66_printed_percentage hx 0 details byHit
  exact ⟨a, b⟩

/-- **C28, C29** for the text formatter with `n` decimals. -/
theorem C28_options_text (n : Nat) (details byHit : Bool) (r : Rpt) :
    ∃ g l order, BinOrder byHit order ∧ (∀ x, 0 ≤ x → |decVal (g x).toList - x| ≤ 1 / 2 / 10 ^ n ∧ |decVal (l x).toList - x| ≤ 1 / 2 / 10 ^ n) ∧
      (report (textCfg n details byHit) r ⟨"", []⟩).out = (Outline.linesL 0 (reportOutline ⟨details, byHit, g, l⟩ order r)).map (printed "") := by
  obtain ⟨order, h1, h2, _⟩ := C28_text_layout (textCfg n details byHit) r ⟨"", []⟩
  refine ⟨(textCfg n details byHit).groupPct, (textCfg n details byHit).leafPct, order, h1, fun x hx => ?_, h2⟩
  obtain ⟨a, b, _, _⟩ := C66_printed_percentage hx n details byHit
  exact ⟨a, b⟩

namespace Ex
/-- A coverpoint with a bin that is not hit before one that is. -/
def optDb : Scope := { emptyDb with children := [mkInstance "top" SrcInfo.none 1 none
  [mkCovergroup "cg" SrcInfo.none 1 [mkCoverpoint "p" SrcInfo.none 1 [mkBin "x" CT.CVGBIN 1 0, mkBin "y" CT.CVGBIN 1 3]]]] }
end Ex

/-- The four settings give four kinds of text, except that the order does not matter without details. -/
example :
    (reportDb id false false Ex.optDb).map (·.out) = .ok ["TYPE cg : 50.000000%\n", "    CVP p : 50.000000%\n"] ∧
    (reportDb id false true Ex.optDb).map (·.out) = .ok ["TYPE cg : 50.000000%\n", "    CVP p : 50.000000%\n"] ∧
    (reportDb id true false Ex.optDb).map (·.out) = .ok ["TYPE cg : 50.000000%\n", "    CVP p : 50.000000%\n", "    Bins:\n", "        x : 0\n", "        y : 3\n"] ∧
    (reportDb id true true Ex.optDb).map (·.out) = .ok ["TYPE cg : 50.000000%\n", "    CVP p : 50.000000%\n", "    Bins:\n", "        y : 3\n", "        x : 0\n"] := by
  decide +kernel

end Format
end Verif
