import Verif.ToolsThms
/-!
# Reports into a directory (C127)

No new code: the branch of `report` (`src/ucis/cmd/cmd_report.py:44-66`) for formats that announce a directory is `reportIntoDir` of
`Verif/Tools.lean`.
-/

namespace Verif
namespace Tools

namespace Spec

/-- `p` is below the directory `dir`. -/
def Below (dir p : String) : Prop := (dir ++ "/").toList <+: p.toList

/-- What the property asks for: the report ends as the format does, `dir` is then a directory
with the report in it, and no file elsewhere has changed. -/
structure DirReported (dir : String) (ends : Except Err Unit) (w : World) (r : Except Err Unit × World) : Prop where
  ends : r.1 = ends
  isDir : r.2.isDir dir = true
  others : ∀ p, ¬ Below dir p → r.2.files p = w.files p
  reported : Event.report dir ∈ r.2.log.drop w.log.length

/-- The full C127, for registered formats, an input that can be read and a report format that announces (only) a directory. -/
def DirReports (D : Type) : Prop :=
  ∀ (rgy : Rgy D) (a : ReportArgs) (w : World) (dir : String) (i : DbDesc D) (o : RptDesc D) (d : D),
    Registered rgy (a.inputFormat.getD "xml") i → rgy.rpts.get? (a.outputFormat.getD "txt") = some o → o.outFlags = 2 → a.out = some dir →
    i.fmtIf.read (w.files a.db) = .ok d → w.files dir = none → DirReported dir (o.fmtIf.reportDir d) w (reportCmd rgy a w)

end Spec

variable {D : Type}

theorem reportCmd_read {rgy : Rgy D} {a : ReportArgs} {w : World} {i : DbDesc D} {o : RptDesc D} {d : D}
    (hi : Spec.Registered rgy (a.inputFormat.getD "xml") i) (ho : rgy.rpts.get? (a.outputFormat.getD "txt") = some o)
    (hr : i.fmtIf.read (w.files a.db) = .ok d) : reportCmd rgy a w =
      (match a.out with
        | none => if !maskHit o.outFlags rptStream then Cmd.fail .userError else emitStdout (o.fmtIf.report d)
        | some path =>
          if maskHit o.outFlags rptStream then do openWrite path; emit path (o.fmtIf.report d)
          else if maskHit o.outFlags rptDir then reportIntoDir o.fmtIf d path
          else Cmd.fail .userError : Cmd Unit) { w with log := w.log ++ [.read a.db] } := by
  unfold Spec.Registered at hi
  have hi1 : rgy.hasDatabaseFormat (a.inputFormat.getD "xml") = true := by simp [Rgy.hasDatabaseFormat, Dict.contains, hi]
  have ho1 : rgy.hasReportFormat (a.outputFormat.getD "txt") = true := by simp [Rgy.hasReportFormat, Dict.contains, ho]
  have hi2 : rgy.getDatabaseDesc (a.inputFormat.getD "xml") = .ok i := getE_iff.2 hi
  have ho2 : rgy.getReportDesc (a.outputFormat.getD "txt") = .ok o := getE_iff.2 ho
  unfold reportCmd
  simp only [defaultDatabase, defaultReport, hi1, ho1, Bool.not_true, Bool.false_eq_true, if_false]
  rw [Cmd.bind_ok (a := i) (w' := w) (by rw [hi2]; rfl), Cmd.bind_ok (a := o) (w' := w) (by rw [ho2]; rfl)]
  rw [Cmd.bind_ok (show readFile i.fmtIf a.db w = (.ok d, _) by unfold readFile; rw [hr])]
  rfl

/-- **C127** (partial) With a format that announces a directory: an existing directory is emptied, then made again, then the report is put into it, in this order,
and no file elsewhere changes.  A path that holds a file is refused and left alone; so is a call without a path.
Missing: success.  If the report itself raises, its exception is raised; otherwise see `C127_never`. -/
theorem C127_directory_partial {rgy : Rgy D} {a : ReportArgs} {w : World} {i : DbDesc D} {o : RptDesc D} {d : D}
    (hi : Spec.Registered rgy (a.inputFormat.getD "xml") i) (ho : rgy.rpts.get? (a.outputFormat.getD "txt") = some o)
    (hr : i.fmtIf.read (w.files a.db) = .ok d) (hf : o.outFlags = 2) :
    (∀ dir, a.out = some dir → w.isDir dir = true →
      (reportCmd rgy a w).2.log = w.log ++ [.read a.db, .rmtree dir, .makedirs dir, .report dir] ∧
      (reportCmd rgy a w).2.isDir dir = true ∧ (∀ p, p ≠ dir → Spec.Below dir p → (reportCmd rgy a w).2.isDir p = false) ∧
      (∀ p, Spec.Below dir p → (reportCmd rgy a w).2.files p = none) ∧
      (∀ p, ¬ Spec.Below dir p → (reportCmd rgy a w).2.files p = w.files p) ∧
      (∀ p, p ≠ dir → ¬ Spec.Below dir p → (reportCmd rgy a w).2.isDir p = w.isDir p) ∧
      ∀ e, o.fmtIf.reportDir d = .error e → (reportCmd rgy a w).1 = .error e) ∧
    (∀ path, a.out = some path → w.isDir path = false → w.files path ≠ none →
      reportCmd rgy a w = (.error .typeError, { w with log := w.log ++ [.read a.db] })) ∧
    (a.out = none → reportCmd rgy a w = (.error .userError, { w with log := w.log ++ [.read a.db] })) := by
  rw [reportCmd_read hi ho hr, hf, show maskHit 2 rptStream = false by decide, show maskHit 2 rptDir = true by decide]
  refine ⟨?_, ?_, ?_⟩
  · intro dir hd hdir
    have hb : ∀ p, (dir ++ "/").toList.isPrefixOf p.toList = true ↔ Spec.Below dir p := fun p => List.isPrefixOf_iff_prefix
    rw [hd]
    simp only [Bool.false_eq_true, if_false, if_true, reportIntoDir, hdir, Cmd.bind_def, rmtree, makedirs, emitDir, Cmd.fail]
    cases hx : o.fmtIf.reportDir d <;> simp only [List.append_assoc, List.cons_append, List.nil_append, if_true, true_and]
    all_goals
      refine ⟨?_, ?_, ?_, ?_, ?_⟩
      · intro p hp hq
        rw [if_neg hp, if_pos (.inr ((hb p).2 hq))]
      · intro p hq
        rw [if_pos ((hb p).2 hq)]
      · intro p hq
        rw [if_neg (fun h => hq ((hb p).1 h))]
      · intro p hp hq
        rw [if_neg hp, if_neg (by rintro (h | h); exacts [hp h, hq ((hb p).1 h)])]
      · intro e he
        cases he
        try rfl
  · intro path hd hdir hfile
    rw [hd]
    have : (w.files path).isSome = true := by
      cases h : w.files path with
      | none => exact absurd h hfile
      | some _ => rfl
    simp [reportIntoDir, hdir, this]
  · intro hd
    rw [hd]
    rfl

/-- **C127** fails for every such format and every input: the command never succeeds.  An existing directory is emptied and its report made, but
then the path is closed like a file (`AttributeError`); a directory that does not exist is not made (`UnboundLocalError`). -/
theorem C127_never {rgy : Rgy D} {a : ReportArgs} {w : World} {i : DbDesc D} {o : RptDesc D} {d : D} {dir : String}
    (hi : Spec.Registered rgy (a.inputFormat.getD "xml") i) (ho : rgy.rpts.get? (a.outputFormat.getD "txt") = some o)
    (hr : i.fmtIf.read (w.files a.db) = .ok d) (hf : o.outFlags = 2) (hd : a.out = some dir) :
    (w.isDir dir = true → o.fmtIf.reportDir d = .ok () → (reportCmd rgy a w).1 = .error .attributeError) ∧
    (w.isDir dir = false → w.files dir = none → reportCmd rgy a w = (.error .unboundLocal, { w with log := w.log ++ [.read a.db] })) := by
  rw [reportCmd_read hi ho hr, hf, show maskHit 2 rptStream = false by decide, show maskHit 2 rptDir = true by decide, hd]
  constructor
  · intro h1 h2
    simp [reportIntoDir, h1, h2, Cmd.bind_def, rmtree, makedirs, emitDir, Cmd.fail]
  · intro h1 h2
    simp [reportIntoDir, h1, h2]

/-- A format that announces both kinds of output, or only a stream, writes a file. -/
theorem C127_stream {rgy : Rgy D} {a : ReportArgs} {w : World} {i : DbDesc D} {o : RptDesc D} {d : D} {path : String}
    (hi : Spec.Registered rgy (a.inputFormat.getD "xml") i) (ho : rgy.rpts.get? (a.outputFormat.getD "txt") = some o)
    (hr : i.fmtIf.read (w.files a.db) = .ok d) (hf : o.outFlags = 1 ∨ o.outFlags = 3) (hd : a.out = some path) (hw : w.writable path = true) :
    (reportCmd rgy a w).1 = (o.fmtIf.report d).2 ∧ (reportCmd rgy a w).2.files path = some (o.fmtIf.report d).1 ∧
    (reportCmd rgy a w).2.log = w.log ++ [.read a.db, .write path] := by
  have : maskHit o.outFlags rptStream = true := by rcases hf with h | h <;> rw [h] <;> decide
  rw [reportCmd_read hi ho hr, this, hd]
  simp [openWrite, emit, hw, Cmd.bind_def]

/-- A registry with a database format whose databases are `()` and a report format for directories. -/
def Ex.dirRgy : Rgy Unit :=
  { dbs := [("xml", ⟨"xml", 0, "", ⟨fun _ => .ok (), .ok (), .error .userError⟩⟩)], rpts := [("txt", ⟨"txt", 2, "", ⟨fun _ => ([], .ok ()), fun _ => .ok ()⟩⟩)] }

def Ex.dirWorld : World := ⟨fun p => if p = "out/a.html" then some [] else none, fun p => p = "out", fun _ => true, [], []⟩

theorem C127_refuted : ¬ Spec.DirReports Unit := by
  intro h
  have := (h Ex.dirRgy ⟨none, none, "in.xml", some "out"⟩ Ex.dirWorld "out" _ _ () rfl rfl rfl rfl rfl (by decide +kernel)).ends
  rw [(C127_never (rgy := Ex.dirRgy) (a := ⟨none, none, "in.xml", some "out"⟩) (w := Ex.dirWorld) (dir := "out") rfl rfl rfl rfl rfl).1 (by decide) rfl] at this
  cases this

/-- The file in the directory is gone. -/
example : (reportCmd Ex.dirRgy ⟨none, none, "in.xml", some "out"⟩ Ex.dirWorld).2.files "out/a.html" = none ∧ Ex.dirWorld.files "out/a.html" ≠ none :=
  ⟨((C127_directory_partial (rgy := Ex.dirRgy) (a := ⟨none, none, "in.xml", some "out"⟩) (w := Ex.dirWorld) rfl rfl rfl rfl).1 "out" rfl (by decide)).2.2.2.1 _
    (by unfold Spec.Below; decide +kernel), by decide +kernel⟩

/-- The hypotheses of `C127_stream` hold for a format with both flags. -/
def Ex.bothRgy : Rgy Unit := { Ex.dirRgy with rpts := [("txt", ⟨"txt", 3, "", ⟨fun _ => ([1], .ok ()), fun _ => .ok ()⟩⟩)] }

example : (reportCmd Ex.bothRgy ⟨none, none, "in.xml", some "out.txt"⟩ Ex.dirWorld).2.files "out.txt" = some [1] :=
  (C127_stream (rgy := Ex.bothRgy) (a := ⟨none, none, "in.xml", some "out.txt"⟩) (w := Ex.dirWorld) rfl rfl rfl (.inr rfl) rfl rfl).2.1

end Tools
end Verif
