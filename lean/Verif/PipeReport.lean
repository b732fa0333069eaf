import Verif.PipeMerge
import Verif.FormatThms
import Verif.FormatThms2
/-!
# The `report` command, from the input file to the output (C87)
-/

namespace Verif
namespace Tools
open Report Format

namespace Spec

/-- The world after `text` was sent to the output: a file, or standard output. -/
def Reported (w : World) (input : String) (out : Option String) (text : Bytes) : World :=
  match out with
  | none => { w with stdout := w.stdout ++ text, log := w.log ++ [.read input] }
  | some p => Written w [input] p text

/-- The output can be opened. -/
def CanOpen (w : World) (out : Option String) : Prop := ∀ p, out = some p → w.writable p = true

/-- The text of a report in the `txt` format: the outline of covergroups, coverpoints, crosses and cover-instances. -/
def txtOf (x : Ext) (r : Rpt) : Bytes :=
  x.encode (String.join ((Verif.Spec.Outline.linesL 0 (Verif.Spec.reportOutline (rptCfg false false) id r)).map (Verif.Spec.printed "")))

/-- The text of a report in the `json` format: a JSON document with the same total and groups.  There is none if the report has a cross. -/
def JsonOf (x : Ext) (r : Rpt) (text : Bytes) : Prop :=
  Verif.Spec.crossesOfL r.covergroups = [] ∧ ∃ j, j.coverage = r.coverage ∧ Verif.Spec.viewJO j.covergroups = Verif.Spec.viewRL r.covergroups ∧ text = x.showJson j

end Spec

variable {D : Type}

theorem reportIntoDir_error (f : RptIf D) (d : D) (p : String) (w w' : World) : reportIntoDir f d p w ≠ (.ok (), w') := by
  unfold reportIntoDir
  split
  · intro h
    simp only [Cmd.bind_def, rmtree, makedirs, emitDir, Cmd.fail] at h
    rcases hd : f.reportDir d with _ | _ <;> rw [hd] at h <;> simp at h
  · split <;> simp

/-- When the `report` command succeeds, for any formats. -/
theorem report_success (rgy : Rgy D) (a : ReportArgs) (w w' : World) :
    reportCmd rgy a w = (.ok (), w') ↔
      ∃ i o d text, Spec.Registered rgy (a.inputFormat.getD "xml") i ∧ rgy.rpts.get? (a.outputFormat.getD "txt") = some o ∧
        i.fmtIf.read (w.files a.db) = .ok d ∧ maskHit o.outFlags rptStream = true ∧ o.fmtIf.report d = (text, .ok ()) ∧
        Spec.CanOpen w a.out ∧ w' = Spec.Reported w a.db a.out text := by
  cases hi : rgy.dbs.get? (a.inputFormat.getD "xml") with
  | none =>
    rw [C61_report rgy a w (.inl (by simp [Rgy.hasDatabaseFormat, Dict.contains, hi]))]
    simp [Spec.Registered, hi]
  | some i =>
    cases ho : rgy.rpts.get? (a.outputFormat.getD "txt") with
    | none =>
      rw [C61_report rgy a w (.inr (by simp [Rgy.hasReportFormat, Dict.contains, ho]))]
      simp
    | some o =>
      have hi1 : rgy.hasDatabaseFormat (a.inputFormat.getD "xml") = true := by simp [Rgy.hasDatabaseFormat, Dict.contains, hi]
      have ho1 : rgy.hasReportFormat (a.outputFormat.getD "txt") = true := by simp [Rgy.hasReportFormat, Dict.contains, ho]
      have hi2 : rgy.getDatabaseDesc (a.inputFormat.getD "xml") = .ok i := getE_iff.2 hi
      have ho2 : rgy.getReportDesc (a.outputFormat.getD "txt") = .ok o := getE_iff.2 ho
      have hshape : (∃ i' o' d text, Spec.Registered rgy (a.inputFormat.getD "xml") i' ∧ some o = some o' ∧
          i'.fmtIf.read (w.files a.db) = .ok d ∧ maskHit o'.outFlags rptStream = true ∧ o'.fmtIf.report d = (text, .ok ()) ∧
          Spec.CanOpen w a.out ∧ w' = Spec.Reported w a.db a.out text) ↔
          ∃ d text, i.fmtIf.read (w.files a.db) = .ok d ∧ maskHit o.outFlags rptStream = true ∧ o.fmtIf.report d = (text, .ok ()) ∧
          Spec.CanOpen w a.out ∧ w' = Spec.Reported w a.db a.out text := by
        constructor
        · rintro ⟨i', o', d, text, h1, h2, h3⟩
          unfold Spec.Registered at h1
          rw [hi] at h1
          cases h1
          cases h2
          exact ⟨d, text, h3⟩
        · rintro ⟨d, text, h⟩
          exact ⟨i, o, d, text, hi, rfl, h⟩
      rw [hshape]
      unfold reportCmd
      simp only [defaultDatabase, defaultReport, hi1, ho1, Bool.not_true, Bool.false_eq_true, if_false]
      rw [Cmd.bind_ok (a := i) (w' := w) (by rw [hi2]; rfl), Cmd.bind_ok (a := o) (w' := w) (by rw [ho2]; rfl)]
      cases hr : i.fmtIf.read (w.files a.db) with
      | error e =>
        rw [Cmd.bind_error (show readFile i.fmtIf a.db w = (.error e, _) by unfold readFile; rw [hr])]
        simp
      | ok d =>
        rw [Cmd.bind_ok (show readFile i.fmtIf a.db w = (.ok d, _) by unfold readFile; rw [hr])]
        rcases hrep : o.fmtIf.report d with ⟨text, res⟩
        cases hout : a.out with
        | none =>
          simp only []
          by_cases hm : maskHit o.outFlags rptStream = true
          · simp only [hm, Bool.not_true, Bool.false_eq_true, if_false, emitStdout]
            constructor
            · intro h
              have h1 := (Prod.ext_iff.1 h).1
              have h2 := (Prod.ext_iff.1 h).2
              simp only at h1 h2
              refine ⟨d, text, rfl, trivial, by rw [hrep, h1], fun p hp => by simp at hp, ?_⟩
              rw [← h2]
              rfl
            · rintro ⟨d', text', h1, _, h3, _, h5⟩
              cases h1
              rw [hrep] at h3
              cases h3
              rw [h5]
              rfl
          · simp only [Bool.not_eq_true] at hm
            simp [hm, Cmd.fail]
        | some p =>
          simp only []
          by_cases hm : maskHit o.outFlags rptStream = true
          · simp only [hm, if_true]
            rw [Cmd.bind_def]
            unfold openWrite
            by_cases hwr : w.writable p = true
            · simp only [hwr, if_true, emit]
              constructor
              · intro h
                have h1 := (Prod.ext_iff.1 h).1
                have h2 := (Prod.ext_iff.1 h).2
                simp only at h1 h2
                refine ⟨d, text, rfl, trivial, by rw [hrep, h1], fun q hq => by cases hq; exact hwr, ?_⟩
                rw [← h2]
                simp only [Spec.Reported, Spec.Written, List.map_cons, List.map_nil, World.mk.injEq, and_true]
                funext q
                by_cases hq : q = p <;> simp [hq]
              · rintro ⟨d', text', h1, _, h3, _, h5⟩
                cases h1
                rw [hrep] at h3
                cases h3
                rw [h5]
                simp only [Spec.Reported, Spec.Written, List.map_cons, List.map_nil, Prod.mk.injEq, World.mk.injEq, and_true, true_and]
                funext q
                by_cases hq : q = p <;> simp [hq]
            · have hwr' : w.writable p = false := by simpa using hwr
              simp only [hwr', Bool.false_eq_true, if_false]
              constructor
              · intro h; cases (Prod.ext_iff.1 h).1
              · rintro ⟨_, _, _, _, _, h4, _⟩
                exact absurd (h4 p rfl) hwr
          · simp only [Bool.not_eq_true] at hm
            simp only [hm, Bool.false_eq_true, if_false]
            constructor
            · intro h
              split at h
              · exact absurd h (reportIntoDir_error _ _ _ _ _)
              · cases (Prod.ext_iff.1 h).1
            · rintro ⟨_, _, _, h, _⟩
              cases h

theorem txtRpt_report (x : Ext) (db : Database) (text : Bytes) :
    (txtRptIf x).report db = (text, .ok ()) ↔ ∃ r, build x.rd db.root = .ok r ∧ text = Spec.txtOf x r := by
  have hdef : (txtRptIf x).report db = match reportDb x.rd false false db.root with
    | .ok w => (x.encode (String.join w.out), .ok ())
    | .error e => ([], .error e) := rfl
  rw [hdef]
  unfold reportDb
  cases hb : build x.rd db.root with
  | error e => simp [bind, Except.bind]
  | ok r =>
    simp only [bind, Except.bind, pure, Except.pure]
    rw [report_put]
    simp only [put, List.nil_append]
    have ho : hitOrder (rptCfg false false).orderBinsByHit = id := by
      funext l
      simp [rptCfg, hitOrder]
    rw [ho]
    simp [Spec.txtOf, eq_comm]

/-- **C87** for the `txt` format.  The report command succeeds exactly if the input can be read, its report can be made and the output can
be opened.  Then the output holds the text of the report on the database in the input file. -/
theorem C87_report_txt (x : Ext) (a : ReportArgs) (w w' : World) (hf : a.outputFormat.getD "txt" = "txt") :
    ucisReport x a w = (.ok (), w') ↔
      ∃ i d r, Spec.Registered (defaultRgy x) (a.inputFormat.getD "xml") i ∧ i.fmtIf.read (w.files a.db) = .ok d ∧
        build x.rd d.root = .ok r ∧ Spec.CanOpen w a.out ∧ w' = Spec.Reported w a.db a.out (Spec.txtOf x r) := by
  unfold ucisReport
  rw [report_success, hf, defaultRgy_rpts]
  constructor
  · rintro ⟨i, o, d, text, h1, h2, h3, _, h5, h6, h7⟩
    cases h2
    obtain ⟨r, hr, rfl⟩ := (txtRpt_report x d text).1 h5
    exact ⟨i, d, r, h1, h3, hr, h6, h7⟩
  · rintro ⟨i, d, r, h1, h3, hr, h6, h7⟩
    exact ⟨i, _, d, _, h1, rfl, h3, (by decide : maskHit rptStream rptStream = true), (txtRpt_report x d _).2 ⟨r, hr, rfl⟩, h6, h7⟩

/-- When the command `report -of json` succeeds, and what it leaves. -/
theorem report_json_ok (x : Ext) (a : ReportArgs) (w : World) (hf : a.outputFormat = some "json") (w' : World) :
    ucisReport x a w = (.ok (), w') ↔ ∃ i d j, Spec.Registered (defaultRgy x) (a.inputFormat.getD "xml") i ∧
      i.fmtIf.read (w.files a.db) = .ok d ∧ jReport x.rd true d.root = .ok j ∧ Spec.CanOpen w a.out ∧
      w' = Spec.Reported w a.db a.out (x.showJson j) := by
  have hrep : ∀ db text, (jsonRptIf x).report db = (text, .ok ()) ↔ ∃ j, jReport x.rd true db.root = .ok j ∧ text = x.showJson j := by
    intro db text
    have hdef : (jsonRptIf x).report db = match jReport x.rd true db.root with
      | .ok j => (x.showJson j, .ok ())
      | .error e => ([], .error e) := rfl
    rw [hdef]
    cases jReport x.rd true db.root with
    | error e => simp
    | ok j => simp [eq_comm]
  unfold ucisReport
  rw [report_success, hf, defaultRgy_rpts]
  constructor
  · rintro ⟨i, o, d, text, h1, h2, h3, _, h5, h6, h7⟩
    cases h2
    obtain ⟨j, hj, rfl⟩ := (hrep d text).1 h5
    exact ⟨i, d, j, h1, h3, hj, h6, h7⟩
  · rintro ⟨i, d, j, h1, h3, hj, h6, h7⟩
    exact ⟨i, _, d, _, h1, rfl, h3, (by decide : maskHit rptStream rptStream = true), (hrep d _).2 ⟨j, hj, rfl⟩, h6, h7⟩

/-- **C87** for the `json` format: as for `txt`, but it also fails if the report has a cross (C30). -/
theorem C87_report_json (x : Ext) (a : ReportArgs) (w : World) (hf : a.outputFormat = some "json") :
    (∀ w', ucisReport x a w = (.ok (), w') →
      ∃ i d r text, Spec.Registered (defaultRgy x) (a.inputFormat.getD "xml") i ∧ i.fmtIf.read (w.files a.db) = .ok d ∧
        build x.rd d.root = .ok r ∧ Spec.CanOpen w a.out ∧ Spec.JsonOf x r text ∧ w' = Spec.Reported w a.db a.out text) ∧
    (∀ i d r, Spec.Registered (defaultRgy x) (a.inputFormat.getD "xml") i → i.fmtIf.read (w.files a.db) = .ok d →
      build x.rd d.root = .ok r → Spec.CanOpen w a.out →
      ((ucisReport x a w).1 = .ok () ↔ Verif.Spec.crossesOfL r.covergroups = [])) := by
  have key := report_json_ok x a w hf
  constructor
  · intro w' h
    obtain ⟨i, d, j, h1, h2, h3, h4, h5⟩ := (key w').1 h
    obtain ⟨c1, c2, c3⟩ := C30_json_partial x.rd d.root
    cases hb : build x.rd d.root with
    | error e => rw [c3 e hb] at h3; cases h3
    | ok r =>
      by_cases hc : Verif.Spec.crossesOfL r.covergroups = []
      · obtain ⟨j', hj', e1, e2⟩ := c1 r hb hc
        rw [h3] at hj'
        cases hj'
        exact ⟨i, d, r, _, h1, h2, hb, h4, ⟨hc, j, e1, e2, rfl⟩, h5⟩
      · rw [c2 r hb hc] at h3; cases h3
  · intro i d r h1 h2 hb h4
    obtain ⟨c1, c2, _⟩ := C30_json_partial x.rd d.root
    constructor
    · intro h
      obtain ⟨i', d', j, h1', h2', h3, _, _⟩ := (key (ucisReport x a w).2).1 (Prod.ext h rfl)
      unfold Spec.Registered at h1 h1'
      rw [h1] at h1'
      cases h1'
      rw [h2] at h2'
      cases h2'
      by_contra hc
      rw [c2 r hb hc] at h3
      cases h3
    · intro hc
      obtain ⟨j, hj, _⟩ := c1 r hb hc
      exact congrArg Prod.fst ((key _).2 ⟨i, d, j, h1, h2, hj, h4, rfl⟩)

/-- An XML file, a readable database whose report exists, and an output that can be opened. -/
example : ∃ (x : Ext) (a : ReportArgs) (w : World) (d : Database) (r : Rpt), a.outputFormat.getD "txt" = "txt" ∧
    Spec.Registered (defaultRgy x) (a.inputFormat.getD "xml") ⟨"xml", 6, "Supports reading and writing UCIS XML interchange", xmlIf x⟩ ∧
    (xmlIf x).read (w.files a.db) = .ok d ∧ build x.rd d.root = .ok r ∧ r.covergroups ≠ [] ∧ Spec.CanOpen w a.out ∧ a.out = some "out" := by
  obtain ⟨doc, db, hw, hr, _⟩ := exPlain_doc
  have hx : xmlWrite exFaithful exPlainDb = (exFaithful.showXml doc, .ok ()) := xmlWrite_ok.2 ⟨doc, hw, rfl⟩
  have hb : (Xml.write Xml.exEnv2 exPlainDb).bind (fun doc => (Xml.factoryRead Xml.exEnv2.flt (Xml.reparse doc)).bind (fun d =>
      (build exFaithful.rd d.root).map (fun r => decide (r.covergroups.length ≠ 0)))) = .ok true := by
    rw [show exFaithful.rd = id from rfl]
    decide +kernel
  rw [hw] at hb
  change (Xml.factoryRead Xml.exEnv2.flt (Xml.reparse doc)).bind _ = _ at hb
  rw [hr] at hb
  change (build exFaithful.rd db.root).map _ = _ at hb
  cases hbr : build exFaithful.rd db.root with
  | error e => rw [hbr] at hb; cases hb
  | ok r =>
    rw [hbr] at hb
    refine ⟨exFaithful, ⟨none, none, "in", some "out"⟩, { exWorld with files := fun _ => some (exFaithful.showXml doc) }, db, r, rfl,
      registered_xml _, ?_, hbr, ?_, fun p _ => rfl, rfl⟩
    · show xmlRead exFaithful (some (exFaithful.showXml doc)) = .ok db
      rw [xmlRead_written exFaithful_ok hx]
      unfold Xml.throughFile
      rw [show exFaithful.env = Xml.exEnv2 from rfl, hw]
      exact hr
    · intro h
      have := of_decide_eq_true (Except.ok.inj hb)
      rw [h] at this
      exact this rfl

end Tools
end Verif
