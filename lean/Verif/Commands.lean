import Verif.Session
/-!
# The program run from the command line, command by command (C116, C117)

`main` (`__main__.py:72-90`) with the parser, for each of the five commands: from the words typed to the effect on files and output.
-/

namespace Verif

namespace Spec
open Tools

/-- How the program ends after a command: status 0 in any case, the message of an exception is printed. -/
def ended (message : Err → Bytes) (r : Except Err Unit × World) : Exit × World :=
  match r with
  | (.ok _, w) => (.ok, w)
  | (.error e, w) => (.ok, { w with stdout := w.stdout ++ message e })

/-- The lines typed: a `convert` line with one file name and an output file, then a `report` line on that output file; formats as in
`ShellSession`. -/
structure ConvertSession (fmt : Option String) (l1 l2 : List CliItem) (input out : String) : Prop where
  ok1 : ∀ i ∈ l1, i.Ok Cli.convertParser
  out1 : cliValue l1 "out" = some out
  files1 : (cliFiles l1).map String.ofList = [input]
  in1 : cliValue l1 "input_format" = fmt
  fmt1 : (cliValue l1 "output_format").getD "xml" = "xml"
  ok2 : ∀ i ∈ l2, i.Ok Cli.reportParser
  files2 : (cliFiles l2).map String.ofList = [out]
  in2 : (cliValue l2 "input_format").getD "xml" = "xml"
  fmt2 : (cliValue l2 "output_format").getD "txt" = "txt"

end Spec

namespace Cli
open Tools
open Verif.Spec (said saidLines saidTotal mergedSaid yamlSaid)

theorem one_file {l : List Spec.CliItem} {f : String} (h : (Spec.cliFiles l).map String.ofList = [f]) : ∃ g, Spec.cliFiles l = [g] ∧ String.ofList g = f := by
  rcases hf : Spec.cliFiles l with _ | ⟨g, _ | ⟨k, t⟩⟩ <;> rw [hf] at h <;> simp at h
  exact ⟨g, rfl, h⟩

theorem run_typed (x : Ext) (usage : Bytes) (message : Err → Bytes) {args line : List String} (ht : Spec.Typed args line) {c : Command}
    (hp : parseArgs line = .run c) (w : World) : ucisMain x usage message args w = Spec.ended message (runCommand x c w) := by
  rw [C116_program x usage message ht.nonempty (by rw [ht.rest]; exact hp) w]
  rfl

/-! ## The commands -/

/-- **C116, `convert`.** A command line with an output file and one file name converts that file, once, with the formats given. -/
theorem C116_runs_convert (x : Ext) (usage : Bytes) (message : Err → Bytes) {l : List Spec.CliItem} (hok : ∀ i ∈ l, i.Ok convertParser) {out f : String}
    (ho : Spec.cliValue l "out" = some out) (hf : (Spec.cliFiles l).map String.ofList = [f]) {args : List String}
    (ht : Spec.Typed args (Spec.cliLine "convert" l)) (w : World) :
    ucisMain x usage message args w =
      Spec.ended message (ucisConvert x ⟨Spec.cliValue l "input_format", Spec.cliValue l "output_format", f, out⟩ w) := by
  obtain ⟨g, h1, rfl⟩ := one_file hf
  rw [run_typed x usage message ht (C116_convert hok ho h1) w]
  rfl

/-- **C116, `merge`.** -/
theorem C116_runs_merge_partial (x : Ext) (usage : Bytes) (message : Err → Bytes) {l : List Spec.CliItem} (hok : ∀ i ∈ l, i.Ok mergeParser) {out : String}
    (ho : Spec.cliValue l "out" = some out) (hf : Spec.cliFiles l ≠ []) (hg : Spec.cliTogether l) {args : List String}
    (ht : Spec.Typed args (Spec.cliLine "merge" l)) (w : World) :
    ucisMain x usage message args w =
      Spec.ended message (ucisMerge x ⟨Spec.cliValue l "input_format", Spec.cliValue l "output_format", (Spec.cliFiles l).map String.ofList, out⟩ w) := by
  rw [run_typed x usage message ht (C116_merge_partial hok ho hf hg) w]
  rfl

/-- **C116, `report`.** -/
theorem C116_runs_report (x : Ext) (usage : Bytes) (message : Err → Bytes) {l : List Spec.CliItem} (hok : ∀ i ∈ l, i.Ok reportParser) {f : String}
    (hf : (Spec.cliFiles l).map String.ofList = [f]) {args : List String} (ht : Spec.Typed args (Spec.cliLine "report" l)) (w : World) :
    ucisMain x usage message args w =
      Spec.ended message (ucisReport x ⟨Spec.cliValue l "input_format", Spec.cliValue l "output_format", f, Spec.cliValue l "out"⟩ w) := by
  obtain ⟨g, h1, rfl⟩ := one_file hf
  rw [run_typed x usage message ht (C116_report hok h1) w]
  rfl

theorem sort_dbs (x : Ext) : (defaultRgy x).getDatabaseFormats = ["libucis", "xml", "yaml"] := by
  unfold Rgy.getDatabaseFormats
  rw [defaultRgy_dbs]
  simp [Dict.keys, Rgy.sortNames, List.mergeSort, List.MergeSort.Internal.splitInTwo]

theorem sort_rpts (x : Ext) : (defaultRgy x).getReportFormats = ["json", "txt"] := by
  unfold Rgy.getReportFormats
  rw [defaultRgy_rpts]
  simp [Dict.keys, Rgy.sortNames, List.mergeSort, List.MergeSort.Internal.splitInTwo]

theorem lines_dbs (x : Ext) : listDbFormats (defaultRgy x) = .ok [
    "libucis - Reads coverage data via an implementation of the UCIS C API",
    "xml     - Supports reading and writing UCIS XML interchange",
    "yaml    - Reads coverage data from a YAML file"] := by
  unfold listDbFormats Rgy.getDatabaseDesc
  rw [sort_dbs, defaultRgy_dbs]
  rfl

theorem lines_rpts (x : Ext) : listReportFormats (defaultRgy x) = .ok [
    "json - Produces a machine-readable JSON coverage report",
    "txt  - Produces a human-readable textual coverage report"] := by
  unfold listReportFormats Rgy.getReportDesc
  rw [sort_rpts, defaultRgy_rpts]
  rfl

/-- **C116, the listings.** They print these lines and do nothing else. -/
theorem C116_runs_list (x : Ext) (usage : Bytes) (message : Err → Bytes) {args : List String} (w : World) :
    (Spec.Typed args ["list-db-formats"] → ucisMain x usage message args w = (.ok, { w with stdout := (w.stdout ++
      x.encode "libucis - Reads coverage data via an implementation of the UCIS C API\n" ++
      x.encode "xml     - Supports reading and writing UCIS XML interchange\n" ++
      x.encode "yaml    - Reads coverage data from a YAML file\n") })) ∧
    (Spec.Typed args ["list-rpt-formats"] → ucisMain x usage message args w = (.ok, { w with stdout := (w.stdout ++
      x.encode "json - Produces a machine-readable JSON coverage report\n" ++
      x.encode "txt  - Produces a human-readable textual coverage report\n") })) := by
  constructor
  · intro ht
    rw [run_typed x usage message ht (C116_list [] (by simp)).1 w]
    simp only [runCommand, printLines, lines_dbs, Spec.ended, List.flatMap_cons, List.flatMap_nil, List.append_nil, List.append_assoc]
    rfl
  · intro ht
    rw [run_typed x usage message ht (C116_list [] (by simp)).2 w]
    simp only [runCommand, printLines, lines_rpts, Spec.ended, List.flatMap_cons, List.flatMap_nil, List.append_nil, List.append_assoc]
    rfl

example : Spec.Typed ["+seed", "list-db-formats"] ["list-db-formats"] ∧ Spec.Typed ["list-rpt-formats"] ["list-rpt-formats"] :=
  ⟨⟨by decide, by decide⟩, ⟨by decide, by decide⟩⟩

/-! ## Converting a file, then reporting -/

theorem convert_report {fmt : Option String} {l1 l2 : List Spec.CliItem} {input out : String} (hs : Spec.ConvertSession fmt l1 l2 input out) :
    parseArgs (Spec.cliLine "report" l2) =
      .run (.report ⟨Spec.cliValue l2 "input_format", Spec.cliValue l2 "output_format", out, Spec.cliValue l2 "out"⟩) := by
  obtain ⟨g, h1, rfl⟩ := one_file hs.files2
  exact C116_report hs.ok2 h1

theorem convert_line {fmt : Option String} {l1 l2 : List Spec.CliItem} {input out : String} (hs : Spec.ConvertSession fmt l1 l2 input out) :
    parseArgs (Spec.cliLine "convert" l1) = .run (.convert ⟨fmt, Spec.cliValue l1 "output_format", input, out⟩) := by
  obtain ⟨g, h1, rfl⟩ := one_file hs.files1
  rw [C116_convert hs.ok1 hs.out1 h1, hs.in1]

/-- **C117 for `convert`** and XML files. -/
theorem C117_convert_partial {x : Ext} (hf : Tools.Spec.Faithful x) (hx : x.rd = id) {usage : Bytes} {message : Err → Bytes} (hmsg : ∀ e, message e ≠ [])
    {fmt : Option String} (hfmt : fmt.getD "xml" = "xml") {l1 l2 : List Spec.CliItem} {input out : String} (hs : Spec.ConvertSession fmt l1 l2 input out)
    {args1 args2 : List String} (h1 : Spec.Typed args1 (Spec.cliLine "convert" l1)) (h2 : Spec.Typed args2 (Spec.cliLine "report" l2))
    {w w1 w2 : World} {s1 s2 : Exit} (hm : ucisMain x usage message args1 w = (s1, w1)) (hq : w1.stdout = w.stdout)
    (hr : ucisMain x usage message args2 w1 = (s2, w2)) :
    (∃ doc r, Tools.Spec.Holds x (w.files input) doc ∧
      r.covergroups = saidLines (mergedSaid [said doc]) ∧ r.coverage = saidTotal (mergedSaid [said doc]) ∧
      w2 = Tools.Spec.Reported w1 out (Spec.cliValue l2 "out") (Tools.Spec.txtOf x r)) ∨
    ∃ t e, w2.stdout = w1.stdout ++ t ++ message e := by
  have hm := convert_iff_merge.1 (run_quiet hmsg h1 (convert_line hs) (quiet_convert _ _ _) hm hq)
  rcases run_report h2 (convert_report hs) hr with hr | hr
  · left
    obtain ⟨docs, r, e1, e2, e3, e4⟩ := C113_commands hf hx hfmt hs.fmt1 hs.in2 hs.fmt2 rfl hm hr
    cases e1 with
    | cons e1 ht =>
      cases ht
      exact ⟨_, r, e1, e2, e3, e4⟩
  · exact .inr hr

/-- **C117 for `convert`** and YAML files. -/
theorem C117_convert_yaml_partial {x : Ext} (hf : Tools.Spec.Faithful x) (hx : x.rd = id) {usage : Bytes} {message : Err → Bytes} (hmsg : ∀ e, message e ≠ [])
    {l1 l2 : List Spec.CliItem} {input out : String} (hs : Spec.ConvertSession (some "yaml") l1 l2 input out)
    {args1 args2 : List String} (h1 : Spec.Typed args1 (Spec.cliLine "convert" l1)) (h2 : Spec.Typed args2 (Spec.cliLine "report" l2))
    {w w1 w2 : World} {s1 s2 : Exit} (hm : ucisMain x usage message args1 w = (s1, w1)) (hq : w1.stdout = w.stdout)
    (hr : ucisMain x usage message args2 w1 = (s2, w2)) :
    (∃ d db r, Tools.Spec.HoldsYaml x (w.files input) d db ∧
      r.covergroups = saidLines (mergedSaid [yamlSaid d]) ∧ r.coverage = saidTotal (mergedSaid [yamlSaid d]) ∧
      w2 = Tools.Spec.Reported w1 out (Spec.cliValue l2 "out") (Tools.Spec.txtOf x r)) ∨
    ∃ t e, w2.stdout = w1.stdout ++ t ++ message e := by
  have hm := run_quiet hmsg h1 (convert_line hs) (quiet_convert _ _ _) hm hq
  rcases run_report h2 (convert_report hs) hr with hr | hr
  · left
    exact C115_convert_commands hf hx rfl hs.fmt1 hs.in2 hs.fmt2 rfl hm hr
  · exact .inr hr

/-! ## Examples -/

namespace Ex

/-- `convert a.xml --out=m.xml` -/
def cLine : List Spec.CliItem := [.word "a.xml".toList, .given ⟨outOpt, "--out".toList, true, "m.xml".toList⟩]

theorem cr_session : Spec.ConvertSession none cLine rLine "a.xml" "m.xml" where
  ok1 := by decide
  out1 := by decide
  files1 := by decide
  in1 := by decide
  fmt1 := by decide
  ok2 := by decide
  files2 := by decide
  in2 := by decide
  fmt2 := by decide

/-- `convert --input-format=yaml a.yaml -o m.xml` -/
def yLine : List Spec.CliItem := [.given gFmt, .word "a.yaml".toList, .given ⟨outOpt, "-o".toList, false, "m.xml".toList⟩]

theorem yr_session : Spec.ConvertSession (some "yaml") yLine rLine "a.yaml" "m.xml" where
  ok1 := by decide
  out1 := by decide
  files1 := by decide
  in1 := by decide
  fmt1 := by decide
  ok2 := by decide
  files2 := by decide
  in2 := by decide
  fmt2 := by decide

theorem c_typed : Spec.Typed ["convert", "+seed", "a.xml", "--out=m.xml"] (Spec.cliLine "convert" cLine) := ⟨by decide, by decide⟩
theorem y_typed : Spec.Typed ["convert", "--input-format=yaml", "a.yaml", "-o", "m.xml"] (Spec.cliLine "convert" yLine) := ⟨by decide, by decide⟩

end Ex

/-- If the file read can be merged, stored and reported, the session runs and prints the report. -/
theorem session_runs {x : Ext} (hf : Tools.Spec.Faithful x) (usage : Bytes) (message : Err → Bytes) {fmt : Option String} {l1 l2 : List Spec.CliItem}
    {input : String} (hs : Spec.ConvertSession fmt l1 l2 input "m.xml") {args1 args2 : List String} (h1 : Spec.Typed args1 (Spec.cliLine "convert" l1))
    (h2 : Spec.Typed args2 (Spec.cliLine "report" l2)) (hn : Spec.cliValue l2 "out" = none) {i : DbDesc Database} {w : World} {db : Database}
    (hi : Tools.Spec.Registered (defaultRgy x) (fmt.getD "xml") i) (hw : w.writable "m.xml" = true) (hread : i.fmtIf.read (w.files input) = .ok db) {r : Report.Rpt}
    (h : ((Merge.mergeDb ⟨emptyDb, [], []⟩ [db]).bind (Xml.throughFile x.env)).bind (fun d => Report.build x.rd d.root) = .ok r) :
    ∃ w1 w2, ucisMain x usage message args1 w = (.ok, w1) ∧ w1.stdout = w.stdout ∧ ucisMain x usage message args2 w1 = (.ok, w2) ∧
      w2 = Tools.Spec.Reported w1 "m.xml" none (Tools.Spec.txtOf x r) := by
  obtain ⟨d, h, hb⟩ := Verif.Ex.bind_ok.1 h
  obtain ⟨o, c, m1, m2, m3⟩ := stored_parts h
  obtain ⟨w1, k1, k2⟩ := merge_stores hf (a := ⟨fmt, Spec.cliValue l1 "output_format", [input], "m.xml"⟩) hi hs.fmt1 hw (.cons hread .nil) m1 m2 m3
  have k1' : ucisConvert x ⟨fmt, Spec.cliValue l1 "output_format", input, "m.xml"⟩ w = (.ok (), w1) := convert_iff_merge.2 k1
  have e2 : ucisReport x ⟨Spec.cliValue l2 "input_format", Spec.cliValue l2 "output_format", "m.xml", none⟩ w1 = (.ok (), _) :=
    (C87_report_txt _ _ _ _ hs.fmt2).2 ⟨⟨_, _, _, _⟩, d, r, by rw [hs.in2]; exact registered_xml _, k2, hb, fun _ hp => (nomatch hp), rfl⟩
  refine ⟨w1, _, ?_, ?_, ?_, rfl⟩
  · rw [run_typed x usage message h1 (convert_line hs) w,
      show runCommand x (.convert ⟨fmt, Spec.cliValue l1 "output_format", input, "m.xml"⟩) w = (.ok (), w1) from k1']
    rfl
  · have := quiet_merge (defaultRgy x) Merge.mergeDb ⟨fmt, Spec.cliValue l1 "output_format", [input], "m.xml"⟩ w
    rw [show mergeCmd (defaultRgy x) Merge.mergeDb ⟨fmt, Spec.cliValue l1 "output_format", [input], "m.xml"⟩ w = _ from k1] at this
    exact this
  · rw [run_typed x usage message h2 (convert_report hs) w1, hn, show runCommand x (.report ⟨Spec.cliValue l2 "input_format", Spec.cliValue l2 "output_format", "m.xml", none⟩) w1 = _ from e2]
    rfl

/-- The hypotheses of `C117_convert_partial` are met. -/
example : ∃ (x : Ext) (usage : Bytes) (message : Err → Bytes) (w w1 w2 : World),
    Tools.Spec.Faithful x ∧ x.rd = id ∧ (∀ e, message e ≠ []) ∧ Spec.ConvertSession none Ex.cLine Ex.rLine "a.xml" "m.xml" ∧
    ucisMain x usage message ["convert", "+seed", "a.xml", "--out=m.xml"] w = (.ok, w1) ∧ w1.stdout = w.stdout ∧
    ucisMain x usage message ["report", "m.xml"] w1 = (.ok, w2) ∧ ∃ r, w2 = Tools.Spec.Reported w1 "m.xml" none (Tools.Spec.txtOf x r) := by
  obtain ⟨doc, db, hw, hr, hp⟩ := exPlain_doc
  have hx : xmlWrite exFaithful exPlainDb = (exFaithful.showXml doc, .ok ()) := xmlWrite_ok.2 ⟨doc, hw, rfl⟩
  have ht : Xml.throughFile Xml.exEnv2 exPlainDb = .ok db := by unfold Xml.throughFile; rw [hw]; exact hr
  let w : World := { exWorld with files := fun _ => some (exFaithful.showXml doc) }
  have hread : xmlRead exFaithful (w.files "a.xml") = .ok db := by
    show xmlRead exFaithful (some (exFaithful.showXml doc)) = _
    rw [xmlRead_written exFaithful_ok hx]
    exact ht
  have s1 : ((Xml.throughFile Xml.exEnv2 exPlainDb).bind (fun db => ((Merge.mergeDb ⟨emptyDb, [], []⟩ [db]).bind (Xml.throughFile Xml.exEnv2)).bind
      (fun d => Report.build exFaithful.rd d.root))).isOk = true := by
    decide +kernel
  rw [ht] at s1
  obtain ⟨r, s1⟩ := exists_of_isOk s1
  obtain ⟨w1, w2, e1, e2, e3, e4⟩ := session_runs exFaithful_ok [] (fun _ => [1]) Ex.cr_session Ex.c_typed Ex.r_typed (by decide) (w := w)
    (registered_xml _) rfl hread s1
  exact ⟨exFaithful, [], fun _ => [1], w, w1, w2, exFaithful_ok, rfl, by simp, Ex.cr_session, e1, e2, e3, r, e4⟩

/-- The hypotheses of `C117_convert_yaml_partial` are met. -/
example : ∃ (x : Ext) (usage : Bytes) (message : Err → Bytes) (w w1 w2 : World),
    Tools.Spec.Faithful x ∧ x.rd = id ∧ (∀ e, message e ≠ []) ∧ Spec.ConvertSession (some "yaml") Ex.yLine Ex.rLine "a.yaml" "m.xml" ∧
    ucisMain x usage message ["convert", "--input-format=yaml", "a.yaml", "-o", "m.xml"] w = (.ok, w1) ∧ w1.stdout = w.stdout ∧
    ucisMain x usage message ["report", "m.xml"] w1 = (.ok, w2) ∧ ∃ r, w2 = Tools.Spec.Reported w1 "m.xml" none (Tools.Spec.txtOf x r) := by
  let w : World := { exWorld with files := fun _ => some [1] }
  have s1 : ((Yaml.loadDoc Yaml.exPlain).bind (fun db => ((Merge.mergeDb ⟨emptyDb, [], []⟩ [db]).bind (Xml.throughFile Xml.exEnv2)).bind
      (fun d => Report.build id d.root))).isOk = true := by
    decide +kernel
  obtain ⟨db, r, h1, h2⟩ := exYaml_load
  rw [← Yaml.load_encode, h1] at s1
  obtain ⟨r, s1⟩ := exists_of_isOk s1
  obtain ⟨w1, w2, e1, e2, e3, e4⟩ := session_runs exYaml_ok [] (fun _ => [1]) Ex.yr_session Ex.y_typed Ex.r_typed (by decide) (w := w)
    (registered_yaml _) rfl h1 s1
  exact ⟨exYaml, [], fun _ => [1], w, w1, w2, exYaml_ok, rfl, by simp, Ex.yr_session, e1, e2, e3, r, e4⟩

end Cli
end Verif
