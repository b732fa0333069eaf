import Verif.FileHits
import Verif.Session
import Verif.JsonTextThms
/-!
# A shell session with a JSON report (C138)

No new code: runs of the program as in C117, with `report -of json`.
-/

namespace Verif

namespace Spec
open Report (RCg)

/-- The bytes are the JSON text of a report with these covergroups and this overall figure; there are no crosses among them.  If floating-point numbers are
written as JSON numbers that mean them, it is a JSON text in ASCII, and stands for that value only. -/
def JsonShows (x : Tools.Ext) (lines : List RCg) (total : Rat) (text : Tools.Bytes) : Prop :=
  crossesOfL lines = [] ∧ ∃ j, text = x.showJson j ∧ (∀ c gs, saysReport (Format.encJRpt j) c gs ↔ c = total ∧ gs = viewRL lines) ∧
    ∀ sh, (∀ j, x.showJson j = Tools.Spec.utf8 (JsonText.reportText sh j)) → JsonText.Floats x.rd sh (Format.encJRpt j) →
      ∃ t, text = Tools.Spec.utf8 t ∧ (∀ c ∈ t, c.toNat < 128) ∧ ∀ v, JDoc (numberValue x.rd) v t ↔ v = JsonText.toVal (Format.encJRpt j)

/-- The lines typed: a `merge` line with file names standing together and an output file, then a `report` line on that output file with the option
`--output-format json`. -/
structure JsonSession (fmt : Option String) (l1 l2 : List CliItem) (out : String) : Prop where
  ok1 : ∀ i ∈ l1, i.Ok Cli.mergeParser
  out1 : cliValue l1 "out" = some out
  files1 : cliFiles l1 ≠ []
  together : cliTogether l1
  in1 : cliValue l1 "input_format" = fmt
  fmt1 : (cliValue l1 "output_format").getD "xml" = "xml"
  ok2 : ∀ i ∈ l2, i.Ok Cli.reportParser
  files2 : (cliFiles l2).map String.ofList = [out]
  in2 : (cliValue l2 "input_format").getD "xml" = "xml"
  fmt2 : cliValue l2 "output_format" = some "json"

end Spec

namespace Tools
open Format Report JsonText

/-- The JSON report that the command makes of an XML file, in exact arithmetic. -/
theorem json_of_xml {x : Ext} (hx : x.rd = id) {b : ReportArgs} {w w' : World} (hbi : b.inputFormat.getD "xml" = "xml") (hbo : b.outputFormat = some "json")
    (h : ucisReport x b w = (.ok (), w')) :
    ∃ db r text, xmlRead x (w.files b.db) = .ok db ∧ build id db.root = .ok r ∧ Verif.Spec.JsonShows x r.covergroups r.coverage text ∧
      w' = Spec.Reported w b.db b.out text := by
  obtain ⟨i, d, j, h1, h2, h3, _, h4⟩ := (report_json_ok x b w hbo w').1 h
  rw [hbi] at h1
  cases (registered_xml x).symm.trans h1
  rw [hx] at h3
  obtain ⟨c1, c2, c3⟩ := C30_json_partial id d.root
  cases hb : build id d.root with
  | error e => rw [c3 e hb] at h3; cases h3
  | ok r =>
    by_cases hc : Verif.Spec.crossesOfL r.covergroups = []
    · obtain ⟨j', hj, hs⟩ := C109_reads id d.root r hb hc
      cases h3.symm.trans hj
      refine ⟨d, r, x.showJson j, h2, hb, ⟨hc, j, rfl, hs, fun sh hsh hfl => ?_⟩, h4⟩
      obtain ⟨t1, _, t3⟩ := C133_text hfl
      exact ⟨reportText sh j, hsh j, t3, fun v => ⟨fun hv => C133_unique hv t1, fun hv => hv ▸ t1⟩⟩
    · rw [c2 r hb hc] at h3; cases h3

end Tools

namespace Cli
open Tools Cmd
open Verif.Spec (said saidLines saidTotal mergedSaid yamlSaid JsonShows JsonSession)

theorem json_report_line {fmt : Option String} {l1 l2 : List Spec.CliItem} {out : String} (hs : JsonSession fmt l1 l2 out) :
    parseArgs (Spec.cliLine "report" l2) =
      .run (.report ⟨Spec.cliValue l2 "input_format", Spec.cliValue l2 "output_format", out, Spec.cliValue l2 "out"⟩) := by
  have h := hs.files2
  rcases hf : Spec.cliFiles l2 with _ | ⟨f, _ | ⟨g, t⟩⟩ <;> rw [hf] at h <;> simp at h
  rw [C116_report hs.ok2 hf, h]

/-- **C138** (partial) If the first run prints nothing, then the second run writes the JSON report computed from the documents in the input files, or ends with the
message of an exception.  Full statement: without the condition on the first run, and the report is also made if there are crosses; see
`C138_crosses_refuted`. -/
theorem C138_session_partial {x : Ext} (hf : Tools.Spec.Faithful x) (hx : x.rd = id) {usage : Bytes} {message : Err → Bytes} (hmsg : ∀ e, message e ≠ [])
    {fmt : Option String} (hfmt : fmt.getD "xml" = "xml") {l1 l2 : List Spec.CliItem} {out : String} (hs : JsonSession fmt l1 l2 out)
    {args1 args2 : List String} (h1 : Spec.Typed args1 (Spec.cliLine "merge" l1)) (h2 : Spec.Typed args2 (Spec.cliLine "report" l2))
    {w w1 w2 : World} {s1 s2 : Exit} (hm : ucisMain x usage message args1 w = (s1, w1)) (hq : w1.stdout = w.stdout)
    (hr : ucisMain x usage message args2 w1 = (s2, w2)) :
    ∃ docs, List.Forall₂ (fun p doc => Tools.Spec.Holds x (w.files (String.ofList p)) doc) (Spec.cliFiles l1) docs ∧
      ((∃ text, JsonShows x (saidLines (mergedSaid (docs.map said))) (saidTotal (mergedSaid (docs.map said))) text ∧
        w2 = Tools.Spec.Reported w1 out (Spec.cliValue l2 "out") text) ∨
      ∃ t e, w2.stdout = w1.stdout ++ t ++ message e) := by
  have hm := run_quiet hmsg h1 (C116_merge_partial hs.ok1 hs.out1 hs.files1 hs.together) (quiet_merge _ _ _) hm hq
  obtain ⟨dbs, o, q1, q2, q3⟩ := merge_to_xml (i := ⟨_, _, _, _⟩) hf (by rw [hs.in1, hfmt]; exact registered_xml x) hs.fmt1 hm
  obtain ⟨docs, e1, e2, _⟩ := xml_holds q1
  refine ⟨docs, forall₂_ofList e1, ?_⟩
  rcases run_report h2 (json_report_line hs) hr with hr | hr
  · left
    obtain ⟨db, r, text, k1, k2, k3, k4⟩ := json_of_xml hx hs.in2 hs.fmt2 hr
    obtain ⟨g1, g2⟩ := C113_report hf.env e2 (reads_files q1) q2 (q3.symm.trans k1) k2
    rw [g1, g2] at k3
    exact ⟨text, k3, k4⟩
  · exact .inr hr

/-- **C138 for YAML files**, with the option `--input-format yaml` of `merge`. -/
theorem C138_session_yaml_partial {x : Ext} (hf : Tools.Spec.Faithful x) (hx : x.rd = id) {usage : Bytes} {message : Err → Bytes} (hmsg : ∀ e, message e ≠ [])
    {l1 l2 : List Spec.CliItem} {out : String} (hs : JsonSession (some "yaml") l1 l2 out)
    {args1 args2 : List String} (h1 : Spec.Typed args1 (Spec.cliLine "merge" l1)) (h2 : Spec.Typed args2 (Spec.cliLine "report" l2))
    {w w1 w2 : World} {s1 s2 : Exit} (hm : ucisMain x usage message args1 w = (s1, w1)) (hq : w1.stdout = w.stdout)
    (hr : ucisMain x usage message args2 w1 = (s2, w2)) :
    ∃ ds, List.Forall₂ (fun p d => ∃ db, Tools.Spec.HoldsYaml x (w.files (String.ofList p)) d db) (Spec.cliFiles l1) ds ∧
      ((∃ text, JsonShows x (saidLines (mergedSaid (ds.map yamlSaid))) (saidTotal (mergedSaid (ds.map yamlSaid))) text ∧
        w2 = Tools.Spec.Reported w1 out (Spec.cliValue l2 "out") text) ∨
      ∃ t e, w2.stdout = w1.stdout ++ t ++ message e) := by
  have hm := run_quiet hmsg h1 (C116_merge_partial hs.ok1 hs.out1 hs.files1 hs.together) (quiet_merge _ _ _) hm hq
  obtain ⟨dbs, o, q1, q2, q3⟩ := merge_to_xml (i := ⟨_, _, _, _⟩) hf (by rw [hs.in1]; exact registered_yaml x) hs.fmt1 hm
  obtain ⟨ds, e1, e2⟩ := yaml_documents q1
  refine ⟨ds, forall₂_ofList e1, ?_⟩
  rcases run_report h2 (json_report_line hs) hr with hr | hr
  · left
    obtain ⟨db, r, text, k1, k2, k3, k4⟩ := json_of_xml hx hs.in2 hs.fmt2 hr
    obtain ⟨g1, g2⟩ := Yaml.C115_report hf.env e2 q2 (q3.symm.trans k1) k2
    rw [g1, g2] at k3
    exact ⟨text, k3, k4⟩
  · exact .inr hr

/-- **C138** fails whenever the documents have crosses: then the second run ends with the message of an exception, and with status 0. -/
theorem C138_crosses_refuted {x : Ext} (hf : Tools.Spec.Faithful x) (hx : x.rd = id) {usage : Bytes} {message : Err → Bytes} (hmsg : ∀ e, message e ≠ [])
    {fmt : Option String} (hfmt : fmt.getD "xml" = "xml") {l1 l2 : List Spec.CliItem} {out : String} (hs : JsonSession fmt l1 l2 out)
    {args1 args2 : List String} (h1 : Spec.Typed args1 (Spec.cliLine "merge" l1)) (h2 : Spec.Typed args2 (Spec.cliLine "report" l2))
    {w w1 w2 : World} {s1 s2 : Exit} (hm : ucisMain x usage message args1 w = (s1, w1)) (hq : w1.stdout = w.stdout)
    (hr : ucisMain x usage message args2 w1 = (s2, w2)) {docs : List Xml.Elem}
    (hd : List.Forall₂ (fun p doc => Tools.Spec.Holds x (w.files (String.ofList p)) doc) (Spec.cliFiles l1) docs)
    (hc : Spec.crossesOfL (saidLines (mergedSaid (docs.map said))) ≠ []) :
    s2.status = 0 ∧ ∃ t e, w2.stdout = w1.stdout ++ t ++ message e := by
  have hst : s2.status = 0 := by
    rw [C116_program x usage message h2.nonempty (by rw [h2.rest]; exact json_report_line hs) w1] at hr
    rcases hc : runCommand x (.report ⟨Spec.cliValue l2 "input_format", Spec.cliValue l2 "output_format", out, Spec.cliValue l2 "out"⟩) w1 with ⟨r, v⟩
    rw [hc] at hr
    cases r <;> · cases hr; rfl
  obtain ⟨docs', hd', h⟩ := C138_session_partial hf hx hmsg hfmt hs h1 h2 hm hq hr
  have : docs = docs' := by
    clear hc h hr hm hs h1
    generalize Spec.cliFiles l1 = ps at hd hd'
    induction hd generalizing docs' with
    | nil => cases hd'; rfl
    | cons a _ ih => cases hd' with
      | cons b h => rw [holds_unique a b, ih _ h]
  subst this
  rcases h with ⟨text, h, _⟩ | h
  · exact absurd h.1 hc
  · exact ⟨hst, h⟩

/-! ## Examples -/

namespace Ex

/-- `report m.xml --output-format json` -/
def rjLine : List Spec.CliItem := [.word "m.xml".toList, .given ⟨outFmtOpt, "--output-format".toList, false, "json".toList⟩]

theorem json_session : JsonSession none mLine rjLine "m.xml" where
  ok1 := by decide
  out1 := by decide
  files1 := by decide
  together := ⟨[], ["a.xml".toList], [⟨outOpt, "--out".toList, true, "m.xml".toList⟩], rfl⟩
  in1 := by decide
  fmt1 := by decide
  ok2 := by decide
  files2 := by decide
  in2 := by decide
  fmt2 := by decide

theorem rj_typed : Spec.Typed ["report", "m.xml", "--output-format", "json"] (Spec.cliLine "report" rjLine) := ⟨by decide, by decide⟩

/-- The first run, with the file that the writer makes of a database as the input file. -/
theorem merge_run {db0 : Database} {P : Report.Rpt → Bool}
    (h : ((Xml.throughFile Xml.exEnv2 db0).bind (fun db => ((Merge.mergeDb ⟨emptyDb, [], []⟩ [db]).bind (Xml.throughFile Xml.exEnv2)).bind
      (fun d => (Report.build id d.root).map P))) = .ok true) :
    ∃ (w w1 : World) (doc : Xml.Elem) (d : Database) (r : Report.Rpt),
      ucisMain exFaithful [] (fun _ => [1]) ["merge", "+seed", "a.xml", "--out=m.xml"] w = (.ok, w1) ∧ w1.stdout = w.stdout ∧
      Tools.Spec.Holds exFaithful (w.files "a.xml") doc ∧ xmlRead exFaithful (w1.files "m.xml") = .ok d ∧ Report.build id d.root = .ok r ∧ P r = true ∧
      r.covergroups = saidLines (mergedSaid [said doc]) := by
  obtain ⟨db, ht, h⟩ := Ex.bind_ok.1 h
  obtain ⟨d, s1, h⟩ := Ex.bind_ok.1 (show ((Merge.mergeDb ⟨emptyDb, [], []⟩ [db]).bind (Xml.throughFile Xml.exEnv2)).bind _ = _ from h)
  have ⟨r, hb, hP⟩ : ∃ r, Report.build id d.root = .ok r ∧ P r = true := by
    cases hb : Report.build id d.root with
    | error e => rw [hb] at h; cases h
    | ok r => rw [hb] at h; exact ⟨r, rfl, Except.ok.inj h⟩
  have ⟨doc0, hw⟩ : ∃ doc, Xml.write Xml.exEnv2 db0 = .ok doc := by
    unfold Xml.throughFile at ht
    cases hw : Xml.write Xml.exEnv2 db0 with
    | error e => rw [hw] at ht; cases ht
    | ok doc => exact ⟨doc, rfl⟩
  have hx : xmlWrite exFaithful db0 = (exFaithful.showXml doc0, .ok ()) := xmlWrite_ok.2 ⟨doc0, hw, rfl⟩
  let w : World := { exWorld with files := fun _ => some (exFaithful.showXml doc0) }
  have hread : xmlRead exFaithful (w.files "a.xml") = .ok db := by
    show xmlRead exFaithful (some (exFaithful.showXml doc0)) = _
    rw [xmlRead_written exFaithful_ok hx]
    exact ht
  obtain ⟨doc, hh, hfr⟩ := xmlRead_ok.1 hread
  obtain ⟨o1, c1, m1, q1, t1⟩ := stored_parts s1
  obtain ⟨w1, e1, f1⟩ := merge_stores exFaithful_ok (a := ⟨none, none, ["a.xml"], "m.xml"⟩) (w := w) (i := ⟨_, _, _, _⟩) (registered_xml _) rfl rfl
    (.cons hread .nil) m1 q1 t1
  have hq : w1.stdout = w.stdout := by
    have := quiet_merge (defaultRgy exFaithful) Merge.mergeDb ⟨none, none, ["a.xml"], "m.xml"⟩ w
    rw [show mergeCmd (defaultRgy exFaithful) Merge.mergeDb ⟨none, none, ["a.xml"], "m.xml"⟩ w = _ from e1] at this
    exact this
  refine ⟨w, w1, doc, d, r, ?_, hq, hh, f1, hb, hP, ?_⟩
  · rw [C116_program _ _ _ m_typed.nonempty (c := .merge ⟨none, none, ["a.xml"], "m.xml"⟩ none) (by rfl)]
    rw [show runCommand exFaithful (.merge ⟨none, none, ["a.xml"], "m.xml"⟩ none) w = _ from e1]
  · obtain ⟨o, m2, t2⟩ := Ex.bind_ok.1 s1
    have := (C113_report exFaithful_ok.env (docs := [doc]) (.cons ⟨_, (factoryRead_ok.1 hfr).2⟩ .nil)
      (reads_files (x := exFaithful) (files := w.files) (ps := ["a.xml"]) (.cons hread .nil)) m2
      t2 hb).1
    exact this

/-- A database without crosses. -/
def crossless : Database := { root := { emptyDb with children := [mkInstance "top" SrcInfo.none 1 none
  [mkCovergroup "cg" ⟨some "a.sv", 7, 0⟩ 2 [mkCoverInst "i1" SrcInfo.none 1
    [mkCoverpoint "a" SrcInfo.none 1 [mkBin "x" CT.CVGBIN 1 3, mkBin "y" CT.CVGBIN 1 0]]]]] }, hist := [], files := [] }

end Ex

/-- The hypotheses of `C138_session_partial` are met, and the report is made. -/
example : ∃ (x : Ext) (usage : Bytes) (message : Err → Bytes) (w w1 w2 : World) (s1 s2 : Exit),
    Tools.Spec.Faithful x ∧ x.rd = id ∧ (∀ e, message e ≠ []) ∧ JsonSession none Ex.mLine Ex.rjLine "m.xml" ∧
    Spec.Typed ["merge", "+seed", "a.xml", "--out=m.xml"] (Spec.cliLine "merge" Ex.mLine) ∧
    Spec.Typed ["report", "m.xml", "--output-format", "json"] (Spec.cliLine "report" Ex.rjLine) ∧
    ucisMain x usage message ["merge", "+seed", "a.xml", "--out=m.xml"] w = (s1, w1) ∧ w1.stdout = w.stdout ∧
    ucisMain x usage message ["report", "m.xml", "--output-format", "json"] w1 = (s2, w2) ∧ ∃ text, w2 = Tools.Spec.Reported w1 "m.xml" none text := by
  obtain ⟨w, w1, doc, d, r, h1, hq, _, h2, hb, hP, _⟩ := Ex.merge_run (db0 := Ex.crossless) (P := fun r => (Spec.crossesOfL r.covergroups).isEmpty)
    (by decide +kernel)
  obtain ⟨j, hj, _⟩ := Format.C109_reads id d.root r hb (List.isEmpty_iff.1 hP)
  have e2 := (report_json_ok exFaithful ⟨none, some "json", "m.xml", none⟩ w1 rfl _).2 ⟨⟨_, _, _, _⟩, d, j, registered_xml _, h2, hj, fun _ hp => (nomatch hp), rfl⟩
  refine ⟨exFaithful, [], fun _ => [1], w, w1, _, .ok, .ok, exFaithful_ok, rfl, by simp, Ex.json_session, Ex.m_typed, Ex.rj_typed, h1, hq, ?_, exFaithful.showJson j, rfl⟩
  rw [C116_program _ _ _ Ex.rj_typed.nonempty (c := .report ⟨none, some "json", "m.xml", none⟩) (by rfl)]
  rw [show runCommand exFaithful (.report ⟨none, some "json", "m.xml", none⟩) w1 = _ from e2]

/-- The hypotheses of `C138_crosses_refuted` are met. -/
example : ∃ (x : Ext) (usage : Bytes) (message : Err → Bytes) (w w1 : World) (s1 : Exit) (docs : List Xml.Elem),
    Tools.Spec.Faithful x ∧ x.rd = id ∧ (∀ e, message e ≠ []) ∧ JsonSession none Ex.mLine Ex.rjLine "m.xml" ∧
    Spec.Typed ["merge", "+seed", "a.xml", "--out=m.xml"] (Spec.cliLine "merge" Ex.mLine) ∧
    Spec.Typed ["report", "m.xml", "--output-format", "json"] (Spec.cliLine "report" Ex.rjLine) ∧
    ucisMain x usage message ["merge", "+seed", "a.xml", "--out=m.xml"] w = (s1, w1) ∧ w1.stdout = w.stdout ∧
    List.Forall₂ (fun p doc => Tools.Spec.Holds x (w.files (String.ofList p)) doc) (Spec.cliFiles Ex.mLine) docs ∧
    Spec.crossesOfL (saidLines (mergedSaid (docs.map said))) ≠ [] := by
  obtain ⟨w, w1, doc, d, r, h1, hq, hh, _, _, hP, hl⟩ := Ex.merge_run (db0 := exPlainDb) (P := fun r => !(Spec.crossesOfL r.covergroups).isEmpty)
    (by decide +kernel)
  refine ⟨exFaithful, [], fun _ => [1], w, w1, .ok, [doc], exFaithful_ok, rfl, by simp, Ex.json_session, Ex.m_typed, Ex.rj_typed, h1, hq,
    (.cons hh .nil : List.Forall₂ _ ["a.xml".toList] _), ?_⟩
  intro h
  rw [hl] at hP
  rw [show ([doc].map said) = [said doc] from rfl] at h
  rw [h] at hP
  cases hP

end Cli
end Verif
