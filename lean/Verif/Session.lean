import Verif.CliThms
import Verif.YamlMerged
/-!
# A session in the shell: `pyucis merge`, then `pyucis report` (C117)

No new code.  Theorems about command lines (C116) are joined with those about the commands (C113, C115).
-/

namespace Verif
namespace Cli
open Tools Cmd
open Verif.Spec (said saidLines saidTotal mergedSaid yamlSaid)

/-! ## What commands print -/

/-- Whatever the outcome, something may have been added to standard output. -/
def Adds {α : Type} (c : Cmd α) : Prop := ∀ w, ∃ t, (c w).2.stdout = w.stdout ++ t

/-- Whatever the outcome, nothing is printed. -/
def Quiet {α : Type} (c : Cmd α) : Prop := ∀ w, (c w).2.stdout = w.stdout

section
variable {α β D : Type}

theorem Quiet.adds {c : Cmd α} (h : Quiet c) : Adds c := fun w => ⟨[], by rw [h w]; simp⟩

theorem Quiet.bind {c : Cmd α} {f : α → Cmd β} (h : Quiet c) (hf : ∀ a, Quiet (f a)) : Quiet (c >>= f) := by
  intro w
  rw [bind_def]
  have := h w
  generalize c w = y at this ⊢
  rcases y with ⟨r, w'⟩
  cases r with
  | error e => exact this
  | ok a => exact (hf a w').trans this

theorem Adds.bind {c : Cmd α} {f : α → Cmd β} (h : Adds c) (hf : ∀ a, Adds (f a)) : Adds (c >>= f) := by
  intro w
  rw [bind_def]
  obtain ⟨t, ht⟩ := h w
  generalize c w = y at ht ⊢
  rcases y with ⟨r, w'⟩
  cases r with
  | error e => exact ⟨t, ht⟩
  | ok a =>
    obtain ⟨t', ht'⟩ := hf a w'
    exact ⟨t ++ t', by rw [ht', show w'.stdout = w.stdout ++ t from ht, List.append_assoc]⟩

theorem quiet_lift (x : Except Err α) : Quiet (lift x) := fun _ => rfl
theorem quiet_fail (e : Err) : Quiet (fail e : Cmd α) := fun _ => rfl
theorem quiet_pure (a : α) : Quiet (Pure.pure a : Cmd α) := fun _ => rfl

theorem Quiet.wrap {c : Cmd α} (h : Quiet c) : Quiet (wrap c) := by
  intro w
  have := h w
  unfold Cmd.wrap
  generalize c w = y at this ⊢
  rcases y with ⟨r, w'⟩
  cases r <;> exact this

theorem quiet_read (f : DbIf D) (p : String) : Quiet (readFile f p) := fun _ => rfl

theorem quiet_mapM {f : α → Cmd β} (h : ∀ a, Quiet (f a)) (l : List α) : Quiet (l.mapM f) := by
  induction l with
  | nil => simpa using quiet_pure _
  | cons a t ih =>
    rw [List.mapM_cons]
    exact (h a).bind (fun _ => ih.bind (fun _ => quiet_pure _))

theorem quiet_open (p : String) : Quiet (openWrite p) := by
  intro w
  unfold openWrite
  cases w.writable p <;> rfl

theorem quiet_emit (p : String) (o : Bytes × Except Err Unit) : Quiet (emit p o) := fun _ => rfl

theorem quiet_write (f : DbIf D) (p : String) (d : D) : Quiet (writeDb f p d) :=
  (quiet_lift _).bind (fun _ => (quiet_open p).bind (fun _ => quiet_emit _ _))

theorem quiet_ite {c : Prop} [Decidable c] {x y : Cmd α} (hx : Quiet x) (hy : Quiet y) : Quiet (if c then x else y) := by
  by_cases h : c
  · rw [if_pos h]; exact hx
  · rw [if_neg h]; exact hy

/-- `merge` prints nothing (before the error message, if there is one). -/
theorem quiet_merge (rgy : Rgy D) (mrg : D → List D → Except Err D) (a : MergeArgs) : Quiet (mergeCmd rgy mrg a) := by
  unfold mergeCmd
  refine quiet_ite (quiet_fail _) (quiet_ite (quiet_fail _) ?_)
  exact (quiet_lift _).bind (fun _ => (quiet_lift _).bind (fun _ => (quiet_mapM (fun _ => (quiet_read _ _).wrap) _).bind
    (fun _ => (quiet_lift _).bind (fun _ => ((quiet_lift _).wrap).bind (fun _ => quiet_write _ _ _)))))

theorem quiet_convert (rgy : Rgy D) (mrg : D → List D → Except Err D) (a : ConvertArgs) : Quiet (convertCmd rgy mrg a) := by
  unfold convertCmd
  refine quiet_ite (quiet_fail _) (quiet_ite (quiet_fail _) ?_)
  exact (quiet_lift _).bind (fun _ => (quiet_lift _).bind (fun _ => ((quiet_read _ _).wrap).bind
    (fun _ => (quiet_lift _).bind (fun _ => (quiet_lift _).bind (fun _ => quiet_write _ _ _)))))

theorem quiet_dir (f : RptIf D) (d : D) (p : String) : Quiet (reportIntoDir f d p) := by
  intro w
  unfold reportIntoDir
  by_cases h : w.isDir p
  · rw [if_pos h]
    have : Quiet (do rmtree p; makedirs p; emitDir p (f.reportDir d); fail .attributeError : Cmd Unit) :=
      Quiet.bind (fun _ => rfl) (fun _ => Quiet.bind (fun _ => rfl) (fun _ => Quiet.bind (fun _ => rfl) (fun _ => quiet_fail _)))
    exact this w
  · rw [if_neg h]
    by_cases h' : (w.files p).isSome
    · rw [if_pos h']
    · rw [if_neg h']

theorem adds_ite {c : Prop} [Decidable c] {x y : Cmd α} (hx : Adds x) (hy : Adds y) : Adds (if c then x else y) := by
  by_cases h : c
  · rw [if_pos h]; exact hx
  · rw [if_neg h]; exact hy

theorem adds_report (rgy : Rgy D) (a : ReportArgs) : Adds (reportCmd rgy a) := by
  unfold reportCmd
  refine adds_ite (quiet_fail _).adds (adds_ite (quiet_fail _).adds ?_)
  refine (quiet_lift _).adds.bind (fun i => (quiet_lift _).adds.bind (fun o => (quiet_read _ _).adds.bind (fun d => ?_)))
  cases a.out with
  | none => exact adds_ite (quiet_fail _).adds (fun w => ⟨_, rfl⟩)
  | some p =>
    exact adds_ite ((quiet_open _).adds.bind (fun _ => (quiet_emit _ _).adds)) (adds_ite (quiet_dir _ _ _).adds (quiet_fail _).adds)

end

/-! ## Runs of the program -/

/-- A program call with the words `args`, among them plus-arguments that are filtered out before the rest, `line`, is parsed. -/
structure _root_.Verif.Spec.Typed (args line : List String) : Prop where
  nonempty : "" ∉ args
  rest : args.filter (fun a => a.toList.head? != some '+') = line

theorem run_quiet {x : Ext} {usage : Bytes} {message : Err → Bytes} (hmsg : ∀ e, message e ≠ []) {args : List String} {c : Command}
    {line : List String} (ht : Spec.Typed args line) (hp : parseArgs line = .run c) (hq : Quiet (runCommand x c)) {w w' : World} {s : Exit}
    (h : ucisMain x usage message args w = (s, w')) (hw : w'.stdout = w.stdout) : runCommand x c w = (.ok (), w') := by
  rw [C116_program x usage message ht.nonempty (by rw [ht.rest]; exact hp) w] at h
  have hq := hq w
  rcases hr : runCommand x c w with ⟨r, v⟩
  rw [hr] at h hq
  cases r with
  | ok u => cases h; rfl
  | error e =>
    cases h
    exfalso
    have hq : v.stdout = w.stdout := hq
    have hw : v.stdout ++ message e = w.stdout := hw
    rw [hq] at hw
    exact hmsg e (by simpa using hw)

theorem run_report {x : Ext} {usage : Bytes} {message : Err → Bytes} {args : List String} {b : ReportArgs}
    {line : List String} (ht : Spec.Typed args line) (hp : parseArgs line = .run (.report b)) {w w' : World} {s : Exit}
    (h : ucisMain x usage message args w = (s, w')) :
    ucisReport x b w = (.ok (), w') ∨ ∃ t e, w'.stdout = w.stdout ++ t ++ message e := by
  rw [C116_program x usage message ht.nonempty (by rw [ht.rest]; exact hp) w] at h
  obtain ⟨t, hq⟩ := adds_report (defaultRgy x) b w
  have hq : (runCommand x (.report b) w).2.stdout = w.stdout ++ t := hq
  rcases hr : runCommand x (.report b) w with ⟨r, v⟩
  rw [hr] at h hq
  cases r with
  | ok u => cases h; exact .inl hr
  | error e =>
    cases h
    right
    exact ⟨t, e, by rw [← hq]⟩

/-! ## The session -/

/-- The lines typed: a `merge` line with file names standing together and an output file, then a `report` line on that output
file; both without options for formats other than XML files and text reports, except that the input format `fmt` of `merge` is given. -/
structure _root_.Verif.Spec.ShellSession (fmt : Option String) (l1 l2 : List Spec.CliItem) (out : String) : Prop where
  ok1 : ∀ i ∈ l1, i.Ok mergeParser
  out1 : Spec.cliValue l1 "out" = some out
  files1 : Spec.cliFiles l1 ≠ []
  together : Spec.cliTogether l1
  in1 : Spec.cliValue l1 "input_format" = fmt
  fmt1 : (Spec.cliValue l1 "output_format").getD "xml" = "xml"
  ok2 : ∀ i ∈ l2, i.Ok reportParser
  files2 : (Spec.cliFiles l2).map String.ofList = [out]
  in2 : (Spec.cliValue l2 "input_format").getD "xml" = "xml"
  fmt2 : (Spec.cliValue l2 "output_format").getD "txt" = "txt"

theorem session_report {fmt : Option String} {l1 l2 : List Spec.CliItem} {out : String} (hs : Spec.ShellSession fmt l1 l2 out) :
    parseArgs (Spec.cliLine "report" l2) =
      .run (.report ⟨Spec.cliValue l2 "input_format", Spec.cliValue l2 "output_format", out, Spec.cliValue l2 "out"⟩) := by
  have h := hs.files2
  rcases hf : Spec.cliFiles l2 with _ | ⟨f, _ | ⟨g, t⟩⟩ <;> rw [hf] at h <;> simp at h
  rw [C116_report hs.ok2 hf, h]

theorem forall₂_ofList {β : Type} {R : String → β → Prop} {l : List Word} {l' : List β} (h : List.Forall₂ R (l.map String.ofList) l') :
    List.Forall₂ (fun p b => R (String.ofList p) b) l l' := List.forall₂_map_left_iff.1 h

/-- **C117.** Two runs of the program: `merge` of XML files, then `report` on the output.  If the first prints nothing, then the second prints (or
writes to the file given with `--out`) exactly the text of the report that is computed from the documents in the input
files, or it prints an error message.  (Exact arithmetic; how the options are spelled, their order and plus-arguments do not matter.) -/
theorem C117_session_partial {x : Ext} (hf : Tools.Spec.Faithful x) (hx : x.rd = id) {usage : Bytes} {message : Err → Bytes} (hmsg : ∀ e, message e ≠ [])
    {fmt : Option String} (hfmt : fmt.getD "xml" = "xml") {l1 l2 : List Spec.CliItem} {out : String} (hs : Spec.ShellSession fmt l1 l2 out)
    {args1 args2 : List String} (h1 : Spec.Typed args1 (Spec.cliLine "merge" l1)) (h2 : Spec.Typed args2 (Spec.cliLine "report" l2))
    {w w1 w2 : World} {s1 s2 : Exit} (hm : ucisMain x usage message args1 w = (s1, w1)) (hq : w1.stdout = w.stdout)
    (hr : ucisMain x usage message args2 w1 = (s2, w2)) :
    (∃ docs r, List.Forall₂ (fun p doc => Tools.Spec.Holds x (w.files (String.ofList p)) doc) (Spec.cliFiles l1) docs ∧
      r.covergroups = saidLines (mergedSaid (docs.map said)) ∧ r.coverage = saidTotal (mergedSaid (docs.map said)) ∧
      w2 = Tools.Spec.Reported w1 out (Spec.cliValue l2 "out") (Tools.Spec.txtOf x r)) ∨
    ∃ t e, w2.stdout = w1.stdout ++ t ++ message e := by
  have hm := run_quiet hmsg h1 (C116_merge_partial hs.ok1 hs.out1 hs.files1 hs.together) (quiet_merge _ _ _) hm hq
  rcases run_report h2 (session_report hs) hr with hr | hr
  · left
    obtain ⟨docs, r, e1, e2, e3, e4⟩ := C113_commands hf hx (by rw [hs.in1]; exact hfmt) hs.fmt1 hs.in2 hs.fmt2 rfl hm hr
    exact ⟨docs, r, forall₂_ofList e1, e2, e3, e4⟩
  · exact .inr hr

/-- **C117 for YAML files**, with the option `--input-format yaml` of `merge`. -/
theorem C117_session_yaml_partial {x : Ext} (hf : Tools.Spec.Faithful x) (hx : x.rd = id) {usage : Bytes} {message : Err → Bytes} (hmsg : ∀ e, message e ≠ [])
    {l1 l2 : List Spec.CliItem} {out : String} (hs : Spec.ShellSession (some "yaml") l1 l2 out)
    {args1 args2 : List String} (h1 : Spec.Typed args1 (Spec.cliLine "merge" l1)) (h2 : Spec.Typed args2 (Spec.cliLine "report" l2))
    {w w1 w2 : World} {s1 s2 : Exit} (hm : ucisMain x usage message args1 w = (s1, w1)) (hq : w1.stdout = w.stdout)
    (hr : ucisMain x usage message args2 w1 = (s2, w2)) :
    (∃ ds r, List.Forall₂ (fun p d => ∃ db, Tools.Spec.HoldsYaml x (w.files (String.ofList p)) d db) (Spec.cliFiles l1) ds ∧
      r.covergroups = saidLines (mergedSaid (ds.map yamlSaid)) ∧ r.coverage = saidTotal (mergedSaid (ds.map yamlSaid)) ∧
      w2 = Tools.Spec.Reported w1 out (Spec.cliValue l2 "out") (Tools.Spec.txtOf x r)) ∨
    ∃ t e, w2.stdout = w1.stdout ++ t ++ message e := by
  have hm := run_quiet hmsg h1 (C116_merge_partial hs.ok1 hs.out1 hs.files1 hs.together) (quiet_merge _ _ _) hm hq
  rcases run_report h2 (session_report hs) hr with hr | hr
  · left
    obtain ⟨ds, r, e1, e2, e3, e4⟩ := C115_commands hf hx hs.in1 hs.fmt1 hs.in2 hs.fmt2 rfl hm hr
    exact ⟨ds, r, forall₂_ofList e1, e2, e3, e4⟩
  · exact .inr hr

/-- The condition that the first run prints nothing is needed: if an input file cannot be read, the status is 0 and all files are as before, so
the report is about what was in the output file before. -/
theorem C117_stale {x : Ext} {usage : Bytes} {message : Err → Bytes} {fmt : Option String} (hfmt : fmt.getD "xml" = "xml")
    {l1 l2 : List Spec.CliItem} {out : String} (hs : Spec.ShellSession fmt l1 l2 out)
    {args1 : List String} (h1 : Spec.Typed args1 (Spec.cliLine "merge" l1)) {w w1 : World} {s1 : Exit}
    (hm : ucisMain x usage message args1 w = (s1, w1)) {f : Word} (hf : f ∈ Spec.cliFiles l1) (hn : w.files (String.ofList f) = none) :
    s1.status = 0 ∧ w1.files = w.files ∧ ∃ e, w1.stdout = w.stdout ++ message e := by
  rw [C116_program x usage message h1.nonempty (by rw [h1.rest]; exact C116_merge_partial hs.ok1 hs.out1 hs.files1 hs.together) w] at hm
  have hno : ∀ i dbs, Tools.Spec.Registered (defaultRgy x) (fmt.getD "xml") i →
      ¬ Tools.Spec.Reads i.fmtIf w.files ((Spec.cliFiles l1).map String.ofList) dbs := by
    intro i dbs hi hr
    rw [hfmt] at hi
    cases (registered_xml x).symm.trans hi
    have : ∀ ps : List String, ∀ ds, Tools.Spec.Reads (xmlIf x) w.files ps ds → String.ofList f ∈ ps → False := by
      intro ps ds h
      induction h with
      | nil => simp
      | cons h _ ih =>
        intro hm
        rcases List.mem_cons.1 hm with rfl | hm
        · obtain ⟨doc, ⟨c, _, hc, _⟩, _⟩ := xmlRead_ok.1 h
          rw [hn] at hc
          cases hc
        · exact ih hm
    exact this _ _ hr (List.mem_map_of_mem hf)
  rcases hr : runCommand x (.merge ⟨Spec.cliValue l1 "input_format", Spec.cliValue l1 "output_format", (Spec.cliFiles l1).map String.ofList, out⟩
    (Spec.cliValue l1 "libucis")) w with ⟨r, v⟩
  rw [hr] at hm
  have hr : mergeCmd (defaultRgy x) Merge.mergeDb ⟨Spec.cliValue l1 "input_format", Spec.cliValue l1 "output_format", (Spec.cliFiles l1).map String.ofList, out⟩ w = (r, v) := hr
  cases r with
  | ok u =>
    exfalso
    obtain ⟨o, res, wr, text, ⟨_, i, dbs, new, h2, h3, _⟩, _⟩ := (C74_merge_success _ _ _ _ _).1 hr
    rw [hs.in1] at h2
    exact hno i dbs h2 h3
  | error e =>
    cases hm
    rcases (C74_merge_failure _ _ _ _ _ _ hr).1 with ⟨ps, rfl⟩ | ⟨o, res, wr, ⟨_, i, dbs, new, h2, h3, _⟩, _⟩
    · exact ⟨rfl, rfl, e, rfl⟩
    · exfalso
      rw [hs.in1] at h2
      exact hno i dbs h2 h3

/-! ## Examples -/

namespace Ex

/-- `merge a.xml --out=m.xml` -/
def mLine : List Spec.CliItem := [.word "a.xml".toList, .given ⟨outOpt, "--out".toList, true, "m.xml".toList⟩]
/-- `report m.xml` -/
def rLine : List Spec.CliItem := [.word "m.xml".toList]

theorem mr_session : Spec.ShellSession none mLine rLine "m.xml" where
  ok1 := by decide
  out1 := by decide
  files1 := by decide
  together := ⟨[], ["a.xml".toList], [⟨outOpt, "--out".toList, true, "m.xml".toList⟩], rfl⟩
  in1 := by decide
  fmt1 := by decide
  ok2 := by decide
  files2 := by decide
  in2 := by decide
  fmt2 := by decide

theorem m_typed : Spec.Typed ["merge", "+seed", "a.xml", "--out=m.xml"] (Spec.cliLine "merge" mLine) := ⟨by decide, by decide⟩
theorem r_typed : Spec.Typed ["report", "m.xml"] (Spec.cliLine "report" rLine) := ⟨by decide, by decide⟩

end Ex

/-- The hypotheses of `C117_session_partial` are met, and the report is made. -/
example : ∃ (x : Ext) (usage : Bytes) (message : Err → Bytes) (w w1 w2 : World) (s1 s2 : Exit),
    Tools.Spec.Faithful x ∧ x.rd = id ∧ (∀ e, message e ≠ []) ∧ Spec.ShellSession none Ex.mLine Ex.rLine "m.xml" ∧
    Spec.Typed ["merge", "+seed", "a.xml", "--out=m.xml"] (Spec.cliLine "merge" Ex.mLine) ∧
    Spec.Typed ["report", "m.xml"] (Spec.cliLine "report" Ex.rLine) ∧
    ucisMain x usage message ["merge", "+seed", "a.xml", "--out=m.xml"] w = (s1, w1) ∧ w1.stdout = w.stdout ∧
    ucisMain x usage message ["report", "m.xml"] w1 = (s2, w2) ∧ ∃ r, w2 = Tools.Spec.Reported w1 "m.xml" none (Tools.Spec.txtOf x r) := by
  obtain ⟨doc, db, hw, hr, hp⟩ := exPlain_doc
  have hx : xmlWrite exFaithful exPlainDb = (exFaithful.showXml doc, .ok ()) := xmlWrite_ok.2 ⟨doc, hw, rfl⟩
  have ht : Xml.throughFile Xml.exEnv2 exPlainDb = .ok db := by unfold Xml.throughFile; rw [hw]; exact hr
  let w : World := { exWorld with files := fun _ => some (exFaithful.showXml doc) }
  have hread : ∀ p, xmlRead exFaithful (w.files p) = .ok db := by
    intro p
    show xmlRead exFaithful (some (exFaithful.showXml doc)) = _
    rw [xmlRead_written exFaithful_ok hx]
    exact ht
  have s1 : ((Xml.throughFile Xml.exEnv2 exPlainDb).bind (fun db => ((Merge.mergeDb ⟨emptyDb, [], []⟩ [db]).bind (Xml.throughFile Xml.exEnv2)).bind
      (fun d => Report.build exFaithful.rd d.root))).isOk = true := by
    decide +kernel
  rw [ht] at s1
  obtain ⟨r, s1⟩ := exists_of_isOk s1
  obtain ⟨d, s1, hb⟩ := Ex.bind_ok.1 (show ((Merge.mergeDb ⟨emptyDb, [], []⟩ [db]).bind (Xml.throughFile Xml.exEnv2)).bind _ = _ from s1)
  obtain ⟨o1, c1, m1, q1, t1⟩ := stored_parts s1
  obtain ⟨w1, e1, f1⟩ := merge_stores exFaithful_ok (a := ⟨none, none, ["a.xml"], "m.xml"⟩) (w := w) (i := ⟨_, _, _, _⟩) (registered_xml _) rfl rfl
    (.cons (hread "a.xml") .nil) m1 q1 t1
  have e2 : ucisReport exFaithful ⟨none, none, "m.xml", none⟩ w1 = (.ok (), _) :=
    (C87_report_txt _ _ _ _ rfl).2 ⟨⟨_, _, _, _⟩, d, r, registered_xml _, f1, hb, fun _ hp => (nomatch hp), rfl⟩
  have hq : w1.stdout = w.stdout := by
    have := quiet_merge (defaultRgy exFaithful) Merge.mergeDb ⟨none, none, ["a.xml"], "m.xml"⟩ w
    rw [show mergeCmd (defaultRgy exFaithful) Merge.mergeDb ⟨none, none, ["a.xml"], "m.xml"⟩ w = _ from e1] at this
    exact this
  refine ⟨exFaithful, [], fun _ => [1], w, w1, _, .ok, .ok, exFaithful_ok, rfl, by simp, Ex.mr_session, Ex.m_typed, Ex.r_typed, ?_, hq, ?_, r, rfl⟩
  · rw [C116_program _ _ _ Ex.m_typed.nonempty (c := .merge ⟨none, none, ["a.xml"], "m.xml"⟩ none) (by rfl)]
    rw [show runCommand exFaithful (.merge ⟨none, none, ["a.xml"], "m.xml"⟩ none) w = _ from e1]
  · rw [C116_program _ _ _ Ex.r_typed.nonempty (c := .report ⟨none, none, "m.xml", none⟩) (by rfl)]
    rw [show runCommand exFaithful (.report ⟨none, none, "m.xml", none⟩) w1 = _ from e2]

/-- Status 0 of both runs is not enough, which a script would check. -/
theorem C117_status_refuted : ¬ ∀ (x : Ext) (usage : Bytes) (message : Err → Bytes) (l1 l2 : List Spec.CliItem) (out : String) (args1 args2 : List String)
    (w w1 w2 : World) (s1 s2 : Exit), Tools.Spec.Faithful x → x.rd = id → (∀ e, message e ≠ []) → Spec.ShellSession none l1 l2 out →
    Spec.Typed args1 (Spec.cliLine "merge" l1) → Spec.Typed args2 (Spec.cliLine "report" l2) →
    ucisMain x usage message args1 w = (s1, w1) → ucisMain x usage message args2 w1 = (s2, w2) → s1.status = 0 → s2.status = 0 →
    (∃ docs r, List.Forall₂ (fun p doc => Tools.Spec.Holds x (w.files (String.ofList p)) doc) (Spec.cliFiles l1) docs ∧
      r.covergroups = saidLines (mergedSaid (docs.map said)) ∧ r.coverage = saidTotal (mergedSaid (docs.map said)) ∧
      w2 = Tools.Spec.Reported w1 out (Spec.cliValue l2 "out") (Tools.Spec.txtOf x r)) ∨
    ∃ t e, w2.stdout = w1.stdout ++ t ++ message e := by
  intro h
  obtain ⟨doc, db, hw, hr, hp⟩ := exPlain_doc
  have hx : xmlWrite exFaithful exPlainDb = (exFaithful.showXml doc, .ok ()) := xmlWrite_ok.2 ⟨doc, hw, rfl⟩
  have ht : Xml.throughFile Xml.exEnv2 exPlainDb = .ok db := by unfold Xml.throughFile; rw [hw]; exact hr
  let w : World := { exWorld with files := fun p => if p = "m.xml" then some (exFaithful.showXml doc) else none }
  have hn : w.files (String.ofList "a.xml".toList) = none := by rfl
  rcases hm : ucisMain exFaithful [] (fun _ => [1]) ["merge", "+seed", "a.xml", "--out=m.xml"] w with ⟨t1, w1⟩
  obtain ⟨k1, k2, _⟩ := C117_stale rfl Ex.mr_session Ex.m_typed hm (by decide) hn
  have hread : xmlRead exFaithful (w1.files "m.xml") = .ok db := by
    rw [k2]
    show xmlRead exFaithful (some (exFaithful.showXml doc)) = _
    rw [xmlRead_written exFaithful_ok hx]
    exact ht
  have s1 : ((Xml.throughFile Xml.exEnv2 exPlainDb).bind (fun d => Report.build exFaithful.rd d.root)).isOk = true := by
    decide +kernel
  rw [ht] at s1
  obtain ⟨r, hb⟩ := exists_of_isOk s1
  have e2 : ucisReport exFaithful ⟨none, none, "m.xml", none⟩ w1 = (.ok (), _) :=
    (C87_report_txt _ _ _ _ rfl).2 ⟨⟨_, _, _, _⟩, db, r, registered_xml _, hread, hb, fun _ hp => (nomatch hp), rfl⟩
  have hr : ucisMain exFaithful [] (fun _ => [1]) ["report", "m.xml"] w1 =
      (.ok, Tools.Spec.Reported w1 "m.xml" none (Tools.Spec.txtOf exFaithful r)) := by
    rw [C116_program _ _ _ Ex.r_typed.nonempty (c := .report ⟨none, none, "m.xml", none⟩) (by rfl)]
    rw [show runCommand exFaithful (.report ⟨none, none, "m.xml", none⟩) w1 = _ from e2]
  rcases h exFaithful [] (fun _ => [1]) Ex.mLine Ex.rLine "m.xml" _ _ w w1 _ _ _ exFaithful_ok rfl (by simp) Ex.mr_session Ex.m_typed Ex.r_typed hm hr k1 rfl with
    ⟨docs, r', hd, _⟩ | ⟨t, e, he⟩
  · rw [show Spec.cliFiles Ex.mLine = ["a.xml".toList] by decide] at hd
    cases hd with
    | cons hd _ =>
      obtain ⟨c, _, hc, _⟩ := hd
      rw [hn] at hc
      cases hc
  · have he : w1.stdout ++ [] = w1.stdout ++ t ++ [1] := he
    rw [List.append_assoc] at he
    have := List.append_cancel_left he
    simp at this

end Cli
end Verif
