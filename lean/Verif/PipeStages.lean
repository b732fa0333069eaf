import Verif.MergeStages
import Verif.MergeTypes3
import Verif.PipeYaml
import Verif.PipeReport
/-!
# Property C108 for the commands, and where it ends

`merge` as in `Verif/Pipeline.lean` (`cmd_merge.py`), `report` likewise (`cmd_report.py`).
-/

namespace Verif
open Merge Xml Report Spec

/-! ## Before the result is stored -/

/-- Two inputs are read from their files and merged at once, or merged, stored and merged again; the totals of the reports on the
two merges, before and after storing them. -/
def exStaged (a b : Database) : Except Err ((Rat × Rat) × (Rat × Rat)) := do
  let a ← throughFile exEnv2 a
  let b ← throughFile exEnv2 b
  let o ← mergeDb ⟨emptyDb, [], []⟩ [a, b]
  let d ← throughFile exEnv2 o
  let o2 ← mergeDb ⟨emptyDb, [], []⟩ [d]
  let d2 ← throughFile exEnv2 o2
  return (((← build id o.root).coverage, (← build id o2.root).coverage), ((← build id d.root).coverage, (← build id d2.root).coverage))

theorem exStaged_ok {a b : Database} {p : (Rat × Rat) × (Rat × Rat)} (h : exStaged a b = .ok p) :
    ∃ a' b' o d o2 d2 r r2 q q2, throughFile exEnv2 a = .ok a' ∧ throughFile exEnv2 b = .ok b' ∧ mergeDb ⟨emptyDb, [], []⟩ [a', b'] = .ok o ∧
      throughFile exEnv2 o = .ok d ∧ mergeDb ⟨emptyDb, [], []⟩ [d] = .ok o2 ∧ throughFile exEnv2 o2 = .ok d2 ∧
      build id o.root = .ok r ∧ build id o2.root = .ok r2 ∧ build id d.root = .ok q ∧ build id d2.root = .ok q2 ∧
      p = ((r.coverage, r2.coverage), (q.coverage, q2.coverage)) := by
  unfold exStaged at h
  obtain ⟨a', h1, h⟩ := Ex.bind_ok.1 h
  obtain ⟨b', h2, h⟩ := Ex.bind_ok.1 h
  obtain ⟨o, h3, h⟩ := Ex.bind_ok.1 h
  obtain ⟨d, h4, h⟩ := Ex.bind_ok.1 h
  obtain ⟨o2, h5, h⟩ := Ex.bind_ok.1 h
  obtain ⟨d2, h6, h⟩ := Ex.bind_ok.1 h
  obtain ⟨r, h7, h⟩ := Ex.bind_ok.1 h
  obtain ⟨r2, h8, h⟩ := Ex.bind_ok.1 h
  obtain ⟨q, h9, h⟩ := Ex.bind_ok.1 h
  obtain ⟨q2, h10, h⟩ := Ex.bind_ok.1 h
  cases h
  exact ⟨a', b', o, d, o2, d2, r, r2, q, q2, h1, h2, h3, h4, h5, h6, h7, h8, h9, h10, rfl⟩

/-- C108 is about stored results.  The merged databases in memory can differ: if a bin is an ordinary bin in one input and an ignore
bin in the other, the report on the merge of both gives 0, the report on the merge of the stored merge 100. -/
theorem C108_memory_refuted : ∃ a b o d o2 : Database, ∃ r r2 : Rpt, Staged [a] a ∧ Staged [b] b ∧ Staged [a, b] d ∧
    mergeDb ⟨emptyDb, [], []⟩ [a, b] = .ok o ∧ mergeDb ⟨emptyDb, [], []⟩ [d] = .ok o2 ∧
    build id o.root = .ok r ∧ build id o2.root = .ok r2 ∧ r.coverage = 0 ∧ r2.coverage = 100 := by
  have h : exStaged (exOneBin "i1" CT.CVGBIN 0) (exOneBin "i2" CT.IGNOREBIN 1) = .ok ((0, 100), (100, 100)) := by decide +kernel
  obtain ⟨a, b, o, d, o2, d2, r, r2, q, q2, h1, h2, h3, h4, h5, h6, h7, h8, h9, h10, e⟩ := exStaged_ok h
  obtain ⟨_, ha⟩ := read_ofFile h1
  obtain ⟨_, hb⟩ := read_ofFile h2
  exact ⟨a, b, o, d, o2, r, r2, .file ha, .file hb, .stage (ls := [a, b]) exEnv2_good (.cons (ls := [a]) (.file ha) (.cons (ls := [b]) (.file hb) .nil)) h3 h4,
    h3, h5, h7, h8, (Prod.ext_iff.1 (Prod.ext_iff.1 e).1).1.symm, (Prod.ext_iff.1 (Prod.ext_iff.1 e).1).2.symm⟩

/-- The hypotheses of `C108_databases` and `C108_counts` are met, with different numbers of stages and inputs that disagree on the kind of a bin. -/
example : ∃ (a b d : Database) (out out' db db' : Database), StagedAll [a, b] [a, b] ∧ StagedAll [a, b] [d] ∧
    mergeDb ⟨emptyDb, [], []⟩ [a, b] = .ok out ∧ mergeDb ⟨emptyDb, [], []⟩ [d] = .ok out' ∧
    throughFile exEnv2 out = .ok db ∧ throughFile exEnv2 out' = .ok db' ∧ out.root ≠ out'.root ∧ UniqueNames a.root ∧ UniqueNames b.root := by
  have hu : ∀ c k z x, throughFile exEnv2 (exOneBin c k z) = .ok x →
      (throughFile exEnv2 (exOneBin c k z)).map (fun x => decide (UniqueNames x.root)) = .ok true → UniqueNames x.root := by
    intro c k z x hx hd
    rw [hx] at hd
    exact of_decide_eq_true (Except.ok.inj hd)
  have h : exStaged (exOneBin "i1" CT.CVGBIN 0) (exOneBin "i2" CT.IGNOREBIN 1) = .ok ((0, 100), (100, 100)) := by decide +kernel
  obtain ⟨a, b, o, d, o2, d2, r, r2, q, q2, h1, h2, h3, h4, h5, h6, h7, h8, h9, h10, e⟩ := exStaged_ok h
  obtain ⟨_, ha⟩ := read_ofFile h1
  obtain ⟨_, hb⟩ := read_ofFile h2
  have hs : StagedAll [a, b] [a, b] := .cons (ls := [a]) (.file ha) (.cons (ls := [b]) (.file hb) .nil)
  refine ⟨a, b, d, o, o2, d, d2, hs, .cons (ls := [a, b]) (.stage exEnv2_good hs h3 h4) .nil, h3, h5, h4, h6, ?_, hu _ _ _ _ h1 (by decide +kernel), hu _ _ _ _ h2 (by decide +kernel)⟩
  intro he
  rw [he, h8] at h7
  cases h7
  have e1 := (Prod.ext_iff.1 (Prod.ext_iff.1 e).1).1
  have e2 := (Prod.ext_iff.1 (Prod.ext_iff.1 e).1).2
  simp only at e1 e2
  rw [← e1] at e2
  exact absurd e2 (by decide)

/-! ## The commands -/

namespace Tools

theorem xmlRead_read {x : Ext} {c : Option Bytes} {d : Database} (h : xmlRead x c = .ok d) :
    ∃ (flt : Xml.FloatText) (doc : Xml.Elem), Xml.read flt doc = .ok d := by
  obtain ⟨doc, _, h⟩ := xmlRead_ok.1 h
  exact ⟨_, doc, (factoryRead_ok.1 h).2⟩

theorem reads_append {D : Type} {f : DbIf D} {files : String → Option Bytes} {ps qs : List String} {ds : List D}
    (h : Spec.Reads f files (ps ++ qs) ds) : ∃ d1 d2, ds = d1 ++ d2 ∧ Spec.Reads f files ps d1 ∧ Spec.Reads f files qs d2 := by
  induction ps generalizing ds with
  | nil => exact ⟨[], ds, rfl, .nil, h⟩
  | cons p t ih =>
    cases h with
    | cons h1 h2 =>
      obtain ⟨d1, d2, rfl, e1, e2⟩ := ih h2
      exact ⟨_ :: d1, d2, rfl, .cons h1 e1, e2⟩

theorem reads_congr {D : Type} {f : DbIf D} {files files' : String → Option Bytes} {ps : List String} {ds : List D}
    (h : Spec.Reads f files ps ds) (he : ∀ p ∈ ps, files' p = files p) : Spec.Reads f files' ps ds := by
  induction h with
  | nil => exact .nil
  | cons h1 h2 ih =>
    exact .cons (by rw [he _ List.mem_cons_self]; exact h1) (ih (fun p hp => he p (List.mem_cons_of_mem _ hp)))

theorem merge_files {x : Ext} {a : MergeArgs} {w w' : World} (hm : ucisMerge x a w = (.ok (), w')) (p : String) (hp : p ≠ a.out) :
    w'.files p = w.files p := by
  obtain ⟨o, res, wr, text, ⟨h1, i', dbs', new, h2, h3, h4, h5⟩, h6, _, h7, rfl⟩ := (C74_merge_success _ _ a w w').1 hm
  simp only [Spec.Written, hp, if_false]

/-- **C108** (commands). Run `merge` on some XML files, then `merge` on its output and further XML files; run `merge` on all the
files at once.  If the two final files can be read, they hold the same content. -/
theorem C108_merge_commands {x : Ext} (hf : Spec.Faithful x) {a1 a2 a3 : MergeArgs} {w w1 w2 w3 : World} {ys : List String} {d2 d3 : Database}
    (hi1 : a1.inputFormat.getD "xml" = "xml") (ho1 : a1.outputFormat.getD "xml" = "xml")
    (hi2 : a2.inputFormat.getD "xml" = "xml") (ho2 : a2.outputFormat.getD "xml" = "xml")
    (hi3 : a3.inputFormat.getD "xml" = "xml") (ho3 : a3.outputFormat.getD "xml" = "xml")
    (h2 : a2.db = a1.out :: ys) (h3 : a3.db = a1.db ++ ys) (hy : a1.out ∉ ys)
    (hm1 : ucisMerge x a1 w = (.ok (), w1)) (hm2 : ucisMerge x a2 w1 = (.ok (), w2)) (hm3 : ucisMerge x a3 w = (.ok (), w3))
    (hr2 : xmlRead x (w2.files a2.out) = .ok d2) (hr3 : xmlRead x (w3.files a3.out) = .ok d3) : d2.root = d3.root := by
  obtain ⟨xs, o1, r1, m1, t1⟩ := merge_to_xml hf (i := ⟨_, _, _, _⟩) (by rw [hi1]; exact registered_xml x) ho1 hm1
  obtain ⟨ds2, o2, r2, m2, t2⟩ := merge_to_xml hf (i := ⟨_, _, _, _⟩) (by rw [hi2]; exact registered_xml x) ho2 hm2
  obtain ⟨ds3, o3, r3, m3, t3⟩ := merge_to_xml hf (i := ⟨_, _, _, _⟩) (by rw [hi3]; exact registered_xml x) ho3 hm3
  rw [h2] at r2
  rw [h3] at r3
  cases r2 with
  | @cons _ d1 _ yd hd1 r2 =>
    obtain ⟨e1, e2, rfl, r3a, r3b⟩ := reads_append r3
    cases reads_unique r1 r3a
    have r2' := reads_congr r2 (files' := w.files) (fun p hp => (merge_files hm1 p (fun e => hy (e ▸ hp))).symm)
    cases reads_unique r2' r3b
    refine C108_two_stages hf.env hf.env hf.env ?_ m1 (t1.symm.trans hd1) m2 (t2.symm.trans hr2) m3 (t3.symm.trans hr3)
    intro s hs
    rcases List.mem_append.1 hs with hs | hs
    · obtain ⟨q, _, h⟩ := reads_mem r1 hs
      exact xmlRead_read h
    · obtain ⟨q, _, h⟩ := reads_mem r3b hs
      exact xmlRead_read h

/-- **C108** (reports). The `txt` report on the file of the staged merge prints what the report on the file of the direct merge prints. -/
theorem C108_reports {x : Ext} (hf : Spec.Faithful x) {a1 a2 a3 : MergeArgs} {w w1 w2 w3 v2 v3 : World} {ys : List String} {b2 b3 : ReportArgs}
    (hi1 : a1.inputFormat.getD "xml" = "xml") (ho1 : a1.outputFormat.getD "xml" = "xml")
    (hi2 : a2.inputFormat.getD "xml" = "xml") (ho2 : a2.outputFormat.getD "xml" = "xml")
    (hi3 : a3.inputFormat.getD "xml" = "xml") (ho3 : a3.outputFormat.getD "xml" = "xml")
    (h2 : a2.db = a1.out :: ys) (h3 : a3.db = a1.db ++ ys) (hy : a1.out ∉ ys)
    (hm1 : ucisMerge x a1 w = (.ok (), w1)) (hm2 : ucisMerge x a2 w1 = (.ok (), w2)) (hm3 : ucisMerge x a3 w = (.ok (), w3))
    (hb2 : b2.db = a2.out) (hb3 : b3.db = a3.out) (hx2 : b2.inputFormat.getD "xml" = "xml") (hx3 : b3.inputFormat.getD "xml" = "xml")
    (hf2 : b2.outputFormat.getD "txt" = "txt") (hf3 : b3.outputFormat.getD "txt" = "txt")
    (hr2 : ucisReport x b2 w2 = (.ok (), v2)) (hr3 : ucisReport x b3 w3 = (.ok (), v3)) :
    ∃ text, v2 = Spec.Reported w2 b2.db b2.out text ∧ v3 = Spec.Reported w3 b3.db b3.out text := by
  obtain ⟨i2, d2, r2, q1, q2, q3, _, q5⟩ := (C87_report_txt x b2 w2 v2 hf2).1 hr2
  obtain ⟨i3, d3, r3, p1, p2, p3, _, p5⟩ := (C87_report_txt x b3 w3 v3 hf3).1 hr3
  rw [hx2] at q1
  rw [hx3] at p1
  cases (registered_xml x).symm.trans q1
  cases (registered_xml x).symm.trans p1
  rw [hb2] at q2
  rw [hb3] at p2
  have := C108_merge_commands hf hi1 ho1 hi2 ho2 hi3 ho3 h2 h3 hy hm1 hm2 hm3 q2 p2
  rw [this, p3] at q3
  cases q3
  exact ⟨_, q5, p5⟩

/-- A stored merge, if the merge is stored. -/
theorem stored_parts {env : Xml.Env} {srcs : List Database} {d : Database}
    (h : (Merge.mergeDb ⟨emptyDb, [], []⟩ srcs).bind (Xml.throughFile env) = .ok d) :
    ∃ out doc, Merge.mergeDb ⟨emptyDb, [], []⟩ srcs = .ok out ∧ Xml.write env out = .ok doc ∧ Xml.throughFile env out = .ok d := by
  obtain ⟨out, h1, h2⟩ := Ex.bind_ok.1 h
  obtain ⟨doc, h3, _⟩ := Ex.bind_ok.1 (show (Xml.write env out >>= fun doc => Xml.factoryRead env.flt (Xml.reparse doc)) = .ok d from h2)
  exact ⟨out, doc, h1, h3, h2⟩

/-- The hypotheses of `C108_merge_commands` and `C108_reports` are met: files with bins of all kinds and a cross. -/
example : ∃ (x : Ext) (a1 a2 a3 : MergeArgs) (w w1 w2 w3 v2 v3 : World) (d2 d3 : Database) (ys : List String) (b2 b3 : ReportArgs), Spec.Faithful x ∧
    a1.inputFormat.getD "xml" = "xml" ∧ a1.outputFormat.getD "xml" = "xml" ∧ a2.inputFormat.getD "xml" = "xml" ∧ a2.outputFormat.getD "xml" = "xml" ∧
    a3.inputFormat.getD "xml" = "xml" ∧ a3.outputFormat.getD "xml" = "xml" ∧ a2.db = a1.out :: ys ∧ a3.db = a1.db ++ ys ∧ a1.out ∉ ys ∧ ys.length = 1 ∧
    ucisMerge x a1 w = (.ok (), w1) ∧ ucisMerge x a2 w1 = (.ok (), w2) ∧ ucisMerge x a3 w = (.ok (), w3) ∧
    xmlRead x (w2.files a2.out) = .ok d2 ∧ xmlRead x (w3.files a3.out) = .ok d3 ∧ b2.db = a2.out ∧ b3.db = a3.out ∧
    b2.inputFormat.getD "xml" = "xml" ∧ b3.inputFormat.getD "xml" = "xml" ∧ b2.outputFormat.getD "txt" = "txt" ∧ b3.outputFormat.getD "txt" = "txt" ∧
    ucisReport x b2 w2 = (.ok (), v2) ∧ ucisReport x b3 w3 = (.ok (), v3) := by
  obtain ⟨doc, db, hw, hr, hp⟩ := exPlain_doc
  have hx : xmlWrite exFaithful exPlainDb = (exFaithful.showXml doc, .ok ()) := xmlWrite_ok.2 ⟨doc, hw, rfl⟩
  have ht : Xml.throughFile Xml.exEnv2 exPlainDb = .ok db := by unfold Xml.throughFile; rw [hw]; exact hr
  let w : World := { exWorld with files := fun _ => some (exFaithful.showXml doc) }
  have hread : ∀ p, xmlRead exFaithful (w.files p) = .ok db := by
    intro p
    show xmlRead exFaithful (some (exFaithful.showXml doc)) = _
    rw [xmlRead_written exFaithful_ok hx]
    exact ht
  have s1 : ((Xml.throughFile Xml.exEnv2 exPlainDb).bind (fun db => (Merge.mergeDb ⟨emptyDb, [], []⟩ [db]).bind (Xml.throughFile Xml.exEnv2))).isOk = true := by
    decide +kernel
  have s2 : ((Xml.throughFile Xml.exEnv2 exPlainDb).bind (fun db => ((Merge.mergeDb ⟨emptyDb, [], []⟩ [db]).bind (Xml.throughFile Xml.exEnv2)).bind
      (fun d1 => ((Merge.mergeDb ⟨emptyDb, [], []⟩ [d1, db]).bind (Xml.throughFile Xml.exEnv2)).bind (fun d => Report.build exFaithful.rd d.root)))).isOk = true := by
    decide +kernel
  have s3 : ((Xml.throughFile Xml.exEnv2 exPlainDb).bind (fun db => ((Merge.mergeDb ⟨emptyDb, [], []⟩ [db, db]).bind (Xml.throughFile Xml.exEnv2)).bind
      (fun d => Report.build exFaithful.rd d.root))).isOk = true := by
    decide +kernel
  rw [ht] at s1 s2 s3
  obtain ⟨d1, s1⟩ := exists_of_isOk s1
  have s1' : (Merge.mergeDb ⟨emptyDb, [], []⟩ [db]).bind (Xml.throughFile Xml.exEnv2) = .ok d1 := s1
  obtain ⟨r2, s2⟩ := exists_of_isOk s2
  obtain ⟨_, s1'', s2⟩ := Ex.bind_ok.1 (show ((Merge.mergeDb ⟨emptyDb, [], []⟩ [db]).bind (Xml.throughFile Xml.exEnv2)).bind _ = _ from s2)
  cases s1'.symm.trans s1''
  obtain ⟨d2, s2, hb2⟩ := Ex.bind_ok.1 s2
  obtain ⟨r3, s3⟩ := exists_of_isOk s3
  obtain ⟨d3, s3, hb3⟩ := Ex.bind_ok.1 (show ((Merge.mergeDb ⟨emptyDb, [], []⟩ [db, db]).bind (Xml.throughFile Xml.exEnv2)).bind _ = _ from s3)
  obtain ⟨o1, c1, m1, q1, t1⟩ := stored_parts s1'
  obtain ⟨o2, c2, m2, q2, t2⟩ := stored_parts s2
  obtain ⟨o3, c3, m3, q3, t3⟩ := stored_parts s3
  obtain ⟨w1, e1, f1⟩ := merge_stores exFaithful_ok (a := ⟨none, none, ["a"], "p"⟩) (w := w) (i := ⟨_, _, _, _⟩) (registered_xml _) rfl rfl
    (.cons (hread "a") .nil) m1 q1 t1
  have hb : xmlRead exFaithful (w1.files "b") = .ok db := by rw [merge_files e1 "b" (by decide)]; exact hread "b"
  obtain ⟨w2, e2, f2⟩ := merge_stores exFaithful_ok (a := ⟨none, none, ["p", "b"], "q"⟩) (w := w1) (i := ⟨_, _, _, _⟩) (registered_xml _) rfl
    (by
      obtain ⟨o, res, wr, text, _, _, _, _, rfl⟩ := (C74_merge_success _ _ _ _ _).1 e1
      rfl)
    (.cons f1 (.cons hb .nil)) m2 q2 t2
  obtain ⟨w3, e3, f3⟩ := merge_stores exFaithful_ok (a := ⟨none, none, ["a", "b"], "r"⟩) (w := w) (i := ⟨_, _, _, _⟩) (registered_xml _) rfl rfl
    (.cons (hread "a") (.cons (hread "b") .nil)) m3 q3 t3
  refine ⟨exFaithful, ⟨none, none, ["a"], "p"⟩, ⟨none, none, ["p", "b"], "q"⟩, ⟨none, none, ["a", "b"], "r"⟩, w, w1, w2, w3, _, _, d2, d3, ["b"],
    { inputFormat := none, outputFormat := none, db := "q", out := none }, { inputFormat := none, outputFormat := none, db := "r", out := none }, exFaithful_ok,
    rfl, rfl, rfl, rfl, rfl, rfl, rfl, rfl, by decide, rfl, e1, e2, e3, f2, f3, rfl, rfl, rfl, rfl, rfl, rfl,
    (C87_report_txt _ _ _ _ rfl).2 ⟨⟨_, _, _, _⟩, d2, r2, registered_xml _, f2, hb2, fun _ hp => (nomatch hp), rfl⟩,
    (C87_report_txt _ _ _ _ rfl).2 ⟨⟨_, _, _, _⟩, d3, r3, registered_xml _, f3, hb3, fun _ hp => (nomatch hp), rfl⟩⟩

end Tools
end Verif
