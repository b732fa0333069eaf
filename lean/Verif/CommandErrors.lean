import Verif.PipeYaml
import Verif.PipeReport
import Verif.ReportDir
import Verif.ValidErrors
import Verif.YamlErrors
import Verif.XsdSpec
/-!
# Why a command fails (C129)

No new code: which exception the commands `merge`, `convert` and `report` raise, in terms of the formats asked for and of the content of the files.
-/

namespace Verif
namespace Tools
open Report

namespace Spec

/-- The built-in database formats. -/
def dbFormats : List String := ["xml", "libucis", "yaml"]
/-- The built-in report formats. -/
def rptFormats : List String := ["json", "txt"]

/-- The text in a possibly compressed file, by its first bytes; a `TypeError` if the module needed is not installed. -/
inductive Unpacked (x : Ext) (c : Bytes) : Except Err Bytes → Prop
  | gzip (rest : Bytes) : c = 0x1f :: 0x8b :: rest → x.modules.gzip = true → Unpacked x c (x.gunzip c)
  | lz4 (rest : Bytes) : c = 0x04 :: 0x22 :: 0x4d :: 0x18 :: rest → x.modules.lz4 = true → Unpacked x c (x.unlz4 c)
  | noGzip (rest : Bytes) : c = 0x1f :: 0x8b :: rest → x.modules.gzip = false → Unpacked x c (.error .typeError)
  | noLz4 (rest : Bytes) : c = 0x04 :: 0x22 :: 0x4d :: 0x18 :: rest → x.modules.lz4 = false → Unpacked x c (.error .typeError)
  | plain : (¬ ∃ rest, c = 0x1f :: 0x8b :: rest) → (¬ ∃ rest, c = 0x04 :: 0x22 :: 0x4d :: 0x18 :: rest) → Unpacked x c (.ok c)

/-- Why a file cannot be read in a format, and the exception. -/
inductive Unreadable (x : Ext) : String → Option Bytes → Err → Prop
  | library (c : Option Bytes) : Unreadable x "libucis" c .userError
  | missing (fmt : String) : fmt = "xml" ∨ fmt = "yaml" → Unreadable x fmt none .userError
  | unpack (c : Bytes) (e : Err) : Unpacked x c (.error e) → Unreadable x "xml" (some c) e
  | notXml (c t : Bytes) (e : Err) : Unpacked x c (.ok t) → x.parseXml t = .error e → Unreadable x "xml" (some c) e
  | notValid (c t : Bytes) (doc : Xml.Elem) : Unpacked x c (.ok t) → x.parseXml t = .ok doc → ¬ Verif.Spec.ValidDoc Xsd.ucisXsd doc →
      Unreadable x "xml" (some c) .userError
  | problem (c t : Bytes) (doc : Xml.Elem) (e : Err) : Unpacked x c (.ok t) → x.parseXml t = .ok doc → Verif.Spec.ValidDoc Xsd.ucisXsd doc →
      (Verif.Spec.readProblems x.env.flt doc).head? = some e → Unreadable x "xml" (some c) e
  | notYaml (c : Bytes) (e : Err) : x.parseYaml c = .error e → Unreadable x "yaml" (some c) e
  | refused (c : Bytes) (j : Yaml.Json) (e : Err) : x.parseYaml c = .ok j → Verif.Spec.LoadRefused j e → Unreadable x "yaml" (some c) e

/-- The file can be read in the format, as `d`. -/
def Loads (x : Ext) (fmt : String) (content : Option Bytes) (d : Database) : Prop :=
  ∃ i, Registered (defaultRgy x) fmt i ∧ i.fmtIf.read content = .ok d

/-- Why a report cannot be made of a database, and the exception: a bin without threshold is an `AttributeError`, weights of covergroups that add up to 0 are a
`ZeroDivisionError`; the first instance with such a problem decides. -/
inductive NoReport (db : Scope) : Err → Prop
  | threshold (pre post : List Scope) (i : Scope) : Verif.Spec.kids ST.INSTANCE db = pre ++ i :: post → (∀ j ∈ pre, InstOk j) →
      (∃ s ∈ Verif.Spec.kids ST.COVERGROUP i, ∃ g ∈ Verif.Spec.groupTree s, ¬ HereOk g) → NoReport db .attributeError
  | weights (pre post : List Scope) (i : Scope) : Verif.Spec.kids ST.INSTANCE db = pre ++ i :: post → (∀ j ∈ pre, InstOk j) →
      (∀ s ∈ Verif.Spec.kids ST.COVERGROUP i, ∀ g ∈ Verif.Spec.groupTree s, HereOk g) → Verif.Spec.weightSum (Verif.Spec.kids ST.COVERGROUP i) = 0 → NoReport db .zeroDivision

/-- Why the `report` command fails. -/
inductive ReportRaises (x : Ext) (a : ReportArgs) (w : World) : Err → Prop
  | format : a.inputFormat.getD "xml" ∉ dbFormats ∨ a.outputFormat.getD "txt" ∉ rptFormats → ReportRaises x a w .userError
  | input (e : Err) : a.outputFormat.getD "txt" ∈ rptFormats → Unreadable x (a.inputFormat.getD "xml") (w.files a.db) e → ReportRaises x a w e
  | output (d : Database) (p : String) : a.outputFormat.getD "txt" ∈ rptFormats → Loads x (a.inputFormat.getD "xml") (w.files a.db) d → a.out = some p →
      w.writable p = false → ReportRaises x a w .userError
  | report (d : Database) (e : Err) : a.outputFormat.getD "txt" ∈ rptFormats → Loads x (a.inputFormat.getD "xml") (w.files a.db) d → CanOpen w a.out →
      NoReport d.root e → ReportRaises x a w e
  | cross (d : Database) (r : Rpt) : a.outputFormat = some "json" → Loads x (a.inputFormat.getD "xml") (w.files a.db) d → CanOpen w a.out →
      build x.rd d.root = .ok r → Verif.Spec.crossesOfL r.covergroups ≠ [] → ReportRaises x a w .attributeError

/-- Why the `merge` command fails: always with the general exception, except when the result is found not to be writable as XML. -/
inductive MergeRaises (x : Ext) (a : MergeArgs) (w : World) : Err → Prop
  | format : a.inputFormat.getD "xml" ∉ dbFormats ∨ a.outputFormat.getD "xml" ∉ dbFormats → MergeRaises x a w .userError
  | input (p : String) (e : Err) : p ∈ a.db → Unreadable x (a.inputFormat.getD "xml") (w.files p) e → MergeRaises x a w .userError
  | noWriter : a.outputFormat.getD "xml" = "libucis" ∨ a.outputFormat.getD "xml" = "yaml" → MergeRaises x a w .userError
  | merge (dbs : List Database) (e : Err) : List.Forall₂ (fun p d => Loads x (a.inputFormat.getD "xml") (w.files p) d) a.db dbs →
      Merge.mergeDb ⟨emptyDb, [], []⟩ dbs = .error e → MergeRaises x a w .userError
  | output : w.writable a.out = false → MergeRaises x a w .userError
  | write (dbs : List Database) (res : Database) (e : Err) : a.inputFormat.getD "xml" ∈ dbFormats → a.outputFormat.getD "xml" = "xml" →
      List.Forall₂ (fun p d => Loads x (a.inputFormat.getD "xml") (w.files p) d) a.db dbs → Merge.mergeDb ⟨emptyDb, [], []⟩ dbs = .ok res →
      w.writable a.out = true → Xml.write x.env res = .error e → MergeRaises x a w e

/-- Why the `convert` command fails: as `merge` with one file, but an exception of the merge itself is passed on. -/
inductive ConvertRaises (x : Ext) (a : ConvertArgs) (w : World) : Err → Prop
  | format : a.inputFormat.getD "xml" ∉ dbFormats ∨ a.outputFormat.getD "xml" ∉ dbFormats → ConvertRaises x a w .userError
  | input (e : Err) : Unreadable x (a.inputFormat.getD "xml") (w.files a.input) e → ConvertRaises x a w .userError
  | library : a.outputFormat.getD "xml" = "libucis" → ConvertRaises x a w .userError
  | merge (d : Database) (e : Err) : a.outputFormat.getD "xml" = "xml" ∨ a.outputFormat.getD "xml" = "yaml" →
      Loads x (a.inputFormat.getD "xml") (w.files a.input) d → Merge.mergeDb ⟨emptyDb, [], []⟩ [d] = .error e → ConvertRaises x a w e
  | noWriter (d res : Database) : a.outputFormat.getD "xml" = "yaml" → Loads x (a.inputFormat.getD "xml") (w.files a.input) d →
      Merge.mergeDb ⟨emptyDb, [], []⟩ [d] = .ok res → ConvertRaises x a w .userError
  | output (d res : Database) : a.outputFormat.getD "xml" = "xml" → Loads x (a.inputFormat.getD "xml") (w.files a.input) d →
      Merge.mergeDb ⟨emptyDb, [], []⟩ [d] = .ok res → w.writable a.out = false → ConvertRaises x a w .userError
  | write (d res : Database) (e : Err) : a.outputFormat.getD "xml" = "xml" → Loads x (a.inputFormat.getD "xml") (w.files a.input) d →
      Merge.mergeDb ⟨emptyDb, [], []⟩ [d] = .ok res → w.writable a.out = true → Xml.write x.env res = .error e → ConvertRaises x a w e

end Spec

/-! ## Reading -/

theorem bind_err {α β : Type} {x : Except Err α} {f : α → Except Err β} {e : Err} :
    (x >>= f) = .error e ↔ x = .error e ∨ ∃ a, x = .ok a ∧ f a = .error e := by
  cases x with
  | error a => simp [bind, Except.bind]
  | ok a => simp [bind, Except.bind]

theorem xmlRead_unpacked {x : Ext} {c : Bytes} {u : Except Err Bytes} (h : Spec.Unpacked x c u) :
    xmlRead x (some c) = u >>= fun t => x.parseXml t >>= Xml.factoryRead x.env.flt := by
  have h62 := C62_open_file c
  have hm := C62_missing_module x.modules c
  cases h with
  | gzip rest h1 h2 =>
    have : openFile x.modules c = some .gzip := by unfold openFile; simp [h1, h2]
    unfold xmlRead
    simp only [this]
  | lz4 rest h1 h2 =>
    have : openFile x.modules c = some .lz4 := by unfold openFile; simp [h1, h2]
    unfold xmlRead
    simp only [this]
  | noGzip rest h1 h2 =>
    have : openFile x.modules c = none := hm.2.2 (.inl ⟨h62.1.2 ⟨rest, h1⟩, h2⟩)
    unfold xmlRead
    simp only [this]
    rfl
  | noLz4 rest h1 h2 =>
    have : openFile x.modules c = none := hm.2.2 (.inr ⟨h62.2.1.2 ⟨rest, h1⟩, h2⟩)
    unfold xmlRead
    simp only [this]
    rfl
  | plain h1 h2 =>
    have : openFile x.modules c = some .plain := hm.1.2 (h62.2.2.2 ⟨h1, h2⟩)
    unfold xmlRead
    simp only [this]

theorem unpacked_some (x : Ext) (c : Bytes) : ∃ u, Spec.Unpacked x c u := by
  by_cases h1 : ∃ rest, c = 0x1f :: 0x8b :: rest
  · obtain ⟨r, h⟩ := h1
    cases hm : x.modules.gzip with
    | true => exact ⟨_, .gzip r h hm⟩
    | false => exact ⟨_, .noGzip r h hm⟩
  · by_cases h2 : ∃ rest, c = 0x04 :: 0x22 :: 0x4d :: 0x18 :: rest
    · obtain ⟨r, h⟩ := h2
      cases hm : x.modules.lz4 with
      | true => exact ⟨_, .lz4 r h hm⟩
      | false => exact ⟨_, .noLz4 r h hm⟩
    · exact ⟨_, .plain h1 h2⟩

theorem factoryRead_error (flt : Xml.FloatText) (doc : Xml.Elem) (e : Err) : Xml.factoryRead flt doc = .error e ↔
    (¬ Verif.Spec.ValidDoc Xsd.ucisXsd doc ∧ e = .userError) ∨ (Verif.Spec.ValidDoc Xsd.ucisXsd doc ∧ (Verif.Spec.readProblems flt doc).head? = some e) := by
  rw [FirstError.C121_library, ← Xsd.valid_iff, Bool.not_eq_true]

theorem xmlRead_error (x : Ext) (content : Option Bytes) (e : Err) : xmlRead x content = .error e ↔ Spec.Unreadable x "xml" content e := by
  constructor
  · intro h
    cases content with
    | none => cases h; exact .missing "xml" (.inl rfl)
    | some c =>
      obtain ⟨u, hu⟩ := unpacked_some x c
      rw [xmlRead_unpacked hu] at h
      rcases bind_err.1 h with h | ⟨t, ht, h⟩
      · rw [h] at hu; exact .unpack c e hu
      · rw [ht] at hu
        rcases bind_err.1 h with h | ⟨doc, hd, h⟩
        · exact .notXml c t e hu h
        · rcases (factoryRead_error _ _ _).1 h with ⟨h1, rfl⟩ | ⟨h1, h2⟩
          · exact .notValid c t doc hu hd h1
          · exact .problem c t doc e hu hd h1 h2
  · intro h
    generalize hf : "xml" = fmt at h
    cases h with
    | library => exact absurd hf (by decide)
    | missing => rfl
    | unpack c e hu => rw [xmlRead_unpacked hu]; rfl
    | notXml c t e hu hp => rw [xmlRead_unpacked hu, bind_err]; exact .inr ⟨t, rfl, bind_err.2 (.inl hp)⟩
    | notValid c t doc hu hp hv =>
      rw [xmlRead_unpacked hu, bind_err]; exact .inr ⟨t, rfl, bind_err.2 (.inr ⟨doc, hp, (factoryRead_error _ _ _).2 (.inl ⟨hv, rfl⟩)⟩)⟩
    | problem c t doc e hu hp hv hr =>
      rw [xmlRead_unpacked hu, bind_err]; exact .inr ⟨t, rfl, bind_err.2 (.inr ⟨doc, hp, (factoryRead_error _ _ _).2 (.inr ⟨hv, hr⟩)⟩)⟩
    | notYaml => exact absurd hf (by decide)
    | refused => exact absurd hf (by decide)

theorem yamlRead_error (x : Ext) (content : Option Bytes) (e : Err) : (yamlIf x).read content = .error e ↔ Spec.Unreadable x "yaml" content e := by
  constructor
  · intro h
    cases content with
    | none => cases h; exact .missing "yaml" (.inr rfl)
    | some c =>
      rcases bind_err.1 (show (x.parseYaml c >>= fun j => Yaml.load j) = .error e from h) with h | ⟨j, hj, h⟩
      · exact .notYaml c e h
      · exact .refused c j e hj ((Yaml.C121_load j e).1 h)
  · intro h
    generalize hf : "yaml" = fmt at h
    cases h with
    | library => exact absurd hf (by decide)
    | missing => rfl
    | unpack => exact absurd hf (by decide)
    | notXml => exact absurd hf (by decide)
    | notValid => exact absurd hf (by decide)
    | problem => exact absurd hf (by decide)
    | notYaml c e hp =>
      show (x.parseYaml c >>= fun j => Yaml.load j) = .error e
      exact bind_err.2 (.inl hp)
    | refused c j e hp hr =>
      show (x.parseYaml c >>= fun j => Yaml.load j) = .error e
      exact bind_err.2 (.inr ⟨j, hp, (Yaml.C121_load j e).2 hr⟩)

theorem libRead_error (x : Ext) (content : Option Bytes) (e : Err) : libIf.read content = .error e ↔ Spec.Unreadable x "libucis" content e := by
  constructor
  · intro h; cases h; exact .library content
  · intro h
    generalize hf : "libucis" = fmt at h
    cases h with
    | library => rfl
    | missing _ h => subst hf; exact absurd h (by decide)
    | unpack => exact absurd hf (by decide)
    | notXml => exact absurd hf (by decide)
    | notValid => exact absurd hf (by decide)
    | problem => exact absurd hf (by decide)
    | notYaml => exact absurd hf (by decide)
    | refused => exact absurd hf (by decide)

/-- The built-in formats. -/
theorem registered_cases {x : Ext} {fmt : String} {i : DbDesc Database} (h : Spec.Registered (defaultRgy x) fmt i) :
    (fmt = "xml" ∧ i.fmtIf = xmlIf x) ∨ (fmt = "libucis" ∧ i.fmtIf = libIf) ∨ (fmt = "yaml" ∧ i.fmtIf = yamlIf x) := by
  unfold Spec.Registered at h
  rw [defaultRgy_dbs] at h
  simp only [Dict.get?] at h
  split at h
  · rename_i e; cases h; exact .inl ⟨e.symm, rfl⟩
  · split at h
    · rename_i e; cases h; exact .inr (.inl ⟨e.symm, rfl⟩)
    · split at h
      · rename_i e; cases h; exact .inr (.inr ⟨e.symm, rfl⟩)
      · cases h

theorem registered_lib (x : Ext) : Spec.Registered (defaultRgy x) "libucis"
    ⟨"libucis", 3, "Reads coverage data via an implementation of the UCIS C API", libIf⟩ := by
  unfold Spec.Registered; rw [defaultRgy_dbs]; rfl

theorem registered_iff (x : Ext) (fmt : String) : (∃ i, Spec.Registered (defaultRgy x) fmt i) ↔ fmt ∈ Spec.dbFormats := by
  constructor
  · rintro ⟨i, h⟩
    rcases registered_cases h with ⟨rfl, _⟩ | ⟨rfl, _⟩ | ⟨rfl, _⟩ <;> decide
  · intro h
    simp only [Spec.dbFormats, List.mem_cons, List.not_mem_nil, or_false] at h
    rcases h with rfl | rfl | rfl
    · exact ⟨_, registered_xml x⟩
    · exact ⟨_, registered_lib x⟩
    · exact ⟨_, registered_yaml x⟩

theorem unreadable_format {x : Ext} {fmt : String} {content : Option Bytes} {e : Err} (h : Spec.Unreadable x fmt content e) : fmt ∈ Spec.dbFormats := by
  cases h with
  | missing _ h => rcases h with rfl | rfl <;> decide
  | _ => decide

/-- **C129** Reading a file in a built-in format raises the exception listed, and only that. -/
theorem C129_read {x : Ext} {fmt : String} {i : DbDesc Database} (h : Spec.Registered (defaultRgy x) fmt i) (content : Option Bytes) (e : Err) :
    i.fmtIf.read content = .error e ↔ Spec.Unreadable x fmt content e := by
  rcases registered_cases h with ⟨rfl, hi⟩ | ⟨rfl, hi⟩ | ⟨rfl, hi⟩
  · rw [hi]; exact xmlRead_error x content e
  · rw [hi]; exact libRead_error x content e
  · rw [hi]; exact yamlRead_error x content e

theorem not_registered {x : Ext} {fmt : String} (h : fmt ∉ Spec.dbFormats) : (defaultRgy x).hasDatabaseFormat fmt = false := by
  have : (defaultRgy x).dbs.get? fmt = none := by
    cases hg : (defaultRgy x).dbs.get? fmt with
    | none => rfl
    | some i => exact absurd ((registered_iff x fmt).1 ⟨i, hg⟩) h
  simp [Rgy.hasDatabaseFormat, Dict.contains, this]

theorem rpt_cases {x : Ext} {fmt : String} (h : fmt ∈ Spec.rptFormats) : ∃ o, (defaultRgy x).rpts.get? fmt = some o ∧ o.outFlags = rptStream ∧
    ((fmt = "json" ∧ o.fmtIf = jsonRptIf x) ∨ (fmt = "txt" ∧ o.fmtIf = txtRptIf x)) := by
  simp only [Spec.rptFormats, List.mem_cons, List.not_mem_nil, or_false] at h
  rw [defaultRgy_rpts]
  rcases h with rfl | rfl
  · exact ⟨_, rfl, rfl, .inl ⟨rfl, rfl⟩⟩
  · exact ⟨_, rfl, rfl, .inr ⟨rfl, rfl⟩⟩

theorem rpt_none {x : Ext} {fmt : String} (h : fmt ∉ Spec.rptFormats) : (defaultRgy x).hasReportFormat fmt = false := by
  simp only [Spec.rptFormats, List.mem_cons, List.not_mem_nil, or_false, not_or] at h
  unfold Rgy.hasReportFormat
  rw [defaultRgy_rpts]
  simp [Dict.contains, Dict.get?, Ne.symm h.1, Ne.symm h.2]

/-! ## Reports -/

open Yaml (OnlyErr onlyErr_bind onlyErr_ok onlyErr_foldlM)

theorem onlyErr_mapM {α β : Type} {e : Err} {f : α → Except Err β} (hf : ∀ a, OnlyErr e (f a)) (xs : List α) : OnlyErr e (xs.mapM f) := by
  induction xs with
  | nil => exact onlyErr_ok _
  | cons x t ih => rw [List.mapM_cons]; exact onlyErr_bind (hf x) (fun _ => onlyErr_bind ih (fun _ => onlyErr_ok _))

theorem atLeastE_err (i : Item) : OnlyErr .attributeError (atLeastE i) := by
  intro e h
  unfold atLeastE at h
  split at h <;> cases h
  rfl

theorem buildCoverpoint_err (rd : Rat → Rat) (c : Scope) : OnlyErr .attributeError (buildCoverpoint rd c) := by
  unfold buildCoverpoint
  refine onlyErr_bind (onlyErr_foldlM (fun _ i => onlyErr_bind (atLeastE_err i) (fun _ => onlyErr_ok _)) _ _) (fun _ => ?_)
  refine onlyErr_bind (onlyErr_foldlM (fun _ i => onlyErr_bind (atLeastE_err i) (fun _ => onlyErr_ok _)) _ _) (fun _ => ?_)
  exact onlyErr_bind (onlyErr_foldlM (fun _ i => onlyErr_bind (atLeastE_err i) (fun _ => onlyErr_ok _)) _ _) (fun _ => onlyErr_ok _)

theorem buildCross_err (rd : Rat → Rat) (c : Scope) : OnlyErr .attributeError (buildCross rd c) :=
  onlyErr_bind (onlyErr_foldlM (fun _ i => onlyErr_bind (atLeastE_err i) (fun _ => onlyErr_ok _)) _ _) (fun _ => onlyErr_ok _)

mutual
theorem buildCg_err (rd : Rat → Rat) : ∀ (s : Scope), OnlyErr .attributeError (buildCg rd s)
  | ⟨ty, n, src, w, du, cps, ch, it⟩ => by
    rw [buildCg]
    exact onlyErr_bind (onlyErr_mapM (buildCoverpoint_err rd) _) (fun _ => onlyErr_bind (onlyErr_mapM (buildCross_err rd) _) (fun _ =>
      onlyErr_bind (buildCgs_err rd ch) (fun _ => onlyErr_ok _)))
termination_by structural s => s
theorem buildCgs_err (rd : Rat → Rat) : ∀ (l : List Scope), OnlyErr .attributeError (buildCgs rd l)
  | [] => by rw [buildCgs]; exact onlyErr_ok _
  | c :: t => by
    rw [buildCgs]
    split
    · exact onlyErr_bind (buildCg_err rd c) (fun _ => onlyErr_bind (buildCgs_err rd t) (fun _ => onlyErr_ok _))
    · exact buildCgs_err rd t
termination_by structural l => l
end

theorem groups_err (rd : Rat → Rat) (l : List Scope) (st : InstLoop) : OnlyErr .attributeError (l.foldlM (covergroupStep rd) st) :=
  onlyErr_foldlM (fun _ s => onlyErr_bind (buildCg_err rd s) (fun _ => onlyErr_ok _)) l st

theorem buildCovergroups_error (rd : Rat → Rat) (r : Rpt) (i : Scope) (e : Err) : buildCovergroups rd r i = .error e ↔
    (e = .attributeError ∧ ∃ s ∈ Verif.Spec.kids ST.COVERGROUP i, ∃ g ∈ Verif.Spec.groupTree s, ¬ HereOk g) ∨
    (e = .zeroDivision ∧ (∀ s ∈ Verif.Spec.kids ST.COVERGROUP i, ∀ g ∈ Verif.Spec.groupTree s, HereOk g) ∧ Verif.Spec.weightSum (Verif.Spec.kids ST.COVERGROUP i) = 0) := by
  have hk : i.scopes ST.COVERGROUP = Verif.Spec.kids ST.COVERGROUP i := rfl
  by_cases hall : ∀ s ∈ Verif.Spec.kids ST.COVERGROUP i, ∀ g ∈ Verif.Spec.groupTree s, HereOk g
  · have hnot : ¬ ∃ s ∈ Verif.Spec.kids ST.COVERGROUP i, ∃ g ∈ Verif.Spec.groupTree s, ¬ HereOk g := by
      rintro ⟨s, hs, g, hg, h⟩; exact h (hall s hs g hg)
    have hf := (foldlM_covergroup rd (Verif.Spec.kids ST.COVERGROUP i) ⟨r, ⟨0, 0⟩⟩ _).2 ⟨hall, rfl⟩
    by_cases hw : Verif.Spec.weightSum (Verif.Spec.kids ST.COVERGROUP i) = 0
    · have hdiv := accOf_div rd (Verif.Spec.kids ST.COVERGROUP i)
      unfold buildCovergroups
      rw [hk, hf]
      have hd : (((Verif.Spec.kids ST.COVERGROUP i).map (fun s => (groupCov rd s, s.weight))).foldl (accStep rd) ⟨0, 0⟩).div = 0 := hdiv.trans hw
      simp only [bind, Except.bind, hd, if_true]
      constructor
      · intro h; cases h; exact .inr ⟨rfl, hall, hw⟩
      · rintro (⟨_, h⟩ | ⟨rfl, _⟩)
        · exact absurd h hnot
        · rfl
    · rw [(buildCovergroups_ok rd r _ i).2 ⟨⟨hall, hw⟩, rfl⟩]
      constructor
      · intro h; cases h
      · rintro (⟨_, h⟩ | ⟨_, _, h⟩)
        · exact absurd h hnot
        · exact absurd h hw
  · have hex : ∃ s ∈ Verif.Spec.kids ST.COVERGROUP i, ∃ g ∈ Verif.Spec.groupTree s, ¬ HereOk g := by
      simp only [not_forall] at hall
      obtain ⟨s, hs, g, hg, h⟩ := hall
      exact ⟨s, hs, g, hg, h⟩
    have herr : (Verif.Spec.kids ST.COVERGROUP i).foldlM (covergroupStep rd) ⟨r, ⟨0, 0⟩⟩ = .error .attributeError := by
      cases hf : (Verif.Spec.kids ST.COVERGROUP i).foldlM (covergroupStep rd) ⟨r, ⟨0, 0⟩⟩ with
      | ok b => exact absurd ((foldlM_covergroup rd _ _ _).1 hf).1 hall
      | error e' => rw [groups_err rd _ _ e' hf]
    unfold buildCovergroups
    rw [hk, herr]
    constructor
    · intro h; cases h; exact .inl ⟨rfl, hex⟩
    · rintro (⟨rfl, _⟩ | ⟨_, h, _⟩)
      · rfl
      · exact absurd h hall

/-- **C129** The exception of a report that cannot be made. -/
theorem C129_build (rd : Rat → Rat) (db : Scope) (e : Err) : build rd db = .error e ↔ Spec.NoReport db e := by
  have key : ∀ (l : List Scope) (r : Rpt), l.foldlM (buildCovergroups rd) r = .error e ↔ ∃ pre i post, l = pre ++ i :: post ∧ (∀ j ∈ pre, InstOk j) ∧
      ((e = .attributeError ∧ ∃ s ∈ Verif.Spec.kids ST.COVERGROUP i, ∃ g ∈ Verif.Spec.groupTree s, ¬ HereOk g) ∨
       (e = .zeroDivision ∧ (∀ s ∈ Verif.Spec.kids ST.COVERGROUP i, ∀ g ∈ Verif.Spec.groupTree s, HereOk g) ∧ Verif.Spec.weightSum (Verif.Spec.kids ST.COVERGROUP i) = 0)) := by
    intro l
    induction l with
    | nil =>
      intro r
      constructor
      · intro h; cases h
      · rintro ⟨pre, i, post, h, _⟩; simp at h
    | cons a t ih =>
      intro r
      rw [List.foldlM_cons, bind_err]
      constructor
      · rintro (h | ⟨b, hb, h⟩)
        · exact ⟨[], a, t, rfl, by simp, (buildCovergroups_error rd r a e).1 h⟩
        · obtain ⟨pre, i, post, rfl, h1, h2⟩ := (ih b).1 h
          refine ⟨a :: pre, i, post, rfl, ?_, h2⟩
          intro j hj
          rcases List.mem_cons.1 hj with rfl | hj
          · exact ((buildCovergroups_ok rd r b j).1 hb).1
          · exact h1 j hj
      · rintro ⟨pre, i, post, h, h1, h2⟩
        cases pre with
        | nil =>
          simp only [List.nil_append, List.cons.injEq] at h
          obtain ⟨rfl, rfl⟩ := h
          exact .inl ((buildCovergroups_error rd r a e).2 h2)
        | cons p pre =>
          simp only [List.cons_append, List.cons.injEq] at h
          obtain ⟨rfl, rfl⟩ := h
          exact .inr ⟨_, (buildCovergroups_ok rd r _ a).2 ⟨h1 a (by simp), rfl⟩, (ih _).2 ⟨pre, i, post, rfl, fun j hj => h1 j (by simp [hj]), h2⟩⟩
  unfold build
  rw [show db.scopes ST.INSTANCE = Verif.Spec.kids ST.INSTANCE db from rfl, key]
  constructor
  · rintro ⟨pre, i, post, h, h1, ⟨rfl, h2⟩ | ⟨rfl, h2, h3⟩⟩
    · exact .threshold pre post i h h1 h2
    · exact .weights pre post i h h1 h2 h3
  · rintro (⟨pre, post, i, h, h1, h2⟩ | ⟨pre, post, i, h, h1, h2, h3⟩)
    · exact ⟨pre, i, post, h, h1, .inl ⟨rfl, h2⟩⟩
    · exact ⟨pre, i, post, h, h1, .inr ⟨rfl, h2, h3⟩⟩

/-! ## How the commands end -/

section
open Cmd
variable {D : Type} {rgy : Rgy D} {mrg : D → List D → Except Err D} {w : World} {i o : DbDesc D}

/-- What remains after the merge. -/
def finish (o : DbDesc D) (w : World) (path : String) (res : D) : Except Err Unit :=
  match o.fmtIf.write with
  | .error e => .error e
  | .ok wr => if w.writable path then (wr res).2 else .error .userError

theorem merge_run {a : MergeArgs} (hi : rgy.dbs.get? (a.inputFormat.getD "xml") = some i) (ho : rgy.dbs.get? (a.outputFormat.getD "xml") = some o) :
    mergeCmd rgy mrg a w = (do
      let dbs ← a.db.mapM (fun p => wrap (readFile i.fmtIf p))
      let out ← lift o.fmtIf.create
      let res ← wrap (lift (mrg out dbs))
      writeDb o.fmtIf a.out res : Cmd Unit) w := by
  have hi1 : rgy.hasDatabaseFormat (a.inputFormat.getD "xml") = true := by simp [Rgy.hasDatabaseFormat, Dict.contains, hi]
  have ho1 : rgy.hasDatabaseFormat (a.outputFormat.getD "xml") = true := by simp [Rgy.hasDatabaseFormat, Dict.contains, ho]
  have hi2 : rgy.getDatabaseDesc (a.inputFormat.getD "xml") = .ok i := getE_iff.2 hi
  have ho2 : rgy.getDatabaseDesc (a.outputFormat.getD "xml") = .ok o := getE_iff.2 ho
  unfold mergeCmd
  simp only [hi1, ho1, Bool.not_true, Bool.false_eq_true, if_false]
  rw [Cmd.bind_ok (a := i) (w' := w) (by rw [hi2]; rfl), Cmd.bind_ok (a := o) (w' := w) (by rw [ho2]; rfl)]

theorem convert_run {a : ConvertArgs} (hi : rgy.dbs.get? (a.inputFormat.getD "xml") = some i) (ho : rgy.dbs.get? (a.outputFormat.getD "xml") = some o) :
    convertCmd rgy mrg a w = (do
      let d ← wrap (readFile i.fmtIf a.input)
      let out ← lift o.fmtIf.create
      let res ← lift (mrg out [d])
      writeDb o.fmtIf a.out res : Cmd Unit) w := by
  have hi1 : rgy.hasDatabaseFormat (a.inputFormat.getD "xml") = true := by simp [Rgy.hasDatabaseFormat, Dict.contains, hi]
  have ho1 : rgy.hasDatabaseFormat (a.outputFormat.getD "xml") = true := by simp [Rgy.hasDatabaseFormat, Dict.contains, ho]
  have hi2 : rgy.getDatabaseDesc (a.inputFormat.getD "xml") = .ok i := getE_iff.2 hi
  have ho2 : rgy.getDatabaseDesc (a.outputFormat.getD "xml") = .ok o := getE_iff.2 ho
  unfold convertCmd
  simp only [hi1, ho1, Bool.not_true, Bool.false_eq_true, if_false]
  rw [Cmd.bind_ok (a := i) (w' := w) (by rw [hi2]; rfl), Cmd.bind_ok (a := o) (w' := w) (by rw [ho2]; rfl)]

theorem writeDb_fst (f : DbDesc D) (path : String) (d : D) (w w' : World) (hw : w'.writable = w.writable) :
    (writeDb f.fmtIf path d w').1 = finish f w path d := by
  rw [writeDb_eq]
  unfold finish
  cases f.fmtIf.write with
  | error e => rfl
  | ok wr => simp only [hw]; split <;> rfl

theorem reads_each {f : DbIf D} {files : String → Option Bytes} {ps : List String} {ds : List D} (h : Spec.Reads f files ps ds) :
    ∀ p ∈ ps, ∃ d, f.read (files p) = .ok d := by
  induction h with
  | nil => simp
  | cons h _ ih =>
    intro p hp
    rcases List.mem_cons.1 hp with rfl | hp
    · exact ⟨_, h⟩
    · exact ih p hp

theorem merge_read {a : MergeArgs} (hi : rgy.dbs.get? (a.inputFormat.getD "xml") = some i) (ho : rgy.dbs.get? (a.outputFormat.getD "xml") = some o)
    {dbs : List D} (hr : Spec.Reads i.fmtIf w.files a.db dbs) :
    (mergeCmd rgy mrg a w).1 = match o.fmtIf.create with
      | .error e => .error e
      | .ok new => match mrg new dbs with
        | .error _ => .error .userError
        | .ok res => finish o w a.out res := by
  rw [merge_run hi ho]
  rcases mapM_read i.fmtIf a.db w with ⟨dbs', h1, h2⟩ | ⟨⟨p, hp, e, he⟩, _⟩
  · cases reads_unique hr h1
    rw [Cmd.bind_ok h2]
    cases hc : o.fmtIf.create with
    | error e => rfl
    | ok new =>
      rw [Cmd.lift_ok]
      cases hm : mrg new dbs with
      | error e =>
        rw [Cmd.bind_error (by rw [wrap_lift])]
        simp only [hm]
      | ok res =>
        rw [Cmd.bind_ok (by rw [wrap_lift])]
        simp only [hm]
        exact writeDb_fst o a.out res w _ rfl
  · exfalso
    obtain ⟨d, hd⟩ := reads_each hr p hp
    rw [he] at hd; cases hd

theorem merge_unread {a : MergeArgs} (hi : rgy.dbs.get? (a.inputFormat.getD "xml") = some i) (ho : rgy.dbs.get? (a.outputFormat.getD "xml") = some o)
    (hr : ∀ dbs, ¬ Spec.Reads i.fmtIf w.files a.db dbs) : (mergeCmd rgy mrg a w).1 = .error .userError := by
  rw [merge_run hi ho]
  rcases mapM_read i.fmtIf a.db w with ⟨dbs', h1, h2⟩ | ⟨_, w', _, h2⟩
  · exact absurd h1 (hr dbs')
  · rw [Cmd.bind_error h2]

theorem report_unread {a : ReportArgs} {r : RptDesc D} {e : Err} (hi : rgy.dbs.get? (a.inputFormat.getD "xml") = some i)
    (ho : rgy.rpts.get? (a.outputFormat.getD "txt") = some r) (hr : i.fmtIf.read (w.files a.db) = .error e) : (reportCmd rgy a w).1 = .error e := by
  have hi1 : rgy.hasDatabaseFormat (a.inputFormat.getD "xml") = true := by simp [Rgy.hasDatabaseFormat, Dict.contains, hi]
  have ho1 : rgy.hasReportFormat (a.outputFormat.getD "txt") = true := by simp [Rgy.hasReportFormat, Dict.contains, ho]
  have hi2 : rgy.getDatabaseDesc (a.inputFormat.getD "xml") = .ok i := getE_iff.2 hi
  have ho2 : rgy.getReportDesc (a.outputFormat.getD "txt") = .ok r := getE_iff.2 ho
  unfold reportCmd
  simp only [defaultDatabase, defaultReport, hi1, ho1, Bool.not_true, Bool.false_eq_true, if_false]
  rw [Cmd.bind_ok (a := i) (w' := w) (by rw [hi2]; rfl), Cmd.bind_ok (a := r) (w' := w) (by rw [ho2]; rfl)]
  rw [Cmd.bind_error (show readFile i.fmtIf a.db w = (.error e, _) by unfold readFile; rw [hr])]

open Classical in
theorem report_fst {a : ReportArgs} {r : RptDesc D} {d : D} (hi : rgy.dbs.get? (a.inputFormat.getD "xml") = some i)
    (ho : rgy.rpts.get? (a.outputFormat.getD "txt") = some r) (hr : i.fmtIf.read (w.files a.db) = .ok d) (hf : r.outFlags = rptStream) :
    (reportCmd rgy a w).1 = if Spec.CanOpen w a.out then (r.fmtIf.report d).2 else .error .userError := by
  rw [reportCmd_read hi ho hr, hf]
  have hmask : maskHit rptStream rptStream = true := by decide
  cases ha : a.out with
  | none =>
    rw [if_pos (show Spec.CanOpen w none from fun p h => by cases h)]
    simp only [hmask, Bool.not_true, Bool.false_eq_true, if_false]
    rfl
  | some p =>
    simp only [hmask, if_true]
    by_cases hw : w.writable p = true
    · rw [if_pos (show Spec.CanOpen w (some p) from fun q h => by cases h; exact hw)]
      rw [Cmd.bind_ok (show openWrite p _ = (.ok (), _) by unfold openWrite; rw [if_pos hw])]
      rfl
    · rw [if_neg (show ¬ Spec.CanOpen w (some p) from fun h => hw (h p rfl))]
      rw [Cmd.bind_error (show openWrite p _ = (.error .userError, _) by unfold openWrite; rw [if_neg hw])]

theorem convert_read {a : ConvertArgs} (hi : rgy.dbs.get? (a.inputFormat.getD "xml") = some i) (ho : rgy.dbs.get? (a.outputFormat.getD "xml") = some o) :
    (convertCmd rgy mrg a w).1 = match i.fmtIf.read (w.files a.input) with
      | .error _ => .error .userError
      | .ok d => match o.fmtIf.create with
        | .error e => .error e
        | .ok new => match mrg new [d] with
          | .error e => .error e
          | .ok res => finish o w a.out res := by
  rw [convert_run hi ho]
  have hw := wrap_read i.fmtIf a.input w
  cases hr : i.fmtIf.read (w.files a.input) with
  | error e =>
    rw [hr] at hw
    rw [Cmd.bind_error hw]
  | ok d =>
    rw [hr] at hw
    rw [Cmd.bind_ok hw]
    cases hc : o.fmtIf.create with
    | error e => rfl
    | ok new =>
      rw [Cmd.lift_ok]
      cases hm : mrg new [d] with
      | error e => simp only [hm]; rfl
      | ok res =>
        rw [Cmd.lift_ok]
        simp only [hm]
        exact writeDb_fst o a.out res w _ rfl

end

theorem fst_error {α β : Type} {p : Except Err α × β} {e : Err} : (∃ w', p = (.error e, w')) ↔ p.1 = .error e := by
  constructor
  · rintro ⟨w', rfl⟩; rfl
  · intro h; exact ⟨p.2, Prod.ext h rfl⟩

theorem xmlWrite_error {x : Ext} {res : Database} {e : Err} : (xmlWrite x res).2 = .error e ↔ Xml.write x.env res = .error e := by
  unfold xmlWrite
  cases Xml.write x.env res with
  | ok d => constructor <;> intro h <;> cases h
  | error e' => constructor <;> intro h <;> (cases h; rfl)

theorem loads_iff {x : Ext} {fmt : String} {i : DbDesc Database} (h : Spec.Registered (defaultRgy x) fmt i) (c : Option Bytes) (d : Database) :
    Spec.Loads x fmt c d ↔ i.fmtIf.read c = .ok d := by
  constructor
  · rintro ⟨j, hj, hr⟩
    have : some i = some j := h.symm.trans hj
    cases this
    exact hr
  · intro hr; exact ⟨i, h, hr⟩

theorem reads_iff {x : Ext} {fmt : String} {i : DbDesc Database} (h : Spec.Registered (defaultRgy x) fmt i) (files : String → Option Bytes)
    (ps : List String) (dbs : List Database) :
    List.Forall₂ (fun p d => Spec.Loads x fmt (files p) d) ps dbs ↔ Spec.Reads i.fmtIf files ps dbs := by
  have : (fun p d => Spec.Loads x fmt (files p) d) = (fun p d => i.fmtIf.read (files p) = .ok d) := by
    funext p d; exact propext (loads_iff h _ _)
  unfold Spec.Reads
  rw [this]

/-- **C129** The exceptions of `merge`. -/
theorem C129_merge (x : Ext) (a : MergeArgs) (w : World) (e : Err) : (∃ w', ucisMerge x a w = (.error e, w')) ↔ Spec.MergeRaises x a w e := by
  rw [fst_error]
  unfold ucisMerge
  by_cases hin : a.inputFormat.getD "xml" ∈ Spec.dbFormats
  swap
  · rw [C61_merge _ _ _ _ (.inl (not_registered hin))]
    constructor
    · intro h; cases h; exact .format (.inl hin)
    · intro h
      cases h with
      | write _ _ _ h => exact absurd h hin
      | _ => rfl
  by_cases hout : a.outputFormat.getD "xml" ∈ Spec.dbFormats
  swap
  · rw [C61_merge _ _ _ _ (.inr (not_registered hout))]
    constructor
    · intro h; cases h; exact .format (.inr hout)
    · intro h
      cases h with
      | write _ _ _ _ h => rw [h] at hout; exact absurd hout (by decide)
      | _ => rfl
  obtain ⟨i, hi⟩ := (registered_iff x _).2 hin
  obtain ⟨o, ho⟩ := (registered_iff x _).2 hout
  by_cases hr : ∃ dbs, Spec.Reads i.fmtIf w.files a.db dbs
  swap
  · have hr' : ∀ dbs, ¬ Spec.Reads i.fmtIf w.files a.db dbs := fun dbs h => hr ⟨dbs, h⟩
    rw [merge_unread hi ho hr']
    constructor
    · intro h; cases h
      rcases mapM_read i.fmtIf a.db w with ⟨dbs', h1, _⟩ | ⟨⟨p, hp, e, he⟩, _⟩
      · exact absurd h1 (hr' dbs')
      · exact .input p e hp ((C129_read hi _ _).1 he)
    · intro h
      cases h with
      | write dbs _ _ _ _ h => exact absurd ((reads_iff hi _ _ _).1 h) (hr' dbs)
      | _ => rfl
  obtain ⟨dbs, hr⟩ := hr
  have hno : ∀ p e, p ∈ a.db → ¬ Spec.Unreadable x (a.inputFormat.getD "xml") (w.files p) e := by
    intro p e hp h
    have h' := (C129_read hi _ _).2 h
    obtain ⟨d, hd⟩ := reads_each hr p hp
    rw [h'] at hd; cases hd
  have huniq : ∀ dbs', List.Forall₂ (fun p d => Spec.Loads x (a.inputFormat.getD "xml") (w.files p) d) a.db dbs' → dbs' = dbs :=
    fun dbs' h => reads_unique ((reads_iff hi _ _ _).1 h) hr
  have hl := (reads_iff hi w.files a.db dbs).2 hr
  rw [merge_read hi ho hr]
  rcases registered_cases ho with ⟨h1, h2⟩ | ⟨h1, h2⟩ | ⟨h1, h2⟩
  · have hcr : (xmlIf x).create = .ok ⟨emptyDb, [], []⟩ := rfl
    simp only [h2, hcr]
    have hfin : ∀ res, finish o w a.out res = if w.writable a.out then (xmlWrite x res).2 else .error .userError := by
      intro res; unfold finish; rw [h2]; rfl
    cases hm : Merge.mergeDb ⟨emptyDb, [], []⟩ dbs with
    | error e' =>
      constructor
      · intro h; cases h; exact .merge dbs e' hl hm
      · intro h
        cases h with
        | write dbs' res _ _ _ h3 h4 => rw [huniq _ h3, hm] at h4; cases h4
        | _ => rfl
    | ok res =>
      simp only [hfin]
      by_cases hw : w.writable a.out = true
      · rw [if_pos hw, xmlWrite_error]
        constructor
        · intro h; exact .write dbs res e hin h1 hl hm hw h
        · intro h
          cases h with
          | format h => rcases h with h | h <;> contradiction
          | input p e hp h => exact absurd h (hno p e hp)
          | noWriter h => rw [h1] at h; exact absurd h (by decide)
          | merge dbs' e h3 h4 => rw [huniq _ h3, hm] at h4; cases h4
          | output h => rw [hw] at h; cases h
          | write dbs' res' _ _ _ h3 h4 _ h5 => rw [huniq _ h3, hm] at h4; cases h4; exact h5
      · rw [if_neg hw]
        constructor
        · intro h; cases h; exact .output (by simpa using hw)
        · intro h
          cases h with
          | write _ _ _ _ _ _ _ h => exact absurd h hw
          | _ => rfl
  · rw [h2]
    show Except.error Err.userError = _ ↔ _
    constructor
    · intro h; cases h; exact .noWriter (.inl h1)
    · intro h
      cases h with
      | write _ _ _ _ h => rw [h1] at h; exact absurd h (by decide)
      | _ => rfl
  · have hcr : (yamlIf x).create = .ok ⟨emptyDb, [], []⟩ := rfl
    simp only [h2, hcr]
    have hfin : ∀ res, finish o w a.out res = .error .userError := by
      intro res; unfold finish; rw [h2]; rfl
    suffices hs : Except.error Err.userError = (.error e : Except Err Unit) ↔ Spec.MergeRaises x a w e by
      cases hm : Merge.mergeDb ⟨emptyDb, [], []⟩ dbs with
      | error e' => exact hs
      | ok res => simp only [hfin]; exact hs
    constructor
    · intro h; cases h; exact .noWriter (.inr h1)
    · intro h
      cases h with
      | write _ _ _ _ h => rw [h1] at h; exact absurd h (by decide)
      | _ => rfl

/-- **C129** The exceptions of `convert`. -/
theorem C129_convert (x : Ext) (a : ConvertArgs) (w : World) (e : Err) : (∃ w', ucisConvert x a w = (.error e, w')) ↔ Spec.ConvertRaises x a w e := by
  rw [fst_error]
  unfold ucisConvert
  by_cases hin : a.inputFormat.getD "xml" ∈ Spec.dbFormats
  swap
  · rw [C61_convert _ _ _ _ (.inl (not_registered hin))]
    constructor
    · intro h; cases h; exact .format (.inl hin)
    · intro h
      cases h with
      | merge _ _ _ h => obtain ⟨i, h, _⟩ := h; exact absurd ((registered_iff x _).1 ⟨i, h⟩) hin
      | write _ _ _ _ h => obtain ⟨i, h, _⟩ := h; exact absurd ((registered_iff x _).1 ⟨i, h⟩) hin
      | _ => rfl
  by_cases hout : a.outputFormat.getD "xml" ∈ Spec.dbFormats
  swap
  · rw [C61_convert _ _ _ _ (.inr (not_registered hout))]
    constructor
    · intro h; cases h; exact .format (.inr hout)
    · intro h
      cases h with
      | merge _ _ h => rcases h with h | h <;> rw [h] at hout <;> exact absurd hout (by decide)
      | write _ _ _ h => rw [h] at hout; exact absurd hout (by decide)
      | _ => rfl
  obtain ⟨i, hi⟩ := (registered_iff x _).2 hin
  obtain ⟨o, ho⟩ := (registered_iff x _).2 hout
  rw [convert_read hi ho]
  cases hr : i.fmtIf.read (w.files a.input) with
  | error e' =>
    have hnl : ∀ d, ¬ Spec.Loads x (a.inputFormat.getD "xml") (w.files a.input) d := by
      intro d h; have := (loads_iff hi _ _).1 h; rw [hr] at this; cases this
    constructor
    · intro h; cases h; exact .input e' ((C129_read hi _ _).1 hr)
    · intro h
      cases h with
      | merge d _ _ h => exact absurd h (hnl d)
      | write d _ _ _ h => exact absurd h (hnl d)
      | _ => rfl
  | ok d =>
    have hno : ∀ e, ¬ Spec.Unreadable x (a.inputFormat.getD "xml") (w.files a.input) e := by
      intro e h; have := (C129_read hi _ _).2 h; rw [hr] at this; cases this
    have hl := (loads_iff hi (w.files a.input) d).2 hr
    have huniq : ∀ d', Spec.Loads x (a.inputFormat.getD "xml") (w.files a.input) d' → d' = d := by
      intro d' h; have := (loads_iff hi _ _).1 h; rw [hr] at this; cases this; rfl
    rcases registered_cases ho with ⟨h1, h2⟩ | ⟨h1, h2⟩ | ⟨h1, h2⟩
    · have hcr : (xmlIf x).create = .ok ⟨emptyDb, [], []⟩ := rfl
      simp only [h2, hcr]
      have hfin : ∀ res, finish o w a.out res = if w.writable a.out then (xmlWrite x res).2 else .error .userError := by
        intro res; unfold finish; rw [h2]; rfl
      cases hm : Merge.mergeDb ⟨emptyDb, [], []⟩ [d] with
      | error e' =>
        constructor
        · intro h; cases h; exact .merge d e (.inl h1) hl hm
        · intro h
          cases h with
          | format h => rcases h with h | h <;> contradiction
          | input e h => exact absurd h (hno e)
          | library h => rw [h1] at h; exact absurd h (by decide)
          | merge d' _ _ h3 h4 => rw [huniq _ h3, hm] at h4; cases h4; rfl
          | noWriter d' res h => rw [h1] at h; exact absurd h (by decide)
          | output d' res _ h3 h4 => rw [huniq _ h3, hm] at h4; cases h4
          | write d' res _ _ h3 h4 => rw [huniq _ h3, hm] at h4; cases h4
      | ok res =>
        simp only [hfin]
        by_cases hw : w.writable a.out = true
        · rw [if_pos hw, xmlWrite_error]
          constructor
          · intro h; exact .write d res e h1 hl hm hw h
          · intro h
            cases h with
            | format h => rcases h with h | h <;> contradiction
            | input e h => exact absurd h (hno e)
            | library h => rw [h1] at h; exact absurd h (by decide)
            | merge d' _ _ h3 h4 => rw [huniq _ h3, hm] at h4; cases h4
            | noWriter d' res h => rw [h1] at h; exact absurd h (by decide)
            | output _ _ _ _ _ h => rw [hw] at h; cases h
            | write d' res' _ _ h3 h4 _ h5 => rw [huniq _ h3, hm] at h4; cases h4; exact h5
        · rw [if_neg hw]
          constructor
          · intro h; cases h; exact .output d res h1 hl hm (by simpa using hw)
          · intro h
            cases h with
            | merge d' _ _ h3 h4 => rw [huniq _ h3, hm] at h4; cases h4
            | write _ _ _ _ _ _ h => exact absurd h hw
            | _ => rfl
    · rw [h2]
      show Except.error Err.userError = _ ↔ _
      constructor
      · intro h; cases h; exact .library h1
      · intro h
        cases h with
        | merge _ _ h => rw [h1] at h; exact absurd h (by decide)
        | write _ _ _ h => rw [h1] at h; exact absurd h (by decide)
        | _ => rfl
    · have hcr : (yamlIf x).create = .ok ⟨emptyDb, [], []⟩ := rfl
      simp only [h2, hcr]
      have hfin : ∀ res, finish o w a.out res = .error .userError := by
        intro res; unfold finish; rw [h2]; rfl
      cases hm : Merge.mergeDb ⟨emptyDb, [], []⟩ [d] with
      | error e' =>
        constructor
        · intro h; cases h; exact .merge d e (.inr h1) hl hm
        · intro h
          cases h with
          | format h => rcases h with h | h <;> contradiction
          | input e h => exact absurd h (hno e)
          | library h => rw [h1] at h; exact absurd h (by decide)
          | merge d' _ _ h3 h4 => rw [huniq _ h3, hm] at h4; cases h4; rfl
          | noWriter d' res _ h3 h4 => rw [huniq _ h3, hm] at h4; cases h4
          | output d' res h => rw [h1] at h; exact absurd h (by decide)
          | write d' res _ h => rw [h1] at h; exact absurd h (by decide)
      | ok res =>
        simp only [hfin]
        constructor
        · intro h; cases h; exact .noWriter d res h1 hl hm
        · intro h
          cases h with
          | merge d' _ _ h3 h4 => rw [huniq _ h3, hm] at h4; cases h4
          | write _ _ _ h => rw [h1] at h; exact absurd h (by decide)
          | _ => rfl

theorem txtRpt_error (x : Ext) (d : Database) (e : Err) : ((txtRptIf x).report d).2 = .error e ↔ Spec.NoReport d.root e := by
  rw [← C129_build x.rd]
  cases hb : build x.rd d.root with
  | error e' =>
    have : Format.reportDb x.rd false false d.root = .error e' := by unfold Format.reportDb; rw [hb]; rfl
    show (match Format.reportDb x.rd false false d.root with
      | .ok w => (x.encode (String.join w.out), Except.ok ())
      | .error e => ([], .error e)).2 = _ ↔ _
    rw [this]
    constructor <;> intro h <;> (cases h; rfl)
  | ok r =>
    have := (txtRpt_report x d _).2 ⟨r, hb, rfl⟩
    rw [this]
    constructor <;> intro h <;> cases h

theorem jsonRpt_error (x : Ext) (d : Database) (e : Err) : ((jsonRptIf x).report d).2 = .error e ↔
    Spec.NoReport d.root e ∨ (e = .attributeError ∧ ∃ r, build x.rd d.root = .ok r ∧ Verif.Spec.crossesOfL r.covergroups ≠ []) := by
  obtain ⟨h1, h2, h3⟩ := C30_json_partial x.rd d.root
  rw [← C129_build x.rd]
  have hdef : ((jsonRptIf x).report d).2 = match Format.jReport x.rd true d.root with
    | .ok _ => .ok ()
    | .error e => .error e := by
    show (match Format.jReport x.rd true d.root with
      | .ok j => (x.showJson j, Except.ok ())
      | .error e => ([], .error e)).2 = _
    split <;> rfl
  rw [hdef]
  cases hb : build x.rd d.root with
  | error e' =>
    rw [h3 e' hb]
    simp only [Except.error.injEq, reduceCtorEq, false_and, exists_false, and_false, or_false]
  | ok r =>
    by_cases hc : Verif.Spec.crossesOfL r.covergroups = []
    · obtain ⟨j, hj, _⟩ := h1 r hb hc
      rw [hj]
      simp [hc]
    · rw [h2 r hb hc]
      constructor
      · intro h; cases h; exact .inr ⟨rfl, r, rfl, hc⟩
      · rintro (h | ⟨rfl, _⟩)
        · cases h
        · rfl

/-- **C129** The exceptions of `report`. -/
theorem C129_report (x : Ext) (a : ReportArgs) (w : World) (e : Err) : (∃ w', ucisReport x a w = (.error e, w')) ↔ Spec.ReportRaises x a w e := by
  rw [fst_error]
  unfold ucisReport
  by_cases hin : a.inputFormat.getD "xml" ∈ Spec.dbFormats
  swap
  · have hnl : ∀ d, ¬ Spec.Loads x (a.inputFormat.getD "xml") (w.files a.db) d := by
      rintro d ⟨i, h, _⟩; exact hin ((registered_iff x _).1 ⟨i, h⟩)
    rw [C61_report _ _ _ (.inl (not_registered hin))]
    constructor
    · intro h; cases h; exact .format (.inl hin)
    · intro h
      cases h with
      | format => rfl
      | input _ _ h => exact absurd (unreadable_format h) hin
      | output d _ _ h => exact absurd h (hnl d)
      | report d _ _ h => exact absurd h (hnl d)
      | cross d _ _ h => exact absurd h (hnl d)
  by_cases hout : a.outputFormat.getD "txt" ∈ Spec.rptFormats
  swap
  · rw [C61_report _ _ _ (.inr (rpt_none hout))]
    constructor
    · intro h; cases h; exact .format (.inr hout)
    · intro h
      cases h with
      | format => rfl
      | input _ h => exact absurd h hout
      | output d _ h => exact absurd h hout
      | report d _ h => exact absurd h hout
      | cross d _ h => rw [h] at hout; exact absurd hout (by decide)
  obtain ⟨i, hi⟩ := (registered_iff x _).2 hin
  obtain ⟨o, ho, hflags, hcase⟩ := rpt_cases (x := x) hout
  cases hr : i.fmtIf.read (w.files a.db) with
  | error e' =>
    have hnl : ∀ d, ¬ Spec.Loads x (a.inputFormat.getD "xml") (w.files a.db) d := by
      intro d h; have := (loads_iff hi _ _).1 h; rw [hr] at this; cases this
    rw [report_unread hi ho hr]
    constructor
    · intro h; cases h; exact .input e hout ((C129_read hi _ _).1 hr)
    · intro h
      cases h with
      | format h => rcases h with h | h <;> contradiction
      | input _ _ h => have := (C129_read hi _ _).2 h; rw [hr] at this; cases this; rfl
      | output d _ _ h => exact absurd h (hnl d)
      | report d _ _ h => exact absurd h (hnl d)
      | cross d _ _ h => exact absurd h (hnl d)
  | ok d =>
    have hno : ∀ e, ¬ Spec.Unreadable x (a.inputFormat.getD "xml") (w.files a.db) e := by
      intro e h; have := (C129_read hi _ _).2 h; rw [hr] at this; cases this
    have hl := (loads_iff hi (w.files a.db) d).2 hr
    have huniq : ∀ d', Spec.Loads x (a.inputFormat.getD "xml") (w.files a.db) d' → d' = d := by
      intro d' h; have := (loads_iff hi _ _).1 h; rw [hr] at this; cases this; rfl
    rw [report_fst hi ho hr hflags]
    by_cases hw : Spec.CanOpen w a.out
    swap
    · obtain ⟨p, hp, hpw⟩ : ∃ p, a.out = some p ∧ w.writable p = false := by
        unfold Spec.CanOpen at hw
        simp only [not_forall, Bool.not_eq_true] at hw
        obtain ⟨p, hp, h⟩ := hw
        exact ⟨p, hp, h⟩
      rw [if_neg hw]
      constructor
      · intro h; cases h; exact .output d p hout hl hp hpw
      · intro h
        cases h with
        | format h => rcases h with h | h <;> contradiction
        | input e _ h => exact absurd h (hno e)
        | output => rfl
        | report _ _ _ _ h => exact absurd h hw
        | cross _ _ _ _ h => exact absurd h hw
    · rw [if_pos hw]
      have hrep : (o.fmtIf.report d).2 = .error e ↔ Spec.NoReport d.root e ∨
          (a.outputFormat = some "json" ∧ e = .attributeError ∧ ∃ r, build x.rd d.root = .ok r ∧ Verif.Spec.crossesOfL r.covergroups ≠ []) := by
        rcases hcase with ⟨h1, h2⟩ | ⟨h1, h2⟩
        · have h1' : a.outputFormat = some "json" := by
            cases h : a.outputFormat with
            | none => rw [h] at h1; exact absurd h1 (by decide)
            | some s => rw [h] at h1; exact congrArg some h1
          rw [h2, jsonRpt_error]
          simp [h1']
        · have h1' : a.outputFormat ≠ some "json" := by
            intro h; rw [h] at h1; exact absurd h1 (by decide)
          rw [h2, txtRpt_error]
          simp [h1']
      rw [hrep]
      constructor
      · rintro (h | ⟨h, rfl, r, hb, hc⟩)
        · exact .report d e hout hl hw h
        · exact .cross d r h hl hw hb hc
      · intro h
        cases h with
        | format h => rcases h with h | h <;> contradiction
        | input e _ h => exact absurd h (hno e)
        | output d' p _ _ h1 h2 => rw [hw p h1] at h2; cases h2
        | report d' _ _ h1 _ h2 => rw [huniq _ h1] at h2; exact .inl h2
        | cross d' r h h1 _ h2 h3 => rw [huniq _ h1] at h2; exact .inr ⟨h, rfl, r, h2, h3⟩

/-! ## Examples -/

/-- A compressed file without the module, and a file that is not XML. -/
example : Spec.Unreadable { exExt with modules := ⟨false, true⟩ } "xml" (some [0x1f, 0x8b, 8]) .typeError ∧ Spec.Unreadable exExt "xml" (some [60, 47]) .valueError := by
  refine ⟨.unpack _ _ (.noGzip [8] rfl rfl), .notXml _ [60, 47] _ (.plain ?_ ?_) rfl⟩
  · rintro ⟨r, h⟩; cases h
  · rintro ⟨r, h⟩; cases h

/-- An instance whose only covergroup has weight 0, after one without problems. -/
example : ∃ db, Spec.NoReport db .zeroDivision ∧ (Verif.Spec.kids ST.INSTANCE db).length = 2 := by
  let g (w : Int) : Scope := ⟨ST.COVERGROUP, "g", ⟨none, 0, 0⟩, w, none, none, [], []⟩
  let i (w : Int) : Scope := ⟨ST.INSTANCE, "i", ⟨none, 0, 0⟩, 1, none, none, [g w], []⟩
  have ht : ∀ w, Verif.Spec.groupTree (g w) = [g w] := fun w => rfl
  have hk : ∀ w, Verif.Spec.kids ST.COVERGROUP (i w) = [g w] := fun w => by
    have : maskHit ST.COVERGROUP ST.COVERGROUP = true := by decide
    simp [Verif.Spec.kids, i, g, this]
  have hh : ∀ w, HereOk (g w) := by
    intro w
    constructor
    · intro c hc
      have : Verif.Spec.kids ST.COVERPOINT (g w) = [] := rfl
      rw [this] at hc; cases hc
    · intro c hc
      have : Verif.Spec.kids ST.CROSS (g w) = [] := rfl
      rw [this] at hc; cases hc
  have hall : ∀ w, ∀ s ∈ Verif.Spec.kids ST.COVERGROUP (i w), ∀ g' ∈ Verif.Spec.groupTree s, HereOk g' := by
    intro w s hs g' hg
    rw [hk, List.mem_singleton] at hs
    subst hs
    rw [ht, List.mem_singleton] at hg
    subst hg
    exact hh w
  have hroot : Verif.Spec.kids ST.INSTANCE ⟨ST.RESERVED, "", ⟨none, 0, 0⟩, 1, none, none, [i 1, i 0], []⟩ = [i 1, i 0] := by
    have : maskHit ST.INSTANCE ST.INSTANCE = true := by decide
    simp [Verif.Spec.kids, i, this]
  refine ⟨_, .weights [i 1] [] (i 0) hroot ?_ (hall 0) (by rw [hk]; rfl), by rw [hroot]; rfl⟩
  intro j hj
  rw [List.mem_singleton] at hj
  subst hj
  exact ⟨hall 1, by rw [hk]; decide⟩

/-- The three commands on the world of `C75_refuted`: converting the YAML file to XML meets a name that XML cannot hold, reporting it as XML meets a text that is no XML. -/
example : Spec.ConvertRaises exExt ⟨some "yaml", none, "in.yaml", "out.xml"⟩ exWorld .valueError ∧
    Spec.MergeRaises exExt ⟨some "yaml", none, ["in.yaml"], "out.xml"⟩ exWorld .valueError ∧
    Spec.ReportRaises exExt ⟨none, none, "in.yaml", none⟩ exWorld .valueError ∧
    Spec.MergeRaises exExt ⟨none, none, ["in.yaml"], "out.xml"⟩ exWorld .userError := by
  obtain ⟨db, res, h1, h2, e, h3⟩ := badDoc_loads
  have he : e = .valueError := by
    have h1' := (Yaml.load_encode badDoc).symm.trans h1
    cases h1'
    cases h2
    cases h3
    rfl
  subst he
  have hl : Spec.Loads exExt "yaml" (exWorld.files "in.yaml") db := ⟨_, registered_yaml exExt, h1⟩
  have hx : Spec.Unreadable exExt "xml" (exWorld.files "in.yaml") .valueError := by
    refine .notXml [1] [1] _ (.plain ?_ ?_) rfl
    · rintro ⟨r, h⟩; cases h
    · rintro ⟨r, h⟩; cases h
  exact ⟨.write db res _ rfl hl h2 rfl h3, .write [db] res _ (by decide) rfl (.cons hl .nil) h2 rfl h3, .input _ (by decide) hx,
    .input "in.yaml" .valueError (by simp) hx⟩

end Tools
end Verif
