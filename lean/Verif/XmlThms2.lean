import Verif.XmlThms
import Verif.FirstSeen
/-!
# C38, C39, C41, C68: source files, history nodes, dates, rejected databases
-/

namespace Verif
namespace Xml
open PyNum Spec

/-! ## File table -/

mutual
theorem findFiles_eq : ∀ (s : Scope) (m : Dict Nat), (∀ x ∈ subtreesL s.children, maskHit x.stype ST.ALL = true) →
    findFiles s m = ((subtrees s).filterMap (fun s => s.src.file)).foldl addFile m
  | ⟨ty, n, src, w, du, cps, ch, it⟩, m, h => by
    rw [findFiles, findFilesL_eq ch _ h, subtrees]
    simp only [List.filterMap_cons]
    cases src.file <;> rfl
termination_by structural s => s
theorem findFilesL_eq : ∀ (l : List Scope) (m : Dict Nat), (∀ x ∈ subtreesL l, maskHit x.stype ST.ALL = true) →
    findFilesL l m = ((subtreesL l).filterMap (fun s => s.src.file)).foldl addFile m
  | [], m, _ => by rw [findFilesL, subtreesL]; rfl
  | s :: t, m, h => by
    rw [subtreesL] at h
    have h1 : ∀ x ∈ subtreesL s.children, maskHit x.stype ST.ALL = true := by
      intro x hx
      refine h x (List.mem_append.2 (.inl ?_))
      cases s
      rw [subtrees]
      exact List.mem_cons_of_mem _ hx
    have h2 : maskHit s.stype ST.ALL = true := by
      refine h s (List.mem_append.2 (.inl ?_))
      cases s
      rw [subtrees]
      exact List.mem_cons_self
    rw [findFilesL, if_pos h2, findFiles_eq s m h1, findFilesL_eq t _ (fun x hx => h x (List.mem_append.2 (.inr hx))), subtreesL,
      List.filterMap_append, List.foldl_append]
termination_by structural l => l
end

/-- Numbering in order of first occurrence. -/
def Numbered (m : Dict Nat) : Prop := (Dict.keys m).Nodup ∧ m.map (·.2) = List.range' 1 m.length

theorem addFile_numbered {m : Dict Nat} (h : Numbered m) (f : String) :
    Numbered (addFile m f) ∧ Dict.keys (addFile m f) = if f ∈ Dict.keys m then Dict.keys m else Dict.keys m ++ [f] := by
  unfold addFile
  by_cases hc : f ∈ Dict.keys m
  · rw [if_pos ((Dict.contains_iff _ _).2 hc), if_pos hc]
    exact ⟨h, rfl⟩
  · rw [if_neg (fun hh => hc ((Dict.contains_iff _ _).1 hh)), if_neg hc, set_new (Dict.get?_eq_none.2 hc)]
    have hk : Dict.keys (m ++ [(f, m.length + 1)]) = Dict.keys m ++ [f] := by simp [Dict.keys]
    refine ⟨⟨?_, ?_⟩, hk⟩
    · rw [hk]
      rw [List.nodup_append]
      refine ⟨h.1, by simp, ?_⟩
      intro a ha b hb
      rw [List.mem_singleton.1 hb]
      rintro rfl
      exact hc ha
    · rw [List.map_append, h.2, List.length_append, List.length_singleton, List.range'_concat]
      simp [Nat.add_comm]

theorem foldl_addFile_numbered (l : List String) {m : Dict Nat} (h : Numbered m) :
    Numbered (l.foldl addFile m) ∧ Dict.keys m <+: Dict.keys (l.foldl addFile m) ∧
      ∀ f, f ∈ Dict.keys (l.foldl addFile m) ↔ f ∈ Dict.keys m ∨ f ∈ l := by
  induction l generalizing m with
  | nil => simp [h]
  | cons a t ih =>
    obtain ⟨h1, h2⟩ := addFile_numbered h a
    obtain ⟨i1, i2, i3⟩ := ih h1
    simp only [List.foldl_cons]
    refine ⟨i1, ?_, ?_⟩
    · refine List.IsPrefix.trans ?_ i2
      rw [h2]
      split
      · exact List.prefix_refl _
      · exact List.prefix_append _ _
    · intro f
      rw [i3, h2]
      split
      · rename_i ha
        rw [List.mem_cons]
        constructor
        · rintro (hh | hh)
          · exact .inl hh
          · exact .inr (.inr hh)
        · rintro (hh | rfl | hh)
          · exact .inl hh
          · exact .inl ha
          · exact .inr hh
      · rw [List.mem_append, List.mem_singleton, List.mem_cons]
        tauto

end Xml

open Xml Spec PyNum

/-- Source file names and ids of a document, in order. -/
def fileEntries (doc : Elem) : List (Option String × Option String) :=
  (doc.children.filter (fun e => e.tag = "sourceFiles")).map (fun e => (e.get "fileName", e.get "id"))

theorem fileEntries_eDoc (env : Env) (db : Database) :
    fileEntries (eDoc some env db) = (fileTable db.root).map (fun f => (some f.1, some (strInt f.2))) := by
  unfold fileEntries eDoc
  simp only [List.filter_append]
  rw [filter_tag_all (t := "sourceFiles") (f := eFile) (fun _ => rfl), filter_tag_hist (by decide),
    filter_tag_none (f := eInst some) (t := "sourceFiles") (fun _ => by simp [eInst])]
  simp only [List.append_nil, List.map_map]
  rfl

/-- C38: the ids of the source files are 1..n, no name occurs twice, the first is the null file, and
the names are exactly those referenced by some scope of the database. -/
theorem C38_source_files {env : Env} (he : GoodEnv env) {db : Database} (hp : PlainTypes db.root) {doc : Elem}
    (hw : write env db = .ok doc) :
    ∃ names : List String, names.head? = some "__null__file__" ∧ names.Nodup ∧
      fileEntries doc = (names.zip (List.range' 1 names.length)).map (fun p => (some p.1, some (strInt p.2))) ∧
      ∀ f, f ∈ names ↔ f = "__null__file__" ∨ f ∈ fileNames db.root := by
  obtain ⟨_, rfl⟩ := (write_ok he.envOk db doc).1 hw
  have hm : fileTable db.root = (fileNames db.root).foldl addFile [("__null__file__", 1)] := findFilesL_eq _ _ hp
  have h0 : Numbered ([("__null__file__", 1)] : Dict Nat) := ⟨by simp [Dict.keys], rfl⟩
  obtain ⟨i1, i2, i3⟩ := foldl_addFile_numbered (fileNames db.root) h0
  rw [← hm] at i1 i2 i3
  refine ⟨Dict.keys (fileTable db.root), ?_, i1.1, ?_, ?_⟩
  · obtain ⟨t, ht⟩ := i2
    rw [← ht]
    rfl
  · rw [fileEntries_eDoc]
    have hl : (Dict.keys (fileTable db.root)).length = (fileTable db.root).length := by simp [Dict.keys]
    rw [hl, ← i1.2]
    have : (Dict.keys (fileTable db.root)).zip ((fileTable db.root).map (·.2)) = fileTable db.root := by
      unfold Dict.keys
      rw [List.zip_map']
      simp
    rw [this]
  · intro f
    rw [i3]
    simp [Dict.keys]

/-! ## C39, C41 -/

/-- A date text in the form the library uses: fourteen digits of a valid date. -/
def ValidDate (s : String) : Prop := ∃ d : DateTime.DT, d.ok = true ∧ 1000 ≤ d.year ∧ s = String.ofList (DateTime.compact d)

/-- C41: writing a valid date as ISO text and reading it gives the date again. -/
theorem C41_dates_survive {s : String} (h : ValidDate s) :
    ∃ iso, DateTime.toIso s = .ok iso ∧ DateTime.fromIso iso = .ok s := by
  obtain ⟨d, hd, hy, rfl⟩ := h
  refine ⟨String.ofList (DateTime.iso d), ?_, ?_⟩
  · unfold DateTime.toIso
    rw [String.toList_ofList, DateTime.strptime_compact hd hy]
    rfl
  · unfold DateTime.fromIso
    rw [String.toList_ofList, DateTime.strptime_iso hd]
    rfl

theorem C41_rDate {s : String} (h : ValidDate s) : rDate (.text s) = .text s := by
  obtain ⟨d, hd, hy, rfl⟩ := h
  unfold rDate
  simp only [String.toList_ofList, DateTime.strptime_compact hd hy]

/-- History fields that the property C39 lists. -/
structure HistView where
  logicalName : Option String
  physicalName : Option String
  status : Int
  simTime : Rat
  cpuTime : Rat
  timeUnit : Option String
  runCwd : Option String
  seed : Option String
  cmd : Option String
  args : Option String
  compulsory : Option String
  date : DateVal
  userName : Option String
  cost : Rat
  toolCategory : String
  vendorId : String
  vendorTool : String
  vendorToolVersion : String
  sameTests : Int
  comment : Option String
  deriving DecidableEq

def Hist.view (h : Hist) : HistView :=
  ⟨h.logicalName, h.physicalName, h.status, h.simTime, h.cpuTime, h.timeUnit, h.runCwd, h.seed, h.cmd, h.args, h.compulsory,
    h.date, h.userName, h.cost, h.toolCategory, h.vendorId, h.vendorTool, h.vendorToolVersion, h.sameTests, h.comment⟩

/-- Number that is written, or the constructor's "unset" value. -/
def NumOk (q : Rat) : Prop := 0 ≤ q ∨ q = -1

/-- C39 for history nodes with status 0 or 1.  Missing: the other status values, all of which are read
back as 1 (`C39_history_refuted`), and negative numbers other than -1. -/
theorem C39_history_partial {env : Env} (he : GoodEnv env) {db db' : Database} {doc : Elem} (hne : db.hist ≠ [])
    (hd : ∀ h ∈ db.hist, ∃ s, h.date = .text s ∧ ValidDate s)
    (hs : ∀ h ∈ db.hist, h.status = 0 ∨ h.status = 1)
    (hn : ∀ h ∈ db.hist, NumOk h.simTime ∧ NumOk h.cpuTime ∧ NumOk h.cost ∧ (0 ≤ h.sameTests ∨ h.sameTests = -1))
    (hw : write env db = .ok doc) (hr : read env.flt (reparse doc) = .ok db') :
    db'.hist.map Hist.view = db.hist.map Hist.view := by
  obtain ⟨_, rfl⟩ := (read_written he.envOk he.floatOk he.now hw db').1 hr
  have : (rDb env db).hist = db.hist.map rHist := by
    show rHistory env db.hist = _
    cases h : db.hist with
    | nil => exact absurd h hne
    | cons a t => rfl
  rw [this, List.map_map]
  apply List.map_congr_left
  intro h hh
  obtain ⟨s, hs1, hs2⟩ := hd h hh
  obtain ⟨h1, h2, h3, h4⟩ := hn h hh
  have hnum : ∀ q, NumOk q → (if 0 ≤ q then q else -1) = q := by
    intro q hq
    split
    · rfl
    · rename_i hc; exact (hq.resolve_left hc).symm
  have e1 : (if h.status ≠ 0 then (1 : Int) else 0) = h.status := by
    rcases hs h hh with e | e <;> simp [e]
  have e2 : (if 0 ≤ h.sameTests then h.sameTests else -1) = h.sameTests := by
    split
    · rfl
    · rename_i hc; exact (h4.resolve_left hc).symm
  simp only [Function.comp, Hist.view, rHist, e1, e2, hnum _ h1, hnum _ h2, hnum _ h3, hs1, C41_rDate hs2]

/-- C39: the restrictions of `C39_history_partial` on status and numbers are exact. -/
theorem C39_history_exact_partial {env : Env} (he : GoodEnv env) {db db' : Database} {doc : Elem} (hne : db.hist ≠ [])
    (hd : ∀ h ∈ db.hist, ∃ s, h.date = .text s ∧ ValidDate s)
    (hw : write env db = .ok doc) (hr : read env.flt (reparse doc) = .ok db') :
    db'.hist.map Hist.view = db.hist.map Hist.view ↔ ∀ h ∈ db.hist, (h.status = 0 ∨ h.status = 1) ∧
      NumOk h.simTime ∧ NumOk h.cpuTime ∧ NumOk h.cost ∧ (0 ≤ h.sameTests ∨ h.sameTests = -1) := by
  constructor
  · obtain ⟨_, rfl⟩ := (read_written he.envOk he.floatOk he.now hw db').1 hr
    have : (rDb env db).hist = db.hist.map rHist := by
      show rHistory env db.hist = _
      cases h : db.hist with
      | nil => exact absurd h hne
      | cons a t => rfl
    rw [this, List.map_map, List.map_inj_left]
    intro hv h hh
    have e := hv h hh
    simp only [Function.comp, Hist.view, rHist, HistView.mk.injEq] at e
    have hnum : ∀ q : Rat, (if 0 ≤ q then q else -1) = q → NumOk q := by
      intro q hq
      split at hq
      · exact .inl ‹_›
      · exact .inr hq.symm
    refine ⟨?_, hnum _ (by tauto), hnum _ (by tauto), hnum _ (by tauto), ?_⟩
    · have := e.2.2.1
      split at this
      · exact .inr this.symm
      · exact .inl this.symm
    · have := e.2.2.2.2.2.2.2.2.2.2.2.2.2.2.2.2.2.2.1
      split at this
      · exact .inl ‹_›
      · exact .inr this.symm
  · intro h
    exact C39_history_partial he hne hd (fun x hx => (h x hx).1) (fun x hx => (h x hx).2) hw hr

/-- C39 without the restrictions on status and numbers: every listed field other than these is kept. -/
theorem C39_texts_kept_partial {env : Env} (he : GoodEnv env) {db db' : Database} {doc : Elem} (hne : db.hist ≠ [])
    (hw : write env db = .ok doc) (hr : read env.flt (reparse doc) = .ok db') :
    db'.hist.map (fun h => (h.logicalName, h.physicalName, h.kind, h.timeUnit, h.runCwd, h.seed, h.cmd, h.args, h.compulsory,
        h.userName, h.toolCategory, h.vendorId, h.vendorTool, h.vendorToolVersion, h.comment))
      = db.hist.map (fun h => (h.logicalName, h.physicalName, h.kind, h.timeUnit, h.runCwd, h.seed, h.cmd, h.args, h.compulsory,
        h.userName, h.toolCategory, h.vendorId, h.vendorTool, h.vendorToolVersion, h.comment)) ∧
    db'.hist.map (fun h => decide (h.status ≠ 0)) = db.hist.map (fun h => decide (h.status ≠ 0)) := by
  obtain ⟨_, rfl⟩ := (read_written he.envOk he.floatOk he.now hw db').1 hr
  have : (rDb env db).hist = db.hist.map rHist := by
    show rHistory env db.hist = _
    cases h : db.hist with
    | nil => exact absurd h hne
    | cons a t => rfl
  rw [this, List.map_map, List.map_map]
  refine ⟨List.map_congr_left (fun h _ => rfl), List.map_congr_left (fun h _ => ?_)⟩
  simp only [Function.comp, rHist]
  by_cases h0 : h.status = 0 <;> simp [h0]

/-! ## C68 -/

/-- C68: writing succeeds exactly when every file and other name is representable in XML, every
bin has one of the three kinds, every cross has a list of crossed coverpoints, and every history node
has a name and a valid date. -/
theorem C68_writer_accepts {env : Env} (he : GoodEnv env) (db : Database) (hp : PlainTypes db.root) :
    (∃ doc, write env db = .ok doc) ↔
      (∀ f ∈ fileNames db.root, Printable f) ∧ (∀ h ∈ db.hist, WritableHist env.flt h) ∧
        ∀ i ∈ kids ST.INSTANCE db.root, WritableInst i := by
  have hm : fileTable db.root = (fileNames db.root).foldl addFile [("__null__file__", 1)] := findFilesL_eq _ _ hp
  have h0 : Numbered ([("__null__file__", 1)] : Dict Nat) := ⟨by simp [Dict.keys], rfl⟩
  obtain ⟨_, _, i3⟩ := foldl_addFile_numbered (fileNames db.root) h0
  have hf : (∀ f ∈ fileTable db.root, Printable f.1) ↔ ∀ f ∈ fileNames db.root, Printable f := by
    have : (∀ f ∈ fileTable db.root, Printable f.1) ↔ ∀ f ∈ Dict.keys (fileTable db.root), Printable f := by
      simp [Dict.keys]
    rw [this, hm]
    constructor
    · intro h f hf
      exact h f ((i3 f).2 (.inr hf))
    · intro h f hf
      rcases (i3 f).1 hf with h1 | h1
      · have : f = "__null__file__" := by simpa [Dict.keys] using h1
        subst this
        unfold Printable
        decide
      · exact h f h1
  rw [← hf]
  simp only [write_ok he.envOk]
  exact ⟨fun ⟨_, h, _⟩ => h, fun h => ⟨_, h, rfl⟩⟩

end Verif
