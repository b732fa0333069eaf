import Verif.XsdThms2
import Verif.PipelineThms
import Verif.XmlThms3
import Verif.MergeReach
/-!
# Source locations and XML files (C142)

No new code: `addId(inst, None)` (`xml_writer.py:167`, `:330-342`) and the readers of `XmlRead.lean`, which give `None` as the location of every scope that they make
(`xml_reader.py:129-145`, `:181-185`, `:198-207`, `:216-220`, `:278-284`, `:357-364`).
-/

namespace Verif
namespace Spec
open Xml (Elem iter)

/-- No location: no file, and -1 as line and token. -/
def Placeless (s : Scope) : Prop := s.src.file = none ∧ s.src.line = -1 ∧ s.src.token = -1

/-- The `id` element says that the object is in this file at this line and token, the number of the file being looked up in the file table of the document. -/
def SaysPlace (doc i : Elem) (file : String) (line token : String) : Prop :=
  i.get "line" = some line ∧ i.get "inlineCount" = some token ∧
  ∃ f ∈ iter "sourceFiles" doc, f.get "id" = i.get "file" ∧ f.get "fileName" = some file

end Spec

namespace Xml
open Spec PyNum

/-- A bin with threshold, goal and weight 1. -/
def UnitBin (b : Item) : Prop := b.atLeast = some 1 ∧ b.goal = 1 ∧ b.weight = 1

/-- A property of everything that the reader makes: no location, weight 1 and unit bins suffice for it, and it does not depend on the children. -/
structure OfMade (P : Scope → Prop) : Prop where
  made : ∀ s : Scope, s.src = SrcInfo.none → s.weight = 1 → (∀ b ∈ s.items, UnitBin b) → P s
  kids : ∀ (s : Scope) (c : List Scope), P s → P { s with children := c }

/-- The property holds everywhere in the tree. -/
def Thru (P : Scope → Prop) (s : Scope) : Prop := ∀ t ∈ subtrees s, P t

theorem thru_iff {P : Scope → Prop} {s : Scope} : Thru P s ↔ P s ∧ ∀ c ∈ s.children, Thru P c := forall_subtrees

section
variable {P : Scope → Prop} (hP : OfMade P)
include hP

theorem thru_cp (n : String) {bs : List Item} (h : ∀ b ∈ bs, UnitBin b) : Thru P (mkCoverpoint n SrcInfo.none 1 bs) :=
  thru_iff.2 ⟨hP.made _ rfl rfl h, fun _ h => nomatch h⟩

theorem thru_cross (n : String) (l : List String) {bs : List Item} (h : ∀ b ∈ bs, UnitBin b) : Thru P (mkCross n SrcInfo.none 1 l bs) :=
  thru_iff.2 ⟨hP.made _ rfl rfl h, fun _ h => nomatch h⟩

theorem thru_inst {p : PInst} (h1 : ∀ x ∈ p.cps, ∀ b ∈ x.bins, UnitBin b) (h2 : ∀ x ∈ p.crs, ∀ b ∈ x.bins, UnitBin b) : Thru P p.scope := by
  refine thru_iff.2 ⟨hP.made _ rfl rfl (fun _ h => nomatch h), fun s hs => ?_⟩
  rcases List.mem_append.1 hs with hs | hs
  · obtain ⟨x, hx, rfl⟩ := List.mem_map.1 hs
    exact thru_cp hP _ (h1 x hx)
  · obtain ⟨x, hx, rfl⟩ := List.mem_map.1 hs
    exact thru_cross hP _ _ (h2 x hx)

theorem thru_group (name : String) {ps : List PInst}
    (h : ∀ p ∈ ps, (∀ x ∈ p.cps, ∀ b ∈ x.bins, UnitBin b) ∧ ∀ x ∈ p.crs, ∀ b ∈ x.bins, UnitBin b) : Thru P (buildGroup name ps) := by
  refine thru_iff.2 ⟨hP.made _ rfl rfl (fun _ h => nomatch h), fun s hs => ?_⟩
  obtain ⟨x, hx, rfl⟩ := List.mem_map.1 hs
  cases x with
  | inst s =>
    have h' := (foldl_stepInst_closed ps).2.2.1
    have : s ∈ ps.map PInst.scope := by
      rw [← h']
      exact List.mem_filterMap.2 ⟨_, hx, rfl⟩
    obtain ⟨p, hp, rfl⟩ := List.mem_map.1 this
    exact thru_inst hP (h p hp).1 (h p hp).2
  | cp n =>
    refine thru_cp hP _ (fun b hb => ?_)
    obtain ⟨x, _, rfl⟩ := List.mem_map.1 hb
    exact ⟨rfl, rfl, rfl⟩
  | cross n l =>
    refine thru_cross hP _ _ (fun b hb => ?_)
    obtain ⟨x, _, rfl⟩ := List.mem_map.1 hb
    exact ⟨rfl, rfl, rfl⟩

end

theorem mapM_all {α β : Type} {f : α → Except Err β} {P : β → Prop} (h : ∀ a b, f a = .ok b → P b) :
    ∀ {l : List α} {r : List β}, l.mapM f = .ok r → ∀ b ∈ r, P b
  | [], r, e => by cases e; exact fun _ h => nomatch h
  | a :: t, r, e => by
    rw [List.mapM_cons] at e
    obtain ⟨b, hb, e⟩ := Ex.bind_ok.1 e
    obtain ⟨bs, hbs, e⟩ := Ex.bind_ok.1 e
    rw [Ex.pure_ok] at e
    subst e
    intro c hc
    rcases List.mem_cons.1 hc with rfl | hc
    · exact h a _ hb
    · exact mapM_all h hbs c hc

theorem parseInst_unit {e : Elem} {p : PInst} (h : parseInst e = .ok p) :
    (∀ x ∈ p.cps, ∀ b ∈ x.bins, UnitBin b) ∧ ∀ x ∈ p.crs, ∀ b ∈ x.bins, UnitBin b := by
  unfold parseInst at h
  obtain ⟨cps, h1, h⟩ := Ex.bind_ok.1 h
  obtain ⟨crs, h2, h⟩ := Ex.bind_ok.1 h
  rw [Ex.pure_ok] at h
  subst h
  constructor
  · refine mapM_all (P := fun x : PCp => ∀ b ∈ x.bins, UnitBin b) (fun a x hx => ?_) h1
    unfold parseCp at hx
    obtain ⟨bins, hb, hx⟩ := Ex.bind_ok.1 hx
    rw [Ex.pure_ok] at hx
    subst hx
    refine mapM_all (fun a i hi => ?_) hb
    unfold readBin at hi
    obtain ⟨_, _, hi⟩ := Ex.bind_ok.1 hi
    obtain ⟨_, _, hi⟩ := Ex.bind_ok.1 hi
    obtain ⟨_, _, hi⟩ := Ex.bind_ok.1 hi
    rw [Ex.pure_ok] at hi
    subst hi
    exact ⟨rfl, rfl, rfl⟩
  · refine mapM_all (P := fun x : PCr => ∀ b ∈ x.bins, UnitBin b) (fun a x hx => ?_) h2
    unfold parseCr at hx
    obtain ⟨_, _, hx⟩ := Ex.bind_ok.1 hx
    obtain ⟨bins, hb, hx⟩ := Ex.bind_ok.1 hx
    rw [Ex.pure_ok] at hx
    subst hx
    refine mapM_all (fun a i hi => ?_) hb
    unfold readCrossBin at hi
    obtain ⟨_, _, hi⟩ := Ex.bind_ok.1 hi
    obtain ⟨_, _, hi⟩ := Ex.bind_ok.1 hi
    rw [Ex.pure_ok] at hi
    subst hi
    exact ⟨rfl, rfl, rfl⟩

theorem thru_step {P : Scope → Prop} (hP : OfMade P) {files : List Int} {tops tops' : List Scope} {e : Elem} (h : ∀ s ∈ tops, Thru P s)
    (hr : readInstance files tops e = .ok tops') : ∀ s ∈ tops', Thru P s := by
  unfold readInstance at hr
  obtain ⟨n, _, hr⟩ := Ex.bind_ok.1 hr
  obtain ⟨_, _, hr⟩ := Ex.bind_ok.1 hr
  obtain ⟨cgs, hcgs, hr⟩ := Ex.bind_ok.1 hr
  rw [Ex.pure_ok] at hr
  subst hr
  have hg : ∀ g ∈ cgs.flatten, Thru P g := by
    intro g hg
    obtain ⟨l, hl, hg⟩ := List.mem_flatten.1 hg
    refine mapM_all (P := fun l => ∀ g ∈ l, Thru P g) (fun a b hb => ?_) hcgs l hl g hg
    refine mapM_all (fun p g hp => ?_) hb
    obtain ⟨ps, hps, rfl⟩ := (readCovergroup_ok _ _ _).1 hp
    exact thru_group hP _ (mapM_all (fun _ _ h => parseInst_unit h) hps)
  have hm : ∀ s ∈ addModule (e.getD "moduleName" "default") tops, Thru P s := by
    intro s hs
    unfold addModule at hs
    split at hs
    · exact h s hs
    · rcases List.mem_append.1 hs with hs | hs
      · exact h s hs
      · rw [List.mem_singleton.1 hs]
        exact thru_iff.2 ⟨hP.made _ rfl rfl (fun _ h => nomatch h), fun _ h => nomatch h⟩
  intro s hs
  unfold addInst at hs
  split at hs
  · obtain ⟨t, ht, rfl⟩ := List.mem_map.1 hs
    split
    · have := thru_iff.1 (hm t ht)
      refine thru_iff.2 ⟨hP.kids _ _ this.1, fun c hc => ?_⟩
      rcases List.mem_append.1 hc with hc | hc
      · exact this.2 c hc
      · exact hg c hc
    · exact hm t ht
  · rcases List.mem_append.1 hs with hs | hs
    · exact hm s hs
    · rw [List.mem_singleton.1 hs]
      exact thru_iff.2 ⟨hP.made _ rfl rfl (fun _ h => nomatch h), hg⟩

theorem read_thru {P : Scope → Prop} (hP : OfMade P) {flt : FloatText} {doc : Elem} {db : Database} (h : read flt doc = .ok db) :
    ∀ t ∈ subtreesL db.root.children, P t := by
  unfold read at h
  obtain ⟨files, _, h⟩ := Ex.bind_ok.1 h
  obtain ⟨_, _, h⟩ := Ex.bind_ok.1 h
  obtain ⟨tops, ht, h⟩ := Ex.bind_ok.1 h
  rw [Ex.pure_ok] at h
  subst h
  have key : ∀ (l : List Elem) (t t' : List Scope), (∀ s ∈ t, Thru P s) → l.foldlM (readInstance (files.map (·.1))) t = .ok t' → ∀ s ∈ t', Thru P s := by
    intro l
    induction l with
    | nil => intro t t' h e; cases e; exact h
    | cons a l ih =>
      intro t t' h e
      rw [List.foldlM_cons] at e
      obtain ⟨u, hu, e⟩ := Ex.bind_ok.1 e
      exact ih u t' (thru_step hP h hu) e
  have hall := key _ [] _ (fun _ h => by cases h) ht
  have sub : ∀ (l : List Scope), (∀ s ∈ l, Thru P s) → ∀ t ∈ subtreesL l, P t := by
    intro l
    induction l with
    | nil => intro _ t ht; rw [subtreesL] at ht; cases ht
    | cons a l ih =>
      intro h t ht
      rw [subtreesL] at ht
      rcases List.mem_append.1 ht with ht | ht
      · exact h a (by simp) t ht
      · exact ih (fun s hs => h s (by simp [hs])) t ht
  exact sub _ hall

/-- **C142** for reading (partial): whatever the file says, no object of a database that was read from an XML file has a location.  Full statement: the objects
have the locations of the database that was written; see `C142_refuted`. -/
theorem C142_read_partial {flt : FloatText} {doc : Elem} {db : Database} (h : factoryRead flt doc = .ok db) : ∀ t ∈ subtreesL db.root.children, Placeless t :=
  read_thru ⟨fun s h _ _ => by unfold Placeless; rw [h]; exact ⟨rfl, rfl, rfl⟩, fun _ _ h => h⟩ (factoryRead_ok.1 h).2

mutual
theorem findFiles_numbered : ∀ (s : Scope) (m : Dict Nat), Numbered m → Numbered (findFiles s m)
  | ⟨ty, n, src, w, du, cps, ch, it⟩, m, h => by
    rw [findFiles]
    apply findFilesL_numbered ch
    split
    · exact h
    · exact (addFile_numbered h _).1
termination_by structural s => s
theorem findFilesL_numbered : ∀ (l : List Scope) (m : Dict Nat), Numbered m → Numbered (findFilesL l m)
  | [], m, h => by rw [findFilesL]; exact h
  | s :: t, m, h => by
    rw [findFilesL]
    apply findFilesL_numbered t
    split
    · exact findFiles_numbered s m h
    · exact h
termination_by structural l => l
end

/-- The number 1 is that of the null file only, also in databases with types of no known kind. -/
theorem fileTable_one {db : Scope} {n : String} (h : (n, 1) ∈ fileTable db) : n = "__null__file__" := by
  have hn : Numbered (fileTable db) := findFilesL_numbered _ _ ⟨by simp [Dict.keys], rfl⟩
  have nd : ((fileTable db).map (·.2)).Nodup := by rw [hn.2]; exact List.nodup_range'
  exact congrArg Prod.fst (List.inj_on_of_nodup_map nd h (null_mem_fileTable db) rfl)

/-- **C142** for the file (partial): every instance in the file has exactly one `id`, which says that it is in the null file at line 1, token 1, and
nowhere else.  Full statement: where it is in the database. -/
theorem C142_file_partial {env : Env} (he : EnvOk env) {db : Database} {doc : Elem} (hw : write env db = .ok doc) :
    (iter "instanceCoverages" doc).length = (kids ST.INSTANCE db.root).length ∧
    ∀ e ∈ iter "instanceCoverages" doc, ∃ i, e.children.filter (fun c => c.tag = "id") = [i] ∧
      SaysPlace doc i "__null__file__" "1" "1" ∧ ∀ f l t, SaysPlace doc i f l t → f = "__null__file__" ∧ l = "1" ∧ t = "1" := by
  obtain ⟨_, rfl⟩ := (write_ok he db doc).1 hw
  rw [iter_eDoc_insts]
  refine ⟨by simp, fun e hE => ?_⟩
  obtain ⟨s, _, rfl⟩ := List.mem_map.1 hE
  refine ⟨idElem, ?_, ?_⟩
  · have : ((kids ST.COVERGROUP s).map (eCg some)).filter (fun c => c.tag = "id") = [] := by
      rw [List.filter_eq_nil_iff]
      intro c hc
      obtain ⟨g, _, rfl⟩ := List.mem_map.1 hc
      simp [eCg]
    simp only [eInst]
    rw [List.filter_cons_of_pos (by rfl), this]
  refine ⟨⟨rfl, rfl, eFile ("__null__file__", 1), ?_, rfl, rfl⟩, fun f l t h => ⟨?_, ?_, ?_⟩⟩
  · rw [iter_eDoc_files]
    exact List.mem_map.2 ⟨_, null_mem_fileTable _, rfl⟩
  · obtain ⟨_, _, x, hx, h1, h2⟩ := h
    rw [iter_eDoc_files] at hx
    obtain ⟨⟨n, k⟩, hp, rfl⟩ := List.mem_map.1 hx
    have h1 : strInt k = strInt 1 := (Option.some.inj (show some (strInt k) = some "1" from h1)).trans (by decide)
    have hk : k = 1 := by have := strInt_injective h1; omega
    subst hk
    rw [← fileTable_one hp]
    exact (Option.some.inj (show some n = some f from h2)).symm
  · exact (Option.some.inj (show some "1" = some l from h.1)).symm
  · exact (Option.some.inj (show some "1" = some t from h.2.1)).symm

/-- A database with an instance at line 7 of `a.sv`. -/
def exLocatedDb : Database :=
  { Tools.exPlainDb with root := { Tools.exPlainDb.root with children := Tools.exPlainDb.root.children.map (fun s => { s with src := ⟨some "a.sv", 7, 0⟩ }) } }

theorem exLocatedDb_written {env : Env} (he : GoodEnv env) : ∃ doc db', write env exLocatedDb = .ok doc ∧ factoryRead env.flt (reparse doc) = .ok db' := by
  have hw : ∃ doc, write env exLocatedDb = .ok doc := by
    rw [C68_writer_accepts he exLocatedDb (by unfold Verif.Spec.PlainTypes; decide +kernel)]
    exact ⟨by decide +kernel, by simp [exLocatedDb, Tools.exPlainDb], by decide +kernel⟩
  obtain ⟨doc, hw⟩ := hw
  obtain ⟨db', h⟩ := (C40_through_file_partial he hw).2 ⟨⟨by decide +kernel, by simp [exLocatedDb, Tools.exPlainDb], by decide +kernel⟩, by decide +kernel⟩
  refine ⟨doc, db', hw, ?_⟩
  unfold throughFile at h
  rw [hw] at h
  exact h

/-- The hypotheses of `C142_read_partial` and `C142_file_partial` are met by a database with an instance that has a location. -/
example : EnvOk exEnv ∧ (∃ doc db', write exEnv exLocatedDb = .ok doc ∧ factoryRead exEnv.flt (reparse doc) = .ok db') ∧
    (kids ST.INSTANCE exLocatedDb.root).map (fun s => s.src) = [⟨some "a.sv", 7, 0⟩] :=
  ⟨exEnv_good.envOk, exLocatedDb_written exEnv_good, by decide +kernel⟩

/-- **C142** is violated: the location of the instance is neither in the file, though there is an entry for the instance and one for the source file, nor in the
database read from it. -/
theorem C142_refuted : ∃ env db doc db', GoodEnv env ∧ write env db = .ok doc ∧ factoryRead env.flt (reparse doc) = .ok db' ∧
    (∃ s ∈ kids ST.INSTANCE db.root, s.src = ⟨some "a.sv", 7, 0⟩) ∧ (∃ f ∈ iter "sourceFiles" doc, f.get "fileName" = some "a.sv") ∧
    (iter "instanceCoverages" doc).length = 1 ∧
    (∀ e ∈ iter "instanceCoverages" doc, ∀ i ∈ e.children.filter (fun c => c.tag = "id"), ¬ SaysPlace doc i "a.sv" "7" "0") ∧
    ∀ t ∈ subtreesL db'.root.children, t.src ≠ ⟨some "a.sv", 7, 0⟩ := by
  obtain ⟨doc, db', hw, hr⟩ := exLocatedDb_written exEnv_good
  obtain ⟨h1, h2⟩ := C142_file_partial exEnv_good.envOk hw
  refine ⟨exEnv, exLocatedDb, doc, db', exEnv_good, hw, hr, by decide +kernel, ?_, ?_, fun e he i hi h => ?_, fun t ht h => ?_⟩
  · obtain ⟨_, rfl⟩ := (write_ok exEnv_good.envOk _ _).1 hw
    rw [iter_eDoc_files]
    have : ∃ p ∈ fileTable exLocatedDb.root, p.1 = "a.sv" := by decide +kernel
    obtain ⟨p, hp, e⟩ := this
    exact ⟨eFile p, List.mem_map.2 ⟨p, hp, rfl⟩, by rw [← e]; rfl⟩
  · rw [h1]; decide +kernel
  · obtain ⟨j, hj, _, h3⟩ := h2 e he
    rw [hj, List.mem_singleton] at hi
    subst hi
    exact absurd (h3 _ _ _ h).2.1 (by decide)
  · have := (C142_read_partial hr t ht).1
    rw [h] at this
    cases this

mutual
theorem noFiles_of : ∀ s : Scope, (∀ t ∈ subtrees s, t.src.file = none) → noFiles s = true
  | ⟨ty, n, src, w, du, cps, ch, it⟩, h => by
    rw [noFiles, Bool.and_eq_true]
    rw [subtrees] at h
    exact ⟨Option.isNone_iff_eq_none.2 (h _ List.mem_cons_self), noFilesL_of ch (fun t ht => h t (by simp [ht]))⟩
termination_by structural s => s
theorem noFilesL_of : ∀ l : List Scope, (∀ t ∈ subtreesL l, t.src.file = none) → noFilesL l = true
  | [], _ => by rw [noFilesL]
  | s :: t, h => by
    rw [subtreesL] at h
    rw [noFilesL, Bool.and_eq_true]
    exact ⟨noFiles_of s (fun x hx => h x (by simp [hx])), noFilesL_of t (fun x hx => h x (by simp [hx]))⟩
termination_by structural l => l
end

/-- **C142** for copies (partial): a file written from a database that was read from a file lists no source file but the null file, whatever the first file lists. -/
theorem C142_copy_partial {flt : FloatText} {env : Env} (he : EnvOk env) {doc doc' : Elem} {db : Database} (hr : factoryRead flt doc = .ok db)
    (hw : write env db = .ok doc') : (iter "sourceFiles" doc').map (fun f => (f.get "id", f.get "fileName")) = [(some "1", some "__null__file__")] := by
  obtain ⟨_, rfl⟩ := (write_ok he db doc').1 hw
  rw [iter_eDoc_files]
  have : fileTable db.root = [("__null__file__", 1)] :=
    findFilesL_none _ _ (noFilesL_of _ (fun t ht => (C142_read_partial hr t ht).1))
  rw [this]
  rfl

/-- The hypotheses of `C142_copy_partial` are met by a file that lists `a.sv`. -/
example : ∃ doc db doc', factoryRead exEnv.flt (reparse doc) = .ok db ∧ write exEnv db = .ok doc' ∧
    ∃ f ∈ iter "sourceFiles" doc, f.get "fileName" = some "a.sv" := by
  obtain ⟨doc, db, hw, hr⟩ := exLocatedDb_written exEnv_good
  have hr' := (factoryRead_ok.1 hr).2
  have hu : UniqueInsts exLocatedDb.root := by unfold UniqueInsts; decide +kernel
  have ht : TrimmedCrosses exLocatedDb.root := by unfold TrimmedCrosses Trimmed; decide +kernel
  obtain ⟨doc', hw', _⟩ := C35_second_write_accepted exEnv_good exEnv_good fracText_printable ⟨⟨2026, 11, 16, 1, 2, 3⟩, by decide, by decide, by decide⟩
    (by simp [exLocatedDb, Tools.exPlainDb]) hu ht hw hr'
  refine ⟨doc, db, doc', hr, hw', ?_⟩
  obtain ⟨_, rfl⟩ := (write_ok exEnv_good.envOk _ _).1 hw
  rw [iter_eDoc_files]
  have : ∃ p ∈ fileTable exLocatedDb.root, p.1 = "a.sv" := by decide +kernel
  obtain ⟨p, hp, e⟩ := this
  exact ⟨eFile p, List.mem_map.2 ⟨p, hp, rfl⟩, by rw [← e]; rfl⟩

end Xml
end Verif
