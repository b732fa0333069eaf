import Verif.StoreYamlReadMain
import Verif.StoreMergeLeft
/-!
# Programs that use several databases (C101)

A program that reads XML and YAML documents, makes databases, merges them, computes reports and writes documents, in any order and any
number of times, as calls on the object store.  `StepTo` says what such a program does in terms of database contents alone.
-/

namespace Verif
namespace Spec
open Report Xml

/-- One statement of a program.  Databases are numbered in the order in which the program obtained them. -/
inductive SStep
  | readXml (doc : Elem)
  | readYaml (j : Yaml.Json)
  | create
  | merge (dst : Nat) (srcs : List Nat)
  | report (db : Nat)
  | write (db : Nat)

/-- What the program sees of one statement. -/
inductive SOut
  | done
  | failed (e : Err)
  | report (r : Rpt)
  | written (e : Elem)
  | noSuch

/-- The outcome of a computation that only returns something. -/
def outOf {α : Type} (f : α → SOut) : Except Err α → SOut
  | .ok a => f a
  | .error e => .failed e

/-- What the outside world contributes. -/
structure SEnv where
  flt : FloatText
  now : Int
  env : Env
  rd : Rat → Rat
  sk : Int → String

/-- One statement, in terms of the contents of the databases.  A merge that raises leaves what `Merge.leftIn` says (C122). -/
inductive StepTo (p : SEnv) : List Database → SStep → SOut → List Database → Prop
  | readXml {ds doc d} : Xml.read p.flt doc = .ok d → StepTo p ds (.readXml doc) .done (ds ++ [d])
  | readXmlFails {ds doc e} : Xml.read p.flt doc = .error e → StepTo p ds (.readXml doc) (.failed e) ds
  | readYaml {ds j d} : Yaml.load j = .ok d → StepTo p ds (.readYaml j) .done (ds ++ [d])
  | readYamlFails {ds j e} : Yaml.load j = .error e → StepTo p ds (.readYaml j) (.failed e) ds
  | create {ds} : StepTo p ds .create .done (ds ++ [{ root := emptyDb, hist := [], files := [] }])
  | merge {ds i js d vs w} : ds[i]? = some d → js.mapM (fun j : Nat => ds[j]?) = some vs → Merge.merge d.root (vs.map (·.root)) = .ok w →
      StepTo p ds (.merge i js) .done (ds.set i { d with root := w })
  | mergeFails {ds i js d vs e} : ds[i]? = some d → js.mapM (fun j : Nat => ds[j]?) = some vs →
      Merge.merge d.root (vs.map (·.root)) = .error e →
      StepTo p ds (.merge i js) (.failed e) (ds.set i { d with root := Merge.leftIn d.root (vs.map (·.root)) })
  | mergeNone {ds i js} : ds[i]? = none ∨ js.mapM (fun j : Nat => ds[j]?) = none → StepTo p ds (.merge i js) .noSuch ds
  | report {ds i d} : ds[i]? = some d → StepTo p ds (.report i) (outOf .report (Report.build p.rd d.root)) ds
  | reportNone {ds i} : ds[i]? = none → StepTo p ds (.report i) .noSuch ds
  | write {ds i d} : ds[i]? = some d → StepTo p ds (.write i) (outOf .written (Xml.write p.env d)) ds
  | writeNone {ds i} : ds[i]? = none → StepTo p ds (.write i) .noSuch ds

/-- A whole program. -/
inductive Session (p : SEnv) : List Database → List SStep → List SOut → List Database → Prop
  | nil {ds} : Session p ds [] [] ds
  | cons {ds st o ds1 sts outs ds2} : StepTo p ds st o ds1 → Session p ds1 sts outs ds2 → Session p ds (st :: sts) (o :: outs) ds2

/-- The XML documents read name their files. -/
def StepOk : SStep → Prop
  | .readXml doc => FilesNamed doc
  | _ => True

end Spec

namespace Store
open Spec Report Xml

/-- One statement on objects; `os` are the database objects.  `XmlFactory.read` (`xml_factory.py:53-79`), `YamlReader.load` (`yaml_reader.py:62-105`),
`MemUCIS()` (`mem_ucis.py:41-54`), `DbMerger.merge` (`db_merger.py:24-77`), `CoverageReportBuilder.build` (`coverage_report_builder.py:24-38`),
`XmlWriter.write` (`xml_writer.py:44-72`).  Exceptions are caught by the program. -/
def sessionStep (p : SEnv) (os : List Nat) (st : SStep) (s : Heap) : SOut × List Nat × Heap :=
  match st with
  | .readXml doc =>
    match XmlReader.read p.flt p.now doc s with
    | (.ok o, s') => (.done, os ++ [o], s')
    | (.error e, s') => (.failed e, os, s')
  | .readYaml j =>
    match YamlReader.load j s with
    | (.ok o, s') => (.done, os ++ [o], s')
    | (.error e, s') => (.failed e, os, s')
  | .create =>
    match newDb s with
    | (.ok o, s') => (.done, os ++ [o], s')
    | (.error e, s') => (.failed e, os, s')
  | .merge i js =>
    match os[i]?, js.mapM (fun j : Nat => os[j]?) with
    | some o, some srcs =>
      match DbMerger.merge o srcs s with
      | (.ok _, s') => (.done, os, s')
      | (.error e, s') => (.failed e, os, s')
    | _, _ => (.noSuch, os, s)
  | .report i =>
    match os[i]? with
    | some o =>
      match ReportBuilder.build p.rd s.objs.length o s with
      | (r, s') => (outOf .report r, os, s')
    | none => (.noSuch, os, s)
  | .write i =>
    match os[i]? with
    | some o =>
      match XmlWriter.write p.env p.sk s.objs.length o s with
      | (r, s') => (outOf .written r, os, s')
    | none => (.noSuch, os, s)

/-- A whole program on objects. -/
def session (p : SEnv) (os : List Nat) : List SStep → Heap → List SOut × List Nat × Heap
  | [], s => ([], os, s)
  | st :: sts, s =>
    match sessionStep p os st s with
    | (o, os', s') =>
      match session p os' sts s' with
      | (outs, os'', s'') => (o :: outs, os'', s'')

/-- The program's databases are different objects with the contents `ds`. -/
def _root_.Verif.Spec.HoldsDbs (sk : Int → String) (s : Heap) (os : List Nat) (ds : List Database) : Prop := os.Nodup ∧ List.Forall₂ (ShowsDb sk s) os ds

theorem forall2_get_right {α β : Type} {R : α → β → Prop} {k : Nat} {l : List α} {l' : List β} (h : List.Forall₂ R l l') {b : β} (hb : l'[k]? = some b) :
    ∃ a, l[k]? = some a ∧ R a b := by
  have hl := (List.getElem?_eq_some_iff.1 hb).1
  have ha := List.getElem?_eq_getElem (l := l) (i := k) (by rw [h.length_eq]; exact hl)
  obtain ⟨b', hb', hr⟩ := forall2_get h ha
  rw [hb] at hb'
  cases hb'
  exact ⟨_, ha, hr⟩

theorem forall2_getNone {α β : Type} {R : α → β → Prop} {k : Nat} {l : List α} {l' : List β} (h : List.Forall₂ R l l') (ha : l[k]? = none) : l'[k]? = none := by
  rw [List.getElem?_eq_none_iff] at ha ⊢
  rw [← h.length_eq]; exact ha

theorem forall2_lookups {α β : Type} {R : α → β → Prop} {l : List α} {l' : List β} (h : List.Forall₂ R l l') (js : List Nat) :
    (js.mapM (fun j : Nat => l[j]?) = none ∧ js.mapM (fun j : Nat => l'[j]?) = none) ∨
      ∃ as bs, js.mapM (fun j : Nat => l[j]?) = some as ∧ js.mapM (fun j : Nat => l'[j]?) = some bs ∧ List.Forall₂ R as bs := by
  induction js with
  | nil => exact .inr ⟨[], [], rfl, rfl, .nil⟩
  | cons j t ih =>
    rw [List.mapM_cons, List.mapM_cons]
    cases hj : l[j]? with
    | none => exact .inl ⟨rfl, by rw [forall2_getNone h hj]; rfl⟩
    | some a =>
      obtain ⟨b, hb, hab⟩ := forall2_get h hj
      rw [hb]
      rcases ih with ⟨h1, h2⟩ | ⟨as, bs, h1, h2, h3⟩
      · exact .inl ⟨by rw [h1]; rfl, by rw [h2]; rfl⟩
      · exact .inr ⟨a :: as, b :: bs, by rw [h1]; rfl, by rw [h2]; rfl, .cons hab h3⟩

theorem forall2_append_one {α β : Type} {R : α → β → Prop} {l : List α} {l' : List β} (h : List.Forall₂ R l l') {a : α} {b : β} (hab : R a b) :
    List.Forall₂ R (l ++ [a]) (l' ++ [b]) := List.rel_append h (.cons hab .nil)

theorem forall2_set_distinct {α β : Type} {R S : α → β → Prop} {k : Nat} {l : List α} {l' : List β} (h : List.Forall₂ R l l') {a : α} (ha : l[k]? = some a) {b : β} (hab : S a b)
    (hn : l.Nodup) (hi : ∀ x ∈ l, x ≠ a → ∀ y, R x y → S x y) : List.Forall₂ S l (l'.set k b) := by
  induction h generalizing k with
  | nil => simp at ha
  | @cons x y t t' hxy ht ih =>
    cases k with
    | zero =>
      simp only [List.getElem?_cons_zero, Option.some.injEq] at ha
      subst ha
      refine .cons hab (forall2_imp ht (fun z hz w hw => hi z (by simp [hz]) ?_ w hw))
      rintro rfl
      exact (List.nodup_cons.1 hn).1 hz
    | succ k =>
      simp only [List.getElem?_cons_succ] at ha
      refine .cons (hi x (by simp) ?_ y hxy) (ih ha (List.nodup_cons.1 hn).2 (fun z hz => hi z (by simp [hz])))
      rintro rfl
      exact (List.nodup_cons.1 hn).1 (List.mem_of_getElem? ha)

theorem holds_new {sk : Int → String} {s s' : Heap} {os : List Nat} {ds : List Database} (h : HoldsDbs sk s os ds) (hk : AllKept s s') {d : Database}
    (hd : ShowsDb sk s' s.objs.length d) : HoldsDbs sk s' (os ++ [s.objs.length]) (ds ++ [d]) := by
  refine ⟨?_, forall2_append_one (forall2_imp h.2 (fun _ _ _ hab => hk.showsDb hab)) hd⟩
  rw [List.nodup_append]
  refine ⟨h.1, by simp, ?_⟩
  rintro a ha b hb rfl
  rw [List.mem_singleton] at hb
  obtain ⟨d', _, _, x, hx, _⟩ := forall2_mem h.2 ha
  have := (List.getElem?_eq_some_iff.1 hx).1
  omega

/-- Other databases are not affected by growing below one. -/
theorem frame_showsDb {cs : List Call} {dst : Nat} {x : Obj} (hx : (run Heap.empty cs).objs[dst]? = some x) (hc : x.cls = .db) {s' : Heap} {k i : List Nat}
    (f : Frame (run Heap.empty cs).objs.length (run Heap.empty cs) s' dst k i) {sk : Int → String} {o : Nat} (ho : o ≠ dst) {d : Database}
    (h : ShowsDb sk (run Heap.empty cs) o d) : ShowsDb sk s' o d := by
  obtain ⟨⟨n, hn⟩, y, hy, h1, h2, h3⟩ := h
  have hy' := f.old o y hy
  rw [if_neg ho] at hy'
  refine ⟨⟨n, showsIn_mono (fun _ _ => trivial) (Nat.le_refl _) (f.showsIn (by simp) (shows_region hx hc ho hn))⟩, y, hy', h1, forall2_imp h2 ?_, h3⟩
  rintro a _ b ⟨z, hz, rfl⟩
  exact ⟨z, by rw [f.nodes]; exact hz, rfl⟩

/-- The destination of a merge that raised. -/
theorem failed_showsDb {cs : List Call} {dst : Nat} {x : Obj} (hx : (run Heap.empty cs).objs[dst]? = some x) (hc : x.cls = .db) {s' : Heap} {k i : List Nat}
    (f : Frame (run Heap.empty cs).objs.length (run Heap.empty cs) s' dst k i) {sk : Int → String} {d : Database}
    (h : ShowsDb sk (run Heap.empty cs) dst d) {srcs : List Nat} {vs : List Scope} (hs : List.Forall₂ (Shows (run Heap.empty cs)) srcs vs)
    {r : Except Err Unit} (hm : DbMerger.merge dst srcs (run Heap.empty cs) = (r, s')) :
    ShowsDb sk s' dst { d with root := Merge.leftIn d.root vs } := by
  obtain ⟨hv, y, hy, h1, h2, h3⟩ := h
  rw [hx] at hy
  cases hy
  have hx' := f.old dst x hx
  rw [if_pos rfl] at hx'
  refine ⟨(merge_leaves hx hc hv hs hm).2, _, hx', h1, forall2_imp h2 ?_, h3⟩
  rintro a _ b ⟨z, hz, rfl⟩
  exact ⟨z, by rw [f.nodes]; exact hz, rfl⟩

/-- **C101** for one statement. -/
theorem C101_step (p : SEnv) {cs : List Call} {os : List Nat} {ds : List Database} (h : HoldsDbs p.sk (run Heap.empty cs) os ds) (st : SStep) (hst : StepOk st)
    {o : SOut} {os' : List Nat} {s' : Heap} (hrun : sessionStep p os st (run Heap.empty cs) = (o, os', s')) :
    ∃ cs' ds', s' = run Heap.empty (cs ++ cs') ∧ StepTo p ds st o ds' ∧ HoldsDbs p.sk s' os' ds' := by
  cases st with
  | readXml doc =>
    have hs := read_sim p.sk p.flt p.now doc hst (run Heap.empty cs)
    unfold Sim at hs
    unfold sessionStep at hrun
    cases hv : Xml.read p.flt doc with
    | error e =>
      rw [hv] at hs
      obtain ⟨s1, h1, h2, cs', h3⟩ := hs
      simp only [h1] at hrun
      cases hrun
      exact ⟨cs', ds, by rw [run_append, h3], .readXmlFails hv, h.1, forall2_imp h.2 (fun _ _ _ hab => h2.showsDb hab)⟩
    | ok d =>
      rw [hv] at hs
      obtain ⟨o, s1, h1, rfl, h2, h3, cs', h4⟩ := hs
      simp only [h1] at hrun
      cases hrun
      exact ⟨cs', _, by rw [run_append, h4], .readXml hv, holds_new h h3 h2⟩
  | readYaml j =>
    have hs := yaml_sim p.sk j (run Heap.empty cs)
    unfold Sim at hs
    unfold sessionStep at hrun
    cases hv : Yaml.load j with
    | error e =>
      rw [hv] at hs
      obtain ⟨s1, h1, h2, cs', h3⟩ := hs
      simp only [h1] at hrun
      cases hrun
      exact ⟨cs', ds, by rw [run_append, h3], .readYamlFails hv, h.1, forall2_imp h.2 (fun _ _ _ hab => h2.showsDb hab)⟩
    | ok d =>
      rw [hv] at hs
      obtain ⟨o, s1, h1, rfl, h2, h3, ⟨cs', h4⟩, _⟩ := hs
      simp only [h1] at hrun
      cases hrun
      exact ⟨cs', _, by rw [run_append, h4], .readYaml hv, holds_new h h3 h2⟩
  | create =>
    have hnew : newDb (run Heap.empty cs) = (.ok (run Heap.empty cs).objs.length, mkPre (run Heap.empty cs) [] [] [] []) := by
      simp [newDb, allocObj, mkPre, memUcis, memScope]
    unfold sessionStep at hrun
    simp only [hnew] at hrun
    cases hrun
    have hobj := mkPre_obj (run Heap.empty cs) [] [] [] []
    refine ⟨[.newDb], _, ?_, .create, holds_new h (mkPre_kept _ [] [] [] [])
      ⟨⟨1, trivial, _, hobj, rfl, rfl, rfl, rfl, by simp [ShowsDu, memUcis, memScope, emptyDb], by simp [ShowsCps, memUcis, memScope, emptyDb], .nil, .nil⟩,
        _, hobj, rfl, .nil, rfl⟩⟩
    rw [run_append]
    show _ = ((newDb >>= fun a => pure (Ret.scope a)) (run Heap.empty cs)).2
    rw [bind_eq_of_ok hnew]; rfl
  | merge i js =>
    unfold sessionStep at hrun
    simp only at hrun
    cases hi : os[i]? with
    | none =>
      simp only [hi] at hrun
      cases hrun
      exact ⟨[], ds, by simp, .mergeNone (.inl (forall2_getNone h.2 hi)), h⟩
    | some dst =>
      rcases forall2_lookups h.2 js with ⟨h1, h2⟩ | ⟨srcs, vs, h1, h2, h3⟩
      · simp only [hi, h1] at hrun
        cases hrun
        exact ⟨[], ds, by simp, .mergeNone (.inr h2), h⟩
      · obtain ⟨d, hd, hsd⟩ := forall2_get h.2 hi
        have hsrc : List.Forall₂ (Shows (run Heap.empty cs)) srcs (vs.map (·.root)) := by
          rw [List.forall₂_map_right_iff]
          exact forall2_imp h3 (fun _ _ _ hab => hab.1)
        obtain ⟨r, s1, hm⟩ : ∃ r s1, DbMerger.merge dst srcs (run Heap.empty cs) = (r, s1) := ⟨_, _, rfl⟩
        have hsd' := hsd
        obtain ⟨hv, x, hx, hc, _⟩ := hsd'
        obtain ⟨k, i', f⟩ := merge_frame hx hc hsrc hm
        obtain ⟨cs', hcs⟩ := f.calls
        simp only [hi, h1, hm] at hrun
        cases hw : Merge.merge d.root (vs.map (·.root)) with
        | error e =>
          have hr := (C84_refines hx hc hv hsrc hm).1 e hw
          subst hr
          cases hrun
          refine ⟨cs', _, by rw [run_append]; exact hcs, .mergeFails hd h2 hw, h.1, ?_⟩
          exact forall2_set_distinct h.2 hi (failed_showsDb hx hc f hsd hsrc hm) h.1 (fun o _ ho _ hab => frame_showsDb hx hc f ho hab)
        | ok w =>
          obtain ⟨cs1, h4, h5⟩ := merge_showsDb hsd hsrc hw
          rw [hm] at h4
          cases h4
          cases hrun
          refine ⟨cs1, _, rfl, .merge hd h2 hw, h.1, ?_⟩
          exact forall2_set_distinct h.2 hi h5 h.1 (fun o _ ho _ hab => frame_showsDb hx hc f ho hab)
  | report i =>
    unfold sessionStep at hrun
    simp only at hrun
    cases hi : os[i]? with
    | none =>
      simp only [hi] at hrun
      cases hrun
      exact ⟨[], ds, by simp, .reportNone (forall2_getNone h.2 hi), h⟩
    | some db =>
      obtain ⟨d, hd, hsd⟩ := forall2_get h.2 hi
      simp only [hi, C97_report_reads hsd.1 p.rd (Nat.le_refl _)] at hrun
      cases hrun
      exact ⟨[], ds, by simp, .report hd, h⟩
  | write i =>
    unfold sessionStep at hrun
    simp only at hrun
    cases hi : os[i]? with
    | none =>
      simp only [hi] at hrun
      cases hrun
      exact ⟨[], ds, by simp, .writeNone (forall2_getNone h.2 hi), h⟩
    | some db =>
      obtain ⟨d, hd, hsd⟩ := forall2_get h.2 hi
      simp only [hi, C98_write_reads hsd p.env (Nat.le_refl _)] at hrun
      cases hrun
      exact ⟨[], ds, by simp, .write hd, h⟩

/-- **C101.** A program that reads, makes, merges, reports and writes databases behaves as its databases' contents say, whatever else exists: every
result is the one computed from contents, a statement changes no database but the destination of a merge. -/
theorem C101_session (p : SEnv) {cs : List Call} {os : List Nat} {ds : List Database} (h : HoldsDbs p.sk (run Heap.empty cs) os ds) (sts : List SStep)
    (hst : ∀ st ∈ sts, StepOk st) {outs : List SOut} {os' : List Nat} {s' : Heap} (hrun : session p os sts (run Heap.empty cs) = (outs, os', s')) :
    ∃ cs' ds', s' = run Heap.empty (cs ++ cs') ∧ Session p ds sts outs ds' ∧ HoldsDbs p.sk s' os' ds' := by
  induction sts generalizing cs os ds outs with
  | nil =>
    cases hrun
    exact ⟨[], ds, by simp, .nil, h⟩
  | cons st sts ih =>
    obtain ⟨o, os1, s1, h1⟩ : ∃ o os1 s1, sessionStep p os st (run Heap.empty cs) = (o, os1, s1) := ⟨_, _, _, rfl⟩
    obtain ⟨outs1, os2, s2, h2⟩ : ∃ a b c, session p os1 sts s1 = (a, b, c) := ⟨_, _, _, rfl⟩
    unfold session at hrun
    simp only [h1, h2] at hrun
    cases hrun
    obtain ⟨cs1, ds1, e1, h3, h4⟩ := C101_step p h st (hst st (by simp)) h1
    subst e1
    obtain ⟨cs2, ds2, e2, h5, h6⟩ := ih h4 (fun st h => hst st (by simp [h])) h2
    exact ⟨cs1 ++ cs2, ds2, by rw [e2, List.append_assoc], .cons h3 h5, h6⟩

/-! ## Programs do not depend on what else exists -/

theorem stepTo_out {p : SEnv} {ds : List Database} {st : SStep} {o o' : SOut} {d1 d2 : List Database} (h : StepTo p ds st o d1) (h' : StepTo p ds st o' d2) :
    o = o' ∧ d1 = d2 := by
  cases h <;> cases h' <;> first
    | exact ⟨rfl, rfl⟩
    | simp_all

theorem session_outs {p : SEnv} {ds : List Database} {sts : List SStep} {outs outs' : List SOut} {d1 d2 : List Database} (h : Session p ds sts outs d1)
    (h' : Session p ds sts outs' d2) : outs = outs' ∧ d1 = d2 := by
  induction h generalizing outs' d2 with
  | nil => cases h'; exact ⟨rfl, rfl⟩
  | cons hs _ ih =>
    cases h' with
    | cons hs' ht' =>
      obtain ⟨rfl, rfl⟩ := stepTo_out hs hs'
      obtain ⟨h4, h5⟩ := ih ht'
      exact ⟨by rw [h4], h5⟩

/-- **C101.** A program sees the same when it starts with other objects of the same content, in a store that contains other things: there is no hidden
state. -/
theorem C101_no_hidden_state (p : SEnv) {cs1 cs2 : List Call} {os1 os2 : List Nat} {ds : List Database} (h1 : HoldsDbs p.sk (run Heap.empty cs1) os1 ds)
    (h2 : HoldsDbs p.sk (run Heap.empty cs2) os2 ds) (sts : List SStep) (hst : ∀ st ∈ sts, StepOk st) :
    (session p os1 sts (run Heap.empty cs1)).1 = (session p os2 sts (run Heap.empty cs2)).1 ∧
      ∃ ds', HoldsDbs p.sk (session p os1 sts (run Heap.empty cs1)).2.2 (session p os1 sts (run Heap.empty cs1)).2.1 ds' ∧
        HoldsDbs p.sk (session p os2 sts (run Heap.empty cs2)).2.2 (session p os2 sts (run Heap.empty cs2)).2.1 ds' := by
  obtain ⟨_, d1, _, a1, a2⟩ := C101_session p h1 sts hst (outs := (session p os1 sts (run Heap.empty cs1)).1) rfl
  obtain ⟨_, d2, _, b1, b2⟩ := C101_session p h2 sts hst (outs := (session p os2 sts (run Heap.empty cs2)).1) rfl
  obtain ⟨e1, rfl⟩ := session_outs a1 b1
  exact ⟨e1, _, a2, b2⟩

/-- The statement asks for a report or a document. -/
def _root_.Verif.Spec.isLook : SStep → Bool
  | .report _ => true
  | .write _ => true
  | _ => false

theorem isLook_iff (st : SStep) : isLook st = true ↔ (∃ i, st = .report i) ∨ ∃ i, st = .write i := by
  cases st <;> simp [isLook]

/-- The results of the statements that are not reports or documents. -/
def _root_.Verif.Spec.withoutLooks : List SStep → List SOut → List SOut
  | st :: sts, o :: outs => if isLook st then withoutLooks sts outs else o :: withoutLooks sts outs
  | _, _ => []

theorem session_looks {p : SEnv} {ds : List Database} {sts : List SStep} {outs : List SOut} {d1 : List Database} (h : Session p ds sts outs d1) :
    Session p ds (sts.filter (fun st => !isLook st)) (withoutLooks sts outs) d1 := by
  induction h with
  | nil => exact .nil
  | @cons ds st o ds1 sts outs ds2 hs _ ih =>
    cases hl : isLook st with
    | false =>
      simp only [List.filter_cons, hl, Bool.not_false, if_true, withoutLooks, Bool.false_eq_true, if_false]
      exact .cons hs ih
    | true =>
      have hd : ds1 = ds := by cases hs <;> first | rfl | cases hl
      subst hd
      simp only [List.filter_cons, hl, Bool.not_true, Bool.false_eq_true, if_false, withoutLooks, if_true]
      exact ih

/-- **C101.** Reports and documents can be asked for at any time: leaving these statements out of a program leaves all other results as they are. -/
theorem C101_looking_is_free (p : SEnv) {cs : List Call} {os : List Nat} {ds : List Database} (h : HoldsDbs p.sk (run Heap.empty cs) os ds) (sts : List SStep)
    (hst : ∀ st ∈ sts, StepOk st) :
    withoutLooks sts (session p os sts (run Heap.empty cs)).1 = (session p os (sts.filter (fun st => !isLook st)) (run Heap.empty cs)).1 := by
  obtain ⟨_, d1, _, a1, _⟩ := C101_session p h sts hst (outs := (session p os sts (run Heap.empty cs)).1) rfl
  obtain ⟨_, d2, _, b1, _⟩ := C101_session p h (sts.filter (fun st => !isLook st)) (fun st hs => hst st (List.mem_filter.1 hs).1)
    (outs := (session p os (sts.filter (fun st => !isLook st)) (run Heap.empty cs)).1) rfl
  exact (session_outs (session_looks a1) b1).1

/-! ## Example -/

/-- A program that reads an XML and a YAML document, merges both into a new database, looks at it and writes it, tries to merge a database that it does not
have, tries to read a document with a count that is no number, and merges the first document once more. -/
def exProgram : List SStep :=
  [.readXml (readDoc "4"), .readYaml (Yaml.encDoc yamlOwn), .create, .merge 2 [0, 1], .report 2, .write 2, .merge 2 [7], .readXml (readDoc "x"), .merge 2 [0], .report 0]

/-- What kind of result it is. -/
def SOut.tag : SOut → String
  | .done => "done"
  | .failed _ => "failed"
  | .report _ => "report"
  | .written _ => "written"
  | .noSuch => "noSuch"

def exSEnv : SEnv := ⟨⟨fun _ => "0", fun _ => none⟩, 0, ⟨"u", "d", "n", ⟨fun _ => "0", fun _ => none⟩⟩, id, fun _ => "TEST"⟩

theorem load_enc (d : Yaml.YDoc) : YamlReader.load (Yaml.encDoc d) = YamlReader.loadDoc d := by
  unfold YamlReader.load
  rw [if_pos ((Yaml.valid_iff_says _).2 ⟨_, Yaml.says_encode _⟩), Yaml.dec_says (Yaml.says_encode _)]

/-- **C101** applies to this program, started with no databases of its own in a store with two databases. -/
theorem exProgram_outs : (session exSEnv [] exProgram (run Heap.empty twoDbs)).1.map SOut.tag =
    ["done", "done", "done", "done", "report", "written", "noSuch", "failed", "done", "report"] := by
  unfold exProgram
  simp only [session, sessionStep, load_enc]
  decide +kernel

example : HoldsDbs exSEnv.sk (run Heap.empty twoDbs) [] [] ∧ (∀ st ∈ exProgram, StepOk st) :=
  ⟨⟨.nil, .nil⟩, by simp [exProgram, StepOk, readDoc_named]⟩

/-- **C101** applies to a program with a merge that raises: it merges the database 0 of `stuck`, which has an instance without design unit, into a new
database and goes on with what is there. -/
def exFailing : List SStep := [.create, .merge 1 [0], .report 1, .merge 1 [1], .report 1, .write 1]

theorem exFailing_outs : (session exSEnv [0] exFailing (run Heap.empty stuck)).1.map SOut.tag = ["done", "failed", "report", "done", "report", "written"] := by
  unfold exFailing
  simp only [session, sessionStep]
  decide +kernel

example : ∃ d, HoldsDbs exSEnv.sk (run Heap.empty stuck) [0] [d] ∧ ∀ st ∈ exFailing, StepOk st := by
  obtain ⟨v, hv⟩ := shows_exists (run_solid stuck_real) (o := 0) (by decide)
  refine ⟨⟨v, [], []⟩, ⟨by simp, .cons ⟨hv, _, rfl, by decide, ?_, rfl⟩ .nil⟩, by simp [exFailing, StepOk]⟩
  exact .nil

end Store
end Verif
