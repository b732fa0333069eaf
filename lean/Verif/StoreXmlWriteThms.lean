import Verif.StoreXmlWrite
import Verif.StoreReportThms
/-!
# Writing XML from objects (C98)
-/

namespace Verif
namespace Spec

/-- Reading a history node through its getters; `sk` prints a `HistoryNodeKind`. -/
def ShowsHist (sk : Int → String) (s : Store.Heap) (n : Nat) (h : Hist) : Prop :=
  ∃ x, s.nodes[n]? = some x ∧ h = { x.data with kind := Store.kindText sk x.kind }

/-- Reading a database: its scopes, its history nodes and its files. -/
def ShowsDb (sk : Int → String) (s : Store.Heap) (o : Nat) (d : Database) : Prop :=
  Shows s o d.root ∧ ∃ x, s.objs[o]? = some x ∧ x.cls = .db ∧ List.Forall₂ (ShowsHist sk s) x.hist d.hist ∧
    d.files = x.files.keys.map some

end Spec

namespace Store
open Spec

theorem Reads.lift {α : Type} {s : Heap} (e : Except Err α) : Reads s (lift e) e := rfl

theorem getSourceInfo_at {s : Heap} {n o : Nat} {v : Scope} (h : At s n o v) : getSourceInfo o s = (.ok v.src, s) := by
  cases n with
  | zero => exact h.elim
  | succ n =>
    obtain ⟨_, x, hx, _, _, h3, _⟩ := h
    exact (bind_eq_of_ok (obj_some hx)).trans (by rw [pure_def, h3])

/-- Positions of a list. -/
theorem forall2_range {α β : Type} {R : α → β → Prop} {l : List α} {l' : List β} (h : List.Forall₂ R l l') :
    List.Forall₂ (fun i b => ∃ a, l[i]? = some a ∧ R a b) (List.range l.length) l' := by
  induction h with
  | nil => exact .nil
  | cons hab ht ih =>
    rw [List.length_cons, List.range_succ_eq_map]
    refine .cons ⟨_, rfl, hab⟩ ?_
    rw [List.forall₂_map_left_iff]
    exact ih

namespace XmlWriter

theorem writeBin_reads {s : Heap} {b : Nat} {it : Item} (h : ShowsItem s b it) : Reads s (writeBin b) (Xml.writeBin it) := by
  obtain ⟨x, d, hx, hd, rfl⟩ := h
  refine .step (bin_some hx) (.step (cdata_some hd) ?_)
  exact (Reads.lift _).bind fun n => (Reads.lift _).bind fun t => .pure _

theorem writeCrossBin_reads {s : Heap} {b : Nat} {it : Item} (h : ShowsItem s b it) : Reads s (writeCrossBin b) (Xml.writeCrossBin it) := by
  obtain ⟨x, d, hx, hd, rfl⟩ := h
  refine .step (bin_some hx) (.step (cdata_some hd) ?_)
  exact (Reads.lift _).bind fun n => .pure _

theorem writeCoverpoint_reads {s : Heap} {n o : Nat} {v : Scope} (h : At s n o v) :
    Reads s (writeCoverpoint o) (Xml.writeCoverpoint v) := by
  obtain ⟨l, e, r⟩ := coverItems_at h Xml.binMask
  refine .step (getScopeName_at h) ((Reads.lift _).bind fun n => .step e ?_)
  exact (Reads.mapM (R := ShowsItem s) (fun a b hab => writeBin_reads hab) r).bind fun _ => .pure _

theorem writeCross_reads {s : Heap} {n o : Nat} {v : Scope} (h : At s n o v) : Reads s (writeCross o) (Xml.writeCross v) := by
  obtain ⟨l, e, r⟩ := coverItems_at h Xml.binMask
  refine .step (getScopeName_at h) ((Reads.lift _).bind fun nm => ?_)
  cases n with
  | zero => exact h.elim
  | succ n =>
    obtain ⟨_, x, hx, _, _, _, _, _, h6, _, _⟩ := h
    unfold ShowsCps at h6
    by_cases hc : x.cls = .cross
    · rw [if_pos hc] at h6
      obtain ⟨cps, hcps, hf⟩ := h6
      have hk : getNumCrossedCoverpoints o s = (.ok x.cps.length, s) := by
        refine (bind_eq_of_ok (obj_some hx)).trans ?_
        rw [hc]; rfl
      refine .step hk ?_
      rw [hcps]
      refine Reads.bind (Reads.mapM (R := fun i nm => ∃ c, x.cps[i]? = some c ∧ ShowsName s c nm) ?_ (forall2_range hf)) fun exprs => .step e ?_
      · rintro i nm ⟨c, hi, y, hy, rfl⟩
        have hg : getIthCrossedCoverpoint o i s = (.ok c, s) := by
          refine (bind_eq_of_ok (obj_some hx)).trans ?_
          rw [hc]
          simp [read, listGetE, hi]
        refine .step hg (.step ((bind_eq_of_ok (obj_some hy)).trans (pure_def _ _)) ?_)
        exact (Reads.lift _).bind fun t => .pure _
      · exact (Reads.mapM (R := ShowsItem s) (fun a b hab => writeCrossBin_reads hab) r).bind fun _ => .pure _
    · rw [if_neg hc] at h6
      rw [h6]
      have hk : getNumCrossedCoverpoints o s = (.error .attributeError, s) := by
        refine (bind_eq_of_ok (obj_some hx)).trans ?_
        cases hcl : x.cls <;> first | rfl | exact absurd hcl hc
      exact bind_eq_of_error hk

theorem writeCoverinstance_reads {s : Heap} {n o : Nat} {v : Scope} (cgName : String) (h : At s n o v) :
    Reads s (writeCoverinstance cgName o) (Xml.writeCoverinstance cgName v) := by
  cases n with
  | zero => exact h.elim
  | succ n =>
    obtain ⟨l1, e1, r1⟩ := scopes_at h ST.COVERPOINT
    obtain ⟨l2, e2, r2⟩ := scopes_at h ST.CROSS
    refine .step (getScopeName_at h) ((Reads.lift _).bind fun nm => (Reads.lift _).bind fun c => (Reads.lift _).bind fun m => .step e1 ?_)
    refine (Reads.mapM (R := At s n) (fun a b hab => writeCoverpoint_reads hab) r1).bind fun _ => .step e2 ?_
    exact (Reads.mapM (R := At s n) (fun a b hab => writeCross_reads hab) r2).bind fun _ => .pure _

theorem writeMember_reads {s : Heap} {n m cg o : Nat} {g v : Scope} (hg : At s n cg g) (h : At s m o v) :
    Reads s (writeMember cg o) (Xml.writeCoverinstance g.name v) :=
  .step (getScopeName_at hg) (writeCoverinstance_reads _ h)

theorem writeCovergroup_reads {s : Heap} {n o : Nat} {v : Scope} (h : At s n o v) :
    Reads s (writeCovergroup o) (Xml.writeCovergroup v) := by
  cases n with
  | zero => exact h.elim
  | succ n =>
    obtain ⟨l, e, r⟩ := scopes_at h ST.COVERINSTANCE
    refine .step e ?_
    unfold Xml.writeCovergroup Xml.toWrite
    generalize v.scopes ST.COVERINSTANCE = vs at r
    cases r with
    | nil =>
      simp only [List.mapM_cons, List.mapM_nil, bind_assoc, pure_bind]
      exact (writeMember_reads h h).bind fun _ => .pure _
    | cons hab ht =>
      exact (Reads.mapM (R := At s n) (fun a b hab => writeMember_reads h hab) (.cons hab ht)).bind fun _ => .pure _

theorem writeInstance_reads {s : Heap} {n o : Nat} {v : Scope} (h : At s n o v) :
    Reads s (writeInstance o) (Xml.writeInstance v) := by
  cases n with
  | zero => exact h.elim
  | succ n =>
    obtain ⟨l, e, r⟩ := scopes_at h ST.COVERGROUP
    refine .step (getScopeName_at h) ((Reads.lift _).bind fun nm => .step e ?_)
    exact (Reads.mapM (R := At s n) (fun a b hab => writeCovergroup_reads hab) r).bind fun _ => .pure _

theorem findFilesL_eq (l : List Scope) (m : Dict Nat) :
    Xml.findFilesL l m = (l.filter (fun c => maskHit c.stype ST.ALL)).foldl (fun m c => Xml.findFiles c m) m := by
  induction l generalizing m with
  | nil => rfl
  | cons c t ih =>
    unfold Xml.findFilesL
    rw [ih]
    by_cases hc : maskHit c.stype ST.ALL = true
    · rw [if_pos hc, List.filter_cons_of_pos (p := fun c : Scope => maskHit c.stype ST.ALL) hc]; rfl
    · rw [if_neg hc, List.filter_cons_of_neg (p := fun c : Scope => maskHit c.stype ST.ALL) hc]

theorem foldlM_pure {α β : Type} (f : β → α → β) (l : List α) (m : β) :
    l.foldlM (fun m a => (.ok (f m a) : Except Err β)) m = .ok (l.foldl f m) := by
  induction l generalizing m with
  | nil => rfl
  | cons a t ih => rw [List.foldlM_cons, List.foldl_cons]; exact ih _

theorem findFiles_reads {s : Heap} {n o : Nat} {v : Scope} (h : At s n o v) {fuel : Nat} (hf : n ≤ fuel) (m : Dict Nat) :
    Reads s (findFiles fuel m o) (.ok (Xml.findFiles v m)) := by
  induction n generalizing o v fuel m with
  | zero => exact h.elim
  | succ n ih =>
    obtain ⟨fuel, rfl⟩ : ∃ k, fuel = k + 1 := ⟨fuel - 1, by omega⟩
    obtain ⟨l, e, r⟩ := scopes_at h ST.ALL
    refine .step (getSourceInfo_at h) (.step e ?_)
    obtain ⟨ty, nm, src, w, du, cps, ch, it⟩ := v
    unfold Xml.findFiles
    rw [findFilesL_eq, ← foldlM_pure]
    exact Reads.foldlM (R := At s n) (fun m a b hab => ih hab (by omega) m) r _

theorem fileTable_reads {s : Heap} {l : List Nat} {n : Nat} {v : Scope} (r : List.Forall₂ (At s n) l (v.scopes ST.ALL)) {fuel : Nat} (hf : n ≤ fuel) :
    Reads s (l.foldlM (findFiles fuel) [("__null__file__", 1)]) (.ok (Xml.fileTable v)) := by
  unfold Xml.fileTable
  rw [findFilesL_eq, ← foldlM_pure]
  exact Reads.foldlM (R := At s n) (fun m a b hab => findFiles_reads hab hf m) r _

theorem writeHists_eq (env : Xml.Env) (i : Nat) (l : List Hist) :
    Xml.writeHists env i l = (l.zipIdx i).mapM (fun hi => Xml.writeHist env hi.2 hi.1) := by
  induction l generalizing i with
  | nil => rfl
  | cons h t ih =>
    unfold Xml.writeHists
    rw [List.zipIdx_cons, List.mapM_cons, ih]

theorem getHistoryNodes_eq {s : Heap} {o : Nat} {x : Obj} (h : s.objs[o]? = some x) (hc : x.cls = .db) :
    getHistoryNodes o kindALL s = (.ok x.hist, s) := by
  have e : getHistoryNodes o kindALL s = (.ok (drain (nodeHit s kindALL) x.hist (x.hist.length + 1) 0), s) := by
    refine (bind_eq_of_ok (obj_some h)).trans ?_
    rw [hc]; rfl
  rw [e, drain_all, List.filter_eq_self.2]
  intro a _
  simp [nodeHit]

theorem writeHistory_reads {env : Xml.Env} {sk : Int → String} {s : Heap} {o : Nat} {x : Obj} (hx : s.objs[o]? = some x) (hc : x.cls = .db)
    {hs : List Hist} (h : List.Forall₂ (ShowsHist sk s) x.hist hs) :
    Reads s (writeHistory env sk o) (Xml.writeHistory env hs) := by
  refine .step (getHistoryNodes_eq hx hc) ?_
  generalize x.hist = l at h
  cases h with
  | nil => exact (Reads.lift _).bind fun _ => .pure _
  | cons hab ht =>
    show Reads s _ (Xml.writeHists _ _ _)
    rw [writeHists_eq]
    refine Reads.mapM ?_ (forall2_zipIdx (.cons hab ht) 0)
    rintro ⟨a, i⟩ ⟨b, j⟩ ⟨⟨y, hy, rfl⟩, rfl⟩
    exact .step (x := node a) (by simp [node, read, hy]) (Reads.lift _)

theorem write_reads {env : Xml.Env} {sk : Int → String} {s : Heap} {n o : Nat} {d : Database} (h : At s n o d.root) {x : Obj}
    (hx : s.objs[o]? = some x) (hc : x.cls = .db) (hh : List.Forall₂ (ShowsHist sk s) x.hist d.hist) {fuel : Nat} (hf : n ≤ fuel) :
    Reads s (write env sk fuel o) (Xml.write env d) := by
  cases n with
  | zero => exact h.elim
  | succ n =>
    obtain ⟨l1, e1, r1⟩ := scopes_at h ST.ALL
    obtain ⟨l2, e2, r2⟩ := scopes_at h ST.INSTANCE
    refine .step e1 (.step (fileTable_reads r1 (by omega)) ?_)
    refine (Reads.lift _).bind fun by_ => (Reads.lift _).bind fun t => (Reads.lift _).bind fun files => ?_
    refine (writeHistory_reads hx hc hh).bind fun hist => .step e2 ?_
    exact (Reads.mapM (R := At s n) (fun a b hab => writeInstance_reads hab) r2).bind fun _ => .pure _

end XmlWriter

/-! ## C98 -/

/-- **C98.** Writing a database of a store built by API calls changes nothing, and it gives the document, or the exception, that
`Xml.write` gives on the content shown. -/
theorem C98_write_reads {cs : List Call} {db : Nat} {sk : Int → String} {d : Database} (hd : ShowsDb sk (run Heap.empty cs) db d)
    (env : Xml.Env) {fuel : Nat} (hf : (run Heap.empty cs).objs.length ≤ fuel) :
    XmlWriter.write env sk fuel db (run Heap.empty cs) = (Xml.write env d, run Heap.empty cs) := by
  obtain ⟨⟨n, hn⟩, x, hx, hc, hh, _⟩ := hd
  exact XmlWriter.write_reads (at_bounded hn) hx hc hh (by omega)

/-- Every database built by real calls has a content. -/
theorem showsDb_exists {cs : List Call} (hr : RealCalls Heap.empty cs) {db : Nat} {x : Obj} (hx : (run Heap.empty cs).objs[db]? = some x)
    (hc : x.cls = .db) (sk : Int → String) : ∃ d, ShowsDb sk (run Heap.empty cs) db d := by
  obtain ⟨v, hv⟩ := shows_exists (run_solid hr) (List.getElem?_eq_some_iff.1 hx).1
  obtain ⟨hs, hhs⟩ := forall2_of_forall (R := ShowsHist sk (run Heap.empty cs)) (l := x.hist) (by
    intro n hn
    have hl := (run_side cs db x hx).histBound n hn
    exact ⟨_, _, List.getElem?_eq_getElem hl, rfl⟩)
  exact ⟨⟨v, hs, x.files.keys.map some⟩, hv, x, hx, hc, hhs, rfl⟩

/-- and only one. -/
theorem showsDb_unique {s : Heap} {sk : Int → String} {o : Nat} {d e : Database} (h : ShowsDb sk s o d) (h' : ShowsDb sk s o e) : d = e := by
  obtain ⟨h1, x, hx, _, h2, h3⟩ := h
  obtain ⟨h1', x', hx', _, h2', h3'⟩ := h'
  rw [hx] at hx'
  cases hx'
  have a := shows_unique h1 h1'
  have b := forall2_unique h2 h2' (by
    rintro n _ p q ⟨y, hy, rfl⟩ ⟨z, hz, rfl⟩
    rw [hy] at hz
    cases hz
    rfl)
  obtain ⟨r, hs, fs⟩ := d
  obtain ⟨r', hs', fs'⟩ := e
  simp only at a b h3 h3'
  subst a b h3 h3'
  rfl

/-- **C98.** Hence writing never changes a database built by real calls, and depends on nothing but its content. -/
theorem C98_write_pure {cs : List Call} (hr : RealCalls Heap.empty cs) {db : Nat} {x : Obj} (hx : (run Heap.empty cs).objs[db]? = some x)
    (hc : x.cls = .db) (sk : Int → String) (env : Xml.Env) :
    ∃ d, ShowsDb sk (run Heap.empty cs) db d ∧ ∀ fuel, (run Heap.empty cs).objs.length ≤ fuel →
      XmlWriter.write env sk fuel db (run Heap.empty cs) = (Xml.write env d, run Heap.empty cs) := by
  obtain ⟨d, hd⟩ := showsDb_exists hr hx hc sk
  exact ⟨d, hd, fun fuel hf => C98_write_reads hd env hf⟩

/-- **C98.** Two databases that show the same are written the same. -/
theorem C98_copies {cs cs' : List Call} {db db' : Nat} {sk : Int → String} {d : Database} (hd : ShowsDb sk (run Heap.empty cs) db d)
    (hd' : ShowsDb sk (run Heap.empty cs') db' d) (env : Xml.Env) :
    (XmlWriter.write env sk (run Heap.empty cs).objs.length db (run Heap.empty cs)).1 =
      (XmlWriter.write env sk (run Heap.empty cs').objs.length db' (run Heap.empty cs')).1 := by
  rw [C98_write_reads hd env (Nat.le_refl _), C98_write_reads hd' env (Nat.le_refl _)]

/-- The history of a database is not touched by a merge into it, neither is its file table. -/
theorem merge_showsDb {cs : List Call} {dst : Nat} {sk : Int → String} {d : Database} (hd : ShowsDb sk (run Heap.empty cs) dst d)
    {srcs : List Nat} {vs : List Scope} (h : List.Forall₂ (Shows (run Heap.empty cs)) srcs vs) {w : Scope} (hw : Merge.merge d.root vs = .ok w) :
    ∃ cs', DbMerger.merge dst srcs (run Heap.empty cs) = (.ok (), run Heap.empty (cs ++ cs')) ∧
      ShowsDb sk (run Heap.empty (cs ++ cs')) dst { d with root := w } := by
  obtain ⟨hv, x, hx, hc, hh, hf⟩ := hd
  obtain ⟨r, s', hm⟩ : ∃ r s', DbMerger.merge dst srcs (run Heap.empty cs) = (r, s') := ⟨_, _, rfl⟩
  obtain ⟨hr', hs⟩ := (C84_refines hx hc hv h hm).2 w hw
  obtain ⟨k, i, f⟩ := merge_frame hx hc h hm
  obtain ⟨cs', hcs⟩ := f.calls
  have hy := f.old dst x hx
  rw [if_pos rfl] at hy
  rw [hr'] at hm
  refine ⟨cs', by rw [hm, hcs, run_append], ?_⟩
  rw [run_append, ← hcs]
  refine ⟨hs, _, hy, hc, forall2_imp hh ?_, hf⟩
  rintro a _ b ⟨y, hy, rfl⟩
  exact ⟨y, by rw [f.nodes]; exact hy, rfl⟩

/-- **C98.** Merging objects and writing the result is merging and writing the contents shown: same document or same exception. -/
theorem C98_merge_write {cs : List Call} {dst : Nat} {sk : Int → String} {d : Database} (hd : ShowsDb sk (run Heap.empty cs) dst d)
    {srcs : List Nat} {vs : List Scope} (h : List.Forall₂ (Shows (run Heap.empty cs)) srcs vs) (env : Xml.Env) {fuel : Nat}
    (hf : (DbMerger.merge dst srcs (run Heap.empty cs)).2.objs.length ≤ fuel) :
    ((do DbMerger.merge dst srcs; XmlWriter.write env sk fuel dst) (run Heap.empty cs)).1 =
      (do let w ← Merge.merge d.root vs; Xml.write env { d with root := w }) := by
  cases hr : Merge.merge d.root vs with
  | error e =>
    obtain ⟨hv, x, hx, hc, _⟩ := hd
    rw [bind_eq_of_error (s' := (DbMerger.merge dst srcs (run Heap.empty cs)).2) (e := e)]
    · rfl
    · exact Prod.ext ((C84_refines hx hc hv h (Prod.mk.eta).symm).1 e hr) rfl
  | ok w =>
    obtain ⟨cs', hm, hd'⟩ := merge_showsDb hd h hr
    rw [bind_eq_of_ok hm, C98_write_reads hd' env (by rw [hm] at hf; exact hf)]
    rfl

/-! ## Example -/

/-- **C98** applies: a database with a coverpoint, a cross, a record of a test run and one input merged in. -/
example : RealCalls Heap.empty (twoDbs ++ [.createHistoryNode 6 0 none (some "t") none (.num 1)]) ∧
    (∃ x, (run Heap.empty (twoDbs ++ [.createHistoryNode 6 0 none (some "t") none (.num 1)])).objs[6]? = some x ∧ x.cls = .db ∧ x.hist = [0]) ∧
    (match (XmlWriter.write ⟨"u", "d", "n", ⟨fun _ => "0", fun _ => none⟩⟩ (fun _ => "TEST") 7 0 (run Heap.empty twoDbs)).1 with
      | .ok e => some (e.children.map (·.tag))
      | .error _ => none) = some ["sourceFiles", "historyNodes", "instanceCoverages"] := by
  refine ⟨?_, ⟨_, rfl, rfl, rfl⟩, ?_⟩
  · refine ⟨trivial, trivial, ?_, trivial, trivial, trivial, trivial, ?_, trivial, trivial, trivial, trivial⟩
    · intro u hu
      cases hu
      decide
    · intro p hp
      simp only [List.mem_singleton] at hp
      subst hp
      decide
  · decide +kernel

end Store
end Verif
