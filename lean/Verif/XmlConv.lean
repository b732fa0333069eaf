import Verif.XmlThms3
import Verif.XmlUsed
/-!
# Property C111: documented conventions of written XML

`doc/source/reference/xml_interchange.rst` says what the writer emits for options, bins and cross bins.
-/

namespace Verif
namespace Spec
open Xml

mutual
/-- `P` holds of the element and of all elements in it. -/
def EachElem (P : Elem → Prop) : Elem → Prop
  | ⟨t, as, tx, ch⟩ => P ⟨t, as, tx, ch⟩ ∧ EachElemL P ch
termination_by structural e => e
def EachElemL (P : Elem → Prop) : List Elem → Prop
  | [] => True
  | e :: r => EachElem P e ∧ EachElemL P r
termination_by structural l => l
end

/-- "When writing XML, PyUCIS emits `auto_bin_max=0`." -/
def NoAutoBins (o : Elem) : Prop := o.get "auto_bin_max" = some "0"

/-- "PyUCIS writes the bin type as one of `bins`, `ignore`, `illegal`"; "records both bounds of the range as `-1`". -/
def PlainBin (b : Elem) : Prop :=
  (∃ t ∈ ["bins", "ignore", "illegal"], b.get "type" = some t) ∧
  ∃ r, iter "range" b = [r] ∧ r.get "from" = some "-1" ∧ r.get "to" = some "-1" ∧ (iter "contents" r).length = 1

/-- "PyUCIS records the bin type only if it is `ignore` or `illegal`." -/
def CrossBinType (b : Elem) : Prop := b.get "type" = none ∨ b.get "type" = some "ignore" ∨ b.get "type" = some "illegal"

/-- One index for every crossed coverpoint. -/
def Indexed (c b : Elem) : Prop := (iter "index" b).length = (iter "crossExpr" c).length

end Spec

namespace Xml
open Spec PyNum

theorem eachElemL_iff {P : Elem → Prop} (l : List Elem) : EachElemL P l ↔ ∀ e ∈ l, EachElem P e := by
  induction l with
  | nil => simp [EachElemL]
  | cons a t ih => simp [EachElemL, ih]

mutual
theorem eachElem_iter {P : Elem → Prop} {t : String} : ∀ (e x : Elem), EachElem P e → x ∈ iter t e → P x
  | ⟨tag, as, tx, ch⟩, x, h, hx => by
    rw [EachElem] at h
    rw [iter] at hx
    by_cases hc : tag = t
    · rw [if_pos hc, List.mem_cons] at hx
      rcases hx with rfl | hx
      · exact h.1
      · exact eachElemL_iter ch x h.2 hx
    · rw [if_neg hc] at hx
      exact eachElemL_iter ch x h.2 hx
theorem eachElemL_iter {P : Elem → Prop} {t : String} : ∀ (l : List Elem) (x : Elem), EachElemL P l → x ∈ iterL t l → P x
  | [], x, _, hx => by simp [iterL] at hx
  | e :: r, x, h, hx => by
    rw [EachElemL] at h
    rw [iterL, List.mem_append] at hx
    rcases hx with hx | hx
    · exact eachElem_iter e x h.1 hx
    · exact eachElemL_iter r x h.2 hx
end

mutual
theorem iter_each {P : Elem → Prop} {t : String} : ∀ (e x : Elem), x ∈ iter t e → EachElem P e → EachElem P x
  | ⟨tag, as, tx, ch⟩, x, hx, h => by
    rw [iter] at hx
    by_cases hc : tag = t
    · rw [if_pos hc, List.mem_cons] at hx
      rcases hx with rfl | hx
      · exact h
      · rw [EachElem] at h; exact iterL_each ch x hx h.2
    · rw [if_neg hc] at hx
      rw [EachElem] at h; exact iterL_each ch x hx h.2
theorem iterL_each {P : Elem → Prop} {t : String} : ∀ (l : List Elem) (x : Elem), x ∈ iterL t l → EachElemL P l → EachElem P x
  | [], x, hx, _ => by simp [iterL] at hx
  | e :: r, x, hx, h => by
    rw [EachElemL] at h
    rw [iterL, List.mem_append] at hx
    rcases hx with hx | hx
    · exact iter_each e x hx h.1
    · exact iterL_each r x hx h.2
end

/-- What holds of every written element. -/
def Conv (e : Elem) : Prop :=
  (e.tag = "options" → e.attrs = []) ∧ (e.tag = "coverpointBin" → PlainBin e) ∧
  (e.tag = "crossBin" → e.get "type" = some "default" ∧ iter "index" e = [⟨"index", [], some "-1", []⟩])

theorem conv_leaf {t : String} (h1 : t ≠ "options") (h2 : t ≠ "coverpointBin") (h3 : t ≠ "crossBin") (as : List (String × String)) (tx : Option String)
    (ch : List Elem) : Conv ⟨t, as, tx, ch⟩ :=
  ⟨fun h => absurd h h1, fun h => absurd h h2, fun h => absurd h h3⟩

theorem each_contents (z : Int) : EachElem Conv (eContents z) := by
  rw [eContents, EachElem]
  exact ⟨conv_leaf (by decide) (by decide) (by decide) _ _ _, trivial⟩

theorem each_options : EachElem Conv optionsElem := by
  unfold optionsElem
  rw [EachElem]
  exact ⟨⟨fun _ => rfl, fun h => absurd h (by simp), fun h => absurd h (by simp)⟩, trivial⟩

theorem each_bin (i : Item) : EachElem Conv (eBin i) := by
  have hp : PlainBin (eBin i) := by
    refine ⟨⟨kindText i.kind, ?_, rfl⟩, ⟨"range", [("from", "-1"), ("to", "-1")], none, [eContents i.count]⟩, ?_, rfl, rfl, ?_⟩
    · unfold kindText; split
      · simp
      · split <;> simp
    · simp [eBin, eContents, iter, iterL]
    · simp [eContents, iter, iterL]
  unfold eBin at hp ⊢
  rw [EachElem, EachElemL, EachElem, EachElemL]
  exact ⟨⟨fun h => absurd h (by simp), fun _ => hp, fun h => absurd h (by simp)⟩,
    ⟨conv_leaf (by decide) (by decide) (by decide) _ _ _, each_contents _, trivial⟩, trivial⟩

theorem each_cp (c : Scope) : EachElem Conv (eCp c) := by
  unfold eCp
  rw [EachElem, EachElemL, eachElemL_iff]
  refine ⟨conv_leaf (by decide) (by decide) (by decide) _ _ _, each_options, fun e he => ?_⟩
  obtain ⟨i, _, rfl⟩ := List.mem_map.1 he
  exact each_bin i

theorem each_crossBin (i : Item) : EachElem Conv (eCrossBin i) := by
  unfold eCrossBin
  rw [EachElem, EachElemL, EachElemL, EachElemL, EachElem, EachElemL]
  refine ⟨⟨fun h => absurd h (by simp), fun h => absurd h (by simp), fun _ => ⟨rfl, ?_⟩⟩,
    ⟨conv_leaf (by decide) (by decide) (by decide) _ _ _, trivial⟩, each_contents _, trivial⟩
  simp [eContents, iter, iterL]

theorem each_cross (f : String → Option String) (c : Scope) : EachElem Conv (eCross f c) := by
  unfold eCross
  rw [EachElem, EachElemL, eachElemL_iff]
  refine ⟨conv_leaf (by decide) (by decide) (by decide) _ _ _, each_options, fun e he => ?_⟩
  rcases List.mem_append.1 he with he | he
  · obtain ⟨n, _, rfl⟩ := List.mem_map.1 he
    rw [eExpr, EachElem]
    exact ⟨conv_leaf (by decide) (by decide) (by decide) _ _ _, trivial⟩
  · obtain ⟨i, _, rfl⟩ := List.mem_map.1 he
    exact each_crossBin i

theorem each_group (f : String → Option String) (n : String) (g : Scope) : EachElem Conv (eGroup f n g) := by
  unfold eGroup
  rw [EachElem, EachElemL, EachElemL, eachElemL_iff]
  refine ⟨conv_leaf (by decide) (by decide) (by decide) _ _ _, each_options, ?_, fun e he => ?_⟩
  · unfold eCgId sourceIdElem
    simp only [EachElem, EachElemL, and_true]
    exact ⟨conv_leaf (by decide) (by decide) (by decide) _ _ _, conv_leaf (by decide) (by decide) (by decide) _ _ _,
      conv_leaf (by decide) (by decide) (by decide) _ _ _⟩
  · rcases List.mem_append.1 he with he | he
    · obtain ⟨c, _, rfl⟩ := List.mem_map.1 he
      exact each_cp c
    · obtain ⟨c, _, rfl⟩ := List.mem_map.1 he
      exact each_cross f c

theorem each_inst (f : String → Option String) (i : Scope) : EachElem Conv (eInst f i) := by
  unfold eInst
  rw [EachElem, EachElemL, eachElemL_iff]
  refine ⟨conv_leaf (by decide) (by decide) (by decide) _ _ _, ?_, fun e he => ?_⟩
  · unfold idElem
    simp only [EachElem, EachElemL, and_true]
    exact conv_leaf (by decide) (by decide) (by decide) _ _ _
  · obtain ⟨g, _, rfl⟩ := List.mem_map.1 he
    unfold eCg
    rw [EachElem, eachElemL_iff]
    refine ⟨conv_leaf (by decide) (by decide) (by decide) _ _ _, fun e he => ?_⟩
    obtain ⟨c, _, rfl⟩ := List.mem_map.1 he
    exact each_group f _ c

theorem each_hists (flt : FloatText) (k : Nat) (l : List Hist) : EachElemL Conv (eHists flt k l) := by
  induction l generalizing k with
  | nil => exact trivial
  | cons a t ih =>
    rw [eHists, EachElemL]
    refine ⟨?_, ih _⟩
    unfold eHist
    rw [EachElem]
    exact ⟨conv_leaf (by decide) (by decide) (by decide) _ _ _, trivial⟩

theorem each_doc (f : String → Option String) (env : Env) (db : Database) : EachElem Conv (eDoc f env db) := by
  unfold eDoc
  rw [EachElem, eachElemL_iff]
  refine ⟨conv_leaf (by decide) (by decide) (by decide) _ _ _, fun e he => ?_⟩
  rcases List.mem_append.1 he with he | he
  · rcases List.mem_append.1 he with he | he
    · obtain ⟨x, _, rfl⟩ := List.mem_map.1 he
      unfold eFile
      rw [EachElem]
      exact ⟨conv_leaf (by decide) (by decide) (by decide) _ _ _, trivial⟩
    · unfold eHistory at he
      cases hh : db.hist with
      | nil =>
        rw [hh] at he
        rw [List.mem_singleton] at he
        subst he
        unfold eDummy
        rw [EachElem]
        exact ⟨conv_leaf (by decide) (by decide) (by decide) _ _ _, trivial⟩
      | cons h t =>
        rw [hh] at he
        exact (eachElemL_iff _).1 (each_hists _ _ _) e he
  · obtain ⟨x, _, rfl⟩ := List.mem_map.1 he
    exact each_inst f x

theorem mem_iter_doc {t : String} {f : String → Option String} {env : Env} {db : Database} {x : Elem} (h : x ∈ iter t (eDoc f env db)) :
    x.tag = t ∧ Conv x := ⟨tag_of_iter _ _ h, eachElem_iter _ _ (each_doc f env db) h⟩

/-! ## C111 -/

/-- **C111**, what holds of coverpoint bins: type and range are as documented. -/
theorem C111_bins {env : Env} (he : EnvOk env) {db : Database} {d : Elem} (h : write env db = .ok d) :
    ∀ b ∈ iter "coverpointBin" d, PlainBin b := by
  obtain ⟨_, rfl⟩ := (write_ok he db d).1 h
  intro b hb
  obtain ⟨ht, hc⟩ := mem_iter_doc hb
  exact hc.2.1 ht

/-- **C111**, what holds of covergroups: for each covergroup of an instance one section; without cover-instances it has a single entry that has
the name of the covergroup, otherwise one entry for each cover-instance; all entries name the covergroup as their type. -/
theorem C111_groups {env : Env} (he : EnvOk env) {db : Database} {d : Elem} (h : write env db = .ok d) :
    (iter "instanceCoverages" d).map (fun i => (i.get "name", (iter "covergroupCoverage" i).map (fun s =>
      (iter "cgInstance" s).map (fun e => (e.get "name", (iter "cgId" e).map (·.get "cgName")))))) =
    (db.root.children.filter (fun i => maskHit i.stype ST.INSTANCE)).map (fun i => (some i.name,
      (i.children.filter (fun g => maskHit g.stype ST.COVERGROUP)).map (fun g =>
        let cis := g.children.filter (fun c => maskHit c.stype ST.COVERINSTANCE)
        if cis = [] then [(some g.name, [some g.name])] else cis.map (fun c => (some c.name, [some g.name]))))) := by
  obtain ⟨_, rfl⟩ := (write_ok he db d).1 h
  rw [iter_eDoc_insts, List.map_map]
  refine List.map_congr_left (fun i _ => ?_)
  simp only [Function.comp_apply, iter_eInst_cgs, List.map_map]
  refine Prod.ext rfl (List.map_congr_left (fun g _ => ?_))
  simp only [Function.comp_apply, iter_eCg_insts, List.map_map]
  have hf : ((fun e => (e.get "name", (iter "cgId" e).map (·.get "cgName"))) ∘ eGroup some g.name) = fun c : Scope => (some c.name, [some g.name]) := by
    funext c
    simp only [Function.comp_apply, iter_eGroup_cgId]
    rfl
  rw [hf]
  unfold writtenGroups kids
  split <;> rfl

/-- **C111** fails for options: no written options element carries `auto_bin_max`, or anything. -/
theorem C111_options_never {env : Env} (he : EnvOk env) {db : Database} {d : Elem} (h : write env db = .ok d) :
    ∀ o ∈ iter "options" d, o.attrs = [] ∧ ¬ NoAutoBins o := by
  obtain ⟨_, rfl⟩ := (write_ok he db d).1 h
  intro o ho
  obtain ⟨ht, hc⟩ := mem_iter_doc ho
  refine ⟨hc.1 ht, ?_⟩
  unfold NoAutoBins Elem.get
  rw [hc.1 ht]
  simp [Dict.get?]

/-- **C111** fails for the type of cross bins: `default` is written always. -/
theorem C111_cross_type_never {env : Env} (he : EnvOk env) {db : Database} {d : Elem} (h : write env db = .ok d) :
    ∀ b ∈ iter "crossBin" d, b.get "type" = some "default" ∧ ¬ CrossBinType b := by
  obtain ⟨_, rfl⟩ := (write_ok he db d).1 h
  intro b hb
  obtain ⟨ht, hc⟩ := mem_iter_doc hb
  refine ⟨(hc.2.2 ht).1, ?_⟩
  unfold CrossBinType
  rw [(hc.2.2 ht).1]
  decide

/-- **C111** for indices: every cross bin has the single index -1, so there is an index for every crossed coverpoint exactly if there is one
crossed coverpoint. -/
theorem C111_index_partial {env : Env} (he : EnvOk env) {db : Database} {d : Elem} (h : write env db = .ok d) :
    ∀ c ∈ iter "cross" d, ∀ b ∈ iter "crossBin" c, (iter "index" b).map (·.text) = [some "-1"] ∧
      (Indexed c b ↔ (iter "crossExpr" c).length = 1) := by
  obtain ⟨_, rfl⟩ := (write_ok he db d).1 h
  intro c hc b hb
  have hb' : Conv b := by
    have := iter_each _ _ hc (each_doc some env db)
    exact eachElem_iter _ _ this hb
  have hx := (hb'.2.2 (tag_of_iter _ _ hb)).2
  unfold Indexed
  rw [hx]
  exact ⟨rfl, eq_comm⟩

/-- The full claim of **C111** about written documents. -/
def C111_claim : Prop := ∀ (env : Env) (db : Database) (d : Elem), EnvOk env → write env db = .ok d →
  (∀ o ∈ iter "options" d, NoAutoBins o) ∧ (∀ b ∈ iter "coverpointBin" d, PlainBin b) ∧ (∀ b ∈ iter "crossBin" d, CrossBinType b) ∧
  ∀ c ∈ iter "cross" d, ∀ b ∈ iter "crossBin" c, Indexed c b

theorem exEnv_ok : EnvOk exEnv := exEnv_good.envOk

/-- **C111** fails in each of the three points, in a document with covergroups, bins and a cross of two coverpoints. -/
theorem C111_refuted : ∃ d, write exEnv exXmlDb = .ok d ∧ (∃ o ∈ iter "options" d, ¬ NoAutoBins o) ∧ (∃ b ∈ iter "crossBin" d, ¬ CrossBinType b) ∧
    (∃ c ∈ iter "cross" d, ∃ b ∈ iter "crossBin" c, ¬ Indexed c b) ∧ (iter "coverpointBin" d).length = 5 := by
  have hk : (write exEnv exXmlDb).map (fun d => ((iter "options" d).length, (iter "cross" d).map (fun c => ((iter "crossBin" c).length,
      (iter "crossExpr" c).length)), (iter "crossBin" d).length, (iter "coverpointBin" d).length)) = .ok (8, [(1, 2)], 1, 5) := by decide +kernel
  cases hw : write exEnv exXmlDb with
  | error e => rw [hw] at hk; exact absurd hk (by simp [Except.map])
  | ok d =>
    rw [hw] at hk
    simp only [Except.map, Except.ok.injEq, Prod.mk.injEq] at hk
    obtain ⟨h1, h2, h3, h4⟩ := hk
    refine ⟨d, rfl, ?_, ?_, ?_, h4⟩
    · obtain ⟨o, ho⟩ := List.exists_mem_of_length_pos (l := iter "options" d) (by omega)
      exact ⟨o, ho, (C111_options_never exEnv_ok hw o ho).2⟩
    · obtain ⟨b, hb⟩ := List.exists_mem_of_length_pos (l := iter "crossBin" d) (by omega)
      exact ⟨b, hb, (C111_cross_type_never exEnv_ok hw b hb).2⟩
    · cases hc : iter "cross" d with
      | nil => rw [hc] at h2; exact absurd h2 (by simp)
      | cons c t =>
        rw [hc, List.map_cons] at h2
        simp only [List.cons.injEq, Prod.mk.injEq] at h2
        obtain ⟨b, hb⟩ := List.exists_mem_of_length_pos (l := iter "crossBin" c) (by omega)
        refine ⟨c, by simp, b, hb, fun hi => ?_⟩
        have := ((C111_index_partial exEnv_ok hw c (by rw [hc]; simp) b hb).2).1 hi
        omega

theorem C111_claim_refuted : ¬ C111_claim := by
  intro h
  obtain ⟨d, hw, ⟨o, ho, hn⟩, _⟩ := C111_refuted
  exact hn ((h exEnv exXmlDb d exEnv_ok hw).1 o ho)

end Xml
end Verif
