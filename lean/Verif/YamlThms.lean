import Verif.YamlClosed
import Verif.XmlThms
/-!
# Theorems about YAML documents (C42-C46, C72, C73)
-/

namespace Verif
namespace Yaml
open Spec Xml

/-! ## The loaded database -/

/-- Database with the given covergroups. -/
def loadedDb (gs : List Scope) : Database :=
  { root := { emptyDb with children := [defaultDu, defaultInst gs] }, hist := [], files := [] }

theorem loadableCg_iff (g : YCg) (is : List YInst) :
    LoadableCg g is ↔ g.instances = some is ∧ CrossOk [] (allCrs is) ∧ Resolved (fun _ => False) is := by
  rw [resolved_iff]
  constructor
  · rintro ⟨h1, h2, h3⟩
    refine ⟨h1, fun c hc hne => ?_, fun pre i post e cr hcr n hn => .inr (h2 pre i post e cr hcr n hn)⟩
    exact h3 c hc hne
  · rintro ⟨h1, h2, h3⟩
    refine ⟨h1, fun pre i post e cr hcr n hn => ?_, fun c hc hne => h2 c hc hne⟩
    rcases h3 pre i post e cr hcr n hn with h | h
    · exact h.elim
    · exact h

theorem processCg_ok (g : YCg) (s : Scope) : processCg g = .ok s ↔ (∃ is, LoadableCg g is) ∧ s = cgScope g := by
  have h := processCg'_ok g
  unfold processCg
  simp only [loadableCg_iff]
  cases hp : processCg' g with
  | error e =>
    constructor
    · intro h; cases h
    · rintro ⟨⟨is, h1, h2, h3⟩, _⟩
      have := (h _).2 ⟨is, h1, h2, h3, rfl⟩
      rw [hp] at this; cases this
  | ok r =>
    obtain ⟨is, h1, h2, h3, rfl⟩ := (h r).1 hp
    simp only [Except.map, Except.ok.injEq]
    exact ⟨fun e => ⟨⟨is, h1, h2, h3⟩, e.symm⟩, fun e => e.2.symm⟩

theorem loadDoc_ok (d : YDoc) (db : Database) :
    loadDoc d = .ok db ↔ Loadable d ∧ db = loadedDb ((docGroups d).map cgScope) := by
  unfold loadDoc Loadable docGroups
  cases d.coverage with
  | none => simp
  | some c =>
    simp only
    rw [Ex.bind_ok]
    constructor
    · rintro ⟨ss, h1, h2⟩
      obtain ⟨h3, rfl⟩ := (Ex.mapM_iff (fun g _ y => processCg_ok g y) ss).1 h1
      cases h2
      exact ⟨⟨by simp, h3⟩, rfl⟩
    · rintro ⟨⟨_, h3⟩, rfl⟩
      exact ⟨_, (Ex.mapM_iff (fun g _ y => processCg_ok g y) _).2 ⟨h3, rfl⟩, rfl⟩

theorem load_says {j : Json} {d : YDoc} (h : Says j d) (db : Database) :
    load j = .ok db ↔ Loadable d ∧ db = loadedDb ((docGroups d).map cgScope) := by
  unfold load
  rw [if_pos ((valid_iff_says j).2 ⟨d, h⟩), dec_says h, loadDoc_ok]

/-- **C72.** Loading succeeds exactly for the documents that have a content with a coverage section in which every covergroup
has instances, crossed names belong to the same or an earlier instance of the covergroup, and a cross
with bins has a bin list where it first occurs. -/
theorem C72_load_accepts (j : Json) : (∃ db, load j = .ok db) ↔ ∃ d, Says j d ∧ Loadable d := by
  constructor
  · rintro ⟨db, h⟩
    have hv : validJ sDoc j = true := by
      by_contra hv
      unfold load at h
      rw [if_neg hv] at h
      cases h
    obtain ⟨d, hd⟩ := (valid_iff_says j).1 hv
    exact ⟨d, hd, ((load_says hd db).1 h).1⟩
  · rintro ⟨d, hd, hl⟩
    exact ⟨_, (load_says hd _).2 ⟨hl, rfl⟩⟩

/-! ## C42: instances -/

theorem kids_inst (gs : List Scope) : kids ST.INSTANCE (loadedDb gs).root = [defaultInst gs] := by
  have h1 : maskHit ST.DU_MODULE ST.INSTANCE = false := by decide
  have h2 : maskHit ST.INSTANCE ST.INSTANCE = true := by decide
  simp [kids, loadedDb, defaultDu, defaultInst, mkDu, mkInstance, h1, h2]

theorem kids_defaultInst (gs : List YCg) : kids ST.COVERGROUP (defaultInst (gs.map cgScope)) = gs.map cgScope :=
  filter_map_all (fun _ => by simp only [cgScope, mkCovergroup]; decide)

theorem allCovergroups_loaded (gs : List YCg) : allCovergroups (loadedDb (gs.map cgScope)).root = gs.map cgScope := by
  unfold allCovergroups
  rw [kids_inst, List.flatMap_singleton, kids_defaultInst]

theorem cp_type {c : YCp} {m : Nat} {b : Bool} (h : maskHit ST.COVERPOINT m = b) : maskHit (recordCp c).stype m = b := h
theorem cross_type {c : YCross} {m : Nat} {b : Bool} (h : maskHit ST.CROSS m = b) : maskHit (recordCross c).stype m = b := h
theorem inst_type {w : Int} {i : YInst} {m : Nat} {b : Bool} (h : maskHit ST.COVERINSTANCE m = b) :
    maskHit (instScope w i).stype m = b := h

theorem kids_cg_inst (g : YCg) :
    kids ST.COVERINSTANCE (cgScope g) = (g.instances.getD []).map (instScope (g.weight.getD 1)) := by
  unfold kids cgScope mkCovergroup
  simp only [List.filter_append]
  rw [filter_map_none (fun _ => cp_type (by decide)), filter_map_none (fun _ => cross_type (by decide)),
    filter_map_all (fun _ => inst_type (by decide))]
  simp

theorem kids_cg_cp (g : YCg) :
    kids ST.COVERPOINT (cgScope g) = (tCps (g.instances.getD [])).map (fun e => recordCp (typeCpObj e)) := by
  unfold kids cgScope mkCovergroup
  simp only [List.filter_append]
  rw [filter_map_all (fun _ => cp_type (by decide)), filter_map_none (fun _ => cross_type (by decide)),
    filter_map_none (fun _ => inst_type (by decide))]
  simp

theorem kids_cg_cross (g : YCg) :
    kids ST.CROSS (cgScope g) = (tCrs (g.instances.getD [])).map (fun e => recordCross (typeCrossObj e)) := by
  unfold kids cgScope mkCovergroup
  simp only [List.filter_append]
  rw [filter_map_none (fun _ => cp_type (by decide)), filter_map_all (fun _ => cross_type (by decide)),
    filter_map_none (fun _ => inst_type (by decide))]
  simp

theorem kids_inst_cp (w : Int) (i : YInst) : kids ST.COVERPOINT (instScope w i) = (cpsOf i).map recordCp := by
  unfold kids instScope mkCoverInst
  simp only [List.filter_append]
  rw [filter_map_all (fun _ => cp_type (by decide)), filter_map_none (fun _ => cross_type (by decide))]
  simp

theorem kids_inst_cross (w : Int) (i : YInst) : kids ST.CROSS (instScope w i) = (crsOf i).map recordCross := by
  unfold kids instScope mkCoverInst
  simp only [List.filter_append]
  rw [filter_map_none (fun _ => cp_type (by decide)), filter_map_all (fun _ => cross_type (by decide))]
  simp

theorem leafView_recordCp (c : YCp) : leafView (recordCp c) = docCp c := by
  simp [leafView, recordCp, docCp, mkCoverpoint, cpItems, kindBins, mkBin, Function.comp_def]

theorem leafView_recordCross (c : YCross) : leafView (recordCross c) = docCross c := by
  simp [leafView, recordCross, docCross, mkCross, mkBin, Function.comp_def]

theorem groupView_instScope (w : Int) (i : YInst) : groupView (instScope w i) = docInst w i := by
  unfold groupView docInst
  rw [kids_inst_cp, kids_inst_cross, List.map_map, List.map_map]
  have h1 : leafView ∘ recordCp = docCp := funext leafView_recordCp
  have h2 : leafView ∘ recordCross = docCross := funext leafView_recordCross
  rw [h1, h2]
  rfl

theorem coverView_cgScope (g : YCg) : coverView (cgScope g) = docGroup g := by
  unfold coverView docGroup
  rw [kids_cg_inst, List.map_map]
  have h : groupView ∘ instScope (g.weight.getD 1) = docInst (g.weight.getD 1) := funext (groupView_instScope _)
  rw [h]
  rfl

/-- **C42.** A loaded database has one instance; its covergroups, in order, show exactly the covergroup
instances of the document with their coverpoints, crosses, bins, kinds, counts and thresholds. -/
theorem C42_instances_faithful {j : Json} {d : YDoc} (hs : Says j d) {db : Database} (h : load j = .ok db) :
    (kids ST.INSTANCE db.root).map (·.name) = ["cg_inst"] ∧ (allCovergroups db.root).map coverView = (docGroups d).map docGroup := by
  obtain ⟨_, rfl⟩ := (load_says hs db).1 h
  refine ⟨by rw [kids_inst]; rfl, ?_⟩
  rw [allCovergroups_loaded, List.map_map]
  exact List.map_congr_left (fun g _ => coverView_cgScope g)

/-- The covergroup scope that belongs to a covergroup of the document. -/
theorem group_of_load {j : Json} {d : YDoc} (hs : Says j d) {db : Database} (h : load j = .ok db) {k : Nat} {g : YCg} {s : Scope}
    (hg : (docGroups d)[k]? = some g) (hsc : (allCovergroups db.root)[k]? = some s) : s = cgScope g ∧ ∃ is, LoadableCg g is := by
  obtain ⟨hl, rfl⟩ := (load_says hs db).1 h
  rw [allCovergroups_loaded, List.getElem?_map, hg] at hsc
  cases hsc
  exact ⟨rfl, hl.2 g (List.mem_of_getElem? hg)⟩

/-! ## C43: type-level sums -/

def sumNamed (b : String) (l : List YBin) : Int := ((l.filter (fun x => x.name = b)).map (·.count)).sum

theorem sumNamed_append (b : String) (l m : List YBin) : sumNamed b (l ++ m) = sumNamed b l + sumNamed b m := by
  simp [sumNamed]

theorem sumNamed_cons (b : String) (x : YBin) (l : List YBin) :
    sumNamed b (x :: l) = (if x.name = b then x.count else 0) + sumNamed b l := by
  by_cases h : x.name = b <;> simp [sumNamed, h]

theorem sumNamed_addBin (b : String) (l : List YBin) (x : YBin) :
    sumNamed b (addBin l x) = sumNamed b l + (if x.name = b then x.count else 0) := by
  induction l with
  | nil => simp [addBin, sumNamed_cons]; simp [sumNamed]
  | cons t r ih =>
    unfold addBin
    by_cases h : t.name = x.name
    · rw [if_pos h, sumNamed_cons, sumNamed_cons]
      simp only [h]
      by_cases hb : x.name = b <;> simp [hb]; omega
    · rw [if_neg h, sumNamed_cons, sumNamed_cons, ih]
      omega

theorem sumNamed_addOther (b : String) (l : List YBin) (x : YBin) :
    sumNamed b (addOther l x) = sumNamed b l + (if x.name = b then x.count else 0) := by
  unfold addOther
  rw [sumNamed_append, sumNamed_cons]
  simp [sumNamed]

theorem sumNamed_foldl {f : List YBin → YBin → List YBin} {b : String}
    (hf : ∀ l x, sumNamed b (f l x) = sumNamed b l + (if x.name = b then x.count else 0)) (xs l : List YBin) :
    sumNamed b (xs.foldl f l) = sumNamed b l + sumNamed b xs := by
  induction xs generalizing l with
  | nil => simp [sumNamed]
  | cons a t ih => rw [List.foldl_cons, ih, hf, sumNamed_cons]; omega

/-- All bins of a coverpoint of the document. -/
def anyBins (c : YCp) : List YBin := c.bins ++ c.ignorebins.getD [] ++ c.illegalbins.getD []

theorem sumNamed_cpStep (b : String) (o : Option (List YBin)) (c : YCp) :
    sumNamed b (cpStep o c) = sumNamed b (o.getD []) + sumNamed b (anyBins c) := by
  unfold cpStep anyBins
  rw [sumNamed_foldl (sumNamed_addOther b), sumNamed_foldl (sumNamed_addOther b), sumNamed_foldl (sumNamed_addBin b),
    sumNamed_append, sumNamed_append]
  omega

theorem sumNamed_agg (b : String) (cs : List YCp) (o : Option (List YBin)) :
    sumNamed b ((Dict.aggVal cpStep o cs).getD []) = sumNamed b (o.getD []) + sumNamed b (cs.flatMap anyBins) := by
  induction cs generalizing o with
  | nil => simp [Dict.aggVal, sumNamed]
  | cons c t ih =>
    show sumNamed b ((Dict.aggVal cpStep (some (cpStep o c)) t).getD []) = _
    rw [ih, Option.getD_some, sumNamed_cpStep, List.flatMap_cons, sumNamed_append]
    omega

theorem filter_keys {α : Type} (d : Dict α) (hnd : d.keys.Nodup) (n : String) :
    d.filter (fun e => e.1 = n) = ((d.get? n).map (fun v => (n, v))).toList := by
  induction d with
  | nil => rfl
  | cons a t ih =>
    obtain ⟨k, v⟩ := a
    simp only [Dict.keys_cons, List.nodup_cons] at hnd
    by_cases h : k = n
    · subst h
      have hn : Dict.get? t k = none := Dict.get?_eq_none.2 hnd.1
      have := ih hnd.2
      rw [hn] at this
      simp [Dict.get?, this]
    · simp [Dict.get?, h, ih hnd.2]

theorem tCps_nodup (is : List YInst) : (tCps is).keys.Nodup := by
  unfold tCps; rw [Dict.keys_aggregate]; exact firstSeen_nodup _

theorem tCrs_nodup (is : List YInst) : (tCrs is).keys.Nodup := by
  unfold tCrs; rw [Dict.keys_aggregate]; exact firstSeen_nodup _

/-- Items of the type coverpoints called `n`. -/
theorem items_cg_cp (g : YCg) (n : String) :
    ((kids ST.COVERPOINT (cgScope g)).filter (fun s => s.name = n)).flatMap (·.items)
      = ((Dict.aggVal cpStep none (occCps g n)).getD []).map (fun b => mkBin b.name CT.CVGBIN 1 b.count) := by
  rw [kids_cg_cp, List.filter_map]
  have h1 : ((fun s : Scope => decide (s.name = n)) ∘ fun e : String × List YBin => recordCp (typeCpObj e))
      = fun e => decide (e.1 = n) := rfl
  rw [h1, filter_keys _ (tCps_nodup _), tCps, Dict.get?_aggregate, Dict.get?_nil]
  have h2 : (allCps (g.instances.getD [])).filter (fun x => x.name = n) = occCps g n := rfl
  rw [h2]
  cases Dict.aggVal cpStep none (occCps g n) with
  | none => rfl
  | some l => simp [recordCp, typeCpObj, mkCoverpoint, cpItems]

theorem docCountAny_eq (g : YCg) (n b : String) : docCountAny g n b = sumNamed b ((occCps g n).flatMap anyBins) := by
  unfold docCountAny sumNamed
  have : (occCps g n).flatMap anyBins = ((occCps g n).flatMap kindBins).map (·.2) := by
    rw [List.map_flatMap]
    congr 1
    funext c
    simp [kindBins, anyBins, Function.comp_def]
  rw [this, List.filter_map, List.map_map]
  rfl

theorem sum_items (k : Nat) (l : List YBin) (b : String) :
    ((l.map (fun x => mkBin x.name k 1 x.count)).filter (fun i => i.name = b) |>.map (·.count)).sum = sumNamed b l := by
  rw [List.filter_map, List.map_map]
  rfl

/-- The kind-blind sum is right at type level. -/
theorem typeCountAny_cg (g : YCg) (n b : String) : typeCountAny (cgScope g) ST.COVERPOINT n b = docCountAny g n b := by
  unfold typeCountAny
  rw [items_cg_cp, sum_items, sumNamed_agg, docCountAny_eq]
  simp [sumNamed]

theorem typeCount_cvg (g : YCg) (n b : String) : typeCount (cgScope g) ST.COVERPOINT n CT.CVGBIN b = docCountAny g n b := by
  rw [← typeCountAny_cg]
  unfold typeCount typeCountAny
  rw [items_cg_cp]
  congr 2
  apply List.filter_congr
  intro i hi
  obtain ⟨x, _, rfl⟩ := List.mem_map.1 hi
  rw [decide_eq_decide]
  simp [mkBin]

theorem typeCount_other (g : YCg) (n : String) (k : Nat) (hk : k ≠ CT.CVGBIN) (b : String) :
    typeCount (cgScope g) ST.COVERPOINT n k b = 0 := by
  unfold typeCount
  rw [items_cg_cp, List.filter_eq_nil_iff.2]
  · rfl
  · intro i hi
    obtain ⟨x, _, rfl⟩ := List.mem_map.1 hi
    have : ¬ CT.CVGBIN = k := fun e => hk e.symm
    simp [mkBin, this]

/-- Full statement of C43 for one covergroup: for each kind the type-level bins carry the sums over
the instances. -/
def _root_.Verif.Spec.DocTypeSums (g : YCg) (s : Scope) : Prop :=
  ∀ n k b, IsKind k → typeCount s ST.COVERPOINT n k b = docCount g n k b

/-- **C43** without kinds: at type level the counts of all bins of one name of a coverpoint add up to
the counts of all bins of that name in the instances. Missing for the full statement: the kinds. -/
theorem C43_total_partial {j : Json} {d : YDoc} (hs : Says j d) {db : Database} (h : load j = .ok db) {k : Nat} {g : YCg} {s : Scope}
    (hg : (docGroups d)[k]? = some g) (hsc : (allCovergroups db.root)[k]? = some s) (n b : String) :
    typeCountAny s ST.COVERPOINT n b = docCountAny g n b := by
  obtain ⟨rfl, _⟩ := group_of_load hs h hg hsc
  exact typeCountAny_cg g n b

/-- **C43** for bin names that no ignore or illegal bin of the coverpoint bears: the sums are right for
each kind. -/
theorem C43_ordinary_partial {j : Json} {d : YDoc} (hs : Says j d) {db : Database} (h : load j = .ok db) {k : Nat} {g : YCg} {s : Scope}
    (hg : (docGroups d)[k]? = some g) (hsc : (allCovergroups db.root)[k]? = some s) (n b : String)
    (hno : ∀ c ∈ occCps g n, ∀ x ∈ c.ignorebins.getD [] ++ c.illegalbins.getD [], x.name ≠ b)
    (kind : Nat) (hkind : IsKind kind) : typeCount s ST.COVERPOINT n kind b = docCount g n kind b := by
  obtain ⟨rfl, _⟩ := group_of_load hs h hg hsc
  have hall : ∀ x ∈ (occCps g n).flatMap kindBins, x.2.name = b → x.1 = CT.CVGBIN := by
    intro x hx hb
    obtain ⟨c, hc, hx⟩ := List.mem_flatMap.1 hx
    simp only [kindBins, List.mem_append, List.mem_map] at hx
    rcases hx with (⟨y, _, rfl⟩ | ⟨y, hy, rfl⟩) | ⟨y, hy, rfl⟩
    · rfl
    · exact (hno c hc y (List.mem_append_left _ hy) hb).elim
    · exact (hno c hc y (List.mem_append_right _ hy) hb).elim
  by_cases hk : kind = CT.CVGBIN
  · subst hk
    rw [typeCount_cvg]
    unfold docCountAny docCount
    congr 2
    apply List.filter_congr
    intro x hx
    by_cases hb : x.2.name = b
    · simp [hb, hall x hx hb]
    · simp [hb]
  · rw [typeCount_other g n kind hk]
    unfold docCount
    rw [List.filter_eq_nil_iff.2]
    · rfl
    · intro x hx
      simp only [decide_eq_true_eq, not_and]
      intro e hb
      exact hk (e ▸ hall x hx hb)

end Yaml
end Verif
