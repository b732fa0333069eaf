import Verif.ReportThms
import Verif.ExceptLemmas
/-!
# What a report does not depend on (C145)

No new code: `report/coverage_report_builder.py` as modelled in `Report.lean`.
-/

namespace Verif
namespace Spec

/-- Types whose weight is shown or counted. -/
def Weighed (ty : Nat) : Bool := maskHit ty ST.COVERGROUP || maskHit ty ST.COVERINSTANCE || maskHit ty ST.COVERPOINT
/-- Types that are reported, or contain what is reported. -/
def ReportedType (ty : Nat) : Bool := Weighed ty || maskHit ty ST.INSTANCE || maskHit ty ST.CROSS
/-- Kinds of bins that are reported. -/
def ReportedKind (k : Nat) : Bool := maskHit k CT.CVGBIN || maskHit k CT.IGNOREBIN || maskHit k CT.ILLEGALBIN

/-- A cover item without its weight. -/
def unweigh (i : Item) : Item := { i with weight := 0 }

mutual
/-- A tree without source locations, design units, the coverpoints that are crossed, weights of design instances, crosses and bins, and without all scopes and cover items of
other types. -/
def reportable : Scope → Scope
  | ⟨ty, n, _, w, _, _, ch, it⟩ =>
    ⟨ty, n, SrcInfo.none, if Weighed ty then w else 0, none, none, reportableL ch, (it.filter (fun i => ReportedKind i.kind)).map unweigh⟩
termination_by structural s => s
def reportableL : List Scope → List Scope
  | [] => []
  | s :: t => if ReportedType s.stype then reportable s :: reportableL t else reportableL t
termination_by structural l => l
end

end Spec

namespace Report
open Spec

theorem reportableL_eq (l : List Scope) : reportableL l = (l.filter (fun s => ReportedType s.stype)).map reportable := by
  induction l with
  | nil => rfl
  | cons a t ih =>
    rw [reportableL, ih]
    by_cases h : ReportedType a.stype = true <;> simp [h]

theorem reportable_eq (s : Scope) : reportable s = ⟨s.stype, s.name, SrcInfo.none, if Weighed s.stype then s.weight else 0, none, none,
    (s.children.filter (fun c => ReportedType c.stype)).map reportable,
    (s.items.filter (fun i => ReportedKind i.kind)).map unweigh⟩ := by
  cases s
  rw [reportable, reportableL_eq]

theorem name_reportable (s : Scope) : (reportable s).name = s.name := by rw [reportable_eq]

theorem scopes_reportable (s : Scope) {m : Nat} (hm : ∀ ty, maskHit ty m = true → ReportedType ty = true) :
    (reportable s).scopes m = (s.scopes m).map reportable := by
  rw [reportable_eq]
  unfold Scope.scopes
  rw [List.filter_map, List.filter_filter]
  congr 1
  apply List.filter_congr
  intro c _
  simp only [Function.comp_apply, show (reportable c).stype = c.stype by rw [reportable_eq]]
  cases h : maskHit c.stype m
  · rfl
  · rw [hm _ h]; rfl

theorem coverItems_reportable (s : Scope) {m : Nat} (hm : ∀ k, maskHit k m = true → ReportedKind k = true) :
    (reportable s).coverItems m = (s.coverItems m).map unweigh := by
  rw [reportable_eq]
  unfold Scope.coverItems
  rw [List.filter_map, List.filter_filter]
  congr 1
  apply List.filter_congr
  intro c _
  show (maskHit c.kind m && ReportedKind c.kind) = maskHit c.kind m
  cases h : maskHit c.kind m
  · rfl
  · rw [hm _ h]; rfl

theorem foldlM_map_same {α σ : Type} {f : α → α} {g : σ → α → Except Err σ} : ∀ {l : List α} (_ : ∀ a ∈ l, ∀ s, g s (f a) = g s a) (s : σ),
    (l.map f).foldlM g s = l.foldlM g s
  | [], _, _ => rfl
  | a :: t, h, s => by
    rw [List.map_cons, List.foldlM_cons, List.foldlM_cons, h a (by simp)]
    congr 1
    funext x
    exact foldlM_map_same (fun b hb => h b (by simp [hb])) x

theorem mapM_map_same {α β : Type} {f : α → α} {g : α → Except Err β} : ∀ {l : List α} (_ : ∀ a ∈ l, g (f a) = g a), (l.map f).mapM g = l.mapM g
  | [], _ => rfl
  | a :: t, h => by rw [List.map_cons, List.mapM_cons, List.mapM_cons, h a (by simp), mapM_map_same (fun b hb => h b (by simp [hb]))]

theorem buildCoverpoint_reportable (rd : Rat → Rat) {s : Scope} (h : maskHit s.stype ST.COVERPOINT = true) :
    buildCoverpoint rd (reportable s) = buildCoverpoint rd s := by
  unfold buildCoverpoint
  rw [coverItems_reportable s (fun k h => by simp [ReportedKind, h]), coverItems_reportable s (fun k h => by simp [ReportedKind, h]),
    coverItems_reportable s (fun k h => by simp [ReportedKind, h]), foldlM_map_same (f := unweigh) (g := cpBinStep) (fun _ _ _ => rfl),
    foldlM_map_same (f := unweigh) (g := otherBinStep) (fun _ _ _ => rfl), foldlM_map_same (f := unweigh) (g := otherBinStep) (fun _ _ _ => rfl), name_reportable, show (reportable s).weight = s.weight by rw [reportable_eq]; simp [Weighed, h]]

theorem buildCross_reportable (rd : Rat → Rat) (s : Scope) : buildCross rd (reportable s) = buildCross rd s := by
  unfold buildCross
  rw [coverItems_reportable s (fun k h => by simp [ReportedKind, h]), foldlM_map_same (f := unweigh) (g := crossBinStep) (fun _ _ _ => rfl), name_reportable]

mutual
theorem buildCg_reportable (rd : Rat → Rat) : ∀ s : Scope, Weighed s.stype = true → buildCg rd (reportable s) = buildCg rd s
  | ⟨ty, n, src, w, du, cps, ch, it⟩, h => by
    have h1 := scopes_reportable ⟨ty, n, src, w, du, cps, ch, it⟩ (m := ST.COVERPOINT) (fun k h => by simp [ReportedType, Weighed, h])
    have h2 := scopes_reportable ⟨ty, n, src, w, du, cps, ch, it⟩ (m := ST.CROSS) (fun k h => by simp [ReportedType, Weighed, h])
    rw [reportable] at h1 h2 ⊢
    have h : Weighed ty = true := h
    rw [if_pos h] at h1 h2 ⊢
    rw [buildCg, buildCg]
    rw [h1, h2, mapM_map_same (f := reportable) (g := buildCoverpoint rd) (l := Scope.scopes _ ST.COVERPOINT) (fun a ha => buildCoverpoint_reportable rd (List.mem_filter.1 ha).2),
      mapM_map_same (f := reportable) (g := buildCross rd) (fun a _ => buildCross_reportable rd a),
      buildCgs_reportable rd ch]
termination_by structural s => s
theorem buildCgs_reportable (rd : Rat → Rat) : ∀ l : List Scope, buildCgs rd (reportableL l) = buildCgs rd l
  | [] => by rw [reportableL]
  | s :: t => by
    rw [reportableL]
    by_cases hc : maskHit s.stype ST.COVERINSTANCE = true
    · have hw : Weighed s.stype = true := by simp [Weighed, hc]
      rw [if_pos (by simp [ReportedType, hw]), buildCgs, buildCgs, if_pos hc, if_pos (by rw [reportable_eq]; exact hc), buildCg_reportable rd s hw, buildCgs_reportable rd t]
    · rw [buildCgs.eq_2 rd s t, if_neg hc]
      split
      · rw [buildCgs, if_neg (by rw [reportable_eq]; exact hc), buildCgs_reportable rd t]
      · exact buildCgs_reportable rd t
termination_by structural l => l
end

theorem build_reportable (rd : Rat → Rat) (db : Scope) : build rd (reportable db) = build rd db := by
  unfold build
  rw [scopes_reportable db (fun k h => by simp [ReportedType, h])]
  refine foldlM_map_same (fun i _ r => ?_) _
  unfold buildCovergroups
  rw [scopes_reportable i (fun k h => by simp [ReportedType, Weighed, h])]
  rw [foldlM_map_same (fun g hg st => ?_)]
  unfold covergroupStep
  rw [buildCg_reportable rd g (by simp [Weighed, (List.mem_filter.1 hg).2])]

/-- **C145** Databases that differ only in source locations, design units, the coverpoints that are crossed, weights of design instances, crosses and bins, and in scopes and
cover items of other types, have the same report, or the same exception instead of one. -/
theorem C145_same_report (rd : Rat → Rat) {a b : Scope} (h : reportable a = reportable b) : build rd a = build rd b := by
  rw [← build_reportable rd a, ← build_reportable rd b, h]

namespace Ex
/-- A database with a coverpoint and a cross. -/
def plainDb : Scope := { emptyDb with children :=
  [mkInstance "top" SrcInfo.none 1 none [mkCovergroup "cg" SrcInfo.none 2
    [mkCoverpoint "a" SrcInfo.none 3 [mkBin "x" CT.CVGBIN 1 1, mkBin "y" CT.IGNOREBIN 1 0], mkCross "c" SrcInfo.none 1 ["a"] [mkBin "xx" CT.CVGBIN 1 0]]]] }
/-- The same with a design unit, locations, another weight of instance and cross, another crossed coverpoint and a bin of another kind. -/
def richDb : Scope := { emptyDb with children :=
  [mkDu "m" ⟨some "m.sv", 1, 0⟩ 1,
   mkInstance "top" ⟨some "m.sv", 9, 0⟩ 5 (some ⟨"m", ⟨some "m.sv", 1, 0⟩, 1⟩) [mkCovergroup "cg" ⟨some "m.sv", 10, 0⟩ 2
    [mkCoverpoint "a" SrcInfo.none 3 [mkBin "x" CT.CVGBIN 1 1, mkBin "t" 0x200 1 4, { mkBin "y" CT.IGNOREBIN 1 0 with weight := 8 }],
     mkCross "c" SrcInfo.none 7 ["a", "a"] [mkBin "xx" CT.CVGBIN 1 0]]]] }
end Ex

/-- The hypothesis of `C145_same_report` is met by databases that differ in all these points, and there is a report. -/
example : reportable Ex.plainDb = reportable Ex.richDb ∧ Ex.plainDb.children.length ≠ Ex.richDb.children.length ∧
    (build id Ex.plainDb).map (·.coverage) = .ok 75 := by
  refine ⟨?_, by decide, by decide +kernel⟩
  simp [Ex.plainDb, Ex.richDb, emptyDb, mkInstance, mkDu, mkCovergroup, mkCoverpoint, mkCross, mkBin, reportable, reportableL, Weighed, ReportedType, ReportedKind,
    unweigh, maskHit, ST.INSTANCE, ST.COVERGROUP, ST.COVERINSTANCE, ST.COVERPOINT, ST.CROSS, ST.DU_MODULE, CT.CVGBIN, CT.IGNOREBIN, CT.ILLEGALBIN]

/-- What is left does matter: the weight of a coverpoint, for one. -/
example : ∃ a b : Scope, a.children.map (·.name) = b.children.map (·.name) ∧ (build id a).map (·.coverage) ≠ (build id b).map (·.coverage) :=
  ⟨Ex.plainDb, { emptyDb with children := [mkInstance "top" SrcInfo.none 1 none [mkCovergroup "cg" SrcInfo.none 2
    [mkCoverpoint "a" SrcInfo.none 1 [mkBin "x" CT.CVGBIN 1 1, mkBin "y" CT.IGNOREBIN 1 0], mkCross "c" SrcInfo.none 1 ["a"] [mkBin "xx" CT.CVGBIN 1 0]]]] }, by decide, by decide +kernel⟩

end Report
end Verif
