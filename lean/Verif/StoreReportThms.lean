import Verif.StoreReport
import Verif.StoreMergeMain
/-!
# Reporting on objects (C97)

Building a report changes no object, and it gives what `Report.lean` gives on the tree shown by the database.
-/

namespace Verif
namespace Store
open Spec

/-! ## Programs that only read -/

instance : LawfulMonad M := LawfulMonad.mk' M
  (id_map := by
    intro α x; funext s
    show (match x s with | (.ok a, s') => _ | (.error e, s') => _) = x s
    cases h : x s with
    | mk r s' => cases r <;> rfl)
  (pure_bind := fun _ _ => rfl)
  (bind_assoc := by
    intro α β γ x f g; funext s
    show (match (match x s with | (.ok a, s') => f a s' | (.error e, s') => (.error e, s')) with
      | (.ok b, s') => g b s' | (.error e, s') => (.error e, s')) =
      (match x s with | (.ok a, s') => _ | (.error e, s') => _)
    cases h : x s with
    | mk r s' => cases r <;> rfl)

/-- The program `x` changes nothing and gives `e`. -/
def Reads {α : Type} (s : Heap) (x : M α) (e : Except Err α) : Prop := x s = (e, s)

namespace Reads

theorem pure {α : Type} {s : Heap} (a : α) : Reads s (Pure.pure a) (Pure.pure a) := rfl

theorem fail {α : Type} {s : Heap} (e : Err) : Reads s (fail e : M α) (.error e) := rfl

theorem bind {α β : Type} {s : Heap} {x : M α} {e : Except Err α} {f : α → M β} {g : α → Except Err β} (h : Reads s x e)
    (hf : ∀ a, Reads s (f a) (g a)) : Reads s (x >>= f) (e >>= g) := by
  unfold Reads at *
  cases e with
  | error e => rw [bind_eq_of_error h]; rfl
  | ok a => rw [bind_eq_of_ok h]; exact hf a

/-- A read that succeeds. -/
theorem step {α β : Type} {s : Heap} {x : M α} {a : α} {f : α → M β} {e : Except Err β} (h : x s = (.ok a, s))
    (hf : Reads s (f a) e) : Reads s (x >>= f) e := by
  unfold Reads at *
  rw [bind_eq_of_ok h]; exact hf

theorem foldlM {α β γ : Type} {s : Heap} {R : α → β → Prop} {f : γ → α → M γ} {g : γ → β → Except Err γ}
    (hf : ∀ m a b, R a b → Reads s (f m a) (g m b)) {l : List α} {l' : List β} (hl : List.Forall₂ R l l') (m : γ) :
    Reads s (l.foldlM f m) (l'.foldlM g m) := foldlM_rel hf hl m

theorem mapM {α β γ : Type} {s : Heap} {R : α → β → Prop} {f : α → M γ} {g : β → Except Err γ}
    (hf : ∀ a b, R a b → Reads s (f a) (g b)) {l : List α} {l' : List β} (hl : List.Forall₂ R l l') :
    Reads s (l.mapM f) (l'.mapM g) := by
  induction hl with
  | nil => exact Reads.pure []
  | cons hab _ ih =>
    rw [List.mapM_cons, List.mapM_cons]
    exact (hf _ _ hab).bind fun a => ih.bind fun l => Reads.pure _

end Reads

/-! ## Reading a shown scope -/

/-- A scope shown to depth `n`. -/
abbrev At (s : Heap) (n o : Nat) (v : Scope) : Prop := ShowsIn (fun _ => True) s n o v

theorem getScopeName_at {s : Heap} {n o : Nat} {v : Scope} (h : At s n o v) : getScopeName o s = (.ok v.name, s) := by
  cases n with
  | zero => exact h.elim
  | succ n =>
    obtain ⟨_, x, hx, _, h2, _⟩ := h
    exact (bind_eq_of_ok (obj_some hx)).trans (by rw [pure_def, h2])

theorem getWeight_at {s : Heap} {n o : Nat} {v : Scope} (h : At s n o v) : getWeight o s = (.ok v.weight, s) := by
  cases n with
  | zero => exact h.elim
  | succ n =>
    obtain ⟨_, x, hx, _, _, _, h4, _⟩ := h
    exact (bind_eq_of_ok (obj_some hx)).trans (by rw [pure_def, h4])

theorem scopes_at {s : Heap} {n o : Nat} {v : Scope} (h : At s (n + 1) o v) (mask : Nat) :
    ∃ l, scopes o mask s = (.ok l, s) ∧ List.Forall₂ (At s n) l (v.scopes mask) := by
  obtain ⟨_, x, hx, _, _, _, _, _, _, h7, _⟩ := h
  refine ⟨_, scopes_eq hx, forall2_filter h7 ?_⟩
  intro a b hab
  cases n with
  | zero => exact hab.elim
  | succ n =>
    obtain ⟨_, y, hy, h1, _⟩ := hab
    simp [scopeHit, hy, h1]

theorem coverItems_at {s : Heap} {n o : Nat} {v : Scope} (h : At s n o v) (mask : Nat) :
    ∃ l, coverItems o mask s = (.ok l, s) ∧ List.Forall₂ (ShowsItem s) l (v.coverItems mask) := by
  cases n with
  | zero => exact h.elim
  | succ n =>
    obtain ⟨_, x, hx, _, _, _, _, _, _, _, h8⟩ := h
    refine ⟨_, coverItems_eq hx, forall2_filter h8 ?_⟩
    rintro a b ⟨y, d, hy, hd, rfl⟩
    simp [binHit, hy, hd]

/-- In a store built by calls a scope is shown to a depth bounded by the number of objects. -/
theorem at_bounded {cs : List Call} {n o : Nat} {v : Scope} (h : At (run Heap.empty cs) n o v) :
    At (run Heap.empty cs) ((run Heap.empty cs).objs.length - o) o v := by
  induction n generalizing o v with
  | zero => exact h.elim
  | succ n ih =>
    obtain ⟨hp, x, hx, h1, h2, h3, h4, h5, h6, h7, h8⟩ := h
    have hl := (List.getElem?_eq_some_iff.1 hx).1
    obtain ⟨k, hk⟩ : ∃ k, (run Heap.empty cs).objs.length - o = k + 1 := ⟨(run Heap.empty cs).objs.length - o - 1, by omega⟩
    rw [hk]
    refine ⟨hp, x, hx, h1, h2, h3, h4, h5, h6, forall2_imp h7 ?_, h8⟩
    intro c hc w hw
    obtain ⟨y, hy, hyp⟩ := ((tree_facts cs hx).2.1 c).1 hc
    have := (tree_facts cs hy).2.2.1 o hyp
    exact showsIn_mono (fun _ h => h) (by omega) (ih hw)

/-! ## The builder -/

namespace ReportBuilder

theorem cpBinStep_reads {s : Heap} (m : Report.BinLoop) (b : Nat) (it : Item) (h : ShowsItem s b it) :
    Reads s (cpBinStep m b) (Report.cpBinStep m it) := by
  obtain ⟨x, d, hx, hd, rfl⟩ := h
  refine .step (bin_some hx) (.step (cdata_some hd) ?_)
  unfold Report.cpBinStep Report.atLeastE atLeast
  cases ha : d.atLeast with
  | none => rfl
  | some a => rfl

theorem otherBinStep_reads {s : Heap} (m : List Report.RBin) (b : Nat) (it : Item) (h : ShowsItem s b it) :
    Reads s (otherBinStep m b) (Report.otherBinStep m it) := by
  obtain ⟨x, d, hx, hd, rfl⟩ := h
  refine .step (bin_some hx) (.step (cdata_some hd) ?_)
  unfold Report.otherBinStep Report.atLeastE atLeast
  cases ha : d.atLeast with
  | none => rfl
  | some a => rfl

theorem crossBinStep_reads {s : Heap} (m : Report.BinLoop) (b : Nat) (it : Item) (h : ShowsItem s b it) :
    Reads s (crossBinStep m b) (Report.crossBinStep m it) := by
  obtain ⟨x, d, hx, hd, rfl⟩ := h
  refine .step (bin_some hx) (.step (cdata_some hd) ?_)
  unfold Report.crossBinStep Report.atLeastE atLeast
  cases ha : d.atLeast with
  | none => rfl
  | some a => rfl

theorem buildCoverpoint_reads {rd : Rat → Rat} {s : Heap} {n o : Nat} {v : Scope} (h : At s n o v) :
    Reads s (buildCoverpoint rd o) (Report.buildCoverpoint rd v) := by
  obtain ⟨l1, e1, r1⟩ := coverItems_at h CT.CVGBIN
  obtain ⟨l2, e2, r2⟩ := coverItems_at h CT.IGNOREBIN
  obtain ⟨l3, e3, r3⟩ := coverItems_at h CT.ILLEGALBIN
  refine .step (getScopeName_at h) (.step (getWeight_at h) (.step e1 ?_))
  refine (Reads.foldlM cpBinStep_reads r1 _).bind fun st => .step e2 ?_
  refine (Reads.foldlM otherBinStep_reads r2 _).bind fun ign => .step e3 ?_
  exact (Reads.foldlM otherBinStep_reads r3 _).bind fun ill => .pure _

theorem buildCross_reads {rd : Rat → Rat} {s : Heap} {n o : Nat} {v : Scope} (h : At s n o v) :
    Reads s (buildCross rd o) (Report.buildCross rd v) := by
  obtain ⟨l1, e1, r1⟩ := coverItems_at h CT.CVGBIN
  refine .step (getScopeName_at h) (.step e1 ?_)
  exact (Reads.foldlM crossBinStep_reads r1 _).bind fun st => .pure _

theorem buildCgs_eq (rd : Rat → Rat) (l : List Scope) :
    Report.buildCgs rd l = (l.filter (fun c => maskHit c.stype ST.COVERINSTANCE)).mapM (Report.buildCg rd) := by
  induction l with
  | nil => rfl
  | cons c t ih =>
    unfold Report.buildCgs
    by_cases hc : maskHit c.stype ST.COVERINSTANCE = true
    · rw [if_pos hc, List.filter_cons_of_pos (p := fun c : Scope => maskHit c.stype ST.COVERINSTANCE) hc, List.mapM_cons, ih]
    · rw [if_neg hc, List.filter_cons_of_neg (p := fun c : Scope => maskHit c.stype ST.COVERINSTANCE) hc, ih]

theorem buildCg_reads {rd : Rat → Rat} {s : Heap} {n o : Nat} {v : Scope} (h : At s n o v) {fuel : Nat} (hf : n ≤ fuel) :
    Reads s (buildCg rd fuel o) (Report.buildCg rd v) := by
  induction n generalizing o v fuel with
  | zero => exact h.elim
  | succ n ih =>
    obtain ⟨fuel, rfl⟩ : ∃ k, fuel = k + 1 := ⟨fuel - 1, by omega⟩
    obtain ⟨l1, e1, r1⟩ := scopes_at h ST.COVERPOINT
    obtain ⟨l2, e2, r2⟩ := scopes_at h ST.CROSS
    obtain ⟨l3, e3, r3⟩ := scopes_at h ST.COVERINSTANCE
    have hn := getScopeName_at h
    have hw := getWeight_at h
    obtain ⟨ty, nm, src, w, du, cps, ch, it⟩ := v
    rw [Report.buildCg]
    refine .step hn (.step hn (.step hw (.step e1 ?_)))
    refine (Reads.mapM (R := At s n) (fun a b hab => buildCoverpoint_reads hab) r1).bind fun rcps => .step e2 ?_
    refine (Reads.mapM (R := At s n) (fun a b hab => buildCross_reads hab) r2).bind fun rcrs => .step e3 ?_
    rw [buildCgs_eq]
    exact (Reads.mapM (R := At s n) (fun a b hab => ih hab (by omega)) r3).bind fun rcgs => .pure _

theorem covergroupStep_reads {rd : Rat → Rat} {s : Heap} {n o : Nat} {v : Scope} (h : At s n o v) {fuel : Nat} (hf : n ≤ fuel)
    (st : Report.InstLoop) : Reads s (covergroupStep rd fuel st o) (Report.covergroupStep rd st v) :=
  (buildCg_reads h hf).bind fun _ => .pure _

theorem buildCovergroups_reads {rd : Rat → Rat} {s : Heap} {n o : Nat} {v : Scope} (h : At s n o v) {fuel : Nat} (hf : n ≤ fuel)
    (rpt : Report.Rpt) : Reads s (buildCovergroups rd fuel rpt o) (Report.buildCovergroups rd rpt v) := by
  cases n with
  | zero => exact h.elim
  | succ n =>
    obtain ⟨l, e, r⟩ := scopes_at h ST.COVERGROUP
    refine .step e ?_
    refine (Reads.foldlM (R := At s n) (fun m a b hab => covergroupStep_reads hab (by omega) m) r _).bind fun st => ?_
    by_cases hd : st.acc.div = 0
    · simp only [hd, if_true]; exact .fail _
    · simp only [hd, if_false]; exact .pure _

theorem build_reads {rd : Rat → Rat} {s : Heap} {n o : Nat} {v : Scope} (h : At s n o v) {fuel : Nat} (hf : n ≤ fuel) :
    Reads s (build rd fuel o) (Report.build rd v) := by
  cases n with
  | zero => exact h.elim
  | succ n =>
    obtain ⟨l, e, r⟩ := scopes_at h ST.INSTANCE
    exact .step e (Reads.foldlM (R := At s n) (fun m a b hab => buildCovergroups_reads hab (by omega) m) r _)

end ReportBuilder

/-! ## C97 -/

/-- **C97.** Building the report of a scope of a store built by API calls changes nothing, and it gives the report, or the
exception, that `Report.build` gives on the tree shown; the recursion is never deeper than the number of objects. -/
theorem C97_report_reads {cs : List Call} {db : Nat} {v : Scope} (hv : Shows (run Heap.empty cs) db v) (rd : Rat → Rat) {fuel : Nat}
    (hf : (run Heap.empty cs).objs.length ≤ fuel) :
    ReportBuilder.build rd fuel db (run Heap.empty cs) = (Report.build rd v, run Heap.empty cs) := by
  obtain ⟨n, hn⟩ := hv
  exact ReportBuilder.build_reads (at_bounded hn) (by omega)

/-- **C97.** Every database built by real calls has such a tree: its report never depends on anything else, and never changes it. -/
theorem C97_report_pure {cs : List Call} (hr : RealCalls Heap.empty cs) {db : Nat} (hd : db < (run Heap.empty cs).objs.length) (rd : Rat → Rat) :
    ∃ v, Shows (run Heap.empty cs) db v ∧ ∀ fuel, (run Heap.empty cs).objs.length ≤ fuel →
      ReportBuilder.build rd fuel db (run Heap.empty cs) = (Report.build rd v, run Heap.empty cs) := by
  obtain ⟨v, hv⟩ := shows_exists (run_solid hr) hd
  exact ⟨v, hv, fun fuel hf => C97_report_reads hv rd hf⟩

/-- **C97.** Two databases that show the same have the same report, however they were built and whatever they share. -/
theorem C97_copies {cs cs' : List Call} {db db' : Nat} {v : Scope} (hv : Shows (run Heap.empty cs) db v) (hv' : Shows (run Heap.empty cs') db' v)
    (rd : Rat → Rat) : (ReportBuilder.build rd (run Heap.empty cs).objs.length db (run Heap.empty cs)).1 =
      (ReportBuilder.build rd (run Heap.empty cs').objs.length db' (run Heap.empty cs')).1 := by
  rw [C97_report_reads hv rd (Nat.le_refl _), C97_report_reads hv' rd (Nat.le_refl _)]

/-- **C97.** Merging objects and reporting on the result is merging and reporting on the trees shown. -/
theorem C97_merge_report {cs : List Call} {dst : Nat} {x : Obj} (hx : (run Heap.empty cs).objs[dst]? = some x) (hc : x.cls = .db) {v : Scope}
    (hv : Shows (run Heap.empty cs) dst v) {srcs : List Nat} {vs : List Scope} (h : List.Forall₂ (Shows (run Heap.empty cs)) srcs vs)
    {s' : Heap} {r : Except Err Unit} (hm : DbMerger.merge dst srcs (run Heap.empty cs) = (r, s')) (rd : Rat → Rat) {fuel : Nat}
    (hf : s'.objs.length ≤ fuel) :
    (do DbMerger.merge dst srcs; ReportBuilder.build rd fuel dst) (run Heap.empty cs) =
      ((do let w ← Merge.merge v vs; Report.build rd w), s') := by
  obtain ⟨h1, h2⟩ := C84_refines hx hc hv h hm
  cases hr : Merge.merge v vs with
  | error e =>
    rw [h1 e hr] at hm
    rw [bind_eq_of_error hm]; rfl
  | ok w =>
    obtain ⟨hr', hw⟩ := h2 w hr
    rw [hr'] at hm
    rw [bind_eq_of_ok hm]
    obtain ⟨k, i, f⟩ := merge_frame hx hc h hm
    obtain ⟨cs', rfl⟩ := f.calls
    rw [← run_append] at hw hf ⊢
    exact C97_report_reads hw rd hf

/-! ## Examples -/

/-- The counts of the coverpoint bins of a report. -/
def reportCounts (r : Except Err Report.Rpt) : Option (List (List (List Int))) :=
  match r with
  | .ok r => some (r.covergroups.map (fun g => g.coverpoints.map (fun c => c.bins.map (·.count))))
  | .error _ => none

/-- **C97** applies: a database with a covergroup, a coverpoint and a cross; and the merge of two of them. -/
example : RealCalls Heap.empty twoDbs ∧ 0 < (run Heap.empty twoDbs).objs.length ∧
    reportCounts (ReportBuilder.build id 7 0 (run Heap.empty twoDbs)).1 = some [[[3, 0]]] ∧
    reportCounts ((do DbMerger.merge 6 [0, 0]; ReportBuilder.build id 12 6) (run Heap.empty twoDbs)).1 = some [[[6, 0]]] := by
  refine ⟨twoDbs_real, by decide, ?_, ?_⟩ <;> decide +kernel

/-- The error branch: a cover item made without a threshold stops the report; the store is as before. -/
example : (match (ReportBuilder.build id 7 0 (run Heap.empty (twoDbs ++ [.newCoverData 1 0, .createNextCover 4 "u" 3 none]))).1 with
    | .error .attributeError => true
    | _ => false) = true := by
  decide +kernel

end Store
end Verif
