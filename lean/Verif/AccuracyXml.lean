import Verif.Accuracy
import Verif.MergeTypes3
/-!
# Figures before and after storing, in binary64 (C36, C81)

The theorems on stored databases are in exact arithmetic.  In binary64 the figures of coverpoints and crosses are still the same; those
of groups and the total may differ by rounding, since the order of summation may change.
-/

namespace Verif
open Merge Xml Spec Report

/-- As `SameFigures`, with a tolerance for the figures of groups. -/
structure Spec.CloseFigures (e : Rat) (a b : RCg) : Prop where
  name : b.name = a.name
  coverage : |b.coverage - a.coverage| ≤ e
  cps : (b.coverpoints.map (fun c => (c.name, c.coverage))).Perm (a.coverpoints.map (fun c => (c.name, c.coverage)))
  crosses : (b.crosses.map (fun c => (c.name, c.coverage))).Perm (a.crosses.map (fun c => (c.name, c.coverage)))
  insts : List.Forall₂ (fun x y : RCg => y.name = x.name ∧ |y.coverage - x.coverage| ≤ e ∧
      y.coverpoints.map (·.coverage) = x.coverpoints.map (·.coverage) ∧ y.crosses.map (·.coverage) = x.crosses.map (·.coverage))
    (if a.covergroups = [] then [a] else a.covergroups) b.covergroups

theorem forall₂_with_mem {α β : Type} {R : α → β → Prop} {l : List α} {l' : List β} (h : List.Forall₂ R l l') :
    List.Forall₂ (fun a b => a ∈ l ∧ b ∈ l' ∧ R a b) l l' := by
  induction h with
  | nil => exact .nil
  | cons h1 _ ih =>
    exact .cons ⟨by simp, by simp, h1⟩ (ih.imp (fun _ _ h => ⟨List.mem_cons_of_mem _ h.1, List.mem_cons_of_mem _ h.2.1, h.2.2⟩))

mutual
theorem groupTree_kid {g c : Scope} (hc : c ∈ kids ST.COVERINSTANCE g) : ∀ {t : Scope}, g ∈ groupTree t → c ∈ groupTree t
  | ⟨ty, n, src, w, du, cps, ch, it⟩, hg => by
    rw [groupTree, List.mem_cons] at hg ⊢
    rcases hg with rfl | hg
    · have : c ∈ groupTree ⟨ty, n, src, w, du, cps, ch, it⟩ := groupTree_mem.2 (.inr ⟨c, hc, groupTree_mem.2 (.inl rfl)⟩)
      rwa [groupTree, List.mem_cons] at this
    · exact .inr (groupForest_kid hc hg)
termination_by structural t => t
theorem groupForest_kid {g c : Scope} (hc : c ∈ kids ST.COVERINSTANCE g) : ∀ {l : List Scope}, g ∈ groupForest l → c ∈ groupForest l
  | [], hg => by simp [groupForest] at hg
  | a :: t, hg => by
    rw [groupForest] at hg ⊢
    split
    · rename_i ha
      rw [if_pos ha, List.mem_append] at hg
      rw [List.mem_append]
      exact hg.imp (groupTree_kid hc) (groupForest_kid hc)
    · rename_i ha
      rw [if_neg ha] at hg
      exact groupForest_kid hc hg
termination_by structural l => l
end

theorem inst_reported {db g c : Scope} (hg : g ∈ reportedGroups db) (hc : c ∈ kids ST.COVERINSTANCE g) : c ∈ reportedGroups db := by
  obtain ⟨t, ht, hg⟩ := List.mem_flatMap.1 hg
  exact List.mem_flatMap.2 ⟨t, ht, groupTree_kid hc hg⟩

/-- Error of a group in binary64. -/
theorem group_close {K : Nat} (hK : K ≤ 2 ^ 50) {db g : Scope} (hw : NonNegWeights db) (hs : SizeLimit K (2 ^ 53) db) (hg : g ∈ reportedGroups db) :
    |groupCov round64 g - groupCov id g| ≤ 200 * (2 * (K : Rat) + 5) / 2 ^ 53 := by
  have hn := near_group round64_accurate round64_rounding (hw.2 g hg) (hs.partWeight g hg) (by norm_num)
  have hm : ((2 * K + 5 : Nat) : Rat) * unit64 ≤ 1 / 2 := by
    have : (K : Rat) ≤ 1125899906842624 := by exact_mod_cast hK
    push_cast
    unfold unit64
    norm_num only
    linarith
  have := hn.abs_le_hundred round64_accurate.1 round64_accurate.2.1 (M := 2 * K + 5) (by have := hs.parts g hg; omega) hm (groupCov_range hw hg).2
  refine this.trans (le_of_eq ?_)
  push_cast
  unfold unit64
  ring

theorem leaves_map (f : Scope → String × Rat) (l : List Scope) (hf : ∀ c, f c = (c.name, leafCov id c)) :
    l.map (fun c => (c.name, leafCov round64 c)) = (l.map f).map (fun x => (x.1, round64 x.2)) := by
  rw [List.map_map]
  apply List.map_congr_left
  intro c _
  simp only [Function.comp, hf]
  rw [leafCov_round64, leafCov_id]

theorem leaves_map' {l l' : List Scope} (h : l.map (leafCov id) = l'.map (leafCov id)) : l.map (leafCov round64) = l'.map (leafCov round64) := by
  have := congrArg (List.map round64) h
  simp only [List.map_map] at this
  have e : round64 ∘ leafCov id = leafCov round64 := by
    funext c
    simp only [Function.comp]
    rw [leafCov_round64, leafCov_id]
  rwa [e] at this

/-- From equal figures in exact arithmetic to close figures in binary64. -/
theorem close_of_same {K : Nat} (hK : K ≤ 2 ^ 50) {db db' : Scope} {r r0 r0' : Rpt} (hw : NonNegWeights db) (hw' : NonNegWeights db')
    (hs : SizeLimit K (2 ^ 53) db) (hs' : SizeLimit K (2 ^ 53) db') (h : build round64 db = .ok r) (h0 : build id db = .ok r0)
    (h0' : build id db' = .ok r0') (ht : r0'.coverage = r0.coverage) (hf : List.Forall₂ SameFigures r0.covergroups r0'.covergroups) :
    ∃ r', build round64 db' = .ok r' ∧ |r'.coverage - r.coverage| ≤ 400 * (2 * (K : Rat) + 5) / 2 ^ 53 ∧
      List.Forall₂ (CloseFigures (400 * (2 * (K : Rat) + 5) / 2 ^ 53)) r.covergroups r'.covergroups := by
  have e : 400 * (2 * (K : Rat) + 5) / 2 ^ 53 = 2 * (200 * (2 * (K : Rat) + 5) / 2 ^ 53) := by ring
  rw [e]
  obtain ⟨r1, h1, c1⟩ := (C86_accuracy hK hw hs).2 r h
  rw [h0] at h1
  cases h1
  obtain ⟨r', h', c1'⟩ := (C86_accuracy hK hw' hs').1 r0' h0'
  refine ⟨r', h', close_two c1'.1 c1.1 ht, ?_⟩
  obtain ⟨_, rfl⟩ := (build_ok _ _ _).1 h
  obtain ⟨_, rfl⟩ := (build_ok _ _ _).1 h'
  obtain ⟨_, rfl⟩ := (build_ok _ _ _).1 h0
  obtain ⟨_, rfl⟩ := (build_ok _ _ _).1 h0'
  simp only [pRpt, List.forall₂_map_left_iff, List.forall₂_map_right_iff] at hf ⊢
  refine (forall₂_with_mem hf).imp (fun g g' ⟨hg, hg', hfig⟩ => ?_)
  have hg1 : g ∈ reportedGroups db := List.mem_flatMap.2 ⟨g, hg, by rw [groupTree_eq]; simp⟩
  have hg1' : g' ∈ reportedGroups db' := List.mem_flatMap.2 ⟨g', hg', by rw [groupTree_eq]; simp⟩
  obtain ⟨f1, f2, f3, f4, f5⟩ := hfig
  rw [pCg_eq id, pCg_eq id] at f1 f2 f3 f4 f5
  simp only [List.map_map] at f3 f4
  refine ⟨?_, ?_, ?_, ?_, ?_⟩
  · rw [pCg_eq, pCg_eq]; exact f1
  · rw [pCg_eq, pCg_eq]; exact close_two (group_close hK hw' hs' hg1') (group_close hK hw hs hg1) f2
  · rw [pCg_eq, pCg_eq]
    simp only [List.map_map]
    have := f3.map (fun x : String × Rat => (x.1, round64 x.2))
    have hm := fun l => leaves_map ((fun c => (c.name, c.coverage)) ∘ Report.pCp id) l (fun _ => rfl)
    rw [← hm, ← hm] at this
    exact this
  · rw [pCg_eq, pCg_eq]
    simp only [List.map_map]
    have := f4.map (fun x : String × Rat => (x.1, round64 x.2))
    have hm := fun l => leaves_map ((fun c => (c.name, c.coverage)) ∘ pCross id) l (fun _ => rfl)
    rw [← hm, ← hm] at this
    exact this
  · have hif : ∀ rd : Rat → Rat, (if (pCg rd g).covergroups = [] then [pCg rd g] else (pCg rd g).covergroups)
        = (if kids ST.COVERINSTANCE g = [] then [g] else kids ST.COVERINSTANCE g).map (pCg rd) := by
      intro rd
      have : (pCg rd g).covergroups = (kids ST.COVERINSTANCE g).map (pCg rd) := by rw [pCg_eq]
      rw [this]
      by_cases hk : kids ST.COVERINSTANCE g = []
      · simp [hk]
      · simp [hk]
    have hmem : ∀ c ∈ (if kids ST.COVERINSTANCE g = [] then [g] else kids ST.COVERINSTANCE g), c ∈ reportedGroups db := by
      intro c hc
      split at hc
      · rw [List.mem_singleton.1 hc]; exact hg1
      · exact inst_reported hg1 hc
    have f6 := hif id
    rw [pCg_eq] at f6
    rw [f6] at f5
    rw [hif]
    simp only [List.map_map] at f5
    have hcs : (pCg round64 g').covergroups = (kids ST.COVERINSTANCE g').map (pCg round64) := by rw [pCg_eq]
    rw [hcs, List.forall₂_map_left_iff, List.forall₂_map_right_iff]
    rw [← List.forall₂_eq_eq_eq, List.forall₂_map_left_iff, List.forall₂_map_right_iff] at f5
    refine (forall₂_with_mem f5.flip).imp (fun c c' ⟨hc, hc', heq⟩ => ?_)
    simp only [Function.comp, Prod.mk.injEq, figures_pCg] at heq
    obtain ⟨q1, q2, q3, q4⟩ := heq
    rw [pCg_eq, pCg_eq] at q1 ⊢
    refine ⟨q1, close_two (group_close hK hw' hs' (inst_reported hg1' hc')) (group_close hK hw hs (hmem c hc)) q2, ?_, ?_⟩
    · simp only [List.map_map]; exact leaves_map' q3
    · simp only [List.map_map]; exact leaves_map' q4

/-- C36 in binary64, for databases within the limits of `C36_figures_partial` and of the accuracy theorem: the figures of coverpoints and
crosses are the same after writing and reading; those of groups and the total differ by at most `400 (2K + 5) / 2^53` percent. -/
theorem C36_binary64_partial {env : Env} (he : GoodEnv env) {db db' : Database} {doc : Elem} {r : Rpt} {K : Nat} (hK : K ≤ 2 ^ 50)
    (hu : UniqueInsts db.root) (hrep : ∀ g ∈ allCovergroups db.root, Representable g)
    (hw : write env db = .ok doc) (hr : Xml.read env.flt (reparse doc) = .ok db') (hb : build round64 db.root = .ok r)
    (hn : NonNegWeights db.root) (hn' : NonNegWeights db'.root) (hs : SizeLimit K (2 ^ 53) db.root) (hs' : SizeLimit K (2 ^ 53) db'.root) :
    ∃ r', build round64 db'.root = .ok r' ∧ |r'.coverage - r.coverage| ≤ 400 * (2 * (K : Rat) + 5) / 2 ^ 53 ∧
      List.Forall₂ (CloseFigures (400 * (2 * (K : Rat) + 5) / 2 ^ 53)) r.covergroups r'.covergroups := by
  obtain ⟨r0, h0⟩ := build_any round64 id hb
  obtain ⟨r0', h0', ht, hf⟩ := C36_figures_partial he hu hrep hw hr h0
  exact close_of_same hK hn hn' hs hs' hb h0 h0' ht hf

/-- C81 in binary64: storing a merge changes the figures of groups and the total by at most `400 (2K + 5) / 2^53` percent and those of
coverpoints and crosses not at all. -/
theorem C81_binary64_partial {env : Env} (he : GoodEnv env) {flt : FloatText} {srcs : List Database} {out db' : Database} {r : Rpt}
    {Kn : Nat} (hKn : Kn ≤ 2 ^ 50) (h : ∀ s ∈ srcs, ∃ doc, Xml.read flt doc = .ok s) (hu : ∀ s ∈ srcs, UniqueNames s.root)
    {K : String → String → String → String → Nat} (hK : ∀ s ∈ srcs, KindsBy K s.root)
    (hm : mergeDb ⟨emptyDb, [], []⟩ srcs = .ok out) (hr : throughFile env out = .ok db') (hb : build round64 out.root = .ok r)
    (hn : NonNegWeights out.root) (hn' : NonNegWeights db'.root) (hs : SizeLimit Kn (2 ^ 53) out.root) (hs' : SizeLimit Kn (2 ^ 53) db'.root) :
    ∃ r', build round64 db'.root = .ok r' ∧ |r'.coverage - r.coverage| ≤ 400 * (2 * (Kn : Rat) + 5) / 2 ^ 53 ∧
      List.Forall₂ (CloseFigures (400 * (2 * (Kn : Rat) + 5) / 2 ^ 53)) r.covergroups r'.covergroups := by
  obtain ⟨r0, h0⟩ := build_any round64 id hb
  obtain ⟨r0', h0', ht, hf⟩ := C81_merged_figures_partial he h hu hK hm hr h0
  exact close_of_same hKn hn hn' hs hs' hb h0 h0' ht hf

instance (db : Scope) : Decidable (NonNegWeights db) := by unfold NonNegWeights; infer_instance

instance (K : Nat) (N : Int) (db : Scope) : Decidable (SizeLimit K N db) :=
  decidable_of_iff ((∀ g ∈ reportedGroups db, numParts g ≤ K) ∧ (∀ i ∈ kids ST.INSTANCE db, (kids ST.COVERGROUP i).length ≤ K) ∧
    (∀ g ∈ reportedGroups db, groupWeight g ≤ N) ∧ ∀ i ∈ kids ST.INSTANCE db, weightSum (kids ST.COVERGROUP i) ≤ N)
    ⟨fun ⟨a, b, c, d⟩ => ⟨a, b, c, d⟩, fun ⟨a, b, c, d⟩ => ⟨a, b, c, d⟩⟩

/-- The further hypotheses of `C36_binary64_partial` are met by the database that meets those of `C36_figures_partial`. -/
example : ∃ db' r, roundTrip exEnv exRepDb = .ok db' ∧ build round64 exRepDb.root = .ok r ∧ NonNegWeights exRepDb.root ∧
    NonNegWeights db'.root ∧ SizeLimit 3 (2 ^ 53) exRepDb.root ∧ SizeLimit 3 (2 ^ 53) db'.root := by
  have h1 : (roundTrip exEnv exRepDb).map (fun d => decide (NonNegWeights d.root ∧ SizeLimit 3 (2 ^ 53) d.root)) = .ok true := by decide +kernel
  have h2 : (build round64 exRepDb.root).isOk = true := by decide +kernel
  obtain ⟨r, hr⟩ := exists_of_isOk h2
  cases hd : roundTrip exEnv exRepDb with
  | error e => rw [hd] at h1; cases h1
  | ok db' =>
    rw [hd] at h1
    obtain ⟨a, b⟩ := of_decide_eq_true (Except.ok.inj h1)
    exact ⟨db', r, rfl, hr, by decide +kernel, a, by decide +kernel, b⟩

/-- The further hypotheses of `C81_binary64_partial` are met by the merge that meets those of `C81_merged_figures_partial`. -/
example : ∃ a b o d, throughFile exEnv2 (exOneBin "i1" CT.CVGBIN 0) = .ok a ∧ throughFile exEnv2 (exOneBin "i2" CT.CVGBIN 2) = .ok b ∧
    mergeDb ⟨emptyDb, [], []⟩ [a, b] = .ok o ∧ throughFile exEnv2 o = .ok d ∧ (build round64 o.root).isOk = true ∧
    NonNegWeights o.root ∧ NonNegWeights d.root ∧ SizeLimit 1 (2 ^ 53) o.root ∧ SizeLimit 1 (2 ^ 53) d.root := by
  have h : (throughFile exEnv2 (exOneBin "i1" CT.CVGBIN 0)).bind (fun a => (throughFile exEnv2 (exOneBin "i2" CT.CVGBIN 2)).bind (fun b =>
      (mergeDb ⟨emptyDb, [], []⟩ [a, b]).bind (fun o => (throughFile exEnv2 o).map (fun d => decide ((build round64 o.root).isOk = true ∧
        NonNegWeights o.root ∧ NonNegWeights d.root ∧ SizeLimit 1 (2 ^ 53) o.root ∧ SizeLimit 1 (2 ^ 53) d.root))))) = .ok true := by decide +kernel
  cases h1 : throughFile exEnv2 (exOneBin "i1" CT.CVGBIN 0) with
  | error e => rw [h1] at h; cases h
  | ok a =>
    cases h2 : throughFile exEnv2 (exOneBin "i2" CT.CVGBIN 2) with
    | error e => rw [h1, h2] at h; cases h
    | ok b =>
      rw [h1, h2] at h
      change (mergeDb ⟨emptyDb, [], []⟩ [a, b]).bind _ = _ at h
      cases h3 : mergeDb ⟨emptyDb, [], []⟩ [a, b] with
      | error e => rw [h3] at h; cases h
      | ok o =>
        rw [h3] at h
        change (throughFile exEnv2 o).map _ = _ at h
        cases h4 : throughFile exEnv2 o with
        | error e => rw [h4] at h; cases h
        | ok d =>
          rw [h4] at h
          exact ⟨a, b, o, d, rfl, rfl, h3, h4, of_decide_eq_true (Except.ok.inj h)⟩

end Verif
