import Verif.Yaml
import Verif.YamlDocThms
import Verif.Assoc
import Verif.ExceptLemmas
/-!
# Closed forms of the YAML reader
-/

namespace Verif
namespace Yaml

def cpsOf (i : YInst) : List YCp := i.coverpoints.getD []
def crsOf (i : YInst) : List YCross := i.crosses.getD []
def allCps (is : List YInst) : List YCp := is.flatMap cpsOf
def allCrs (is : List YInst) : List YCross := is.flatMap crsOf

/-- Bins of a type coverpoint after one more occurrence. -/
def cpStep (o : Option (List YBin)) (cp : YCp) : List YBin :=
  (cp.illegalbins.getD []).foldl addOther ((cp.ignorebins.getD []).foldl addOther (cp.bins.foldl addBin (o.getD [])))

theorem typeCp_eq (m : Dict (List YBin)) (cp : YCp) : typeCp m cp = m.set cp.name (cpStep (m.get? cp.name) cp) := rfl

/-- Bins of a type cross after more bins, when there is a bin list. -/
def crossAgg (d : Dict Int) (bs : List YBin) : Dict Int := Dict.aggregate (·.name) (fun o b => o.getD 0 + b.count) d bs

theorem foldlM_addCrossBin (bs : List YBin) (o o' : Option (Dict Int)) :
    bs.foldlM addCrossBin o = .ok o' ↔ (bs = [] ∨ o ≠ none) ∧ o' = o.map (fun d => crossAgg d bs) := by
  induction bs generalizing o with
  | nil =>
    have : o.map (fun d => crossAgg d []) = o := by cases o <;> rfl
    rw [this]
    simp [pure, Except.pure, eq_comm]
  | cons b t ih =>
    rw [List.foldlM_cons]
    cases o with
    | none =>
      simp [addCrossBin, Bind.bind, Except.bind]
    | some d =>
      have h1 : addCrossBin (some d) b = .ok (some (d.set b.name ((d.get? b.name).getD 0 + b.count))) := by
        unfold addCrossBin
        simp only [Option.getD_some]
        cases h : Dict.get? d b.name <;> simp
      rw [h1]
      show t.foldlM addCrossBin _ = _ ↔ _
      rw [ih]
      simp [crossAgg, Dict.aggregate]

/-- The type cross after one more occurrence. -/
def crStep (o : Option TCross) (cr : YCross) : TCross :=
  let t := o.getD ⟨cr.coverpoints, cr.bins.map (fun _ => [])⟩
  ⟨t.coverpoints, t.bins.map (fun d => crossAgg d (cr.bins.getD []))⟩

theorem typeCross_ok (m m' : Dict TCross) (cr : YCross) :
    typeCross m cr = .ok m' ↔
      (cr.bins.getD [] = [] ∨ ((m.get? cr.name).getD ⟨cr.coverpoints, cr.bins.map (fun _ => [])⟩).bins ≠ none) ∧
      m' = m.set cr.name (crStep (m.get? cr.name) cr) := by
  unfold typeCross
  simp only
  rw [Ex.bind_ok]
  constructor
  · rintro ⟨bins, h1, h2⟩
    obtain ⟨h3, rfl⟩ := (foldlM_addCrossBin _ _ _).1 h1
    cases h2
    exact ⟨h3, rfl⟩
  · rintro ⟨h, rfl⟩
    exact ⟨_, (foldlM_addCrossBin _ _ _).2 ⟨h, rfl⟩, rfl⟩

/-- The crosses of a covergroup can be aggregated: an occurrence with bins needs a bin list, which
only the first occurrence of the name creates. -/
def CrossOk (m : Dict TCross) (xs : List YCross) : Prop :=
  ∀ c ∈ xs, c.bins.getD [] ≠ [] → match m.get? c.name with
    | some t => t.bins ≠ none
    | none => ∀ f, xs.find? (fun d => d.name = c.name) = some f → f.bins ≠ none

theorem crStep_bins_some {t : TCross} {cr : YCross} : (crStep (some t) cr).bins ≠ none ↔ t.bins ≠ none := by
  simp [crStep]

theorem crStep_bins_none {cr : YCross} : (crStep none cr).bins ≠ none ↔ cr.bins ≠ none := by
  simp [crStep]

theorem crossOk_cons {m : Dict TCross} {a : YCross} {t : List YCross} :
    CrossOk m (a :: t) ↔
      (a.bins.getD [] = [] ∨ ((m.get? a.name).getD ⟨a.coverpoints, a.bins.map (fun _ => [])⟩).bins ≠ none) ∧
        CrossOk (m.set a.name (crStep (m.get? a.name) a)) t := by
  have hstep : ∀ c ∈ t, (match (m.set a.name (crStep (m.get? a.name) a)).get? c.name with
      | some t => t.bins ≠ none
      | none => ∀ f, t.find? (fun d => d.name = c.name) = some f → f.bins ≠ none) ↔
      (match m.get? c.name with
      | some t => t.bins ≠ none
      | none => ∀ f, (a :: t).find? (fun d => d.name = c.name) = some f → f.bins ≠ none) := by
    intro c _
    rw [Dict.get?_set]
    by_cases h : a.name = c.name
    · rw [if_pos h, ← h]
      cases hg : m.get? a.name with
      | some x => exact crStep_bins_some
      | none =>
        simp only [List.find?_cons]
        simp [crStep_bins_none, h]
    · rw [if_neg h]
      cases hg : m.get? c.name with
      | some x => exact Iff.rfl
      | none =>
        simp only [List.find?_cons]
        simp [h]
  unfold CrossOk
  rw [List.forall_mem_cons]
  refine and_congr ?_ (forall₂_congr fun c hc => ?_)
  · cases hg : m.get? a.name with
    | some x => simp only [Option.getD_some]; tauto
    | none =>
      simp only [List.find?_cons, decide_true, Option.some.injEq, forall_eq', Option.getD_none]
      simp only [ne_eq, Option.map_eq_none_iff]
      tauto
  · exact imp_congr_right fun _ => (hstep c hc).symm

theorem foldlM_typeCross (xs : List YCross) (m m' : Dict TCross) :
    xs.foldlM typeCross m = .ok m' ↔ CrossOk m xs ∧ m' = Dict.aggregate (·.name) crStep m xs := by
  induction xs generalizing m with
  | nil =>
    have : CrossOk m [] := by intro c hc; cases hc
    simp only [List.foldlM_nil, this, true_and, Dict.aggregate, List.foldl_nil]
    exact Ex.pure_ok.trans eq_comm
  | cons a t ih =>
    rw [List.foldlM_cons, Ex.bind_ok, crossOk_cons]
    constructor
    · rintro ⟨m1, h1, h2⟩
      obtain ⟨h3, rfl⟩ := (typeCross_ok _ _ _).1 h1
      obtain ⟨h4, rfl⟩ := (ih _).1 h2
      exact ⟨⟨h3, h4⟩, rfl⟩
    · rintro ⟨⟨h3, h4⟩, rfl⟩
      exact ⟨_, (typeCross_ok _ _ _).2 ⟨h3, rfl⟩, (ih _).2 ⟨h4, rfl⟩⟩

theorem foldlM_typeInst (is : List YInst) (st st' : Dict (List YBin) × Dict TCross) :
    is.foldlM typeInst st = .ok st' ↔
      st'.1 = Dict.aggregate (·.name) cpStep st.1 (allCps is) ∧ (allCrs is).foldlM typeCross st.2 = .ok st'.2 := by
  induction is generalizing st with
  | nil =>
    obtain ⟨a, b⟩ := st
    obtain ⟨c, d⟩ := st'
    simp [pure, Except.pure, allCps, allCrs, Dict.aggregate, eq_comm]
  | cons i t ih =>
    rw [List.foldlM_cons, Ex.bind_ok]
    have e1 : allCps (i :: t) = cpsOf i ++ allCps t := rfl
    have e2 : allCrs (i :: t) = crsOf i ++ allCrs t := rfl
    rw [e1, e2, List.foldlM_append, Ex.bind_ok]
    constructor
    · rintro ⟨s1, h1, h2⟩
      unfold typeInst at h1
      obtain ⟨c1, h3, h4⟩ := Ex.bind_ok.1 h1
      cases h4
      obtain ⟨h5, h6⟩ := (ih _).1 h2
      refine ⟨?_, c1, h3, h6⟩
      rw [h5]
      simp only [Dict.aggregate, List.foldl_append]
      rfl
    · rintro ⟨h5, c1, h3, h6⟩
      refine ⟨((cpsOf i).foldl typeCp st.1, c1), ?_, (ih _).2 ⟨?_, h6⟩⟩
      · unfold typeInst
        exact Ex.bind_ok.2 ⟨c1, h3, rfl⟩
      · rw [h5]
        simp only [Dict.aggregate, List.foldl_append]
        rfl

theorem get?_register (o : Nat) (known : Dict Nat) (ns : List String) (n : String) :
    (register o known ns).get? n = if n ∈ ns then some o else known.get? n := by
  unfold register
  induction ns generalizing known with
  | nil => simp
  | cons a t ih =>
    rw [List.foldl_cons, ih, Dict.get?_set]
    by_cases h1 : n ∈ t
    · simp [h1]
    · by_cases h2 : a = n
      · simp [h1, h2]
      · have : ¬ n = a := fun e => h2 e.symm
        simp [h1, h2, this]

theorem lookupCps_ok (known : Dict Nat) (cr : YCross) (os : List Nat) :
    lookupCps known cr = .ok os ↔ (∀ n ∈ cr.coverpoints, (known.get? n).isSome) ∧
      os = cr.coverpoints.map (fun n => (known.get? n).getD 0) := by
  unfold lookupCps
  refine Ex.mapM_iff (p := fun n => (known.get? n).isSome = true) (g := fun n => (known.get? n).getD 0) (fun n _ y => ?_) os
  cases known.get? n <;> simp [eq_comm]

theorem resolveCross_ok (known : Dict Nat) (cr : YCross) (r : Scope × List Nat) :
    resolveCross known cr = .ok r ↔ (∀ n ∈ cr.coverpoints, (known.get? n).isSome) ∧
      r = (recordCross cr, cr.coverpoints.map (fun n => (known.get? n).getD 0)) := by
  unfold resolveCross
  rw [Ex.bind_ok]
  constructor
  · rintro ⟨os, h1, h2⟩
    obtain ⟨h3, rfl⟩ := (lookupCps_ok _ _ _).1 h1
    cases h2
    exact ⟨h3, rfl⟩
  · rintro ⟨h, rfl⟩
    exact ⟨_, (lookupCps_ok _ _ _).2 ⟨h, rfl⟩, rfl⟩

/-- Names of the coverpoints of an instance. -/
def cpNames (i : YInst) : List String := (cpsOf i).map (·.name)

/-- The scope of an instance, independent of the bindings. -/
def instScope (weight : Int) (i : YInst) : Scope :=
  mkCoverInst i.name SrcInfo.none weight ((cpsOf i).map recordCp ++ (crsOf i).map recordCross)

/-- Bindings of the crosses of an instance in the dictionary `known`. -/
def binds (known : Dict Nat) (i : YInst) : List (List Nat) :=
  (crsOf i).map (fun cr => cr.coverpoints.map (fun n => (known.get? n).getD 0))

theorem recordInst_ok (w : Int) (o : Nat) (known : Dict Nat) (i : YInst) (r : Dict Nat × RInst) :
    recordInst w o known i = .ok r ↔
      (∀ cr ∈ crsOf i, ∀ n ∈ cr.coverpoints, n ∈ cpNames i ∨ (known.get? n).isSome) ∧
      r = (register o known (cpNames i), ⟨instScope w i, binds (register o known (cpNames i)) i⟩) := by
  have hk : ∀ n, ((register o known (cpNames i)).get? n).isSome ↔ n ∈ cpNames i ∨ (known.get? n).isSome := by
    intro n
    rw [get?_register]
    by_cases h : n ∈ cpNames i <;> simp [h]
  unfold recordInst
  simp only
  rw [Ex.bind_ok]
  constructor
  · rintro ⟨crs, h1, h2⟩
    obtain ⟨h3, rfl⟩ := (Ex.mapM_iff (fun cr _ y => resolveCross_ok _ cr y) crs).1 h1
    cases h2
    refine ⟨fun cr hcr n hn => (hk n).1 (h3 cr hcr n hn), ?_⟩
    simp only [List.map_map]
    rfl
  · rintro ⟨h, rfl⟩
    refine ⟨_, (Ex.mapM_iff (fun cr _ y => resolveCross_ok _ cr y) _).2 ⟨fun cr hcr n hn => (hk n).2 (h cr hcr n hn), rfl⟩, ?_⟩
    simp only [List.map_map]
    rfl

/-- The second loop, when every lookup succeeds. -/
def rInsts (w : Int) : Nat → Dict Nat → List YInst → List RInst
  | _, _, [] => []
  | o, known, i :: t =>
    ⟨instScope w i, binds (register o known (cpNames i)) i⟩ :: rInsts w (o + 1) (register o known (cpNames i)) t

/-- Every crossed name is known when it is looked up. -/
def Resolved : (String → Prop) → List YInst → Prop
  | _, [] => True
  | K, i :: t => (∀ cr ∈ crsOf i, ∀ n ∈ cr.coverpoints, n ∈ cpNames i ∨ K n) ∧ Resolved (fun n => n ∈ cpNames i ∨ K n) t

theorem recordInsts_ok (w : Int) (is : List YInst) (o : Nat) (known : Dict Nat) (rs : List RInst) :
    recordInsts w o known is = .ok rs ↔ Resolved (fun n => (known.get? n).isSome = true) is ∧ rs = rInsts w o known is := by
  induction is generalizing o known rs with
  | nil => simp [recordInsts, Resolved, rInsts, eq_comm]
  | cons i t ih =>
    have hk : (fun n => ((register o known (cpNames i)).get? n).isSome = true)
        = (fun n => n ∈ cpNames i ∨ (known.get? n).isSome = true) := by
      funext n
      rw [get?_register]
      by_cases h : n ∈ cpNames i <;> simp [h]
    rw [recordInsts, Ex.bind_ok]
    simp only [Resolved, rInsts]
    constructor
    · rintro ⟨r, h1, h2⟩
      obtain ⟨h3, rfl⟩ := (recordInst_ok _ _ _ _ _).1 h1
      obtain ⟨rest, h4, h5⟩ := Ex.bind_ok.1 h2
      obtain ⟨h6, rfl⟩ := (ih _ _ _).1 h4
      cases h5
      exact ⟨⟨h3, hk ▸ h6⟩, rfl⟩
    · rintro ⟨⟨h3, h6⟩, rfl⟩
      exact ⟨_, (recordInst_ok _ _ _ _ _).2 ⟨h3, rfl⟩, Ex.bind_ok.2 ⟨_, (ih _ _ _).2 ⟨hk ▸ h6, rfl⟩, rfl⟩⟩

theorem rInsts_scope (w : Int) (is : List YInst) (o : Nat) (known : Dict Nat) :
    (rInsts w o known is).map (·.scope) = is.map (instScope w) := by
  induction is generalizing o known with
  | nil => rfl
  | cons i t ih => simp [rInsts, ih]

theorem resolved_iff (K : String → Prop) (is : List YInst) :
    Resolved K is ↔ ∀ pre i post, is = pre ++ i :: post → ∀ cr ∈ crsOf i, ∀ n ∈ cr.coverpoints,
      K n ∨ ∃ j ∈ pre ++ [i], n ∈ cpNames j := by
  induction is generalizing K with
  | nil => simp [Resolved]
  | cons a t ih =>
    simp only [Resolved, ih]
    constructor
    · rintro ⟨h1, h2⟩ pre i post e cr hcr n hn
      cases pre with
      | nil =>
        simp only [List.nil_append, List.cons.injEq] at e
        obtain ⟨rfl, rfl⟩ := e
        rcases h1 cr hcr n hn with h | h
        · exact .inr ⟨a, by simp, h⟩
        · exact .inl h
      | cons p ps =>
        simp only [List.cons_append, List.cons.injEq] at e
        obtain ⟨rfl, rfl⟩ := e
        rcases h2 ps i post rfl cr hcr n hn with (h | h) | ⟨j, hj, h⟩
        · exact .inr ⟨a, by simp, h⟩
        · exact .inl h
        · exact .inr ⟨j, by simp at hj ⊢; tauto, h⟩
    · intro h
      refine ⟨fun cr hcr n hn => ?_, fun pre i post e cr hcr n hn => ?_⟩
      · rcases h [] a t rfl cr hcr n hn with h1 | ⟨j, hj, h1⟩
        · exact .inr h1
        · simp at hj; subst hj; exact .inl h1
      · subst e
        rcases h (a :: pre) i post rfl cr hcr n hn with h1 | ⟨j, hj, h1⟩
        · exact .inl (.inr h1)
        · simp only [List.cons_append, List.mem_cons] at hj
          rcases hj with rfl | hj
          · exact .inl (.inl h1)
          · exact .inr ⟨j, hj, h1⟩

/-- Type coverpoints of a covergroup. -/
def tCps (is : List YInst) : Dict (List YBin) := Dict.aggregate (·.name) cpStep [] (allCps is)
/-- Type crosses of a covergroup. -/
def tCrs (is : List YInst) : Dict TCross := Dict.aggregate (·.name) crStep [] (allCrs is)

/-- Scope of a loaded covergroup. -/
def cgScope (cg : YCg) : Scope :=
  let is := cg.instances.getD []
  mkCovergroup cg.name SrcInfo.none (cg.weight.getD 1)
    ((tCps is).map (fun e => recordCp (typeCpObj e)) ++ (tCrs is).map (fun e => recordCross (typeCrossObj e))
      ++ is.map (instScope (cg.weight.getD 1)))

theorem crStep_coverpoints (xs : List YCross) (u t : TCross)
    (h : Dict.aggVal crStep (some u) xs = some t) : t.coverpoints = u.coverpoints := by
  induction xs generalizing u with
  | nil => cases h; rfl
  | cons a l ih =>
    have h' : Dict.aggVal crStep (some (crStep (some u) a)) l = some t := h
    rw [ih _ h']
    rfl

theorem get?_of_mem {α : Type} {d : Dict α} (hnd : d.keys.Nodup) {e : String × α} (h : e ∈ d) : d.get? e.1 = some e.2 := by
  induction d with
  | nil => cases h
  | cons a t ih =>
    simp only [Dict.keys_cons, List.nodup_cons] at hnd
    rcases List.mem_cons.1 h with rfl | hm
    · simp [Dict.get?]
    · have : a.1 ≠ e.1 := fun he => hnd.1 (he ▸ List.mem_map.2 ⟨e, hm, rfl⟩)
      obtain ⟨a1, a2⟩ := a
      simp only [Dict.get?]
      rw [if_neg this]
      exact ih hnd.2 hm

/-- The crossed names of a type cross are those of its first occurrence. -/
theorem mem_tCrs {is : List YInst} {e : String × TCross} (h : e ∈ tCrs is) :
    ∃ c, (allCrs is).find? (fun d => d.name = e.1) = some c ∧ e.2.coverpoints = c.coverpoints := by
  have hnd : (tCrs is).keys.Nodup := by
    unfold tCrs; rw [Dict.keys_aggregate]; exact firstSeen_nodup _
  have hg := get?_of_mem hnd h
  unfold tCrs at hg
  rw [Dict.get?_aggregate, Dict.get?_nil] at hg
  cases hf : (allCrs is).filter (fun x => x.name = e.1) with
  | nil => rw [hf] at hg; cases hg
  | cons c l =>
    rw [hf] at hg
    have := crStep_coverpoints l (crStep none c) e.2 hg
    refine ⟨c, ?_, this⟩
    rw [← List.head?_filter, hf]
    rfl

/-- Exact success condition and result of loading a covergroup. -/
theorem processCg'_ok (cg : YCg) (r : Scope × List (List (List Nat))) :
    processCg' cg = .ok r ↔ ∃ is, cg.instances = some is ∧ CrossOk [] (allCrs is) ∧ Resolved (fun _ => False) is ∧
      r = (cgScope cg, (rInsts (cg.weight.getD 1) 1 [] is).map (·.bound)) := by
  unfold processCg'
  simp only
  rw [Ex.bind_ok]
  have hK : (fun n => ((Dict.get? ([] : Dict Nat) n).isSome = true)) = (fun _ => False) := by funext n; simp
  constructor
  · rintro ⟨st, h1, h2⟩
    obtain ⟨h3, h4⟩ := (foldlM_typeInst _ _ _).1 h1
    obtain ⟨h5, h6⟩ := (foldlM_typeCross _ _ _).1 h4
    obtain ⟨crs, h7, h8⟩ := Ex.bind_ok.1 h2
    obtain ⟨h9, rfl⟩ := (Ex.mapM_iff (fun cr _ y => resolveCross_ok _ cr y) crs).1 h7
    cases hi : cg.instances with
    | none => rw [hi] at h8; cases h8
    | some is =>
      rw [hi] at h8 h3 h6 h5
      obtain ⟨rs, h10, h11⟩ := Ex.bind_ok.1 h8
      obtain ⟨h12, rfl⟩ := (recordInsts_ok _ _ _ _ _).1 h10
      cases h11
      refine ⟨is, rfl, h5, hK ▸ h12, ?_⟩
      unfold cgScope
      simp only [hi, Option.getD_some, rInsts_scope, List.map_map]
      rw [h3, h6]
      rfl
  · rintro ⟨is, hi, h5, h12, rfl⟩
    refine ⟨(tCps is, tCrs is), (foldlM_typeInst _ _ _).2 ⟨by rw [hi]; rfl, (foldlM_typeCross _ _ _).2 ⟨by rw [hi]; exact h5, by rw [hi]; rfl⟩⟩, ?_⟩
    have hres : ∀ x ∈ (tCrs is).map typeCrossObj, ∀ n ∈ x.coverpoints,
        ((register 0 [] (tCps is).keys).get? n).isSome = true := by
      intro x hx n hn
      obtain ⟨e, he, rfl⟩ := List.mem_map.1 hx
      obtain ⟨c, hc, hcp⟩ := mem_tCrs he
      have hn' : n ∈ c.coverpoints := hcp ▸ hn
      have hcm : c ∈ allCrs is := List.mem_of_find?_eq_some hc
      obtain ⟨i, hii, hci⟩ := List.mem_flatMap.1 hcm
      obtain ⟨pre, post, rfl⟩ := List.append_of_mem hii
      rcases (resolved_iff _ _).1 h12 pre i post rfl c hci n hn' with h | ⟨j, hj, h⟩
      · exact h.elim
      · rw [get?_register, if_pos]
        · rfl
        · unfold tCps
          rw [Dict.keys_aggregate, mem_firstSeen]
          unfold cpNames at h
          obtain ⟨cp, hcp, rfl⟩ := List.mem_map.1 h
          refine List.mem_map.2 ⟨cp, List.mem_flatMap.2 ⟨j, ?_, hcp⟩, rfl⟩
          simp at hj ⊢; tauto
    refine Ex.bind_ok.2 ⟨_, (Ex.mapM_iff (fun cr _ y => resolveCross_ok _ cr y) _).2 ⟨hres, rfl⟩, ?_⟩
    rw [hi]
    refine Ex.bind_ok.2 ⟨_, (recordInsts_ok _ _ _ _ _).2 ⟨hK ▸ h12, rfl⟩, ?_⟩
    unfold cgScope
    simp only [hi, Option.getD_some, rInsts_scope, List.map_map]
    rfl

end Yaml
end Verif
