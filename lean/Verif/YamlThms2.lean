import Verif.YamlThms
import Verif.ReportThms
/-!
# Theorems about YAML documents, continued: crosses, thresholds, bindings, covergroups without instances
-/

namespace Verif
namespace Yaml
open Spec Xml

/-! ## C43: crosses -/

def dsum (b : String) (d : Dict Int) : Int := ((d.filter (fun e => e.1 = b)).map (·.2)).sum

theorem dsum_set (b k : String) (c : Int) (d : Dict Int) :
    dsum b (d.set k ((d.get? k).getD 0 + c)) = dsum b d + (if k = b then c else 0) := by
  induction d with
  | nil => by_cases h : k = b <;> simp [dsum, Dict.set, h]
  | cons e t ih =>
    obtain ⟨a, v⟩ := e
    by_cases h : a = k
    · subst h
      by_cases hb : a = b
      · simp [dsum, Dict.set, Dict.get?, hb]; omega
      · simp [dsum, Dict.set, Dict.get?, hb]
    · by_cases hb : a = b
      · have h1 : dsum b ((a, v) :: t) = v + dsum b t := by simp [dsum, hb]
        have h2 : ∀ u, dsum b ((a, v) :: u) = v + dsum b u := by intro u; simp [dsum, hb]
        simp only [Dict.set, Dict.get?, if_neg h]
        rw [h2, h2, ih]; omega
      · have h2 : ∀ u, dsum b ((a, v) :: u) = dsum b u := by intro u; simp [dsum, hb]
        simp only [Dict.set, Dict.get?, if_neg h]
        rw [h2, h2, ih]

theorem dsum_crossAgg (b : String) (bs : List YBin) (d : Dict Int) : dsum b (crossAgg d bs) = dsum b d + sumNamed b bs := by
  induction bs generalizing d with
  | nil => simp [crossAgg, Dict.aggregate, sumNamed]
  | cons x t ih =>
    show dsum b (crossAgg (d.set x.name ((d.get? x.name).getD 0 + x.count)) t) = _
    rw [ih, dsum_set, sumNamed_cons]
    omega

theorem none_agg (cs : List YCross) (u t : TCross) (hu : u.bins = none)
    (h : Dict.aggVal crStep (some u) cs = some t) : t.bins = none := by
  induction cs generalizing u with
  | nil => cases h; exact hu
  | cons c l ih => exact ih (crStep (some u) c) (by simp [crStep, hu]) h

theorem items_cg_cross (g : YCg) (n : String) :
    ((kids ST.CROSS (cgScope g)).filter (fun s => s.name = n)).flatMap (·.items)
      = (((Dict.aggVal crStep none (occCrosses g n)).bind (·.bins)).getD []).map (fun b => mkBin b.1 CT.CVGBIN 1 b.2) := by
  rw [kids_cg_cross, List.filter_map]
  have h1 : ((fun s : Scope => decide (s.name = n)) ∘ fun e : String × TCross => recordCross (typeCrossObj e))
      = fun e => decide (e.1 = n) := rfl
  rw [h1, filter_keys _ (tCrs_nodup _), tCrs, Dict.get?_aggregate, Dict.get?_nil]
  have h2 : (allCrs (g.instances.getD [])).filter (fun x => x.name = n) = occCrosses g n := rfl
  rw [h2]
  cases Dict.aggVal crStep none (occCrosses g n) with
  | none => rfl
  | some t =>
    obtain ⟨c, b⟩ := t
    cases b <;> simp [recordCross, typeCrossObj, mkCross]

theorem some_agg (cs : List YCross) (u t : TCross) (d : Dict Int) (hu : u.bins = some d)
    (h : Dict.aggVal crStep (some u) cs = some t) : t.bins = some (crossAgg d (cs.flatMap (fun c => c.bins.getD []))) := by
  induction cs generalizing u d with
  | nil => cases h; exact hu
  | cons c l ih =>
    have h' : Dict.aggVal crStep (some (crStep (some u) c)) l = some t := h
    rw [ih (crStep (some u) c) (crossAgg d (c.bins.getD [])) (by simp [crStep, hu]) h', List.flatMap_cons]
    simp [crossAgg, Dict.aggregate, List.foldl_append]

/-- Bins of a type cross: those of the instances, aggregated by name. -/
theorem crossBins_agg {g : YCg} {is : List YInst} (hl : LoadableCg g is) (n : String) :
    ((Dict.aggVal crStep none (occCrosses g n)).bind (·.bins)).getD []
      = crossAgg [] ((occCrosses g n).flatMap (fun c => c.bins.getD [])) := by
  have hfind : (is.flatMap YInst.crs).find? (fun d => d.name = n) = (occCrosses g n).head? := by
    unfold occCrosses
    rw [List.head?_filter, hl.insts]
    rfl
  cases hocc : occCrosses g n with
  | nil => rfl
  | cons c l =>
    rw [hocc] at hfind
    have hagg : ∃ t, Dict.aggVal crStep none (c :: l) = some t := by
      show ∃ t, Dict.aggVal crStep (some (crStep none c)) l = some t
      generalize crStep none c = u
      clear hfind hocc
      induction l generalizing u with
      | nil => exact ⟨u, rfl⟩
      | cons a l ih => exact ih (crStep (some u) a)
    obtain ⟨t, ht⟩ := hagg
    have ht' : Dict.aggVal crStep (some (crStep none c)) l = some t := ht
    rw [ht]
    show t.bins.getD [] = _
    cases hb : c.bins with
    | some bs =>
      rw [some_agg l _ t (crossAgg [] bs) (by simp [crStep, hb]) ht', List.flatMap_cons, hb]
      simp [crossAgg, Dict.aggregate, List.foldl_append]
    | none =>
      rw [none_agg l _ t (by simp [crStep, hb]) ht']
      have hz : ∀ x ∈ c :: l, x.bins.getD [] = [] := by
        intro x hx
        by_contra hne
        have hxo : x ∈ occCrosses g n := hocc ▸ hx
        unfold occCrosses at hxo
        obtain ⟨hxm, hxn⟩ := List.mem_filter.1 hxo
        rw [hl.insts] at hxm
        have hxn' : x.name = n := by simpa using hxn
        exact hl.lists x hxm hne c (by rw [hxn', hfind]; rfl) hb
      have : (c :: l).flatMap (fun c => c.bins.getD []) = [] := List.flatMap_eq_nil_iff.2 hz
      rw [this]
      rfl

theorem typeCount_cross {g : YCg} {is : List YInst} (hl : LoadableCg g is) (n b : String) :
    typeCount (cgScope g) ST.CROSS n CT.CVGBIN b = docCrossCount g n b := by
  have h1 : typeCount (cgScope g) ST.CROSS n CT.CVGBIN b
      = dsum b (((Dict.aggVal crStep none (occCrosses g n)).bind (·.bins)).getD []) := by
    unfold typeCount dsum
    rw [items_cg_cross, List.filter_map, List.map_map]
    congr 2
    apply List.filter_congr
    intro x _
    simp only [Function.comp]
    rw [decide_eq_decide]
    simp [mkBin]
  rw [h1, crossBins_agg hl, dsum_crossAgg]
  unfold docCrossCount
  simp [dsum, sumNamed]

/-- **C43** for crosses, in full: at type level the count of every bin of a cross is the sum of its counts in
the instances. -/
theorem C43_cross_sums {j : Json} {d : YDoc} (hs : Says j d) {db : Database} (h : load j = .ok db) {k : Nat} {g : YCg} {s : Scope}
    (hg : (docGroups d)[k]? = some g) (hsc : (allCovergroups db.root)[k]? = some s) (n b : String) :
    typeCount s ST.CROSS n CT.CVGBIN b = docCrossCount g n b ∧ ∀ kind ≠ CT.CVGBIN, typeCount s ST.CROSS n kind b = 0 := by
  obtain ⟨rfl, is, hl⟩ := group_of_load hs h hg hsc
  refine ⟨typeCount_cross hl n b, ?_⟩
  intro kind hk
  unfold typeCount
  rw [items_cg_cross, List.filter_eq_nil_iff.2]
  · rfl
  · intro i hi
    obtain ⟨x, _, rfl⟩ := List.mem_map.1 hi
    have : ¬ CT.CVGBIN = kind := fun e => hk e.symm
    simp [mkBin, this]

/-- Type-level coverpoints and crosses bear the names of the instances' ones, each once, in the order
of their first occurrence. -/
theorem C43_type_names {j : Json} {d : YDoc} (hs : Says j d) {db : Database} (h : load j = .ok db) {k : Nat} {g : YCg} {s : Scope}
    (hg : (docGroups d)[k]? = some g) (hsc : (allCovergroups db.root)[k]? = some s) :
    (kids ST.COVERPOINT s).map (·.name) = firstSeen (((g.instances.getD []).flatMap YInst.cps).map (·.name)) ∧
    (kids ST.CROSS s).map (·.name) = firstSeen (((g.instances.getD []).flatMap YInst.crs).map (·.name)) := by
  obtain ⟨rfl, _⟩ := group_of_load hs h hg hsc
  rw [kids_cg_cp, kids_cg_cross, List.map_map, List.map_map]
  exact ⟨Dict.keys_aggregate (fun c : YCp => c.name) cpStep _, Dict.keys_aggregate (fun c : YCross => c.name) crStep _⟩

/-! ## C44: thresholds -/

/-- Full statement of C44 for the type level of one covergroup. -/
def _root_.Verif.Spec.ThresholdsApply (g : YCg) (s : Scope) : Prop :=
  (∀ c ∈ (g.instances.getD []).flatMap YInst.cps, ∀ t ∈ kids ST.COVERPOINT s, t.name = c.name →
    ∀ i ∈ t.items, i.atLeast = some (c.atleast.getD 1)) ∧
  (∀ c ∈ (g.instances.getD []).flatMap YInst.crs, ∀ t ∈ kids ST.CROSS s, t.name = c.name →
    ∀ i ∈ t.items, i.atLeast = some (c.atleast.getD 1))

/-- At type level every threshold is 1. -/
theorem C44_type_thresholds_one {j : Json} {d : YDoc} (hs : Says j d) {db : Database} (h : load j = .ok db) {k : Nat} {g : YCg} {s : Scope}
    (hg : (docGroups d)[k]? = some g) (hsc : (allCovergroups db.root)[k]? = some s) :
    ∀ t ∈ kids ST.COVERPOINT s ++ kids ST.CROSS s, ∀ i ∈ t.items, i.atLeast = some 1 := by
  obtain ⟨rfl, _⟩ := group_of_load hs h hg hsc
  rw [kids_cg_cp, kids_cg_cross]
  intro t ht i hi
  rcases List.mem_append.1 ht with ht | ht
  · obtain ⟨e, _, rfl⟩ := List.mem_map.1 ht
    simp only [recordCp, typeCpObj, mkCoverpoint, cpItems, Option.getD_none, List.map_nil, List.append_nil, List.mem_map] at hi
    obtain ⟨b, _, rfl⟩ := hi
    rfl
  · obtain ⟨e, _, rfl⟩ := List.mem_map.1 ht
    simp only [recordCross, typeCrossObj, mkCross, Option.getD_none, List.mem_map] at hi
    obtain ⟨b, _, rfl⟩ := hi
    rfl

/-- **C44** when the document gives no threshold other than 1. -/
theorem C44_thresholds_partial {j : Json} {d : YDoc} (hs : Says j d) {db : Database} (h : load j = .ok db) {k : Nat} {g : YCg} {s : Scope}
    (hg : (docGroups d)[k]? = some g) (hsc : (allCovergroups db.root)[k]? = some s)
    (h1 : ∀ c ∈ (g.instances.getD []).flatMap YInst.cps, c.atleast.getD 1 = 1)
    (h2 : ∀ c ∈ (g.instances.getD []).flatMap YInst.crs, c.atleast.getD 1 = 1) : ThresholdsApply g s := by
  have hall := C44_type_thresholds_one hs h hg hsc
  exact ⟨fun c hc t ht _ i hi => by rw [h1 c hc]; exact hall t (List.mem_append_left _ ht) i hi,
    fun c hc t ht _ i hi => by rw [h2 c hc]; exact hall t (List.mem_append_right _ ht) i hi⟩

/-! ## C45: bindings of crosses -/

/-- `known` maps a name to the ordinal of the last instance of `pre` with a coverpoint of that name. -/
def Latest (known : Dict Nat) (pre : List YInst) : Prop :=
  ∀ n v, known.get? n = some v ↔ ∃ m i, v = m + 1 ∧ pre[m]? = some i ∧ n ∈ cpNames i ∧
    ∀ m' i', m < m' → pre[m']? = some i' → n ∉ cpNames i'

theorem latest_nil : Latest [] [] := by
  intro n v
  constructor
  · intro h; cases h
  · rintro ⟨m, i, _, h, _⟩; simp at h

theorem latest_step {known : Dict Nat} {pre : List YInst} (h : Latest known pre) (i : YInst) :
    Latest (register (pre.length + 1) known (cpNames i)) (pre ++ [i]) := by
  intro n v
  rw [get?_register]
  by_cases hn : n ∈ cpNames i
  · rw [if_pos hn]
    constructor
    · intro e
      cases e
      refine ⟨pre.length, i, rfl, by simp, hn, fun m' i' hlt hm => ?_⟩
      have := (List.getElem?_eq_some_iff.1 hm).1
      simp at this; omega
    · rintro ⟨m, i', rfl, hm, _, hlast⟩
      by_cases hlt : m < pre.length
      · exact (hlast pre.length i hlt (by simp) hn).elim
      · have := (List.getElem?_eq_some_iff.1 hm).1
        simp at this
        have : m = pre.length := by omega
        rw [this]
  · rw [if_neg hn, h n v]
    constructor
    · rintro ⟨m, j, rfl, hm, hj, hlast⟩
      have hlt := (List.getElem?_eq_some_iff.1 hm).1
      refine ⟨m, j, rfl, by rw [List.getElem?_append_left hlt]; exact hm, hj, fun m' i' hl hm' => ?_⟩
      by_cases hlt' : m' < pre.length
      · rw [List.getElem?_append_left hlt'] at hm'
        exact hlast m' i' hl hm'
      · have := (List.getElem?_eq_some_iff.1 hm').1
        simp at this
        have : m' = pre.length := by omega
        subst this
        simp at hm'
        exact hm' ▸ hn
    · rintro ⟨m, j, rfl, hm, hj, hlast⟩
      by_cases hlt : m < pre.length
      · rw [List.getElem?_append_left hlt] at hm
        refine ⟨m, j, rfl, hm, hj, fun m' i' hl hm' => ?_⟩
        have hlt' := (List.getElem?_eq_some_iff.1 hm').1
        exact hlast m' i' hl (by rw [List.getElem?_append_left hlt']; exact hm')
      · have := (List.getElem?_eq_some_iff.1 hm).1
        simp at this
        have : m = pre.length := by omega
        subst this
        simp at hm
        exact (hn (hm ▸ hj)).elim

theorem rInsts_bound (w : Int) (is pre : List YInst) (known : Dict Nat) (hk : Latest known pre) (k : Nat) (i : YInst)
    (hi : is[k]? = some i) :
    ∃ known', Latest known' (pre ++ is.take (k + 1)) ∧
      ((rInsts w (pre.length + 1) known is).map (·.bound))[k]? = some (binds known' i) := by
  induction is generalizing pre known k with
  | nil => simp at hi
  | cons a t ih =>
    have hs := latest_step hk a
    cases k with
    | zero =>
      simp only [List.getElem?_cons_zero, Option.some.injEq] at hi
      subst hi
      exact ⟨_, by simpa using hs, by simp [rInsts]⟩
    | succ k =>
      simp only [List.getElem?_cons_succ] at hi
      obtain ⟨known', h1, h2⟩ := ih (pre ++ [a]) _ hs k hi
      refine ⟨known', by simpa using h1, ?_⟩
      simp only [List.length_append, List.length_cons, List.length_nil] at h2
      simpa [rInsts] using h2

/-- **C45** exact behaviour: a crossed name is bound to the coverpoint of the last instance, up to and
including its own one, that has a coverpoint of that name.  (`bound` lists, per instance and
cross, the ordinals of the instances the crossed coverpoints belong to.) -/
theorem C45_bindings {g : YCg} {s : Scope} {bound : List (List (List Nat))} (h : processCg' g = .ok (s, bound)) {k : Nat} {i : YInst}
    (hi : (g.instances.getD [])[k]? = some i) :
    ∃ f : String → Nat, bound[k]? = some ((YInst.crs i).map (fun c => c.coverpoints.map f)) ∧
      ∀ c ∈ YInst.crs i, ∀ n ∈ c.coverpoints, ∃ m i', f n = m + 1 ∧ m ≤ k ∧ (g.instances.getD [])[m]? = some i' ∧
        n ∈ (YInst.cps i').map (·.name) ∧
        ∀ m' i'', m < m' → m' ≤ k → (g.instances.getD [])[m']? = some i'' → n ∉ (YInst.cps i'').map (·.name) := by
  obtain ⟨is, h1, h2, h3, e⟩ := (processCg'_ok g _).1 h
  cases e
  rw [h1, Option.getD_some] at hi
  obtain ⟨known', hl, hb⟩ := rInsts_bound (g.weight.getD 1) is [] [] latest_nil k i hi
  refine ⟨fun n => (known'.get? n).getD 0, hb, fun c hc n hn => ?_⟩
  simp only [List.nil_append] at hl
  have hklt := (List.getElem?_eq_some_iff.1 hi).1
  have htake : ∀ m, m ≤ k → (is.take (k + 1))[m]? = is[m]? := fun m hm => List.getElem?_take_of_lt (by omega)
  have hex : ∃ j ∈ is.take (k + 1), n ∈ cpNames j := by
    have hsplit : is = is.take k ++ i :: is.drop (k + 1) := by
      have e1 : is[k] = i := (List.getElem?_eq_some_iff.1 hi).2
      have := (List.take_append_drop k is).symm
      rw [List.drop_eq_getElem_cons hklt, e1] at this
      exact this
    rcases (resolved_iff _ _).1 h3 _ _ _ hsplit c hc n hn with hf | ⟨j, hj, hjn⟩
    · exact hf.elim
    · refine ⟨j, ?_, hjn⟩
      have : is.take (k + 1) = is.take k ++ [i] := by
        rw [List.take_add_one, hi]; rfl
      rw [this]; exact hj
  have hsome : ∃ v, known'.get? n = some v := by
    by_contra hcon
    have hnone : known'.get? n = none := by
      cases hk : known'.get? n with
      | none => rfl
      | some v => exact (hcon ⟨v, hk⟩).elim
    -- the last holder exists
    have key : ∀ l : List YInst, Latest known' l → (∃ j ∈ l, n ∈ cpNames j) → False := by
      intro l hl' ⟨j, hj, hjn⟩
      obtain ⟨m, hm⟩ := List.getElem?_of_mem hj
      have : ∃ (m : Nat) (i' : YInst), l[m]? = some i' ∧ n ∈ cpNames i' ∧ ∀ (m' : Nat) (i'' : YInst), m < m' → l[m']? = some i'' → n ∉ cpNames i'' := by
        classical
        let P : Nat → Prop := fun r => ∃ i', l[l.length - r]? = some i' ∧ n ∈ cpNames i'
        have hlm := (List.getElem?_eq_some_iff.1 hm).1
        have hP : ∃ r, P r := ⟨l.length - m, j, by rw [show l.length - (l.length - m) = m by omega]; exact hm, hjn⟩
        obtain ⟨i', hi', hn'⟩ := Nat.find_spec hP
        refine ⟨l.length - Nat.find hP, i', hi', hn', fun m' i'' hlt hm' hn'' => ?_⟩
        have hlm' := (List.getElem?_eq_some_iff.1 hm').1
        have hlr := (List.getElem?_eq_some_iff.1 hi').1
        have hle : Nat.find hP ≤ l.length - m' := Nat.find_min' hP ⟨i'', by rw [show l.length - (l.length - m') = m' by omega]; exact hm', hn''⟩
        omega
      obtain ⟨m, i', h1, h2, h3⟩ := this
      have := (hl' n (m + 1)).2 ⟨m, i', rfl, h1, h2, h3⟩
      rw [hnone] at this; cases this
    exact key _ hl hex
  obtain ⟨v, hv⟩ := hsome
  obtain ⟨m, i', rfl, hm, hmn, hlast⟩ := (hl n v).1 hv
  have hmk : m ≤ k := by
    have := (List.getElem?_eq_some_iff.1 hm).1
    simp only [List.length_take] at this
    omega
  rw [h1, Option.getD_some]
  refine ⟨m, i', by simp [hv], hmk, by rw [← htake m hmk]; exact hm, hmn, fun m' i'' hlt hle hm' => ?_⟩
  exact hlast m' i'' hlt (by rw [htake m' hle]; exact hm')

/-- **C45** when every cross names coverpoints of its own instance: it is bound to these. -/
theorem C45_own_instance_partial {g : YCg} {s : Scope} {bound : List (List (List Nat))} (h : processCg' g = .ok (s, bound)) {k : Nat}
    {i : YInst} (hi : (g.instances.getD [])[k]? = some i)
    (hown : ∀ c ∈ YInst.crs i, ∀ n ∈ c.coverpoints, n ∈ (YInst.cps i).map (·.name)) :
    bound[k]? = some ((YInst.crs i).map (fun c => c.coverpoints.map (fun _ => k + 1))) := by
  obtain ⟨f, hf, hb⟩ := C45_bindings h hi
  rw [hf]
  congr 1
  apply List.map_congr_left
  intro c hc
  apply List.map_congr_left
  intro n hn
  obtain ⟨m, i', e, hmk, _, _, hlast⟩ := hb c hc n hn
  rw [e]
  by_contra hne
  exact hlast k i (by omega) (le_refl k) hi (hown c hc n hn)

/-! ## C46: covergroups without instances -/

/-- **C46** is false for every document: a covergroup without instances makes loading fail. -/
theorem C46_no_instances_refuted {j : Json} {d : YDoc} (hs : Says j d) (h : ∃ g ∈ docGroups d, g.instances = none) :
    ¬ ∃ db, load j = .ok db := by
  rintro ⟨db, hl⟩
  obtain ⟨g, hg, hi⟩ := h
  obtain ⟨is, h1⟩ := ((load_says hs db).1 hl).1.2 g hg
  have := h1.insts
  rw [hi] at this
  cases this

/-! ## C73: reports of loaded documents -/

theorem groupForest_append (l m : List Scope) : groupForest (l ++ m) = groupForest l ++ groupForest m := by
  induction l with
  | nil => simp [groupForest]
  | cons a t ih =>
    rw [List.cons_append, groupForest, groupForest, ih]
    split <;> simp

theorem groupForest_none {l : List Scope} (h : ∀ s ∈ l, maskHit s.stype ST.COVERINSTANCE = false) : groupForest l = [] := by
  induction l with
  | nil => rw [groupForest]
  | cons a t ih => rw [groupForest, if_neg (by simp [h a (by simp)]), ih (fun s hs => h s (by simp [hs]))]

theorem groupTree_eq (s : Scope) : groupTree s = s :: groupForest s.children := by
  obtain ⟨ty, n, src, w, du, cps, ch, it⟩ := s
  rw [groupTree]

theorem groupTree_inst (w : Int) (i : YInst) : groupTree (instScope w i) = [instScope w i] := by
  rw [groupTree_eq]
  congr 1
  apply groupForest_none
  intro s hs
  rcases List.mem_append.1 hs with hs | hs
  · obtain ⟨c, _, rfl⟩ := List.mem_map.1 hs
    exact cp_type (by decide)
  · obtain ⟨c, _, rfl⟩ := List.mem_map.1 hs
    exact cross_type (by decide)

theorem groupForest_insts (w : Int) (is : List YInst) : groupForest (is.map (instScope w)) = is.map (instScope w) := by
  induction is with
  | nil => simp [groupForest]
  | cons a t ih =>
    rw [List.map_cons, groupForest, if_pos (inst_type (by decide)), groupTree_inst, ih]
    rfl

theorem groupTree_cg (g : YCg) :
    groupTree (cgScope g) = cgScope g :: (g.instances.getD []).map (instScope (g.weight.getD 1)) := by
  rw [groupTree_eq]
  congr 1
  show groupForest (_ ++ _ ++ _) = _
  rw [groupForest_append, groupForest_append, groupForest_none, groupForest_none, groupForest_insts]
  · rfl
  · intro s hs
    obtain ⟨c, _, rfl⟩ := List.mem_map.1 hs
    exact cross_type (by decide)
  · intro s hs
    obtain ⟨c, _, rfl⟩ := List.mem_map.1 hs
    exact cp_type (by decide)

theorem set_recordCp (c : YCp) : ∀ i ∈ (recordCp c).items, i.atLeast ≠ none := by
  intro i hi
  have hi' : i ∈ cpItems (c.atleast.getD 1) c.bins c.ignorebins c.illegalbins := hi
  simp only [cpItems, List.mem_append, List.mem_map] at hi'
  rcases hi' with (⟨_, _, rfl⟩ | ⟨_, _, rfl⟩) | ⟨_, _, rfl⟩ <;> simp [mkBin]

theorem set_recordCross (c : YCross) : ∀ i ∈ (recordCross c).items, i.atLeast ≠ none := by
  intro i hi
  simp only [recordCross, mkCross, List.mem_map] at hi
  obtain ⟨_, _, rfl⟩ := hi
  simp [mkBin]

/-- Every bin of a loaded document has a threshold. -/
theorem thresholdsSet_loaded (gs : List YCg) : ThresholdsSet (loadedDb (gs.map cgScope)).root := by
  intro s hs
  have hk : (∀ c ∈ kids ST.COVERPOINT s, ∃ x, c = recordCp x) ∧ ∀ c ∈ kids ST.CROSS s, ∃ x, c = recordCross x := by
    unfold reportedGroups at hs
    rw [allCovergroups_loaded] at hs
    obtain ⟨c, hc, hs⟩ := List.mem_flatMap.1 hs
    obtain ⟨g, _, rfl⟩ := List.mem_map.1 hc
    rw [groupTree_cg] at hs
    rcases List.mem_cons.1 hs with rfl | hs
    · rw [kids_cg_cp, kids_cg_cross]
      exact ⟨fun c hc => by obtain ⟨e, _, rfl⟩ := List.mem_map.1 hc; exact ⟨_, rfl⟩,
        fun c hc => by obtain ⟨e, _, rfl⟩ := List.mem_map.1 hc; exact ⟨_, rfl⟩⟩
    · obtain ⟨i, _, rfl⟩ := List.mem_map.1 hs
      rw [kids_inst_cp, kids_inst_cross]
      exact ⟨fun c hc => by obtain ⟨e, _, rfl⟩ := List.mem_map.1 hc; exact ⟨_, rfl⟩,
        fun c hc => by obtain ⟨e, _, rfl⟩ := List.mem_map.1 hc; exact ⟨_, rfl⟩⟩
  refine ⟨fun c hc k _ i hi => ?_, fun c hc i hi => ?_⟩
  · obtain ⟨x, rfl⟩ := hk.1 c hc
    exact set_recordCp x i (List.mem_filter.1 hi).1
  · obtain ⟨x, rfl⟩ := hk.2 c hc
    exact set_recordCross x i (List.mem_filter.1 hi).1

/-- **C73.** A coverage report of a loaded document exists exactly when the weights of its covergroups (1 where none
is given) do not add up to zero. -/
theorem C73_report_of_yaml {j : Json} {d : YDoc} (hs : Says j d) {db : Database} (h : load j = .ok db) (rd : Rat → Rat) :
    (∃ r, Report.build rd db.root = .ok r) ↔ ((docGroups d).map (fun g => g.weight.getD 1)).sum ≠ 0 := by
  obtain ⟨_, rfl⟩ := (load_says hs db).1 h
  rw [(C22_report_error_iff rd _ (thresholdsSet_loaded _)).2, kids_inst]
  simp only [List.forall_mem_singleton, kids_defaultInst, weightSum, List.map_map]
  rfl

end Yaml
end Verif
