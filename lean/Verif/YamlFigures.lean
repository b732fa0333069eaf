import Verif.YamlThms2
import Verif.XmlFigures
import Verif.PipeYaml
/-!
# The report on a YAML file, computed from the document

The chain of the YAML reader (`yaml_reader.py:62-350`) and the report builder
(`coverage_report_builder.py:19-158`): every line and every figure of the report is stated by a small
calculation on the document itself.
-/

namespace Verif
namespace Spec
open Report (RBin RCp RCross RCg)
open Yaml (YBin YCp YCross YInst YCg YDoc)

/-- Percentage of bins whose count reaches `t`; 0 without bins. -/
def percentReached (t : Int) (l : List YBin) : Rat :=
  if l = [] then 0 else 100 * ((l.filter (fun b => t ≤ b.count)).length : Rat) / (l.length : Rat)

/-- Bins as listed in a report, with a figure beside each. -/
def shown (t : Int) (l : List YBin) : List RBin := l.map (fun b => ⟨b.name, t, b.count⟩)

/-- Report on a coverpoint: the share of its ordinary bins that reach its threshold (1 if none is given). -/
def yamlPoint (c : YCp) : RCp :=
  let t := c.atleast.getD 1
  ⟨c.name, percentReached t c.bins, 1, shown t c.bins, shown t (c.ignorebins.getD []), shown t (c.illegalbins.getD [])⟩

/-- Report on a cross: as for coverpoints, but its bins are listed with 1, whatever the threshold is. -/
def yamlCross (c : YCross) : RCross :=
  ⟨c.name, percentReached (c.atleast.getD 1) (c.bins.getD []), 1, shown 1 (c.bins.getD [])⟩

/-- Report on a covergroup or one of its instances: the average over coverpoints and crosses. -/
def yamlGroup (n : String) (w : Int) (cps : List YCp) (crs : List YCross) (sub : List RCg) : RCg :=
  ⟨n, n, average (cps.map (fun c => (yamlPoint c).coverage) ++ crs.map (fun c => (yamlCross c).coverage)), w,
    cps.map yamlPoint, crs.map yamlCross, sub⟩

/-- The bins of a coverpoint in the order in which they are counted for the covergroup; ordinary bins
are marked `true`. -/
def marked (c : YCp) : List (Bool × YBin) :=
  c.bins.map (fun b => (true, b)) ++ (c.ignorebins.getD []).map (fun b => (false, b)) ++ (c.illegalbins.getD []).map (fun b => (false, b))

/-- Counts of the ordinary bins of a name. -/
def later (n : String) (l : List (Bool × YBin)) : Int := ((l.filter (fun e => e.1 ∧ e.2.name = n)).map (·.2.count)).sum

/-- Bins on the level of the covergroup.  The first bin of a name, of whatever kind, collects all
ordinary bins of that name that follow; every further ignore or illegal bin of that name is a bin of
its own. -/
def collected (seen : List String) : List (Bool × YBin) → List YBin
  | [] => []
  | (k, b) :: t =>
    if b.name ∈ seen then (if k then collected seen t else b :: collected seen t)
    else ⟨b.name, b.count + later b.name t⟩ :: collected (b.name :: seen) t

/-- The coverpoints on the level of the covergroup: one for each name, without threshold, with
ordinary bins only. -/
def typePoints (l : List YCp) : List YCp :=
  (distinct (l.map (·.name))).map (fun n => ⟨n, none, collected [] ((l.filter (fun c => c.name = n)).flatMap marked), none, none⟩)

/-- Sum of the counts of the bins of a name, for each name. -/
def summed (l : List YBin) : List YBin :=
  (distinct (l.map (·.name))).map (fun n => ⟨n, ((l.filter (fun b => b.name = n)).map (·.count)).sum⟩)

/-- The crosses on the level of the covergroup: one for each name, without threshold. -/
def typeCrosses (l : List YCross) : List YCross :=
  (distinct (l.map (·.name))).map (fun n => ⟨n, none, [], some (summed ((l.filter (fun c => c.name = n)).flatMap (fun c => c.bins.getD [])))⟩)

/-- Report on a covergroup of a document. -/
def yamlLine (g : YCg) : RCg :=
  let is := g.instances.getD []
  yamlGroup g.name (g.weight.getD 1) (typePoints (is.flatMap YInst.cps)) (typeCrosses (is.flatMap YInst.crs))
    (is.map (fun i => yamlGroup i.name (g.weight.getD 1) (YInst.cps i) (YInst.crs i) []))

/-- The covergroups of a report on a document. -/
def yamlLines (d : YDoc) : List RCg := (docGroups d).map yamlLine

/-- The overall figure: the figures of the covergroups of positive weight, weighted, over the sum of
all weights. -/
def yamlTotal (d : YDoc) : Rat :=
  (((yamlLines d).filter (fun l => 0 < l.weight)).map (fun l => l.coverage * (l.weight : Rat))).sum
    / (((yamlLines d).map (·.weight)).sum : Int)

/-- At most `K` covergroups, and no covergroup has more than `K` coverpoints and crosses; the weights
are not negative and add up to at most `2^53`. -/
structure YamlSize (K : Nat) (d : YDoc) : Prop where
  groups : (docGroups d).length ≤ K
  parts : ∀ l ∈ yamlLines d, ∀ g ∈ l :: l.covergroups, g.coverpoints.length + g.crosses.length ≤ K
  weights : ∀ l ∈ yamlLines d, 0 ≤ l.weight
  weightSum : ((yamlLines d).map (·.weight)).sum ≤ 2 ^ 53

end Spec

namespace Yaml
open Spec
open Report (RBin RCp RCross RCg Rpt pCross pCg groupCov groupCoverage pCg_eq)

/-! ## Type-level bins -/

/-- One bin. -/
def mStep (l : List YBin) (e : Bool × YBin) : List YBin := if e.1 then addBin l e.2 else addOther l e.2

theorem cpStep_marked (o : Option (List YBin)) (c : YCp) : cpStep o c = (marked c).foldl mStep (o.getD []) := by
  unfold cpStep marked
  rw [List.foldl_append, List.foldl_append, List.foldl_map, List.foldl_map, List.foldl_map]
  rfl

theorem agg_marked (cs : List YCp) (o : Option (List YBin)) :
    (Dict.aggVal cpStep o cs).getD [] = (cs.flatMap marked).foldl mStep (o.getD []) := by
  induction cs generalizing o with
  | nil => rfl
  | cons c t ih =>
    show (Dict.aggVal cpStep (some (cpStep o c)) t).getD [] = _
    rw [ih, List.flatMap_cons, List.foldl_append, cpStep_marked]
    rfl

/-- Bins already collected, after more bins. -/
def bumped (seen : List String) (es : List (Bool × YBin)) : List YBin → List YBin
  | [] => []
  | a :: r => (if a.name ∈ seen then a else ⟨a.name, a.count + later a.name es⟩) :: bumped (a.name :: seen) es r

theorem later_cons (n : String) (e : Bool × YBin) (t : List (Bool × YBin)) :
    later n (e :: t) = (if e.1 = true ∧ e.2.name = n then e.2.count else 0) + later n t := by
  unfold later
  by_cases h : e.1 = true ∧ e.2.name = n
  · simp [h]
  · simp [h]

theorem bumped_congr (s s' : List String) (es : List (Bool × YBin)) (l : List YBin) (h : ∀ n, n ∈ s ↔ n ∈ s') :
    bumped s es l = bumped s' es l := by
  induction l generalizing s s' with
  | nil => rfl
  | cons a r ih =>
    simp only [bumped, h]
    rw [ih (a.name :: s) (a.name :: s') (by intro n; simp [h])]

theorem collected_congr (s s' : List String) (es : List (Bool × YBin)) (h : ∀ n, n ∈ s ↔ n ∈ s') :
    collected s es = collected s' es := by
  induction es generalizing s s' with
  | nil => rfl
  | cons e t ih =>
    obtain ⟨k, b⟩ := e
    simp only [collected, h]
    rw [ih s s' h, ih (b.name :: s) (b.name :: s') (by intro n; simp [h])]

theorem bumped_append (s : List String) (es : List (Bool × YBin)) (l : List YBin) (b : YBin) :
    bumped s es (l ++ [b]) = bumped s es l ++ [if b.name ∈ s ∨ b.name ∈ l.map (·.name) then b else ⟨b.name, b.count + later b.name es⟩] := by
  induction l generalizing s with
  | nil => simp [bumped]
  | cons a r ih =>
    simp only [List.cons_append, bumped, ih]
    congr 3
    by_cases h1 : b.name = a.name <;> simp [h1]

/-- A bin that no earlier bin of its name collects changes nothing. -/
theorem bumped_irrelevant (s : List String) (e : Bool × YBin) (es : List (Bool × YBin)) (l : List YBin)
    (h : e.1 = true → e.2.name ∈ s ∨ e.2.name ∉ l.map (·.name)) : bumped s (e :: es) l = bumped s es l := by
  induction l generalizing s with
  | nil => rfl
  | cons a r ih =>
    simp only [bumped]
    rw [ih]
    · congr 1
      by_cases ha : a.name ∈ s
      · rw [if_pos ha, if_pos ha]
      · rw [if_neg ha, if_neg ha, later_cons, if_neg, zero_add]
        rintro ⟨h1, h2⟩
        rcases h h1 with h3 | h3
        · exact ha (h2 ▸ h3)
        · exact h3 (by simp [h2])
    · intro h1
      rcases h h1 with h3 | h3
      · exact .inl (List.mem_cons_of_mem _ h3)
      · right; intro hc; exact h3 (by simpa using .inr (by simpa using hc))

theorem addBin_new (l : List YBin) (b : YBin) (h : b.name ∉ l.map (·.name)) : addBin l b = l ++ [b] := by
  induction l with
  | nil => simp [addBin]
  | cons a r ih =>
    simp only [List.map_cons, List.mem_cons, not_or] at h
    simp only [addBin, List.cons_append]
    rw [if_neg (fun e => h.1 e.symm), ih h.2]

theorem addBin_names (l : List YBin) (b : YBin) (h : b.name ∈ l.map (·.name)) : (addBin l b).map (·.name) = l.map (·.name) := by
  induction l with
  | nil => cases h
  | cons a r ih =>
    simp only [addBin]
    split
    · rfl
    · rename_i hne
      simp only [List.map_cons, List.mem_cons] at h
      rcases h with h | h
      · exact absurd h.symm hne
      · rw [List.map_cons, ih h]; rfl

theorem addBin_bumped (s : List String) (es : List (Bool × YBin)) (l : List YBin) (b : YBin) (hs : b.name ∉ s)
    (h : b.name ∈ l.map (·.name)) : bumped s es (addBin l b) = bumped s ((true, b) :: es) l := by
  induction l generalizing s with
  | nil => cases h
  | cons a r ih =>
    simp only [addBin]
    split
    · rename_i he
      have ha : a.name ∉ s := he ▸ hs
      have : bumped (a.name :: s) ((true, b) :: es) r = bumped (a.name :: s) es r :=
        bumped_irrelevant _ _ _ _ (fun _ => .inl (by simp [he]))
      simp only [bumped, if_neg ha, this]
      congr 2
      rw [later_cons, if_pos ⟨rfl, he.symm⟩]
      simp only
      omega
    · rename_i hne
      have hm : b.name ∈ r.map (·.name) := by
        simp only [List.map_cons, List.mem_cons] at h
        exact h.resolve_left (fun e => hne e.symm)
      simp only [bumped]
      rw [ih _ (by simp only [List.mem_cons, not_or]; exact ⟨fun e => hne e.symm, hs⟩) hm, later_cons,
        if_neg (c := (true, b).1 = true ∧ (true, b).2.name = a.name) (fun e => hne e.2.symm), zero_add]

theorem fold_marked (es : List (Bool × YBin)) (acc : List YBin) :
    es.foldl mStep acc = bumped [] es acc ++ collected (acc.map (·.name)) es := by
  induction es generalizing acc with
  | nil =>
    have : ∀ (s : List String) (l : List YBin), bumped s [] l = l := by
      intro s l
      induction l generalizing s with
      | nil => rfl
      | cons a r ih => simp [bumped, ih, later]
    simp [this, collected]
  | cons e t ih =>
    obtain ⟨k, b⟩ := e
    rw [List.foldl_cons, ih]
    by_cases hm : b.name ∈ acc.map (·.name)
    · cases k with
      | true =>
        simp only [mStep, if_true, collected, if_pos hm]
        rw [addBin_bumped [] t acc b (by simp) hm, addBin_names _ _ hm]
      | false =>
        have e1 : mStep acc (false, b) = acc ++ [b] := by simp [mStep, addOther]
        rw [e1, bumped_append, if_pos (.inr hm), bumped_irrelevant [] (false, b) t acc (by simp)]
        simp only [collected, if_pos hm]
        rw [List.append_assoc, List.map_append]
        rw [collected_congr _ (acc.map (·.name)) t (by intro n; simp; rintro rfl; simpa using hm)]
        simp
    · have e1 : mStep acc (k, b) = acc ++ [b] := by
        cases k
        · simp [mStep, addOther]
        · simp only [mStep, if_true]; exact addBin_new _ _ hm
      rw [e1, bumped_append, if_neg (by simp only [List.not_mem_nil, false_or]; exact hm), bumped_irrelevant [] (k, b) t acc (fun _ => .inr hm)]
      simp only [collected, if_neg hm]
      rw [List.append_assoc, List.map_append, collected_congr _ (b.name :: acc.map (·.name)) t (by intro n; simp only [List.mem_append, List.map_cons, List.map_nil, List.mem_cons, List.not_mem_nil, or_false]; exact or_comm)]
      rfl

theorem typeBins_closed (cs : List YCp) : (Dict.aggVal cpStep none cs).getD [] = collected [] (cs.flatMap marked) := by
  rw [agg_marked, fold_marked]
  rfl

theorem aggVal_cons {α β : Type} (step : Option α → β → α) (c : β) (cs : List β) : ∃ v, Dict.aggVal step none (c :: cs) = some v := by
  show ∃ t, Dict.aggVal step (some (step none c)) cs = some t
  generalize step none c = u
  induction cs generalizing u with
  | nil => exact ⟨u, rfl⟩
  | cons a l ih => exact ih (step (some u) a)

theorem aggVal_mem {α β : Type} {key : β → String} (step : Option α → β → α) {xs : List β} {k : String} (h : k ∈ xs.map key) :
    ∃ v, Dict.aggVal step none (xs.filter (fun x => key x = k)) = some v := by
  cases hf : xs.filter (fun x => key x = k) with
  | nil =>
    obtain ⟨c, hc, rfl⟩ := List.mem_map.1 h
    rw [List.filter_eq_nil_iff] at hf
    exact absurd (decide_eq_true rfl) (hf c hc)
  | cons a t => exact aggVal_cons _ _ _

theorem tCps_closed (is : List YInst) : (tCps is).map typeCpObj = typePoints (is.flatMap YInst.cps) := by
  unfold tCps typePoints
  rw [Dict.aggregate_closed _ _ _ (fun n => collected [] (((allCps is).filter (fun c => c.name = n)).flatMap marked))]
  · rw [List.map_map, Xml.distinct_eq]
    rfl
  · intro k hk
    obtain ⟨v, hv⟩ := aggVal_mem (key := fun c : YCp => c.name) cpStep hk
    have := typeBins_closed ((allCps is).filter (fun c => c.name = k))
    rw [hv] at this ⊢
    exact congrArg some this

theorem crossAgg_closed (bs : List YBin) : (crossAgg [] bs).map (fun b => (⟨b.1, b.2⟩ : YBin)) = summed bs := by
  unfold crossAgg summed
  rw [Dict.aggregate_closed _ _ _ (fun n => ((bs.filter (fun b => b.name = n)).map (·.count)).sum)]
  · rw [List.map_map, Xml.distinct_eq]
    rfl
  · intro k hk
    have key : ∀ (l : List YBin) (o : Option Int), l ≠ [] →
        Dict.aggVal (fun o (b : YBin) => o.getD 0 + b.count) o l = some (o.getD 0 + (l.map (·.count)).sum) := by
      intro l
      induction l with
      | nil => intro o h; exact absurd rfl h
      | cons a t ih =>
        intro o _
        show Dict.aggVal _ (some (o.getD 0 + a.count)) t = _
        by_cases ht : t = []
        · subst ht; simp [Dict.aggVal]
        · rw [ih _ ht]; simp; omega
    rw [key]
    · simp
    · obtain ⟨c, hc, rfl⟩ := List.mem_map.1 hk
      intro hf
      rw [List.filter_eq_nil_iff] at hf
      exact absurd (decide_eq_true rfl) (hf c hc)

/-- Type crosses, apart from the crossed names. -/
theorem tCrs_closed {g : YCg} {is : List YInst} (hl : LoadableCg g is) :
    (tCrs is).map (fun e => yamlCross (typeCrossObj e)) = (typeCrosses (is.flatMap YInst.crs)).map yamlCross := by
  have hkeys : (tCrs is).keys = firstSeen ((allCrs is).map (·.name)) := Dict.keys_aggregate _ _ _
  have hval : ∀ e ∈ tCrs is, yamlCross (typeCrossObj e)
      = yamlCross ⟨e.1, none, [], some (summed (((is.flatMap YInst.crs).filter (fun c => c.name = e.1)).flatMap (fun c => c.bins.getD [])))⟩ := by
    intro e he
    have hg := get?_of_mem (tCrs_nodup is) he
    unfold tCrs at hg
    rw [Dict.get?_aggregate, Dict.get?_nil] at hg
    have hb := crossBins_agg hl e.1
    have ho : occCrosses g e.1 = (allCrs is).filter (fun x => x.name = e.1) := by
      unfold occCrosses; rw [hl.insts]; rfl
    rw [ho, hg] at hb
    have hb' : (e.2.bins.map (·.map (fun b => (⟨b.1, b.2⟩ : YBin)))).getD [] = summed (((allCrs is).filter (fun x => x.name = e.1)).flatMap (fun c => c.bins.getD [])) := by
      rw [← crossAgg_closed, ← hb]
      show _ = (e.2.bins.getD []).map _
      cases e.2.bins <;> rfl
    show (⟨e.1, percentReached 1 _, 1, shown 1 _⟩ : RCross) = ⟨e.1, percentReached 1 _, 1, shown 1 _⟩
    show (⟨e.1, percentReached 1 ((e.2.bins.map (·.map (fun b => (⟨b.1, b.2⟩ : YBin)))).getD []), 1,
      shown 1 ((e.2.bins.map (·.map (fun b => (⟨b.1, b.2⟩ : YBin)))).getD [])⟩ : RCross) = _
    rw [hb']
    rfl
  rw [List.map_congr_left hval]
  unfold typeCrosses
  rw [List.map_map, Xml.distinct_eq]
  have : (allCrs is).map (·.name) = (is.flatMap YInst.crs).map (·.name) := rfl
  rw [← this, ← hkeys]
  unfold Dict.keys
  rw [List.map_map]
  rfl

/-! ## Report lines -/

theorem kindItems (t : Int) (l : List YBin) (k j : Nat) :
    (l.map (fun b => mkBin b.name k t b.count)).filter (fun i => maskHit i.kind j) = if maskHit k j then l.map (fun b => mkBin b.name k t b.count) else [] := by
  rw [List.filter_map]
  cases h : maskHit k j with
  | true =>
    rw [List.filter_eq_self.2]
    · rfl
    · intro b _; exact h
  | false =>
    rw [List.filter_eq_nil_iff.2]
    · rfl
    · intro b _
      show ¬ maskHit k j = true
      rw [h]; simp

theorem recordCp_items (c : YCp) :
    Spec.itemsOfKind CT.CVGBIN (recordCp c) = c.bins.map (fun b => mkBin b.name CT.CVGBIN (c.atleast.getD 1) b.count) ∧
    Spec.itemsOfKind CT.IGNOREBIN (recordCp c) = (c.ignorebins.getD []).map (fun b => mkBin b.name CT.IGNOREBIN (c.atleast.getD 1) b.count) ∧
    Spec.itemsOfKind CT.ILLEGALBIN (recordCp c) = (c.illegalbins.getD []).map (fun b => mkBin b.name CT.ILLEGALBIN (c.atleast.getD 1) b.count) := by
  have h1 : maskHit CT.CVGBIN CT.CVGBIN = true := by decide
  have h2 : maskHit CT.CVGBIN CT.IGNOREBIN = false := by decide
  have h3 : maskHit CT.CVGBIN CT.ILLEGALBIN = false := by decide
  have h4 : maskHit CT.IGNOREBIN CT.CVGBIN = false := by decide
  have h5 : maskHit CT.IGNOREBIN CT.IGNOREBIN = true := by decide
  have h6 : maskHit CT.IGNOREBIN CT.ILLEGALBIN = false := by decide
  have h7 : maskHit CT.ILLEGALBIN CT.CVGBIN = false := by decide
  have h8 : maskHit CT.ILLEGALBIN CT.IGNOREBIN = false := by decide
  have h9 : maskHit CT.ILLEGALBIN CT.ILLEGALBIN = true := by decide
  unfold Spec.itemsOfKind recordCp mkCoverpoint cpItems
  simp only [List.filter_append, kindItems, h1, h2, h3, h4, h5, h6, h7, h8, h9]
  simp

theorem recordCross_items (c : YCross) :
    Spec.itemsOfKind CT.CVGBIN (recordCross c) = (c.bins.getD []).map (fun b => mkBin b.name CT.CVGBIN (c.atleast.getD 1) b.count) := by
  have h1 : maskHit CT.CVGBIN CT.CVGBIN = true := by decide
  unfold Spec.itemsOfKind recordCross mkCross
  simp only [kindItems, h1, if_true]

theorem share_reached {s : Scope} {t : Int} {l : List YBin}
    (h : Spec.itemsOfKind CT.CVGBIN s = l.map (fun b => mkBin b.name CT.CVGBIN t b.count)) : hitShare s = percentReached t l := by
  unfold hitShare percentReached numBins numReached
  rw [h]
  simp only [List.length_map, List.countP_map, List.length_eq_zero_iff]
  rw [List.countP_eq_length_filter]
  congr 5
  apply List.filter_congr
  intro v _
  simp [reached, mkBin]

theorem pCp_yaml (c : YCp) : Report.pCp id (recordCp c) = yamlPoint c := by
  obtain ⟨h1, h2, h3⟩ := recordCp_items c
  unfold Report.pCp
  rw [leafCov_id, share_reached h1, h1, h2, h3]
  simp only [List.map_map]
  rfl

theorem pCross_yaml (c : YCross) : pCross id (recordCross c) = yamlCross c := by
  have h1 := recordCross_items c
  unfold pCross
  rw [leafCov_id, share_reached h1, h1]
  simp only [List.map_map]
  rfl

/-- The average over coverpoints and crosses of weight 1. -/
theorem coverage_average {ps : List RCp} {cs : List RCross} (h1 : ∀ p ∈ ps, p.weight = 1) (h2 : ∀ c ∈ cs, c.weight = 1) :
    groupCoverage id ps cs = average (ps.map (·.coverage) ++ cs.map (·.coverage)) := by
  unfold groupCoverage
  simp only [acc_id, accCross_id, id, wsum, average, List.map_map, zero_add]
  have e1 : ps.map ((fun cw : Rat × Int => if 0 < cw.2 then cw.1 * (cw.2 : Rat) else 0) ∘ fun c : RCp => (c.coverage, c.weight))
      = ps.map (·.coverage) := by
    apply List.map_congr_left; intro p hp; simp [h1 p hp]
  have e2 : cs.map ((fun cw : Rat × Int => cw.1 * (cw.2 : Rat)) ∘ fun c : RCross => (c.coverage, c.weight)) = cs.map (·.coverage) := by
    apply List.map_congr_left; intro p hp; simp [h2 p hp]
  have e3 : ps.map ((fun x : Rat × Int => x.2) ∘ fun c : RCp => (c.coverage, c.weight)) = ps.map (fun _ => 1) := by
    apply List.map_congr_left; intro p hp; simp [h1 p hp]
  have e4 : cs.map ((fun x : Rat × Int => x.2) ∘ fun c : RCross => (c.coverage, c.weight)) = cs.map (fun _ => 1) := by
    apply List.map_congr_left; intro p hp; simp [h2 p hp]
  rw [e1, e2, e3, e4]
  simp only [List.map_const', List.sum_replicate, List.length_append, List.length_map, List.sum_append]
  by_cases hz : ps.map (·.coverage) ++ cs.map (·.coverage) = []
  · rw [if_pos hz]
    obtain ⟨z1, z2⟩ := List.append_eq_nil_iff.1 hz
    rw [List.map_eq_nil_iff] at z1 z2
    subst z1 z2
    simp
  · rw [if_neg hz, if_pos]
    · simp
    · have := List.length_pos_of_ne_nil hz
      simp only [List.length_append, List.length_map] at this
      simp
      omega

theorem pCg_yaml {s : Scope} {cps : List YCp} {crs : List YCross} {sub : List RCg}
    (h1 : (kids ST.COVERPOINT s).map (Report.pCp id) = cps.map yamlPoint) (h2 : (kids ST.CROSS s).map (pCross id) = crs.map yamlCross)
    (h3 : (kids ST.COVERINSTANCE s).map (pCg id) = sub) : pCg id s = yamlGroup s.name s.weight cps crs sub := by
  have hc : groupCov id s = average (cps.map (fun c => (yamlPoint c).coverage) ++ crs.map (fun c => (yamlCross c).coverage)) := by
    unfold groupCov
    rw [h1, h2, coverage_average]
    · rw [List.map_map, List.map_map]; rfl
    · intro p hp; obtain ⟨c, _, rfl⟩ := List.mem_map.1 hp; rfl
    · intro p hp; obtain ⟨c, _, rfl⟩ := List.mem_map.1 hp; rfl
  rw [pCg_eq, hc, h1, h2, h3]
  rfl

theorem inst_yaml (w : Int) (i : YInst) : pCg id (instScope w i) = yamlGroup i.name w (YInst.cps i) (YInst.crs i) [] := by
  refine pCg_yaml (s := instScope w i) ?_ ?_ ?_
  · rw [kids_inst_cp, List.map_map]
    exact List.map_congr_left (fun c _ => pCp_yaml c)
  · rw [kids_inst_cross, List.map_map]
    exact List.map_congr_left (fun c _ => pCross_yaml c)
  · unfold kids instScope mkCoverInst
    simp only [List.filter_append]
    rw [Xml.filter_map_none (fun _ => cp_type (by decide)), Xml.filter_map_none (fun _ => cross_type (by decide))]
    rfl

theorem group_yaml {g : YCg} {is : List YInst} (hl : LoadableCg g is) : pCg id (cgScope g) = yamlLine g := by
  refine pCg_yaml (s := cgScope g) ?_ ?_ ?_
  · rw [kids_cg_cp, List.map_map, ← tCps_closed, List.map_map]
    exact List.map_congr_left (fun e _ => pCp_yaml (typeCpObj e))
  · rw [kids_cg_cross, List.map_map, hl.insts]
    simp only [Option.getD_some]
    rw [← tCrs_closed hl]
    exact List.map_congr_left (fun e _ => pCross_yaml (typeCrossObj e))
  · rw [kids_cg_inst, List.map_map]
    exact List.map_congr_left (fun i _ => inst_yaml _ i)

/-- C114: the report on a document, in exact arithmetic. -/
theorem C114_report {j : Json} {d : YDoc} (hs : Says j d) {db : Database} (h : load j = .ok db) {r : Rpt}
    (hr : Report.build id db.root = .ok r) : r.covergroups = yamlLines d ∧ r.coverage = yamlTotal d := by
  obtain ⟨hl, rfl⟩ := (load_says hs db).1 h
  obtain ⟨_, rfl⟩ := (Report.build_ok id _ r).1 hr
  have hg : (docGroups d).map (fun g => pCg id (cgScope g)) = yamlLines d := by
    apply List.map_congr_left
    intro g hg
    obtain ⟨is, hg⟩ := hl.2 g hg
    exact group_yaml hg
  constructor
  · show (allCovergroups _).map (pCg id) = _
    rw [allCovergroups_loaded, List.map_map]
    exact hg
  · show (((kids ST.INSTANCE _).getLast?).map (Report.instCov id)).getD 0 = _
    rw [kids_inst]
    show Report.instCov id (defaultInst ((docGroups d).map cgScope)) = _
    unfold Report.instCov Report.accOf yamlTotal
    rw [acc_id]
    simp only [id, zero_add, wsum, List.map_map, kids_defaultInst, weightSum]
    rw [← hg, List.map_map, List.filter_map, List.map_map]
    have e2 : ((docGroups d).map ((fun s : Scope => s.weight) ∘ cgScope)) = (docGroups d).map ((fun l : RCg => l.weight) ∘ fun g => pCg id (cgScope g)) := by
      apply List.map_congr_left; intro g _; simp only [Function.comp, pCg_eq]
    rw [e2]
    congr 1
    have e3 : ∀ l : List YCg, (l.map ((fun cw : Rat × Int => if 0 < cw.2 then cw.1 * (cw.2 : Rat) else 0) ∘
          (fun s => (groupCov id s, s.weight)) ∘ cgScope)).sum
        = ((l.filter ((fun l : RCg => decide (0 < l.weight)) ∘ fun g => pCg id (cgScope g))).map
            ((fun l : RCg => l.coverage * (l.weight : Rat)) ∘ fun g => pCg id (cgScope g))).sum := by
      intro l
      induction l with
      | nil => rfl
      | cons a t ih =>
        rw [List.map_cons, List.sum_cons, ih, List.filter_cons]
        simp only [Function.comp, pCg_eq, decide_eq_true_eq]
        by_cases hp : 0 < (cgScope a).weight
        · rw [if_pos hp, if_pos hp]; simp
        · rw [if_neg hp, if_neg hp]; simp
    exact e3 _

/-- C114: without ignore and illegal bins, the bins of a coverpoint are summed up by name on the level
of the covergroup. -/
theorem C114_ordinary (l : List YBin) : collected [] (l.map (fun b => (true, b))) = summed l := by
  have hl : ∀ (n : String) (l : List YBin), later n (l.map (fun b => (true, b))) = ((l.filter (fun b => b.name = n)).map (·.count)).sum := by
    intro n l
    unfold later
    rw [List.filter_map, List.map_map]
    simp [Function.comp_def]
  have key : ∀ (l : List YBin) (seen : List String), collected seen (l.map (fun b => (true, b)))
      = ((firstSeen (l.map (·.name))).filter (fun n => n ∉ seen)).map (fun n => ⟨n, ((l.filter (fun b => b.name = n)).map (·.count)).sum⟩) := by
    intro l
    induction l with
    | nil => intro seen; rfl
    | cons b t ih =>
      intro seen
      simp only [List.map_cons, collected, firstSeen]
      by_cases hb : b.name ∈ seen
      · rw [if_pos hb, if_pos trivial, ih, List.filter_cons_of_neg (by simpa using hb), List.filter_filter]
        have : ∀ n, (decide (n ∉ seen) && decide (n ≠ b.name)) = decide (n ∉ seen) := by
          intro n
          by_cases hn : n = b.name
          · subst hn; simp [hb]
          · simp [hn]
        simp only [this]
        apply List.map_congr_left
        intro n hn
        have hn' : n ∉ seen := by simpa using (List.mem_filter.1 hn).2
        have : b.name ≠ n := fun e => hn' (e ▸ hb)
        rw [List.filter_cons_of_neg (by simpa using this)]
      · rw [if_neg hb, ih, List.filter_cons_of_pos (by simpa using hb), List.map_cons, List.filter_filter, hl]
        congr 1
        · simp
        · have : ∀ n, (decide (n ∉ seen) && decide (n ≠ b.name)) = decide (n ∉ b.name :: seen) := by
            intro n
            by_cases hn : n = b.name <;> simp [hn]
          simp only [this]
          apply List.map_congr_left
          intro n hn
          have hn' : n ∉ b.name :: seen := by simpa using (List.mem_filter.1 hn).2
          have : b.name ≠ n := fun e => hn' (by simp [e])
          rw [List.filter_cons_of_neg (by simpa using this)]
  rw [key]
  unfold summed
  rw [Xml.distinct_eq]
  simp

/-! ## Binary64 -/

theorem size_yaml {d : YDoc} (hl : Loadable d) {K : Nat} (hK : K ≤ 2 ^ 50) (hs : YamlSize K d) :
    NonNegWeights (loadedDb ((docGroups d).map cgScope)).root ∧ SizeLimit K (2 ^ 53) (loadedDb ((docGroups d).map cgScope)).root := by
  have hline : ∀ g ∈ docGroups d, pCg id (cgScope g) = yamlLine g := fun g hg => by
    obtain ⟨is, h⟩ := hl.2 g hg
    exact group_yaml h
  have hrep : ∀ s ∈ reportedGroups (loadedDb ((docGroups d).map cgScope)).root,
      (∀ c ∈ kids ST.COVERPOINT s, c.weight = 1) ∧ ∃ l ∈ yamlLines d, pCg id s ∈ l :: l.covergroups := by
    intro s hs
    unfold reportedGroups at hs
    rw [allCovergroups_loaded] at hs
    obtain ⟨c, hc, hs⟩ := List.mem_flatMap.1 hs
    obtain ⟨g, hg, rfl⟩ := List.mem_map.1 hc
    rw [groupTree_cg] at hs
    have hm : yamlLine g ∈ yamlLines d := List.mem_map_of_mem hg
    rcases List.mem_cons.1 hs with rfl | hs
    · refine ⟨fun c hc => ?_, _, hm, ?_⟩
      · rw [kids_cg_cp] at hc
        obtain ⟨e, _, rfl⟩ := List.mem_map.1 hc; rfl
      · rw [hline g hg]; exact List.mem_cons_self
    · obtain ⟨i, hi, rfl⟩ := List.mem_map.1 hs
      refine ⟨fun c hc => ?_, _, hm, List.mem_cons_of_mem _ ?_⟩
      · rw [kids_inst_cp] at hc
        obtain ⟨e, _, rfl⟩ := List.mem_map.1 hc; rfl
      · rw [inst_yaml]
        exact List.mem_map_of_mem (f := fun i => yamlGroup i.name (g.weight.getD 1) (YInst.cps i) (YInst.crs i) []) hi
  have hp : ∀ s ∈ reportedGroups (loadedDb ((docGroups d).map cgScope)).root, numParts s ≤ K := by
    intro s hg
    obtain ⟨_, l, hl, hm⟩ := hrep s hg
    have := hs.parts l hl _ hm
    rw [pCg_eq] at this
    simpa [numParts] using this
  refine ⟨⟨fun s hg => ?_, fun s hg c hc => ?_⟩, hp, fun i hi => ?_, fun s hg => ?_, fun i hi => ?_⟩
  · rw [allCovergroups_loaded] at hg
    obtain ⟨g, hm, rfl⟩ := List.mem_map.1 hg
    exact hs.weights (yamlLine g) (List.mem_map_of_mem hm)
  · rw [(hrep s hg).1 c hc]; decide
  · rw [kids_inst, List.mem_singleton] at hi
    subst hi
    rw [kids_defaultInst, List.length_map]
    exact hs.groups
  · have h1 := (hrep s hg).1
    have : groupWeight s = numParts s := by
      unfold groupWeight numParts Spec.weightSum
      rw [show (kids ST.COVERPOINT s).map (·.weight) = (kids ST.COVERPOINT s).map (fun _ => (1 : Int)) from List.map_congr_left h1]
      simp
    have := hp s hg
    omega
  · rw [kids_inst, List.mem_singleton] at hi
    subst hi
    rw [kids_defaultInst]
    have := hs.weightSum
    unfold yamlLines at this
    rw [List.map_map] at this
    unfold Spec.weightSum
    rw [List.map_map]
    exact this

/-- C114 in binary64: the figures of the report on a document differ from those computed from the
document by at most `200 (2K + 5) / 2^53` percent. -/
theorem C114_binary64 {j : Json} {d : YDoc} (hs : Says j d) {db : Database} (h : load j = .ok db) {r : Rpt} {K : Nat} (hK : K ≤ 2 ^ 50)
    (hz : YamlSize K d) (hr : Report.build round64 db.root = .ok r) :
    CloseReports (200 * (2 * (K : Rat) + 5) / 2 ^ 53) r ⟨yamlLines d, [], yamlTotal d⟩ := by
  obtain ⟨hl, rfl⟩ := (load_says hs db).1 h
  obtain ⟨hw, hl⟩ := size_yaml hl hK hz
  obtain ⟨r0, h0, hc⟩ := (C86_accuracy hK hw hl).2 r hr
  obtain ⟨e1, e2⟩ := C114_report hs h h0
  unfold CloseReports at hc ⊢
  rw [e1, e2] at hc
  exact hc

namespace Ex

/-- Two covergroups of different weights.  In the first one an ignore bin `z` of the first instance
collects the ordinary bin `z` of the second one, and the ignore bin `z` of the second one is a bin of
its own; the threshold 2 counts in the instances only. -/
def figYaml : YDoc := ⟨some (some [
  ⟨"cg", some 3, some [
    ⟨"i1", some [⟨"a", some 2, [⟨"x", 1⟩, ⟨"y", 2⟩], some [⟨"z", 0⟩], none⟩], some [⟨"aa", none, ["a", "a"], some [⟨"p", 1⟩, ⟨"q", 0⟩]⟩]⟩,
    ⟨"i2", some [⟨"a", none, [⟨"x", 0⟩, ⟨"z", 4⟩], some [⟨"z", 0⟩], none⟩], none⟩]⟩,
  ⟨"ch", none, some [⟨"i1", some [⟨"b", none, [⟨"x", 0⟩], none, none⟩], none⟩]⟩])⟩

theorem fig_yaml : (yamlLines figYaml).map (fun l => (l.name, l.coverage, l.coverpoints.map (fun c => (c.coverage, c.bins.map (·.count))),
      l.covergroups.map (·.coverage))) = [("cg", 125 / 2, [(75, [1, 2, 4, 0])], [50, 50]), ("ch", 0, [(0, [0])], [0])] ∧
    yamlTotal figYaml = 375 / 8 := by decide +kernel

theorem fig_yaml_made : (do let db ← loadDoc figYaml; let r ← Report.build id db.root; pure r.coverage : Except Err Rat) = .ok (375 / 8) := by
  decide +kernel
end Ex

example : ∃ db r, load (encDoc Ex.figYaml) = .ok db ∧ Says (encDoc Ex.figYaml) Ex.figYaml ∧ Report.build id db.root = .ok r ∧ r.coverage = 375 / 8 := by
  obtain ⟨db, h1, h2⟩ := Ex.bind_ok.1 Ex.fig_yaml_made
  obtain ⟨r, h2, h3⟩ := Ex.bind_ok.1 h2
  have h3 : r.coverage = 375 / 8 := Except.ok.inj h3
  exact ⟨db, r, (load_encode _).trans h1, says_encode _, h2, h3⟩

example : YamlSize 2 Ex.figYaml := by constructor <;> decide +kernel

end Yaml

namespace Tools
open Report

/-- C114 for the report command with `yaml` input and `txt` output, in exact arithmetic: the text
written is the outline of the figures computed from the document in the input file. -/
theorem C114_report_command {x : Ext} (hx : x.rd = id) {a : ReportArgs} {w w' : World} {d : Yaml.YDoc} {db : Database}
    (hi : a.inputFormat = some "yaml") (hf : a.outputFormat.getD "txt" = "txt") (hd : Spec.HoldsYaml x (w.files a.db) d db)
    (h : ucisReport x a w = (.ok (), w')) :
    ∃ r, r.covergroups = Verif.Spec.yamlLines d ∧ r.coverage = Verif.Spec.yamlTotal d ∧ w' = Spec.Reported w a.db a.out (Spec.txtOf x r) := by
  obtain ⟨i, db', r, h1, h2, h3, _, h5⟩ := (C87_report_txt x a w w' hf).1 h
  rw [hi] at h1
  cases h1.symm.trans (registered_yaml x)
  cases h2.symm.trans (yaml_read hd)
  obtain ⟨_, j, _, _, hl⟩ := hd
  rw [hx] at h3
  obtain ⟨e1, e2⟩ := Yaml.C114_report hl.1 hl.2 h3
  exact ⟨r, e1, e2, h5⟩

end Tools
end Verif
