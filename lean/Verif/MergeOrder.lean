import Verif.FileHits
/-!
# The order of the files merged (C136)

No new code: the chain of reader, merge (`db_merger.py:24-252`), XML writer and report builder as in C113 and C115, for two orders of
the same files.
-/

namespace Verif
namespace Spec
open Report (RBin RCp RCross RCg Rpt)

/-- The lists are alike, apart from the order. -/
def UpTo {α β : Type} (R : α → β → Prop) (l : List α) (l' : List β) : Prop := ∃ m, List.Forall₂ R l m ∧ m.Perm l'

/-- Coverpoints with the same name, figure and bins. -/
structure SamePoint (p p' : RCp) : Prop where
  name : p'.name = p.name
  coverage : p'.coverage = p.coverage
  bins : p.bins.Perm p'.bins
  ignored : p.ignoreBins.Perm p'.ignoreBins
  illegal : p.illegalBins.Perm p'.illegalBins

/-- Crosses with the same name, figure and bins. -/
structure SameCross (p p' : RCross) : Prop where
  name : p'.name = p.name
  coverage : p'.coverage = p.coverage
  bins : p.bins.Perm p'.bins

/-- Lines with the same name, figure, coverpoints and crosses. -/
structure SameParts (g g' : RCg) : Prop where
  name : g'.name = g.name
  coverage : g'.coverage = g.coverage
  points : UpTo SamePoint g.coverpoints g'.coverpoints
  crosses : UpTo SameCross g.crosses g'.crosses

/-- No bin of a covergroup has one kind in one instance and another kind in another (or the same) instance. -/
structure KindsClear (g : RCg) : Prop where
  ordinary : OneKind g
  ignored : ∀ i ∈ g.covergroups, ∀ q ∈ i.coverpoints, ∀ j ∈ g.covergroups, ∀ q' ∈ j.coverpoints, q.name = q'.name →
    ∀ b ∈ q.ignoreBins, ∀ c ∈ q'.illegalBins, b.name ≠ c.name

/-- Covergroups with the same name and instances; and with the same figure and sums over the instances, if these are
clear about kinds. -/
structure SameLine (g g' : RCg) : Prop where
  name : g'.name = g.name
  instances : UpTo SameParts g.covergroups g'.covergroups
  type : KindsClear g → SameParts g g'

/-- Nothing is said of instances with another name. -/
def OneInstance (n : String) (v : Said) : Prop := ∀ i ∈ v, i.1 = n

end Spec

namespace MergeOrder
open Spec UnionCov MoreFiles FileHits
open Xml (Elem FloatText Env throughFile)
open Merge
open Report (RBin RCp RCross RCg Rpt build)
open Yaml (YDoc YInst)

/-! ## Lists -/

section
variable {α β γ δ : Type} {R : α → β → Prop} {S : γ → δ → Prop}

theorem _root_.Verif.Spec.UpTo.append {l k : List α} {l' k' : List β} (h : UpTo R l l') (h' : UpTo R k k') : UpTo R (l ++ k) (l' ++ k') := by
  obtain ⟨m, h1, h2⟩ := h
  obtain ⟨m', h1', h2'⟩ := h'
  exact ⟨m ++ m', List.rel_append h1 h1', h2.append h2'⟩

theorem _root_.Verif.Spec.UpTo.perm {l : List α} {m l' : List β} (h : UpTo R l m) (hp : m.Perm l') : UpTo R l l' := by
  obtain ⟨k, h1, h2⟩ := h
  exact ⟨k, h1, h2.trans hp⟩

theorem _root_.Verif.Spec.UpTo.flatMap {l : List α} {l' : List β} {f : α → List γ} {g : β → List δ} (h : UpTo R l l')
    (hf : ∀ a b, R a b → UpTo S (f a) (g b)) : UpTo S (l.flatMap f) (l'.flatMap g) := by
  obtain ⟨m, h1, h2⟩ := h
  refine Spec.UpTo.perm ?_ (h2.flatMap_right g)
  clear h2
  induction h1 with
  | nil => exact ⟨[], .nil, .refl _⟩
  | cons h _ ih => exact (hf _ _ h).append ih

theorem _root_.Verif.Spec.UpTo.map {l : List α} {l' : List β} {f : α → γ} {g : β → δ} (h : UpTo R l l') (hf : ∀ a b, R a b → S (f a) (g b)) :
    UpTo S (l.map f) (l'.map g) := by
  obtain ⟨m, h1, h2⟩ := h
  exact ⟨m.map g, forall₂_map_of.2 (h1.imp (fun a b h => hf a b h)), h2.map g⟩

theorem _root_.Verif.Spec.UpTo.imp {l : List α} {l' : List β} {R' : α → β → Prop} (h : UpTo R l l') (hf : ∀ a b, R a b → R' a b) : UpTo R' l l' := by
  obtain ⟨m, h1, h2⟩ := h
  exact ⟨m, h1.imp (fun a b h => hf a b h), h2⟩

theorem _root_.Verif.Spec.UpTo.values {l : List α} {l' : List β} {f : α → γ} {g : β → γ} (h : UpTo R l l') (hf : ∀ a b, R a b → f a = g b) :
    (l.map f).Perm (l'.map g) := by
  obtain ⟨m, h1, h2⟩ := h
  have : l.map f = m.map g := by
    clear h2
    induction h1 with
    | nil => rfl
    | cons h _ ih => rw [List.map_cons, List.map_cons, hf _ _ h, ih]
  rw [this]
  exact h2.map g

theorem _root_.Verif.Spec.UpTo.join {l : List α} {l' : List β} {f : α → List γ} {g : β → List γ} (h : UpTo R l l') (hf : ∀ a b, R a b → (f a).Perm (g b)) :
    (l.flatMap f).Perm (l'.flatMap g) := by
  obtain ⟨m, h1, h2⟩ := h
  refine List.Perm.trans ?_ (h2.flatMap_right g)
  clear h2
  induction h1 with
  | nil => exact .refl _
  | cons h _ ih => exact (hf _ _ h).append ih

theorem _root_.Verif.Spec.UpTo.withMem {l : List α} {l' : List β} (h : UpTo R l l') : UpTo (fun a b => a ∈ l ∧ R a b) l l' := by
  obtain ⟨m, h1, h2⟩ := h
  refine ⟨m, ?_, h2⟩
  clear h2
  induction h1 with
  | nil => exact .nil
  | cons h _ ih => exact .cons ⟨by simp, h⟩ (ih.imp (fun a b h => ⟨by simp [h.1], h.2⟩))
end

theorem distinct_perm {l l' : List String} (h : l.Perm l') : (distinct l).Perm (distinct l') := by
  rw [List.perm_ext_iff_of_nodup (distinct_nodup _) (distinct_nodup _)]
  intro a
  rw [mem_distinct, mem_distinct, h.mem_iff]

/-- The same name and related contents. -/
def Named {α β : Type} (R : α → β → Prop) (p : String × α) (q : String × β) : Prop := q.1 = p.1 ∧ R p.2 q.2

theorem keyed_perm {β : Type} {R : β → β → Prop} {D D' : List String} (hD : D.Perm D') {F F' : String → β}
    (h : ∀ n, R (F n) (F' n)) : UpTo (Named R) (D.map (fun n => (n, F n))) (D'.map (fun n => (n, F' n))) := by
  refine ⟨D.map (fun n => (n, F' n)), ?_, hD.map _⟩
  clear hD
  induction D with
  | nil => exact .nil
  | cons n D ih => exact .cons ⟨rfl, h n⟩ ih

theorem eachBy_perm {α β : Type} {pick : String → List (List (String × α)) → List α} {f : List α → β} {R : β → β → Prop}
    (hp : ∀ n l l', l.Perm l' → (pick n l).Perm (pick n l')) (hf : ∀ as as', as.Perm as' → R (f as) (f as'))
    {l l' : List (List (String × α))} (h : l.Perm l') : UpTo (Named R) (eachBy pick f l) (eachBy pick f l') :=
  keyed_perm (distinct_perm (h.flatMap_right _)) (fun n => hf _ _ (hp n _ _ h))

theorem pickLast_perm {α : Type} (n : String) (l l' : List (List (String × α))) (h : l.Perm l') : (pickLast n l).Perm (pickLast n l') :=
  h.filterMap _

theorem pickAll_perm {α : Type} (n : String) (l l' : List (List (String × α))) (h : l.Perm l') : (pickAll n l).Perm (pickAll n l') :=
  h.flatMap_right _

/-! ## Bins and entries -/

theorem added_perm (l l' : List (List XBin)) (h : l.Perm l') : (addedBins l).Perm (addedBins l') := by
  unfold addedBins
  apply List.Perm.flatMap_left
  intro k _
  have hf := h.flatten
  have e : (fun n => (n, k, ((l.flatten.filter (fun b => b.2.1 = k ∧ b.1 = n)).map (·.2.2)).sum))
      = (fun n : String => (n, k, ((l'.flatten.filter (fun b => b.2.1 = k ∧ b.1 = n)).map (·.2.2)).sum)) := by
    funext n
    rw [((hf.filter _).map _).sum_eq]
  rw [e]
  exact (distinct_perm ((hf.filter _).map _)).map _

/-- Parts with the same name and bins. -/
abbrev SPart : XPart → XPart → Prop := Named List.Perm

def SE (e e' : SEnt) : Prop := UpTo SPart e.1 e'.1 ∧ UpTo SPart (cview e) (cview e')

theorem ent_perm (es es' : List SEnt) (h : es.Perm es') : SE (ent es) (ent es') := by
  constructor
  · rw [ent_points, ent_points]
    exact eachBy_perm pickLast_perm added_perm (h.map _)
  · rw [ent_crosses, ent_crosses]
    exact eachBy_perm pickAll_perm added_perm (h.map _)

/-! ## Lines -/

theorem percent_perm {l l' : List XBin} (h : l.Perm l') : percentHit l = percentHit l' := by
  unfold percentHit
  have h1 := h.filter (fun b => b.2.1 = CT.CVGBIN)
  simp only
  rw [h1.length_eq, (h1.filter (fun b => decide (1 ≤ b.2.2))).length_eq]
  by_cases e : l.filter (fun b => b.2.1 = CT.CVGBIN) = []
  · rw [if_pos e, if_pos (by rw [e] at h1; exact h1.symm.eq_nil)]
  · rw [if_neg e, if_neg (fun e' => e (by rw [e'] at h1; exact h1.eq_nil))]

theorem average_perm {l l' : List Rat} (h : l.Perm l') : average l = average l' := by
  unfold average
  rw [h.length_eq, h.sum_eq]
  by_cases e : l = []
  · rw [if_pos e, if_pos (by rw [e] at h; exact h.symm.eq_nil)]
  · rw [if_neg e, if_neg (fun e' => e (by rw [e'] at h; exact h.eq_nil))]

theorem listed_perm (k : Nat) {l l' : List XBin} (h : l.Perm l') : (listed k l).Perm (listed k l') := (h.filter _).map _

theorem group_perm (n : String) {cps crs cps' crs' : List XPart} (sub sub' : List RCg) (h1 : UpTo SPart cps cps') (h2 : UpTo SPart crs crs') :
    SameParts (groupLine n cps crs sub) (groupLine n cps' crs' sub') where
  name := rfl
  coverage := (average_perm ((h1.append h2).values (f := fun p : XPart => percentHit p.2) (g := fun p : XPart => percentHit p.2) (fun _ _ h => percent_perm h.2))).symm
  points := h1.map (fun _ _ h => ⟨h.1, (percent_perm h.2).symm, listed_perm _ h.2, listed_perm _ h.2, listed_perm _ h.2⟩)
  crosses := h2.map (fun _ _ h => ⟨h.1, (percent_perm h.2).symm, listed_perm _ h.2⟩)

/-- Parts with the same name agree on the kind of bins with the same name. -/
def KA (L : List XPart) : Prop := ∀ q ∈ L, ∀ q' ∈ L, q.1 = q'.1 → ∀ v ∈ q.2, ∀ v' ∈ q'.2, v.1 = v'.1 → v.2.1 = v'.2.1

theorem together_perm {l l' : List XBin} (h : l.Perm l') (hk : ∀ v ∈ l, ∀ v' ∈ l, v.1 = v'.1 → v.2.1 = v'.2.1) :
    (together l).Perm (together l') := by
  unfold together
  have e : (distinct (l.map (·.1))).map (fun n =>
        (n, (((l.filter (fun b => b.1 = n)).map (·.2.1)).head?).getD 0, ((l.filter (fun b => b.1 = n)).map (·.2.2)).sum))
      = (distinct (l.map (·.1))).map (fun n =>
        (n, (((l'.filter (fun b => b.1 = n)).map (·.2.1)).head?).getD 0, ((l'.filter (fun b => b.1 = n)).map (·.2.2)).sum)) := by
    apply List.map_congr_left
    intro n _
    have hf := h.filter (fun b => decide (b.1 = n))
    rw [(hf.map (·.2.2)).sum_eq]
    congr 2
    cases ha : l.filter (fun b => decide (b.1 = n)) with
    | nil =>
      rw [ha] at hf
      rw [hf.symm.eq_nil]
    | cons a t =>
      cases hb : l'.filter (fun b => decide (b.1 = n)) with
      | nil => rw [ha, hb] at hf; exact absurd hf.eq_nil (by simp)
      | cons b u =>
        have ma : a ∈ l.filter (fun b => decide (b.1 = n)) := by rw [ha]; simp
        have mb : b ∈ l'.filter (fun b => decide (b.1 = n)) := by rw [hb]; simp
        obtain ⟨m1, m2⟩ := List.mem_filter.1 ma
        obtain ⟨m3, m4⟩ := List.mem_filter.1 mb
        simp only [List.map_cons, List.head?_cons, Option.getD_some]
        exact hk a m1 b (h.mem_iff.2 m3) ((of_decide_eq_true m2).trans (of_decide_eq_true m4).symm)
  rw [e]
  exact (distinct_perm (h.map _)).map _

theorem filter_flat (n : String) (L : List XPart) : (L.filter (fun p => p.1 = n)).flatMap (·.2) = L.flatMap (fun p => if p.1 = n then p.2 else []) := by
  induction L with
  | nil => rfl
  | cons q t ih =>
    rw [List.filter_cons, List.flatMap_cons]
    by_cases h : q.1 = n
    · rw [if_pos (decide_eq_true h), if_pos h, List.flatMap_cons, ih]
    · rw [if_neg (by simpa using h), if_neg h, ih, List.nil_append]

theorem sums_perm {L L' : List XPart} (h : UpTo SPart L L') (hk : KA L) : UpTo SPart (sums L) (sums L') := by
  refine keyed_perm (distinct_perm (h.values (fun _ _ h => h.1.symm))) ?_
  intro n
  refine together_perm ?_ ?_
  · rw [filter_flat, filter_flat]
    apply h.join
    intro a b hab
    rw [hab.1]
    split
    · exact hab.2
    · exact .refl _
  · intro v hv v' hv' he
    obtain ⟨q, hq, hv⟩ := List.mem_flatMap.1 hv
    obtain ⟨q', hq', hv'⟩ := List.mem_flatMap.1 hv'
    obtain ⟨hq, e1⟩ := List.mem_filter.1 hq
    obtain ⟨hq', e2⟩ := List.mem_filter.1 hq'
    exact hk q hq q' hq' ((of_decide_eq_true e1).trans (of_decide_eq_true e2).symm) v hv v' hv' he

theorem ka_clear {t : String × SEnts} (hk : ∀ e ∈ t.2, ∀ q ∈ e.2.1, ∀ v ∈ q.2, IsKind v.2.1) (h : KindsClear (sLine t)) :
    KA (t.2.flatMap (fun e => e.2.1)) := by
  intro q hq q' hq' hn v hv v' hv' he
  obtain ⟨e, me, hq⟩ := List.mem_flatMap.1 hq
  obtain ⟨e', me', hq'⟩ := List.mem_flatMap.1 hq'
  have l1 := List.mem_map_of_mem (f := entLine) me
  have l2 := List.mem_map_of_mem (f := entLine) me'
  have p1 : pointLine q ∈ (entLine e).coverpoints := List.mem_map_of_mem hq
  have p2 : pointLine q' ∈ (entLine e').coverpoints := List.mem_map_of_mem hq'
  have a1 := h.ordinary _ l1 _ p1 _ l2 _ p2 hn
  have a2 := h.ignored _ l1 _ p1 _ l2 _ p2 hn
  have b1 := h.ordinary _ l2 _ p2 _ l1 _ p1 hn.symm
  have b2 := h.ignored _ l2 _ p2 _ l1 _ p1 hn.symm
  have mem : ∀ {k : Nat} {l : List XBin} {v : XBin}, v ∈ l → v.2.1 = k → (⟨v.1, 1, v.2.2⟩ : RBin) ∈ listed k l :=
    fun hv hk => mem_listed.2 ⟨_, hv, hk, rfl⟩
  rcases hk e me q hq v hv with k1 | k1 | k1 <;> rcases hk e' me' q' hq' v' hv' with k2 | k2 | k2
  · rw [k1, k2]
  · exact absurd he (a1 _ (mem hv k1) _ (List.mem_append_left _ (mem hv' k2)))
  · exact absurd he (a1 _ (mem hv k1) _ (List.mem_append_right _ (mem hv' k2)))
  · exact absurd he.symm (b1 _ (mem hv' k2) _ (List.mem_append_left _ (mem hv k1)))
  · rw [k1, k2]
  · exact absurd he (a2 _ (mem hv k1) _ (mem hv' k2))
  · exact absurd he.symm (b1 _ (mem hv' k2) _ (List.mem_append_right _ (mem hv k1)))
  · exact absurd he.symm (b2 _ (mem hv' k2) _ (mem hv k1))
  · rw [k1, k2]

/-- Crosses have ordinary bins only. -/
def OrdSaid (v : Said) : Prop := ∀ i ∈ v, ∀ t ∈ i.2, OrdCross t.2

theorem ord_ents {E : List SEnts} (h : ∀ s ∈ E, OrdCross s) : OrdCross (each ent E) := by
  intro e he q hq v hv
  rw [mem_eachBy (pick := pickLast) he, ent_crosses] at hq
  rw [mem_eachBy hq] at hv
  obtain ⟨s, hs, u, hu, hk⟩ := addedBins_kind hv
  obtain ⟨c, hc, hm⟩ := picks_all.from_ _ _ s hs
  obtain ⟨x, hx, rfl⟩ := List.mem_map.1 hc
  obtain ⟨y, hy, hx⟩ := picks_last.from_ _ _ x hx
  rw [← hk]
  exact h y hy _ hx _ hm u hu

theorem line_perm (n : String) {E E' : List SEnts} (h : E.Perm E') (ho : ∀ s ∈ E, OrdCross s) :
    SameLine (sLine (n, each ent E)) (sLine (n, each ent E')) := by
  have hu : UpTo (Named SE) (each ent E) (each ent E') := eachBy_perm pickLast_perm ent_perm h
  refine ⟨rfl, ?_, ?_⟩
  · refine hu.map (f := entLine) (g := entLine) ?_
    rintro ⟨a, e⟩ ⟨b, e'⟩ ⟨h1, h2, h3⟩
    cases h1
    exact group_perm _ _ _ h2 h3
  · intro hc
    refine group_perm _ _ _ (sums_perm (hu.flatMap (fun _ _ h => h.2.1)) ?_) (sums_perm (hu.flatMap (fun _ _ h => h.2.2)) ?_)
    · refine ka_clear (t := (n, each ent E)) ?_ hc
      intro e he
      rw [mem_eachBy (pick := pickLast) he]
      exact kinds_ent
    · intro q hq q' hq' _ v hv v' hv' _
      obtain ⟨e, he, hq⟩ := List.mem_flatMap.1 hq
      obtain ⟨e', he', hq'⟩ := List.mem_flatMap.1 hq'
      rw [ord_ents ho e he q hq v hv, ord_ents ho e' he' q' hq' v' hv']

/-- Covergroup types made by merging the same things in two orders. -/
def ST (l l' : SEnts) : Prop := ∃ E E', E.Perm E' ∧ (∀ s ∈ E, OrdCross s) ∧ l = each ent E ∧ l' = each ent E'

theorem types_perm {T T' : List STypes} (h : T.Perm T') (ho : ∀ s ∈ T, ∀ t ∈ s, OrdCross t.2) :
    UpTo (Named ST) (each (each ent) T) (each (each ent) T') := by
  refine keyed_perm (distinct_perm (h.flatMap_right _)) (fun n => ⟨_, _, pickLast_perm n _ _ h, ?_, rfl, rfl⟩)
  intro s hs
  obtain ⟨y, hy, hs⟩ := mem_last hs
  exact ho y hy _ hs

theorem type_lines {T T' : List STypes} (h : T.Perm T') (ho : ∀ s ∈ T, ∀ t ∈ s, OrdCross t.2) :
    UpTo SameLine ((each (each ent) T).map sLine) ((each (each ent) T').map sLine) := by
  refine (types_perm h ho).map ?_
  rintro ⟨a, t⟩ ⟨b, t'⟩ ⟨h1, E, E', hp, hE, h2, h3⟩
  cases h1
  simp only at h2 h3
  subst h2 h3
  exact line_perm _ hp hE

def SI (l l' : STypes) : Prop := ∃ T T', T.Perm T' ∧ (∀ s ∈ T, ∀ t ∈ s, OrdCross t.2) ∧ l = each (each ent) T ∧ l' = each (each ent) T'

theorem insts_perm {A A' : List Said} (h : A.Perm A') (ho : ∀ v ∈ A, OrdSaid v) : UpTo (Named SI) (mergedSaid A) (mergedSaid A') := by
  refine keyed_perm (distinct_perm (h.flatMap_right _)) (fun n => ⟨_, _, pickLast_perm n _ _ h, ?_, rfl, rfl⟩)
  intro s hs
  obtain ⟨y, hy, hs⟩ := mem_last hs
  exact ho y hy _ hs

theorem said_perm {A A' : List Said} (h : A.Perm A') (ho : ∀ v ∈ A, OrdSaid v) :
    UpTo SameLine (saidLines (mergedSaid A)) (saidLines (mergedSaid A')) := by
  rw [saidLines_eq, saidLines_eq]
  refine (insts_perm h ho).flatMap ?_
  rintro ⟨a, i⟩ ⟨b, i'⟩ ⟨_, T, T', hp, hT, h2, h3⟩
  simp only at h2 h3
  subst h2 h3
  exact type_lines hp hT

/-- With one instance, the overall figure is the average over all lines. -/
theorem total_one {A : List Said} {n : String} (h : ∀ v ∈ A, OneInstance n v) :
    saidTotal (mergedSaid A) = average ((saidLines (mergedSaid A)).map (·.coverage)) := by
  have hD : distinct (A.flatMap (fun s => s.map (·.1))) = [] ∨ distinct (A.flatMap (fun s => s.map (·.1))) = [n] := by
    have hm : ∀ m ∈ distinct (A.flatMap (fun s => s.map (·.1))), m = n := by
      intro m hm
      rw [mem_distinct, List.mem_flatMap] at hm
      obtain ⟨v, hv, hm⟩ := hm
      obtain ⟨i, hi, rfl⟩ := List.mem_map.1 hm
      exact h v hv i hi
    have hn := distinct_nodup (A.flatMap (fun s => s.map (·.1)))
    generalize distinct (A.flatMap (fun s => s.map (·.1))) = D at hm hn
    match D, hm, hn with
    | [], _, _ => exact .inl rfl
    | [a], hm, _ => exact .inr (by rw [hm a (by simp)])
    | a :: b :: t, hm, hn =>
      rw [hm a (by simp), hm b (by simp)] at hn
      exact absurd hn (by simp)
  have hM : ∃ o : Option (String × STypes), mergedSaid A = o.toList := by
    unfold mergedSaid each
    rcases hD with e | e <;> rw [e]
    · exact ⟨none, rfl⟩
    · exact ⟨some _, rfl⟩
  obtain ⟨o, e⟩ := hM
  rw [e]
  cases o with
  | none => rfl
  | some i => rfl

theorem total_perm {A A' : List Said} {n : String} (h : A.Perm A') (ho : ∀ v ∈ A, OrdSaid v) (h1 : ∀ v ∈ A, OneInstance n v)
    (hk : ∀ g ∈ saidLines (mergedSaid A), KindsClear g) : saidTotal (mergedSaid A) = saidTotal (mergedSaid A') := by
  rw [total_one h1, total_one (n := n) (fun v hv => h1 v (h.mem_iff.2 hv))]
  apply average_perm
  exact (said_perm h ho).withMem.values (fun a b ⟨hm, h⟩ => (h.type (hk a hm)).coverage.symm)

/-! ## Files -/

theorem ord_doc (doc : Elem) : OrdSaid (said doc) := by
  intro i hi t ht e he
  obtain ⟨i0, hi0, rfl⟩ := List.mem_map.1 hi
  obtain ⟨t0, ht0, rfl⟩ := List.mem_map.1 ht
  obtain ⟨e0, he0, rfl⟩ := List.mem_map.1 he
  obtain ⟨x, _, c, _, g, _, rfl⟩ := docView_entry hi0 ht0 he0
  intro q hq v hv
  obtain ⟨z, hz, rfl⟩ := List.mem_map.1 hq
  obtain ⟨y, hy, rfl⟩ := List.mem_map.1 hz
  obtain ⟨u, _, rfl⟩ := List.mem_map.1 (show y ∈ docCrosses g from hy)
  obtain ⟨b, _, rfl⟩ := List.mem_map.1 hv
  rfl

theorem ord_yaml (d : YDoc) : OrdSaid (yamlSaid d) := by
  intro i hi t ht e he
  rw [yamlSaid, List.mem_singleton] at hi
  subst hi
  obtain ⟨g, _, rfl⟩ := List.mem_map.1 ht
  obtain ⟨x, _, rfl⟩ := List.mem_map.1 he
  intro q hq v hv
  obtain ⟨z, hz, rfl⟩ := List.mem_map.1 hq
  obtain ⟨c, _, rfl⟩ := List.mem_map.1 hz
  obtain ⟨b, _, rfl⟩ := List.mem_map.1 hv
  rfl

/-- C136: XML files merged in two orders (and in any stages) give reports with the same lines, apart from the order. The overall
figures are the same, if there is one instance only and no bin has two kinds. -/
theorem C136_xml_partial {env env' : Env} (he : GoodEnv env) (he' : GoodEnv env') {docs docs' : List Elem} {ls ls' ds ds' : List Database}
    {out out' db db' : Database} {r r' : Rpt} (hp : docs.Perm docs')
    (hd : List.Forall₂ (fun d s => ∃ flt, Xml.read flt d = .ok s) docs ls) (hd' : List.Forall₂ (fun d s => ∃ flt, Xml.read flt d = .ok s) docs' ls')
    (hs : StagedAll ls ds) (hs' : StagedAll ls' ds')
    (hm : mergeDb ⟨emptyDb, [], []⟩ ds = .ok out) (hm' : mergeDb ⟨emptyDb, [], []⟩ ds' = .ok out')
    (hr : throughFile env out = .ok db) (hr' : throughFile env' out' = .ok db')
    (hb : build id db.root = .ok r) (hb' : build id db'.root = .ok r') :
    UpTo SameLine r.covergroups r'.covergroups ∧
      (∀ n, (∀ d ∈ docs, OneInstance n (said d)) → (∀ g ∈ r.covergroups, KindsClear g) → r'.coverage = r.coverage) := by
  obtain ⟨q1, q2⟩ := C113_report he hd hs hm hr hb
  obtain ⟨q1', q2'⟩ := C113_report he' hd' hs' hm' hr' hb'
  have ho : ∀ v ∈ docs.map said, OrdSaid v := by
    intro v hv
    obtain ⟨d, _, rfl⟩ := List.mem_map.1 hv
    exact ord_doc d
  rw [q1, q1', q2, q2']
  refine ⟨said_perm (hp.map said) ho, fun n h1 hk => (total_perm (n := n) (hp.map said) ho ?_ hk).symm⟩
  intro v hv
  obtain ⟨d, hd, rfl⟩ := List.mem_map.1 hv
  exact h1 d hd

/-- C136 for YAML files merged in two orders; they have one instance anyway. -/
theorem C136_yaml_partial {env env' : Env} (he : GoodEnv env) (he' : GoodEnv env') {ds ds' : List YDoc} {srcs srcs' : List Database}
    {out out' db db' : Database} {r r' : Rpt} (hp : ds.Perm ds')
    (h : List.Forall₂ (fun d s => ∃ j, LoadedFrom j d s) ds srcs) (h' : List.Forall₂ (fun d s => ∃ j, LoadedFrom j d s) ds' srcs')
    (hm : mergeDb ⟨emptyDb, [], []⟩ srcs = .ok out) (hm' : mergeDb ⟨emptyDb, [], []⟩ srcs' = .ok out')
    (hr : throughFile env out = .ok db) (hr' : throughFile env' out' = .ok db')
    (hb : build id db.root = .ok r) (hb' : build id db'.root = .ok r') :
    UpTo SameLine r.covergroups r'.covergroups ∧ ((∀ g ∈ r.covergroups, KindsClear g) → r'.coverage = r.coverage) := by
  obtain ⟨q1, q2⟩ := Yaml.C115_report he h hm hr hb
  obtain ⟨q1', q2'⟩ := Yaml.C115_report he' h' hm' hr' hb'
  have ho : ∀ v ∈ ds.map yamlSaid, OrdSaid v := by
    intro v hv
    obtain ⟨d, _, rfl⟩ := List.mem_map.1 hv
    exact ord_yaml d
  rw [q1, q1', q2, q2']
  refine ⟨said_perm (hp.map yamlSaid) ho, fun hk => (total_perm (n := "cg_inst") (hp.map yamlSaid) ho ?_ hk).symm⟩
  intro v hv
  obtain ⟨d, _, rfl⟩ := List.mem_map.1 hv
  intro i hi
  rw [yamlSaid, List.mem_singleton] at hi
  rw [hi]

/-! ## Examples and counterexamples -/

/-- Two XML documents are merged in both orders, stored, read again and reported. -/
def BothOrders (a b : Elem) (P : Rpt → Rpt → Prop) : Prop :=
  ∃ flt l m out out' db db' r r', Xml.read flt a = .ok l ∧ Xml.read flt b = .ok m ∧
    mergeDb ⟨emptyDb, [], []⟩ [l, m] = .ok out ∧ mergeDb ⟨emptyDb, [], []⟩ [m, l] = .ok out' ∧
    throughFile Xml.exEnv2 out = .ok db ∧ throughFile Xml.exEnv2 out' = .ok db' ∧ build id db.root = .ok r ∧ build id db'.root = .ok r' ∧ P r r'

def orderTest (a b : Elem) (P : Rpt → Rpt → Bool) : Except Err Bool := do
  let l ← Xml.read Xml.exEnv2.flt a
  let m ← Xml.read Xml.exEnv2.flt b
  let o ← mergeDb ⟨emptyDb, [], []⟩ [l, m]
  let o' ← mergeDb ⟨emptyDb, [], []⟩ [m, l]
  let db ← throughFile Xml.exEnv2 o
  let db' ← throughFile Xml.exEnv2 o'
  let r ← build id db.root
  let r' ← build id db'.root
  pure (P r r')

theorem orderTest_ok {a b : Elem} {P : Rpt → Rpt → Bool} (h : orderTest a b P = .ok true) : BothOrders a b (fun r r' => P r r' = true) := by
  obtain ⟨_, h1, h⟩ := Ex.bind_ok.1 h
  obtain ⟨_, h2, h⟩ := Ex.bind_ok.1 h
  obtain ⟨_, h3, h⟩ := Ex.bind_ok.1 h
  obtain ⟨_, h4, h⟩ := Ex.bind_ok.1 h
  obtain ⟨_, h5, h⟩ := Ex.bind_ok.1 h
  obtain ⟨_, h6, h⟩ := Ex.bind_ok.1 h
  obtain ⟨_, h7, h⟩ := Ex.bind_ok.1 h
  obtain ⟨_, h8, h⟩ := Ex.bind_ok.1 h
  exact ⟨_, _, _, _, _, _, _, _, _, h1, h2, h3, h4, h5, h6, h7, h8, Except.ok.inj h⟩

/-- A document with one instance, one covergroup and one entry. -/
def orderDoc (i e : String) (bins : List (String × String × String)) : Elem := ⟨"UCIS", [], none, [⟨"instanceCoverages", [("name", i)], none, [
  ⟨"covergroupCoverage", [], none, [Xml.Ex.figInst e bins "1"]⟩]⟩]⟩

instance (g : RCg) : Decidable (KindsClear g) := decidable_of_iff
  (OneKind g ∧ ∀ i ∈ g.covergroups, ∀ q ∈ i.coverpoints, ∀ j ∈ g.covergroups, ∀ q' ∈ j.coverpoints, q.name = q'.name →
    ∀ b ∈ q.ignoreBins, ∀ c ∈ q'.illegalBins, b.name ≠ c.name) ⟨fun ⟨a, b⟩ => ⟨a, b⟩, fun ⟨a, b⟩ => ⟨a, b⟩⟩
instance (n : String) (v : Said) : Decidable (OneInstance n v) := by unfold OneInstance; infer_instance

/-- The hypotheses of `C136_xml_partial` are met by two files with entries of one covergroup; the reports list the
entries in different orders, and the figures are the same. -/
example : BothOrders (orderDoc "i" "e" [("a", "bins", "3"), ("b", "bins", "0")]) (orderDoc "i" "f" [("c", "bins", "0")]) (fun r r' => decide
    (r.covergroups.map (fun g => g.covergroups.map (·.name)) = [["e", "f"]] ∧ r'.covergroups.map (fun g => g.covergroups.map (·.name)) = [["f", "e"]] ∧
      (∀ g ∈ r.covergroups, KindsClear g) ∧ r.coverage = r'.coverage ∧ 0 < r.coverage ∧ r.coverage < 100) = true) ∧
    ∀ d ∈ [orderDoc "i" "e" [("a", "bins", "3"), ("b", "bins", "0")], orderDoc "i" "f" [("c", "bins", "0")]], OneInstance "i" (said d) :=
  ⟨orderTest_ok (by decide +kernel), by decide +kernel⟩

/-- C136 in full: the order of two files changes neither the covergroups nor the overall figure. -/
def C136_claim : Prop :=
  ∀ a b flt l m out out' db db' r r', Xml.read flt a = .ok l → Xml.read flt b = .ok m →
    mergeDb ⟨emptyDb, [], []⟩ [l, m] = .ok out → mergeDb ⟨emptyDb, [], []⟩ [m, l] = .ok out' →
    throughFile Xml.exEnv2 out = .ok db → throughFile Xml.exEnv2 out' = .ok db' → build id db.root = .ok r → build id db'.root = .ok r' →
    UpTo SameParts r.covergroups r'.covergroups ∧ r'.coverage = r.coverage

theorem UpTo.coverages {l l' : List RCg} (h : UpTo SameParts l l') : (l.map (·.coverage)).Perm (l'.map (·.coverage)) :=
  h.values (fun _ _ h => h.coverage.symm)

/-- C136 fails for the overall figure: it is that of the instance that comes last. -/
theorem C136_total_refuted : ∃ a b, BothOrders a b (fun r r' => decide (r.coverage = 50 ∧ r'.coverage = 100 ∧ (∀ g ∈ r.covergroups, KindsClear g)) = true) :=
  ⟨orderDoc "i" "e" [("a", "bins", "1")], orderDoc "j" "e" [("a", "bins", "0")], orderTest_ok (by decide +kernel)⟩

/-- C136 fails for the sums over the instances, if a bin is an ordinary bin in one instance and an ignore bin in another: the
first instance decides whether it counts. -/
theorem C136_kinds_refuted : ∃ a b, BothOrders a b (fun r r' => decide (r.covergroups.map (·.coverage) = [100] ∧ r'.covergroups.map (·.coverage) = [50]) = true) :=
  ⟨orderDoc "i" "e" [("a", "bins", "1")], orderDoc "i" "f" [("a", "ignore", "1")], orderTest_ok (by decide +kernel)⟩

theorem C136_refuted : ¬ C136_claim := by
  intro h
  obtain ⟨a, b, hr⟩ := C136_kinds_refuted
  obtain ⟨_, _, _, _, _, _, _, r, r', h1, h2, h3, h4, h5, h6, h7, h8, hq⟩ := hr
  obtain ⟨hs, _⟩ := h a b _ _ _ _ _ _ _ r r' h1 h2 h3 h4 h5 h6 h7 h8
  obtain ⟨h1, h2⟩ := of_decide_eq_true hq
  have hp := UpTo.coverages hs
  rw [h1, h2] at hp
  revert hp
  decide +kernel

end MergeOrder

/-! ## Commands -/

namespace Tools
open Verif.Spec (said yamlSaid UpTo SameLine OneInstance KindsClear)
open MergeOrder FileHits

theorem forall₂_perm {α β : Type} {R : α → β → Prop} (hu : ∀ a b b', R a b → R a b' → b = b') {l l' : List α} (hp : l.Perm l') {m m' : List β}
    (h : List.Forall₂ R l m) (h' : List.Forall₂ R l' m') : m.Perm m' := by
  have uniq : ∀ {l : List α} {m m' : List β}, List.Forall₂ R l m → List.Forall₂ R l m' → m = m' := by
    intro l m m' h
    induction h generalizing m' with
    | nil => intro h'; cases h'; rfl
    | cons h _ ih =>
      intro h'
      cases h' with
      | cons h1 h2 => rw [hu _ _ _ h h1, ih h2]
  induction hp generalizing m m' with
  | nil => cases h; cases h'; exact .nil
  | cons a _ ih =>
    cases h with
    | cons h1 h2 => cases h' with
      | cons h3 h4 => rw [hu _ _ _ h1 h3]; exact (ih h2 h4).cons _
  | swap a b l =>
    cases h with
    | cons h1 h2 => cases h2 with
      | cons h3 h4 => cases h' with
        | cons g1 g2 => cases g2 with
          | cons g3 g4 => rw [hu _ _ _ h1 g3, hu _ _ _ h3 g1, uniq h4 g4]; exact .swap _ _ _
  | @trans l1 l2 l3 p _ ih1 ih2 =>
    have hex : ∀ a ∈ l2, ∃ b, R a b := fun a ha => by
      obtain ⟨b, _, hb⟩ := exists_right h (p.mem_iff.2 ha)
      exact ⟨b, hb⟩
    have hall : ∀ k : List α, (∀ a ∈ k, ∃ b, R a b) → ∃ m1, List.Forall₂ R k m1 := by
      intro k
      induction k with
      | nil => exact fun _ => ⟨[], .nil⟩
      | cons a t ih =>
        intro hk
        obtain ⟨b, hb⟩ := hk a (by simp)
        obtain ⟨m1, hm⟩ := ih (fun x hx => hk x (by simp [hx]))
        exact ⟨b :: m1, .cons hb hm⟩
    obtain ⟨m1, k1⟩ := hall l2 hex
    exact (ih1 h k1).trans (ih2 k1 h')

/-- C136 for `merge` and `report`, in exact arithmetic: the XML files of the second `merge` are those of the first one in another order. -/
theorem C136_commands_partial {x : Ext} (hf : Spec.Faithful x) (hx : x.rd = id) {a a' : MergeArgs} {b b' : ReportArgs} {w w1 w2 w1' w2' : World}
    (hp : a.db.Perm a'.db)
    (hi : a.inputFormat.getD "xml" = "xml") (ho : a.outputFormat.getD "xml" = "xml") (hbi : b.inputFormat.getD "xml" = "xml")
    (hbo : b.outputFormat.getD "txt" = "txt") (hab : b.db = a.out)
    (hi' : a'.inputFormat.getD "xml" = "xml") (ho' : a'.outputFormat.getD "xml" = "xml") (hbi' : b'.inputFormat.getD "xml" = "xml")
    (hbo' : b'.outputFormat.getD "txt" = "txt") (hab' : b'.db = a'.out)
    (hm : ucisMerge x a w = (.ok (), w1)) (hr : ucisReport x b w1 = (.ok (), w2))
    (hm' : ucisMerge x a' w = (.ok (), w1')) (hr' : ucisReport x b' w1' = (.ok (), w2')) :
    ∃ docs r r', List.Forall₂ (fun p doc => Spec.Holds x (w.files p) doc) a.db docs ∧
      Spec.ReportsOn x w1 b.db r ∧ Spec.ReportsOn x w1' b'.db r' ∧ w2 = Spec.Reported w1 b.db b.out (Spec.txtOf x r) ∧ w2' = Spec.Reported w1' b'.db b'.out (Spec.txtOf x r') ∧
      UpTo SameLine r.covergroups r'.covergroups ∧
      (∀ n, (∀ d ∈ docs, OneInstance n (said d)) → (∀ g ∈ r.covergroups, KindsClear g) → r'.coverage = r.coverage) := by
  obtain ⟨dbs, out, db, r, q1, q2, q3, q4, q6, q5⟩ := merge_report hf hx (i := ⟨_, _, _, _⟩) (by rw [hi]; exact registered_xml x) ho hbi hbo hab hm hr
  obtain ⟨dbs', out', db', r', p1, p2, p3, p4, p6, p5⟩ := merge_report hf hx (i := ⟨_, _, _, _⟩) (by rw [hi']; exact registered_xml x) ho' hbi' hbo' hab' hm' hr'
  obtain ⟨docs, h1, h2, _⟩ := xml_holds q1
  obtain ⟨docs', h1', h2', _⟩ := xml_holds p1
  have hpd := forall₂_perm (R := fun p doc => Spec.Holds x (w.files p) doc) (fun _ _ _ => holds_unique) hp h1 h1'
  exact ⟨docs, r, r', h1, ⟨db, q6, q4⟩, ⟨db', p6, p4⟩, q5, p5,
    C136_xml_partial hf.env hf.env hpd h2 h2' (reads_files q1) (reads_files p1) q2 p2 q3 p3 q4 p4⟩

end Tools
end Verif
