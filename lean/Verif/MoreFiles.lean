import Verif.UnionCov
import Verif.YamlMerged
/-!
# Merging more files

The chain of reader, merge (`db_merger.py:24-252`), XML writer, XML reader and report builder for two
lists of files of which one continues the other: what the report on the longer merge shows compared
with the report on the shorter one.
-/

namespace Verif
namespace Spec
open Report (RBin RCp RCross RCg Rpt)

/-- Every bin of the first list is in the second one, with the same number to reach and at least the same count. -/
def BinsKept (l l' : List RBin) : Prop := ∀ b ∈ l, ∃ b' ∈ l', b'.name = b.name ∧ b'.goal = b.goal ∧ b.count ≤ b'.count

/-- The same for all bins of the coverpoints and crosses of a line. -/
structure PartsKept (g g' : RCg) : Prop where
  points : ∀ p ∈ g.coverpoints, ∃ p' ∈ g'.coverpoints, p'.name = p.name ∧ BinsKept p.bins p'.bins
  crosses : ∀ p ∈ g.crosses, ∃ p' ∈ g'.crosses, p'.name = p.name ∧ BinsKept p.bins p'.bins

/-- The same for all instances of a covergroup, and for the covergroup itself if the second line has no
bin that is ordinary in one instance and ignored or illegal in another. -/
structure LineKept (g g' : RCg) : Prop where
  name : g'.name = g.name
  instances : ∀ i ∈ g.covergroups, ∃ i' ∈ g'.covergroups, i'.name = i.name ∧ PartsKept i i'
  type : OneKind g' → PartsKept g g'

/-- Names on a line and on its instances. -/
def shape (g : RCg) : String × (List (String × List String) × List (String × List String)) ×
    List (String × List (String × List String) × List (String × List String)) :=
  (g.name, layout g, g.covergroups.map (fun i => (i.name, layout i)))

/-- Two reports show the same things, apart from counts and figures. -/
def SameShape (r r' : Rpt) : Prop := r'.covergroups.map shape = r.covergroups.map shape

/-- No figure of the second line is lower. -/
structure FiguresKept (g g' : RCg) : Prop where
  line : g.coverage ≤ g'.coverage
  points : List.Forall₂ (fun p p' : RCp => p.coverage ≤ p'.coverage) g.coverpoints g'.coverpoints
  crosses : List.Forall₂ (fun p p' : RCross => p.coverage ≤ p'.coverage) g.crosses g'.crosses

/-- No figure of the second report is lower. -/
structure ReportKept (r r' : Rpt) : Prop where
  total : r.coverage ≤ r'.coverage
  lines : List.Forall₂ (fun g g' => FiguresKept g g' ∧ List.Forall₂ FiguresKept g.covergroups g'.covergroups) r.covergroups r'.covergroups

end Spec

namespace MoreFiles
open Spec UnionCov
open Xml (Elem FloatText)
open Report (RBin RCp RCross RCg Rpt build)

/-! ## Lists -/

/-- The first list is related to a part of the second one. -/
inductive Sub {α β : Type} (R : α → β → Prop) : List α → List β → Prop
  | nil (l' : List β) : Sub R [] l'
  | cons {a b l l'} : R a b → Sub R l l' → Sub R (a :: l) (b :: l')
  | skip {b l l'} : Sub R l l' → Sub R l (b :: l')

variable {α β γ δ : Type} {R : α → β → Prop}

theorem Sub.mem {l : List α} {l' : List β} (h : Sub R l l') {a : α} (ha : a ∈ l) : ∃ b ∈ l', R a b := by
  induction h with
  | nil => cases ha
  | cons h1 _ ih =>
    rcases List.mem_cons.1 ha with rfl | ha
    · exact ⟨_, List.mem_cons_self, h1⟩
    · obtain ⟨b, hb, hr⟩ := ih ha
      exact ⟨b, List.mem_cons_of_mem _ hb, hr⟩
  | skip _ ih =>
    obtain ⟨b, hb, hr⟩ := ih ha
    exact ⟨b, List.mem_cons_of_mem _ hb, hr⟩

theorem Sub.append {l k : List α} {l' k' : List β} (h : Sub R l l') (h' : Sub R k k') : Sub R (l ++ k) (l' ++ k') := by
  induction h with
  | nil l' =>
    induction l' with
    | nil => exact h'
    | cons b t ih => exact .skip ih
  | cons h1 _ ih => exact .cons h1 ih
  | skip _ ih => exact .skip ih

theorem Sub.flatMap {l : List α} {l' : List β} {S : γ → δ → Prop} {f : α → List γ} {g : β → List δ} (h : Sub R l l')
    (hf : ∀ a b, R a b → Sub S (f a) (g b)) : Sub S (l.flatMap f) (l'.flatMap g) := by
  induction h with
  | nil => exact .nil _
  | cons h1 _ ih =>
    rw [List.flatMap_cons, List.flatMap_cons]
    exact (hf _ _ h1).append ih
  | skip _ ih =>
    rw [List.flatMap_cons]
    exact (Sub.nil _).append ih

theorem Sub.map {l : List α} {l' : List β} {S : γ → δ → Prop} {f : α → γ} {g : β → δ} (h : Sub R l l')
    (hf : ∀ a b, R a b → S (f a) (g b)) : Sub S (l.map f) (l'.map g) := by
  induction h with
  | nil => exact .nil _
  | cons h1 _ ih => exact .cons (hf _ _ h1) ih
  | skip _ ih => exact .skip ih

theorem Sub.imp {l : List α} {l' : List β} {S : α → β → Prop} (h : Sub R l l') (hf : ∀ a b, R a b → S a b) : Sub S l l' := by
  have := h.map (f := id) (g := id) hf
  simpa using this

theorem Sub.withMem {l : List α} {l' : List β} (h : Sub R l l') : Sub (fun a b => b ∈ l' ∧ R a b) l l' := by
  induction h with
  | nil => exact .nil _
  | cons h1 _ ih => exact .cons ⟨List.mem_cons_self, h1⟩ (ih.imp (fun a b h => ⟨List.mem_cons_of_mem _ h.1, h.2⟩))
  | skip _ ih => exact .skip (ih.imp (fun a b h => ⟨List.mem_cons_of_mem _ h.1, h.2⟩))

theorem Sub.length {l : List α} {l' : List β} (h : Sub R l l') : l.length ≤ l'.length := by
  induction h with
  | nil => simp
  | cons _ _ ih => simpa using ih
  | skip _ ih => simp only [List.length_cons]; omega

theorem Sub.exact {l : List α} {l' : List β} (h : Sub R l l') (hl : l'.length ≤ l.length) : List.Forall₂ R l l' := by
  induction h with
  | nil l' => cases l' with
    | nil => exact .nil
    | cons => simp at hl
  | cons h1 _ ih => exact .cons h1 (ih (by simpa using hl))
  | skip h1 ih => have := h1.length; simp only [List.length_cons] at hl; omega

theorem Sub.sum {l : List α} {l' : List β} (h : Sub R l l') {w : α → Int} {w' : β → Int} (hw : ∀ a b, R a b → w a ≤ w' b)
    (h0 : ∀ b ∈ l', 0 ≤ w' b) : (l.map w).sum ≤ (l'.map w').sum := by
  induction h with
  | nil l' =>
    simp only [List.map_nil, List.sum_nil]
    apply List.sum_nonneg
    intro x hx
    obtain ⟨b, hb, rfl⟩ := List.mem_map.1 hx
    exact h0 b hb
  | cons h1 _ ih =>
    simp only [List.map_cons, List.sum_cons]
    exact add_le_add (hw _ _ h1) (ih (fun b hb => h0 b (List.mem_cons_of_mem _ hb)))
  | @skip b _ _ _ ih =>
    simp only [List.map_cons, List.sum_cons]
    have := h0 b List.mem_cons_self
    have := ih (fun b hb => h0 b (List.mem_cons_of_mem _ hb))
    omega

/-- Lists of non-empty lists: if nothing is added, everything corresponds. -/
theorem Sub.exact_nested {l : List α} {l' : List β} (h : Sub R l l') {f : α → List γ} {g : β → List δ}
    (hf : ∀ a b, R a b → (f a).length ≤ (g b).length) (hne : ∀ b ∈ l', g b ≠ [])
    (hl : (l'.flatMap g).length ≤ (l.flatMap f).length) :
    List.Forall₂ (fun a b => R a b ∧ (g b).length = (f a).length) l l' ∧ (l.flatMap f).length ≤ (l'.flatMap g).length := by
  have hle : ∀ {l : List α} {l' : List β}, Sub R l l' → (l.flatMap f).length ≤ (l'.flatMap g).length := by
    intro l l' h
    induction h with
    | nil => simp
    | cons h1 _ ih =>
      simp only [List.flatMap_cons, List.length_append]
      have := hf _ _ h1
      omega
    | skip _ ih => simp only [List.flatMap_cons, List.length_append]; omega
  refine ⟨?_, hle h⟩
  induction h with
  | nil l' =>
    cases l' with
    | nil => exact .nil
    | cons b t =>
      have := List.length_pos_of_ne_nil (hne b List.mem_cons_self)
      simp only [List.flatMap_cons, List.length_append, List.flatMap_nil, List.length_nil] at hl
      omega
  | cons h1 h2 ih =>
    have e1 := hf _ _ h1
    have e2 := hle h2
    simp only [List.flatMap_cons, List.length_append] at hl
    exact .cons ⟨h1, by omega⟩ (ih (fun b hb => hne b (List.mem_cons_of_mem _ hb)) (by omega))
  | @skip b _ _ h2 ih =>
    have e2 := hle h2
    have := List.length_pos_of_ne_nil (hne b List.mem_cons_self)
    simp only [List.flatMap_cons, List.length_append] at hl
    omega

/-! ## Putting together more lists -/

/-- `each` and `eachAll` with the way of choosing left open. -/
def eachBy {α β : Type} (pick : String → List (List (String × α)) → List α) (f : List α → β) (l : List (List (String × α))) : List (String × β) :=
  (distinct (l.flatMap (fun s => s.map (·.1)))).map (fun n => (n, f (pick n l)))

def pickLast {α : Type} (n : String) (l : List (List (String × α))) : List α := l.filterMap (fun s => (s.filter (fun p => p.1 = n)).getLast?.map (·.2))
def pickAll {α : Type} (n : String) (l : List (List (String × α))) : List α := l.flatMap (fun s => (s.filter (fun p => p.1 = n)).map (·.2))

/-- A way of choosing that takes the lists one by one. -/
structure Picks {α : Type} (pick : String → List (List (String × α)) → List α) : Prop where
  append : ∀ n A B, pick n (A ++ B) = pick n A ++ pick n B
  from_ : ∀ n A, ∀ x ∈ pick n A, ∃ s ∈ A, (n, x) ∈ s

theorem picks_last {α : Type} : Picks (@pickLast α) where
  append n A B := List.filterMap_append
  from_ n A x hx := by
    obtain ⟨s, hs, h⟩ := List.mem_filterMap.1 hx
    obtain ⟨p, hp, rfl⟩ := Option.map_eq_some_iff.1 h
    obtain ⟨h1, h2⟩ := List.mem_filter.1 (List.mem_of_getLast? hp)
    exact ⟨s, hs, by rw [← of_decide_eq_true h2]; exact h1⟩

theorem picks_all {α : Type} : Picks (@pickAll α) where
  append n A B := List.flatMap_append
  from_ n A x hx := by
    obtain ⟨s, hs, h⟩ := List.mem_flatMap.1 hx
    obtain ⟨p, hp, rfl⟩ := List.mem_map.1 h
    obtain ⟨h1, h2⟩ := List.mem_filter.1 hp
    exact ⟨s, hs, by rw [← of_decide_eq_true h2]; exact h1⟩

theorem distinct_sub (a b : List String) : Sub (fun x y => y = x) (distinct a) (distinct (a ++ b)) := by
  have : ∃ t, distinct (a ++ b) = distinct a ++ t := by
    rw [Xml.distinct_eq, Xml.distinct_eq, firstSeen_append]
    exact ⟨_, rfl⟩
  obtain ⟨t, ht⟩ := this
  rw [ht]
  have h : ∀ l : List String, Sub (fun x y => y = x) l l := by
    intro l
    induction l with
    | nil => exact .nil _
    | cons x t ih => exact .cons rfl ih
  have := (h (distinct a)).append (Sub.nil t)
  simpa using this

/-- The result of putting together more lists: to each result belongs one made from more. -/
theorem eachBy_sub {α β : Type} {pick : String → List (List (String × α)) → List α} (hp : Picks pick) (f : List α → β)
    (A B : List (List (String × α))) :
    Sub (fun p p' : String × β => p'.1 = p.1 ∧ p.2 = f (pick p.1 A) ∧ p'.2 = f (pick p.1 A ++ pick p.1 B)) (eachBy pick f A) (eachBy pick f (A ++ B)) := by
  unfold eachBy
  rw [List.flatMap_append]
  refine (distinct_sub _ _).map ?_
  rintro n _ rfl
  exact ⟨rfl, rfl, by rw [hp.append]⟩

theorem mem_eachBy {α β : Type} {pick : String → List (List (String × α)) → List α} {f : List α → β} {l : List (List (String × α))}
    {p : String × β} (h : p ∈ eachBy pick f l) : p.2 = f (pick p.1 l) := by
  obtain ⟨n, _, rfl⟩ := List.mem_map.1 h
  rfl

/-! ## Bins -/

def NB (l : List XBin) : Prop := ∀ v ∈ l, 0 ≤ v.2.2

/-- Bins and the same bins with more hits. -/
def More (v v' : XBin) : Prop := v'.1 = v.1 ∧ v'.2.1 = v.2.1 ∧ v.2.2 ≤ v'.2.2

def binCount (k : Nat) (n : String) (l : List (List XBin)) : Int := ((l.flatten.filter (fun b => b.2.1 = k ∧ b.1 = n)).map (·.2.2)).sum

theorem binCount_append (k : Nat) (n : String) (xs ys : List (List XBin)) :
    binCount k n (xs ++ ys) = binCount k n xs + binCount k n ys := by
  unfold binCount
  rw [List.flatten_append, List.filter_append, List.map_append, List.sum_append]

theorem binCount_nonneg {k : Nat} {n : String} {l : List (List XBin)} (h : ∀ s ∈ l, NB s) : 0 ≤ binCount k n l := by
  apply List.sum_nonneg
  intro x hx
  obtain ⟨v, hv, rfl⟩ := List.mem_map.1 hx
  obtain ⟨s, hs, hv⟩ := List.mem_flatten.1 (List.mem_filter.1 hv).1
  exact h s hs v hv

theorem mem_addedBins {l : List (List XBin)} {v : XBin} (h : v ∈ addedBins l) : IsKind v.2.1 ∧ v.2.2 = binCount v.2.1 v.1 l := by
  obtain ⟨k, hk, h⟩ := List.mem_flatMap.1 h
  obtain ⟨n, _, rfl⟩ := List.mem_map.1 h
  refine ⟨?_, rfl⟩
  simpa [IsKind] using hk

theorem addedBins_sub {xs ys : List (List XBin)} (hy : ∀ s ∈ ys, NB s) : Sub More (addedBins xs) (addedBins (xs ++ ys)) := by
  unfold addedBins
  have h : ∀ l : List Nat, Sub (fun x y => y = x) l l := by
    intro l
    induction l with
    | nil => exact .nil _
    | cons x t ih => exact .cons rfl ih
  refine (h _).flatMap ?_
  rintro _ k rfl
  rw [List.flatten_append, List.filter_append, List.map_append]
  refine (distinct_sub _ _).map ?_
  rintro _ n rfl
  refine ⟨rfl, rfl, ?_⟩
  have h1 : binCount k n xs ≤ binCount k n (xs ++ ys) := by
    rw [binCount_append]
    have := binCount_nonneg (k := k) (n := n) hy
    omega
  unfold binCount at h1
  rw [List.flatten_append] at h1
  exact h1

theorem addedBins_nb {l : List (List XBin)} (h : ∀ s ∈ l, NB s) : NB (addedBins l) := by
  intro v hv
  rw [(mem_addedBins hv).2]
  exact binCount_nonneg h

/-! ## Coverpoints and crosses -/

/-- Coverpoints (or crosses) put together. -/
abbrev Parts (pick : String → List (List XPart) → List (List XBin)) := eachBy pick addedBins

def NP (l : List XPart) : Prop := ∀ q ∈ l, NB q.2

theorem parts_nb {pick : String → List (List XPart) → List (List XBin)} (hp : Picks pick) {A : List (List XPart)} (h : ∀ s ∈ A, NP s) (n : String) :
    ∀ s ∈ pick n A, NB s := by
  intro s hs
  obtain ⟨t, ht, hm⟩ := hp.from_ n A s hs
  exact h t ht _ hm

theorem parts_sub {pick : String → List (List XPart) → List (List XBin)} (hp : Picks pick) {A B : List (List XPart)} (hB : ∀ s ∈ B, NP s) :
    Sub (fun q q' : XPart => q'.1 = q.1 ∧ Sub More q.2 q'.2) (Parts pick A) (Parts pick (A ++ B)) := by
  refine (eachBy_sub hp addedBins A B).imp ?_
  rintro q q' ⟨h1, h2, h3⟩
  refine ⟨h1, ?_⟩
  rw [h2, h3]
  exact addedBins_sub (parts_nb hp hB _)

theorem parts_np {pick : String → List (List XPart) → List (List XBin)} (hp : Picks pick) {A : List (List XPart)} (h : ∀ s ∈ A, NP s) :
    NP (Parts pick A) := by
  intro q hq
  rw [mem_eachBy hq]
  exact addedBins_nb (parts_nb hp h _)

theorem listed_kept {l l' : List XBin} (h : Sub More l l') : BinsKept (listed CT.CVGBIN l) (listed CT.CVGBIN l') := by
  intro b hb
  obtain ⟨v, hv, hk, rfl⟩ := mem_listed.1 hb
  obtain ⟨v', hv', e1, e2, e3⟩ := h.mem hv
  exact ⟨_, mem_listed.2 ⟨v', hv', e2.trans hk, rfl⟩, e1, rfl, e3⟩

/-- Bins with the same names of coverpoint and bin. -/
theorem parts_counts {pick : String → List (List XPart) → List (List XBin)} (hp : Picks pick) {A B : List (List XPart)} (hB : ∀ s ∈ B, NP s)
    {q q' : XPart} (hq : q ∈ Parts pick A) (hq' : q' ∈ Parts pick (A ++ B)) (hn : q.1 = q'.1) {b b' : RBin}
    (hb : b ∈ listed CT.CVGBIN q.2) (hb' : b' ∈ listed CT.CVGBIN q'.2) (hm : b'.name = b.name) : b.count ≤ b'.count := by
  obtain ⟨v, hv, hk, rfl⟩ := mem_listed.1 hb
  obtain ⟨v', hv', hk', rfl⟩ := mem_listed.1 hb'
  rw [mem_eachBy hq] at hv
  rw [mem_eachBy hq', hp.append] at hv'
  have e := (mem_addedBins hv).2
  have e' := (mem_addedBins hv').2
  have hm : v'.1 = v.1 := hm
  show v.2.2 ≤ v'.2.2
  rw [e, e', hk, hk', hm, hn, binCount_append]
  have := binCount_nonneg (k := CT.CVGBIN) (n := v.1) (parts_nb hp hB q'.1)
  omega

/-! ## Sums over the entries -/

/-- Hits of the bins of a name under the coverpoints of a name. -/
def hits (n m : String) (L : List XPart) : Int := ((((L.filter (fun p => p.1 = n)).flatMap (·.2)).filter (fun b => b.1 = m)).map (·.2.2)).sum

theorem hits_eq (n m : String) (L : List XPart) :
    hits n m L = (L.map (fun q => if q.1 = n then (q.2.map (fun v => if v.1 = m then v.2.2 else 0)).sum else 0)).sum := by
  have key : ∀ l : List XBin, ((l.filter (fun b => b.1 = m)).map (·.2.2)).sum = (l.map (fun v => if v.1 = m then v.2.2 else 0)).sum := by
    intro l
    induction l with
    | nil => rfl
    | cons a t ih =>
      by_cases h : a.1 = m
      · rw [List.filter_cons_of_pos (by simpa using h)]
        simp only [List.map_cons, List.sum_cons, if_pos h, ih]
      · rw [List.filter_cons_of_neg (by simpa using h)]
        simp only [List.map_cons, List.sum_cons, if_neg h, ih, zero_add]
  unfold hits
  rw [key]
  induction L with
  | nil => rfl
  | cons q t ih =>
    by_cases h : q.1 = n
    · rw [List.filter_cons_of_pos (by simpa using h)]
      simp only [List.flatMap_cons, List.map_append, List.sum_append, List.map_cons, List.sum_cons, if_pos h, ih]
    · rw [List.filter_cons_of_neg (by simpa using h)]
      simp only [List.map_cons, List.sum_cons, if_neg h, ih, zero_add]

theorem bins_nonneg {l : List XBin} (h : NB l) (m : String) : 0 ≤ (l.map (fun v => if v.1 = m then v.2.2 else 0)).sum := by
  apply List.sum_nonneg
  intro x hx
  obtain ⟨v, hv, rfl⟩ := List.mem_map.1 hx
  split
  · exact h v hv
  · exact le_rfl

theorem hits_mono {L L' : List XPart} (h : Sub (fun q q' : XPart => q'.1 = q.1 ∧ Sub More q.2 q'.2) L L') (h0 : NP L') (n m : String) :
    hits n m L ≤ hits n m L' := by
  rw [hits_eq, hits_eq]
  refine h.withMem.sum ?_ ?_
  · rintro q q' ⟨hm, hn, hs⟩
    rw [hn]
    split
    · refine hs.withMem.sum ?_ ?_
      · rintro v v' ⟨_, h1, _, h3⟩
        rw [h1]
        split
        · exact h3
        · exact le_rfl
      · intro v hv
        split
        · exact h0 q' hm v hv
        · exact le_rfl
    · exact le_rfl
  · intro q hq
    split
    · exact bins_nonneg (h0 q hq) m
    · exact le_rfl

theorem sums_count {L : List XPart} {s : XPart} (hs : s ∈ sums L) {b : RBin} (hb : b ∈ listed CT.CVGBIN s.2) :
    b.count = hits s.1 b.name L ∧ b.goal = 1 := by
  obtain ⟨n, _, rfl⟩ := List.mem_map.1 hs
  obtain ⟨v, hv, _, rfl⟩ := mem_listed.1 hb
  obtain ⟨m, _, rfl⟩ := List.mem_map.1 hv
  exact ⟨rfl, rfl⟩

/-- On the level of the covergroup. -/
theorem sums_kept {L L' : List XPart} (h : Sub (fun q q' : XPart => q'.1 = q.1 ∧ Sub More q.2 q'.2) L L') (h0 : NP L') (hk : PartsAgree L') :
    ∀ s ∈ sums L, ∃ s' ∈ sums L', s'.1 = s.1 ∧ BinsKept (listed CT.CVGBIN s.2) (listed CT.CVGBIN s'.2) := by
  intro s hs
  have hs0 := hs
  obtain ⟨n, hn, rfl⟩ := List.mem_map.1 hs
  rw [mem_distinct] at hn
  obtain ⟨q, hq, rfl⟩ := List.mem_map.1 hn
  obtain ⟨q', hq', e1, _⟩ := h.mem hq
  refine ⟨_, List.mem_map.2 ⟨q.1, mem_distinct.2 (List.mem_map.2 ⟨q', hq', e1⟩), rfl⟩, rfl, ?_⟩
  intro b hb
  have hc := (sums_count hs0 hb).1
  -- some ordinary bin of that name
  have hex : ∃ c ∈ listed CT.CVGBIN ((L'.filter (fun p => p.1 = q.1)).flatMap (·.2)), c.name = b.name := by
    obtain ⟨v, hv, hvk, rfl⟩ := mem_listed.1 hb
    obtain ⟨m, hm, rfl⟩ := List.mem_map.1 hv
    rw [mem_distinct] at hm
    obtain ⟨x, hx, rfl⟩ := List.mem_map.1 hm
    obtain ⟨a, ha, hax, hak⟩ := together_head hx
    simp only at hvk
    rw [hak] at hvk
    obtain ⟨p, hp, hap⟩ := List.mem_flatMap.1 ha
    obtain ⟨hp, hpn⟩ := List.mem_filter.1 hp
    obtain ⟨p', hp', en, es⟩ := h.mem hp
    obtain ⟨a', ha', f1, f2, _⟩ := es.mem hap
    exact ⟨_, mem_listed.2 ⟨a', List.mem_flatMap.2 ⟨p', List.mem_filter.2 ⟨hp', decide_eq_true (en.trans (of_decide_eq_true hpn))⟩, ha'⟩,
      f2.trans hvk, rfl⟩, f1.trans hax⟩
  obtain ⟨c, hc', hcn⟩ := hex
  obtain ⟨b', hb', hbn⟩ := together_all (kinds_of_parts hk q.1) hc'
  refine ⟨b', hb', hbn.trans hcn, ?_, ?_⟩
  · obtain ⟨_, _, _, rfl⟩ := mem_listed.1 hb
    obtain ⟨_, _, _, rfl⟩ := mem_listed.1 hb'
    rfl
  · have hs' : (q.1, together ((L'.filter (fun p => p.1 = q.1)).flatMap (·.2))) ∈ sums L' :=
      List.mem_map.2 ⟨q.1, mem_distinct.2 (List.mem_map.2 ⟨q', hq', e1⟩), rfl⟩
    rw [hc, (sums_count hs' hb').1, hbn, hcn]
    exact hits_mono h h0 _ _

/-! ## Entries -/

/-- Coverpoints and crosses of an entry. -/
abbrev SEnt := List XPart × List (String × List String × List XBin)

def cview (e : SEnt) : List XPart := e.2.map (fun x => (x.1, x.2.2))

/-- Entries put together (as in `mergedSaid`). -/
def ent (es : List SEnt) : SEnt := (each addedBins (es.map (·.1)), eachAll addedCrosses (es.map (·.2)))

def NEnt (e : SEnt) : Prop := NP e.1 ∧ NP (cview e)

theorem ent_points (es : List SEnt) : (ent es).1 = Parts pickLast (es.map (·.1)) := rfl

theorem ent_crosses (es : List SEnt) : cview (ent es) = Parts pickAll (es.map cview) := by
  unfold cview ent Parts eachAll eachBy
  simp only [List.map_map, List.flatMap_map, Function.comp_def]
  apply List.map_congr_left
  intro n _
  refine Prod.ext rfl ?_
  simp only [addedCrosses, pickAll, List.flatMap_map, List.map_flatMap, List.map_map, List.filter_map]
  rfl

theorem np_points {es : List SEnt} (h : ∀ e ∈ es, NEnt e) : ∀ s ∈ es.map (·.1), NP s := by
  intro s hs
  obtain ⟨e, he, rfl⟩ := List.mem_map.1 hs
  exact (h e he).1

theorem np_crosses {es : List SEnt} (h : ∀ e ∈ es, NEnt e) : ∀ s ∈ es.map cview, NP s := by
  intro s hs
  obtain ⟨e, he, rfl⟩ := List.mem_map.1 hs
  exact (h e he).2

theorem ent_nonneg {es : List SEnt} (h : ∀ e ∈ es, NEnt e) : NEnt (ent es) := by
  constructor
  · rw [ent_points]; exact parts_np picks_last (np_points h)
  · rw [ent_crosses]; exact parts_np picks_all (np_crosses h)

/-- A part and the same part with more. -/
def MorePart (q q' : XPart) : Prop := q'.1 = q.1 ∧ Sub More q.2 q'.2

theorem ent_sub {xs ys : List SEnt} (hy : ∀ e ∈ ys, NEnt e) :
    Sub MorePart (ent xs).1 (ent (xs ++ ys)).1 ∧ Sub MorePart (cview (ent xs)) (cview (ent (xs ++ ys))) := by
  constructor
  · rw [ent_points, ent_points, List.map_append]
    exact parts_sub picks_last (np_points hy)
  · rw [ent_crosses, ent_crosses, List.map_append]
    exact parts_sub picks_all (np_crosses hy)

theorem part_counts_points {xs ys : List SEnt} (hy : ∀ e ∈ ys, NEnt e) {q q' : XPart} (hq : q ∈ (ent xs).1) (hq' : q' ∈ (ent (xs ++ ys)).1)
    (hn : q.1 = q'.1) {b b' : RBin} (hb : b ∈ listed CT.CVGBIN q.2) (hb' : b' ∈ listed CT.CVGBIN q'.2) (hm : b'.name = b.name) :
    b.count ≤ b'.count := by
  rw [ent_points] at hq
  rw [ent_points, List.map_append] at hq'
  exact parts_counts picks_last (np_points hy) hq hq' hn hb hb' hm

theorem part_counts_crosses {xs ys : List SEnt} (hy : ∀ e ∈ ys, NEnt e) {q q' : XPart} (hq : q ∈ cview (ent xs)) (hq' : q' ∈ cview (ent (xs ++ ys)))
    (hn : q.1 = q'.1) {b b' : RBin} (hb : b ∈ listed CT.CVGBIN q.2) (hb' : b' ∈ listed CT.CVGBIN q'.2) (hm : b'.name = b.name) :
    b.count ≤ b'.count := by
  rw [ent_crosses] at hq
  rw [ent_crosses, List.map_append] at hq'
  exact parts_counts picks_all (np_crosses hy) hq hq' hn hb hb' hm

/-- The line of an entry. -/
def entLine (e : String × SEnt) : RCg := groupLine e.1 e.2.1 (cview e.2) []

/-- The line of a covergroup. -/
def sLine (t : String × List (String × SEnt)) : RCg :=
  groupLine t.1 (sums (t.2.flatMap (fun e => e.2.1))) (sums (t.2.flatMap (fun e => cview e.2))) (t.2.map entLine)

theorem saidLines_eq (v : Said) : saidLines v = v.flatMap (fun i => i.2.map sLine) := rfl

theorem group_kept {n n' : String} {cps crs cps' crs' : List XPart} {sub sub' : List RCg}
    (h1 : ∀ q ∈ cps, ∃ q' ∈ cps', q'.1 = q.1 ∧ BinsKept (listed CT.CVGBIN q.2) (listed CT.CVGBIN q'.2))
    (h2 : ∀ q ∈ crs, ∃ q' ∈ crs', q'.1 = q.1 ∧ BinsKept (listed CT.CVGBIN q.2) (listed CT.CVGBIN q'.2)) :
    PartsKept (groupLine n cps crs sub) (groupLine n' cps' crs' sub') := by
  constructor
  · intro p hp
    obtain ⟨q, hq, rfl⟩ := List.mem_map.1 (show p ∈ cps.map pointLine from hp)
    obtain ⟨q', hq', e1, e2⟩ := h1 q hq
    exact ⟨pointLine q', List.mem_map_of_mem hq', e1, e2⟩
  · intro p hp
    obtain ⟨q, hq, rfl⟩ := List.mem_map.1 (show p ∈ crs.map crossLine from hp)
    obtain ⟨q', hq', e1, e2⟩ := h2 q hq
    exact ⟨crossLine q', List.mem_map_of_mem hq', e1, e2⟩

theorem sub_parts_kept {l l' : List XPart} (h : Sub MorePart l l') :
    ∀ q ∈ l, ∃ q' ∈ l', q'.1 = q.1 ∧ BinsKept (listed CT.CVGBIN q.2) (listed CT.CVGBIN q'.2) := by
  intro q hq
  obtain ⟨q', hq', e1, e2⟩ := h.mem hq
  exact ⟨q', hq', e1, listed_kept e2⟩

theorem forall₂_map_of {α β γ δ : Type} {S : γ → δ → Prop} {f : α → γ} {g : β → δ} {l : List α} {l' : List β} :
    List.Forall₂ S (l.map f) (l'.map g) ↔ List.Forall₂ (fun a b => S (f a) (g b)) l l' := by
  induction l generalizing l' with
  | nil =>
    cases l' with
    | nil => simp
    | cons => simp
  | cons a t ih =>
    cases l' with
    | nil => simp
    | cons b t' => simp [ih]

theorem group_figures {n n' : String} {cps crs cps' crs' : List XPart} {sub sub' : List RCg}
    (hl : layout (groupLine n' cps' crs' sub') = layout (groupLine n cps crs sub))
    (h1 : ∀ q ∈ cps, ∀ q' ∈ cps', q.1 = q'.1 → ∀ b ∈ listed CT.CVGBIN q.2, ∀ b' ∈ listed CT.CVGBIN q'.2, b'.name = b.name → b.count ≤ b'.count)
    (h2 : ∀ q ∈ crs, ∀ q' ∈ crs', q.1 = q'.1 → ∀ b ∈ listed CT.CVGBIN q.2, ∀ b' ∈ listed CT.CVGBIN q'.2, b'.name = b.name → b.count ≤ b'.count) :
    FiguresKept (groupLine n cps crs sub) (groupLine n' cps' crs' sub') := by
  obtain ⟨e1, e2⟩ := Prod.ext_iff.1 hl
  have hit : ∀ {l l' : List XBin} {b b' : RBin}, b ∈ listed CT.CVGBIN l → b' ∈ listed CT.CVGBIN l' → b.count ≤ b'.count → b.hit = true → b'.hit = true := by
    intro l l' b b' hb hb' hc
    obtain ⟨_, _, _, rfl⟩ := mem_listed.1 hb
    obtain ⟨_, _, _, rfl⟩ := mem_listed.1 hb'
    simp only [Report.RBin.hit, decide_eq_true_eq]
    exact fun h => le_trans h hc
  have k1 : List.Forall₂ (· ≤ ·) ((cps.map pointLine).map (fun p => pct p.bins)) ((cps'.map pointLine).map (fun p => pct p.bins)) := by
    refine forall₂_lines (f := fun p : RCp => p.name) (bs := fun p => p.bins) (Eq.symm e1) ?_
    intro q hq p hp hn c hc b hb he
    obtain ⟨x, hx, rfl⟩ := List.mem_map.1 hq
    obtain ⟨y, hy, rfl⟩ := List.mem_map.1 hp
    exact hit hc hb (h1 x hx y hy hn c hc b hb he)
  have k2 : List.Forall₂ (· ≤ ·) ((crs.map crossLine).map (fun p => pct p.bins)) ((crs'.map crossLine).map (fun p => pct p.bins)) := by
    refine forall₂_lines (f := fun p : RCross => p.name) (bs := fun p => p.bins) (Eq.symm e2) ?_
    intro q hq p hp hn c hc b hb he
    obtain ⟨x, hx, rfl⟩ := List.mem_map.1 hq
    obtain ⟨y, hy, rfl⟩ := List.mem_map.1 hp
    exact hit hc hb (h2 x hx y hy hn c hc b hb he)
  refine ⟨?_, ?_, ?_⟩
  · rw [plain_groupLine n cps crs sub, plain_groupLine n' cps' crs' sub']
    exact average_le (forall₂_append k1 k2)
  · show List.Forall₂ _ (cps.map pointLine) (cps'.map pointLine)
    rw [List.map_map, List.map_map, forall₂_map_of] at k1
    rw [forall₂_map_of]
    refine k1.imp ?_
    intro a b h
    show percentHit a.2 ≤ percentHit b.2
    rw [percentHit_pct, percentHit_pct]
    exact h
  · show List.Forall₂ _ (crs.map crossLine) (crs'.map crossLine)
    rw [List.map_map, List.map_map, forall₂_map_of] at k2
    rw [forall₂_map_of]
    refine k2.imp ?_
    intro a b h
    show percentHit a.2 ≤ percentHit b.2
    rw [percentHit_pct, percentHit_pct]
    exact h

/-! ## Covergroups -/

abbrev SEnts := List (String × SEnt)

def NT (l : SEnts) : Prop := ∀ e ∈ l, NEnt e.2

/-- An entry and the same entry with more. -/
def MoreEnt (e e' : String × SEnt) : Prop :=
  e'.1 = e.1 ∧ ∃ xs ys, (∀ e ∈ xs ++ ys, NEnt e) ∧ e.2 = ent xs ∧ e'.2 = ent (xs ++ ys)

theorem pick_nt {pick : String → List SEnts → List SEnt} (hp : Picks pick) {E : List SEnts} (h : ∀ s ∈ E, NT s) (n : String) :
    ∀ e ∈ pick n E, NEnt e := by
  intro e he
  obtain ⟨s, hs, hm⟩ := hp.from_ n E e he
  exact h s hs _ hm

theorem ents_sub {E E' : List SEnts} (h : ∀ s ∈ E ++ E', NT s) : Sub MoreEnt (each ent E) (each ent (E ++ E')) := by
  refine (eachBy_sub picks_last ent E E').imp ?_
  rintro e e' ⟨h1, h2, h3⟩
  refine ⟨h1, _, _, ?_, h2, h3⟩
  rw [← picks_last.append]
  exact pick_nt picks_last h _

theorem ents_nonneg {E : List SEnts} (h : ∀ s ∈ E, NT s) : NT (each ent E) := by
  intro e he
  rw [mem_eachBy (pick := pickLast) he]
  exact ent_nonneg (pick_nt picks_last h _)

theorem kinds_ent {es : List SEnt} : (∀ q ∈ (ent es).1, ∀ v ∈ q.2, IsKind v.2.1) := by
  intro q hq v hv
  rw [ent_points] at hq
  rw [mem_eachBy hq] at hv
  exact (mem_addedBins hv).1

theorem typeLine_sLine (t : String × SEnts) :
    typeLine (t.1, t.2.map (fun e => (e.1, e.2.1, e.2.2.map (fun x => (x.1, some x.2.1, x.2.2))))) = sLine t := by
  unfold typeLine sLine entLine cview entryCrosses
  simp only [List.flatMap_map, List.map_map, Function.comp_def]

def asType (t : String × SEnts) : String × List XEntry :=
  (t.1, t.2.map (fun e => (e.1, e.2.1, e.2.2.map (fun x => (x.1, some x.2.1, x.2.2)))))

theorem agree_of_oneKind {t : String × SEnts} (hk : ∀ e ∈ t.2, ∀ q ∈ e.2.1, ∀ v ∈ q.2, IsKind v.2.1) (h : OneKind (sLine t)) :
    PartsAgree (t.2.flatMap (fun e => e.2.1)) := by
  have e : (asType t).2.flatMap (fun e => e.2.1) = t.2.flatMap (fun e => e.2.1) := by
    unfold asType
    simp only [List.flatMap_map]
  have h' : OneKind (typeLine (asType t)) := by
    rw [show typeLine (asType t) = sLine t from typeLine_sLine t]
    exact h
  rw [← e]
  refine parts_of_oneKind ?_ h'
  intro e he
  obtain ⟨x, hx, hxe⟩ := List.mem_map.1 (show e ∈ t.2.map (fun e => (e.1, e.2.1, e.2.2.map (fun x => (x.1, some x.2.1, x.2.2)))) from he)
  rw [← hxe]
  exact hk x hx

/-- Crosses have ordinary bins only. -/
def OrdCross (l : SEnts) : Prop := ∀ e ∈ l, ∀ q ∈ cview e.2, ∀ v ∈ q.2, v.2.1 = CT.CVGBIN

theorem line_sub {E E' : List SEnts} (h : ∀ s ∈ E ++ E', NT s) :
    Sub MorePart ((each ent E).flatMap (fun e => e.2.1)) ((each ent (E ++ E')).flatMap (fun e => e.2.1)) ∧
    Sub MorePart ((each ent E).flatMap (fun e => cview e.2)) ((each ent (E ++ E')).flatMap (fun e => cview e.2)) ∧
    NP ((each ent (E ++ E')).flatMap (fun e => e.2.1)) ∧ NP ((each ent (E ++ E')).flatMap (fun e => cview e.2)) := by
  refine ⟨(ents_sub h).flatMap ?_, (ents_sub h).flatMap ?_, ?_, ?_⟩
  · rintro e e' ⟨_, xs, ys, h0, h1, h2⟩
    rw [h1, h2]
    exact (ent_sub (fun e he => h0 e (List.mem_append_right _ he))).1
  · rintro e e' ⟨_, xs, ys, h0, h1, h2⟩
    rw [h1, h2]
    exact (ent_sub (fun e he => h0 e (List.mem_append_right _ he))).2
  · intro q hq
    obtain ⟨e, he, hq⟩ := List.mem_flatMap.1 hq
    exact (ents_nonneg h e he).1 q hq
  · intro q hq
    obtain ⟨e, he, hq⟩ := List.mem_flatMap.1 hq
    exact (ents_nonneg h e he).2 q hq

theorem line_kept (n : String) {E E' : List SEnts} (h : ∀ s ∈ E ++ E', NT s) (hx : OrdCross (each ent (E ++ E'))) :
    LineKept (sLine (n, each ent E)) (sLine (n, each ent (E ++ E'))) := by
  obtain ⟨s1, s2, n1, n2⟩ := line_sub h
  refine ⟨rfl, ?_, ?_⟩
  · intro i hi
    obtain ⟨e, he, rfl⟩ := List.mem_map.1 (show i ∈ (each ent E).map entLine from hi)
    obtain ⟨e', he', h1, xs, ys, h0, h2, h3⟩ := (ents_sub h).mem he
    refine ⟨entLine e', List.mem_map_of_mem he', h1, ?_⟩
    unfold entLine
    rw [h2, h3]
    obtain ⟨k1, k2⟩ := ent_sub (xs := xs) (fun e he => h0 e (List.mem_append_right _ he))
    exact group_kept (sub_parts_kept k1) (sub_parts_kept k2)
  · intro ho
    refine group_kept (sums_kept s1 n1 ?_) (sums_kept s2 n2 ?_)
    · refine agree_of_oneKind (t := (n, each ent (E ++ E'))) ?_ ho
      intro e he
      rw [mem_eachBy (pick := pickLast) he]
      exact kinds_ent
    · intro q hq q' hq' _ v hv v' hv' _
      obtain ⟨e, he, hq⟩ := List.mem_flatMap.1 hq
      obtain ⟨e', he', hq'⟩ := List.mem_flatMap.1 hq'
      rw [hx e he q hq v hv, hx e' he' q' hq' v' hv']

theorem forall₂_both {α β γ : Type} {S : α → β → Prop} {f : α → γ} {g : β → γ} {l : List α} {l' : List β} (h : List.Forall₂ S l l')
    (he : l'.map g = l.map f) : List.Forall₂ (fun a b => S a b ∧ g b = f a) l l' := by
  induction h with
  | nil => exact .nil
  | cons h1 _ ih =>
    simp only [List.map_cons, List.cons.injEq] at he
    exact .cons ⟨h1, he.1⟩ (ih he.2)

theorem line_figures (n : String) {E E' : List SEnts} (h : ∀ s ∈ E ++ E', NT s)
    (hs : shape (sLine (n, each ent (E ++ E'))) = shape (sLine (n, each ent E))) :
    FiguresKept (sLine (n, each ent E)) (sLine (n, each ent (E ++ E'))) ∧
    List.Forall₂ FiguresKept (sLine (n, each ent E)).covergroups (sLine (n, each ent (E ++ E'))).covergroups := by
  obtain ⟨s1, s2, n1, n2⟩ := line_sub h
  obtain ⟨_, hs⟩ := Prod.ext_iff.1 hs
  obtain ⟨hl, hs⟩ := Prod.ext_iff.1 hs
  constructor
  · refine group_figures hl ?_ ?_
    · intro q hq q' hq' hn b hb b' hb' hm
      rw [(sums_count hq hb).1, (sums_count hq' hb').1, hn, hm]
      exact hits_mono s1 n1 _ _
    · intro q hq q' hq' hn b hb b' hb' hm
      rw [(sums_count hq hb).1, (sums_count hq' hb').1, hn, hm]
      exact hits_mono s2 n2 _ _
  · have hs : ((each ent (E ++ E')).map entLine).map (fun i => (i.name, layout i)) = ((each ent E).map entLine).map (fun i => (i.name, layout i)) := hs
    show List.Forall₂ FiguresKept ((each ent E).map entLine) ((each ent (E ++ E')).map entLine)
    rw [List.map_map, List.map_map] at hs
    have hlen : (each ent (E ++ E')).length ≤ (each ent E).length := by
      have := congrArg List.length hs
      simp only [List.length_map] at this
      omega
    rw [forall₂_map_of]
    refine (forall₂_both ((ents_sub h).exact hlen) hs).imp ?_
    rintro e e' ⟨⟨_, xs, ys, h0, h2, h3⟩, hlay⟩
    have hlay := (Prod.ext_iff.1 hlay).2
    simp only [Function.comp] at hlay
    unfold entLine at hlay ⊢
    rw [h2, h3] at hlay ⊢
    have hy : ∀ e ∈ ys, NEnt e := fun e he => h0 e (List.mem_append_right _ he)
    exact group_figures hlay (fun q hq q' hq' hn b hb b' hb' hm => part_counts_points hy hq hq' hn hb hb' hm)
      (fun q hq q' hq' hn b hb b' hb' hm => part_counts_crosses hy hq hq' hn hb hb' hm)

theorem addedBins_kind {l : List (List XBin)} {v : XBin} (h : v ∈ addedBins l) : ∃ s ∈ l, ∃ u ∈ s, u.2.1 = v.2.1 := by
  obtain ⟨k, _, h⟩ := List.mem_flatMap.1 h
  obtain ⟨n, hn, rfl⟩ := List.mem_map.1 h
  rw [mem_distinct] at hn
  obtain ⟨u, hu, rfl⟩ := List.mem_map.1 hn
  obtain ⟨hu, hk⟩ := List.mem_filter.1 hu
  obtain ⟨s, hs, hu⟩ := List.mem_flatten.1 hu
  exact ⟨s, hs, u, hu, of_decide_eq_true hk⟩

/-- Counts are not negative, crosses have ordinary bins only. -/
def Fine (e : SEnt) : Prop := NEnt e ∧ ∀ q ∈ cview e, ∀ v ∈ q.2, v.2.1 = CT.CVGBIN

def FineTypes (l : List (String × SEnts)) : Prop := ∀ t ∈ l, ∀ e ∈ t.2, Fine e.2
def FineSaid (v : Said) : Prop := ∀ i ∈ v, FineTypes i.2

theorem ord_merged {E : List SEnts} (h : ∀ s ∈ E, ∀ e ∈ s, Fine e.2) : OrdCross (each ent E) := by
  intro e he q hq v hv
  rw [mem_eachBy (pick := pickLast) he, ent_crosses] at hq
  rw [mem_eachBy hq] at hv
  obtain ⟨s, hs, u, hu, hk⟩ := addedBins_kind hv
  obtain ⟨c, hc, hm⟩ := picks_all.from_ _ _ s hs
  obtain ⟨x, hx, rfl⟩ := List.mem_map.1 hc
  obtain ⟨z, hz, hxz⟩ := picks_last.from_ _ _ x hx
  rw [← hk]
  exact (h z hz _ hxz).2 _ hm u hu

/-! ## Whole databases -/

abbrev STypes := List (String × SEnts)

/-- A covergroup and the same covergroup with more. -/
def MoreType (t t' : String × SEnts) : Prop :=
  t'.1 = t.1 ∧ ∃ E E', (∀ s ∈ E ++ E', ∀ e ∈ s, Fine e.2) ∧ t.2 = each ent E ∧ t'.2 = each ent (E ++ E')

theorem types_sub {T T' : List STypes} (h : ∀ s ∈ T ++ T', FineTypes s) : Sub MoreType (each (each ent) T) (each (each ent) (T ++ T')) := by
  refine (eachBy_sub picks_last (each ent) T T').imp ?_
  rintro t t' ⟨h1, h2, h3⟩
  refine ⟨h1, _, _, ?_, h2, h3⟩
  rw [← picks_last.append]
  intro s hs
  obtain ⟨z, hz, hm⟩ := picks_last.from_ _ _ s hs
  exact h z hz _ hm

/-- An instance and the same instance with more. -/
def MoreInst (i i' : String × STypes) : Prop :=
  i'.1 = i.1 ∧ ∃ T T', (∀ s ∈ T ++ T', FineTypes s) ∧ i.2 = each (each ent) T ∧ i'.2 = each (each ent) (T ++ T')

theorem insts_sub {A B : List Said} (h : ∀ v ∈ A ++ B, FineSaid v) : Sub MoreInst (mergedSaid A) (mergedSaid (A ++ B)) := by
  refine (eachBy_sub picks_last (each (each ent)) A B).imp ?_
  rintro i i' ⟨h1, h2, h3⟩
  refine ⟨h1, _, _, ?_, h2, h3⟩
  rw [← picks_last.append]
  intro s hs
  obtain ⟨z, hz, hm⟩ := picks_last.from_ _ _ s hs
  exact h z hz _ hm

theorem MoreInst.types {i i' : String × STypes} (h : MoreInst i i') : Sub MoreType i.2 i'.2 := by
  obtain ⟨_, T, T', h0, h1, h2⟩ := h
  rw [h1, h2]
  exact types_sub h0

theorem MoreType.kept {t t' : String × SEnts} (h : MoreType t t') : LineKept (sLine t) (sLine t') := by
  obtain ⟨n, x⟩ := t
  obtain ⟨n', x'⟩ := t'
  obtain ⟨rfl, E, E', h0, rfl, rfl⟩ := h
  exact line_kept _ (fun s hs e he => (h0 s hs e he).1) (ord_merged h0)

theorem MoreType.figures {t t' : String × SEnts} (h : MoreType t t') (hs : shape (sLine t') = shape (sLine t)) :
    FiguresKept (sLine t) (sLine t') ∧ List.Forall₂ FiguresKept (sLine t).covergroups (sLine t').covergroups := by
  obtain ⟨n, x⟩ := t
  obtain ⟨n', x'⟩ := t'
  obtain ⟨rfl, E, E', h0, rfl, rfl⟩ := h
  exact line_figures _ (fun s hs e he => (h0 s hs e he).1) hs

theorem said_kept {A B : List Said} (h : ∀ v ∈ A ++ B, FineSaid v) :
    ∀ g ∈ saidLines (mergedSaid A), ∃ g' ∈ saidLines (mergedSaid (A ++ B)), LineKept g g' := by
  intro g hg
  rw [saidLines_eq] at hg
  obtain ⟨i, hi, hg⟩ := List.mem_flatMap.1 hg
  obtain ⟨t, ht, rfl⟩ := List.mem_map.1 hg
  obtain ⟨i', hi', hii⟩ := (insts_sub h).mem hi
  obtain ⟨t', ht', htt⟩ := hii.types.mem ht
  exact ⟨sLine t', by rw [saidLines_eq]; exact List.mem_flatMap.2 ⟨i', hi', List.mem_map_of_mem ht'⟩, htt.kept⟩

theorem forall₂_last {α β : Type} {S : α → β → Prop} {l : List α} {l' : List β} (h : List.Forall₂ S l l') :
    (l.getLast? = none ∧ l'.getLast? = none) ∨ ∃ a b, l.getLast? = some a ∧ l'.getLast? = some b ∧ S a b := by
  induction h with
  | nil => exact .inl ⟨rfl, rfl⟩
  | @cons a b t t' h1 h2 ih =>
    right
    rw [List.getLast?_cons, List.getLast?_cons]
    rcases ih with ⟨e1, e2⟩ | ⟨x, y, e1, e2, h⟩
    · rw [e1, e2]; exact ⟨a, b, rfl, rfl, h1⟩
    · rw [e1, e2]; exact ⟨x, y, rfl, rfl, h⟩

theorem said_figures {A B : List Said} (h : ∀ v ∈ A ++ B, FineSaid v) (hne : ∀ i ∈ mergedSaid (A ++ B), i.2 ≠ [])
    (hs : (saidLines (mergedSaid (A ++ B))).map shape = (saidLines (mergedSaid A)).map shape) :
    List.Forall₂ (fun g g' => FiguresKept g g' ∧ List.Forall₂ FiguresKept g.covergroups g'.covergroups)
      (saidLines (mergedSaid A)) (saidLines (mergedSaid (A ++ B))) ∧
    saidTotal (mergedSaid A) ≤ saidTotal (mergedSaid (A ++ B)) := by
  have hsub := insts_sub h
  generalize mergedSaid A = v at *
  generalize mergedSaid (A ++ B) = v' at *
  have hlen : (v'.flatMap (fun i => i.2)).length ≤ (v.flatMap (fun i => i.2)).length := by
    have := congrArg List.length hs
    rw [saidLines_eq, saidLines_eq] at this
    simp only [List.length_map, List.length_flatMap] at this ⊢
    omega
  have hex := (hsub.exact_nested (f := fun i => i.2) (g := fun i => i.2) (fun a b hab => hab.types.length) hne hlen).1
  clear hlen hsub hne h
  have key : List.Forall₂ (fun i i' : String × STypes => List.Forall₂ (fun t t' => FiguresKept (sLine t) (sLine t') ∧
      List.Forall₂ FiguresKept (sLine t).covergroups (sLine t').covergroups) i.2 i'.2) v v' := by
    induction hex with
    | nil => exact .nil
    | @cons i i' t t' h1 h2 ih =>
      obtain ⟨hm, hl⟩ := h1
      rw [saidLines_eq, saidLines_eq, List.flatMap_cons, List.flatMap_cons, List.map_append, List.map_append] at hs
      obtain ⟨e1, e2⟩ := List.append_inj hs (by simp [hl])
      refine .cons ?_ (ih e2)
      rw [List.map_map, List.map_map] at e1
      refine (forall₂_both (hm.types.exact (le_of_eq hl)) e1).imp ?_
      rintro x y ⟨hxy, he⟩
      exact hxy.figures he
  constructor
  · clear hs hex
    rw [saidLines_eq, saidLines_eq]
    induction key with
    | nil => exact .nil
    | cons h1 _ ih =>
      rw [List.flatMap_cons, List.flatMap_cons]
      exact List.rel_append (forall₂_map_of.2 h1) ih
  · unfold saidTotal
    rcases forall₂_last key with ⟨e1, e2⟩ | ⟨i, i', e1, e2, h1⟩
    · rw [e1, e2]
    · rw [e1, e2]
      show average _ ≤ average _
      apply average_le
      rw [saidLines_eq, saidLines_eq, List.flatMap_cons, List.flatMap_cons, List.flatMap_nil, List.append_nil, List.append_nil,
        List.map_map, List.map_map, forall₂_map_of]
      exact h1.imp (fun a b h => h.1.line)

end MoreFiles
end Verif
