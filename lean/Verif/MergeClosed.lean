import Verif.Merge
import Verif.Assoc
/-!
# Closed form of the merge

Pure (exception free) description of what `Merge.merge` returns when it succeeds, the exact success
condition, and the proof that the model agrees with both.  Nothing in this file appears in the
property statements; it is proof machinery.
-/

namespace Verif
namespace Merge

/-! ## `mapM` in `Except` -/

theorem mapM_ok_of_forall {α β ε : Type} {f : α → Except ε β} {g : α → β} {l : List α}
    (h : ∀ x ∈ l, f x = .ok (g x)) : l.mapM f = .ok (l.map g) := by
  induction l with
  | nil => rfl
  | cons a t ih =>
    rw [List.mapM_cons, h a (by simp), ih (fun x hx => h x (by simp [hx]))]
    rfl

theorem mapM_error {α β ε : Type} {f : α → Except ε β} {e : ε} {l : List α}
    (h : ∀ x ∈ l, (∃ y, f x = .ok y) ∨ f x = .error e) (hx : ∃ x ∈ l, f x = .error e) :
    l.mapM f = .error e := by
  induction l with
  | nil => simp at hx
  | cons a t ih =>
    rw [List.mapM_cons]
    rcases h a (by simp) with ⟨y, hy⟩ | hy
    · rw [hy]
      obtain ⟨x, hxm, hxe⟩ := hx
      rcases List.mem_cons.1 hxm with rfl | hxt
      · rw [hy] at hxe; cases hxe
      · have := ih (fun x hx => h x (by simp [hx])) ⟨x, hxt, hxe⟩
        show (do let r ← t.mapM f; pure (y :: r)) = _
        rw [this]; rfl
    · rw [hy]; rfl

/-- If each element either succeeds with `g x` (when `p x`) or fails with `e`, so does `mapM`. -/
theorem mapM_ite {α β ε : Type} {f : α → Except ε β} {g : α → β} {p : α → Prop} {e : ε} {l : List α}
    (h1 : ∀ x ∈ l, p x → f x = .ok (g x)) (h2 : ∀ x ∈ l, ¬ p x → f x = .error e) :
    ((∀ x ∈ l, p x) → l.mapM f = .ok (l.map g)) ∧
    ((¬ ∀ x ∈ l, p x) → l.mapM f = .error e) := by
  refine ⟨fun h => mapM_ok_of_forall (fun x hx => h1 x hx (h x hx)), fun h => ?_⟩
  simp only [not_forall] at h
  obtain ⟨x, hx, hp⟩ := h
  refine mapM_error (fun y hy => ?_) ⟨x, hx, h2 x hx hp⟩
  by_cases hpy : p y
  · exact Or.inl ⟨_, h1 y hy hpy⟩
  · exact Or.inr (h2 y hy hpy)

/-! ## Grouping by name -/

/-- The last element of that name (`None` if there is none). -/
def lastNamed (k : String) (l : List Scope) : Option Scope :=
  (l.filter (fun c => c.name = k)).getLast?

/-- Names of the children of a type over all sources, in order of first appearance. -/
def childNames (mask : Nat) (srcs : List Scope) : List String :=
  firstSeen (srcs.flatMap (fun s => (s.scopes mask).map (·.name)))

/-- The sources' children of the given type and name (the last one of each source). -/
def named (mask : Nat) (srcs : List Scope) (k : String) : List Scope :=
  srcs.filterMap (fun s => lastNamed k (s.scopes mask))

def slotStep (n : Nat) (o : Option (List (Option Scope))) (ic : Scope × Nat) :
    List (Option Scope) :=
  (o.getD (List.replicate n none)).set ic.2 (some ic.1)

theorem putSlot_eq (n i : Nat) (m : Dict (List (Option Scope))) (c : Scope) :
    putSlot n i m c = m.set c.name (slotStep n (m.get? c.name) (c, i)) := by
  unfold putSlot slotStep
  cases hm : m.get? c.name with
  | some l =>
    have hc : m.contains c.name = true := by simp [Dict.contains, hm]
    simp [hc, hm]
  | none =>
    have hc : m.contains c.name = false := by simp [Dict.contains, hm]
    simp only [hc, Bool.false_eq_true, if_false, Dict.get?_set, if_true, Option.getD_none]
    have : ∀ (m : Dict (List (Option Scope))) (k : String) (v w : List (Option Scope)),
        (m.set k v).set k w = m.set k w := by
      intro m k v w
      induction m with
      | nil => simp [Dict.set]
      | cons e t ih =>
        obtain ⟨a, b⟩ := e
        by_cases h : a = k <;> simp [Dict.set, h, ih]
    rw [this]

/-- The stream of (child, source index) pairs the grouping loop goes through. -/
def slotStream (mask : Nat) (srcs : List Scope) (k : Nat) : List (Scope × Nat) :=
  (srcs.zipIdx k).flatMap (fun si => (si.1.scopes mask).map (fun c => (c, si.2)))

theorem collect_eq_aggregate (mask : Nat) (srcs : List Scope) :
    collect mask srcs
      = Dict.aggregate (fun ic : Scope × Nat => ic.1.name) (slotStep srcs.length) []
          (slotStream mask srcs 0) := by
  unfold collect Dict.aggregate slotStream
  rw [List.foldl_flatMap]
  congr 1
  funext m si
  rw [List.foldl_map]
  congr 1
  funext m c
  exact putSlot_eq _ _ _ _

theorem foldl_set_same (l : List Scope) (pre : List (Option Scope)) (o : Option Scope)
    (post : List (Option Scope)) :
    l.foldl (fun acc c => acc.set pre.length (some c)) (pre ++ o :: post)
      = pre ++ (match l.getLast? with | some c => some c | none => o) :: post := by
  induction l generalizing o with
  | nil => rfl
  | cons a t ih =>
    simp only [List.foldl_cons]
    rw [List.set_append_right _ _ (Nat.le_refl _)]
    simp only [Nat.sub_self, List.set_cons_zero]
    rw [ih]
    cases t with
    | nil => rfl
    | cons b u =>
      rw [List.getLast?_cons_cons]
      cases h : (b :: u).getLast? with
      | none => simp at h
      | some c => rfl

theorem slots_foldl (k : String) (mask : Nat) (srcs : List Scope) (pre : List (Option Scope)) :
    ((slotStream mask srcs pre.length).filter (fun ic => ic.1.name = k)).foldl
        (fun acc ic => acc.set ic.2 (some ic.1)) (pre ++ List.replicate srcs.length none)
      = pre ++ srcs.map (fun s => lastNamed k (s.scopes mask)) := by
  induction srcs generalizing pre with
  | nil => simp [slotStream]
  | cons s t ih =>
    simp only [slotStream, List.zipIdx_cons, List.flatMap_cons, List.filter_append,
      List.foldl_append, List.length_cons, List.replicate_succ]
    rw [List.filter_map, List.foldl_map]
    have h0 : (fun x : Scope => decide (((x, pre.length) : Scope × Nat).1.name = k))
        = (fun c : Scope => decide (c.name = k)) := rfl
    simp only [Function.comp_def]
    rw [foldl_set_same]
    have h := ih (pre ++ [lastNamed k (s.scopes mask)])
    simp only [List.length_append, List.length_cons, List.length_nil, List.append_assoc,
      List.singleton_append, slotStream, Nat.zero_add] at h
    have h1 : (match (List.filter (fun c : Scope => decide (c.name = k)) (s.scopes mask)).getLast? with
        | some c => some c | none => (none : Option Scope)) = lastNamed k (s.scopes mask) := by
      unfold lastNamed
      cases (List.filter (fun c : Scope => decide (c.name = k)) (s.scopes mask)).getLast? <;> rfl
    rw [h1, h]
    simp

theorem aggVal_slot (n : Nat) (o : List (Option Scope)) (xs : List (Scope × Nat)) :
    Dict.aggVal (slotStep n) (some o) xs
      = some (xs.foldl (fun acc ic => acc.set ic.2 (some ic.1)) o) := by
  induction xs generalizing o with
  | nil => rfl
  | cons x t ih =>
    show Dict.aggVal (slotStep n) (some (slotStep n (some o) x)) t = _
    rw [ih]; rfl

theorem aggVal_slot_none (n : Nat) (xs : List (Scope × Nat)) (h : xs ≠ []) :
    Dict.aggVal (slotStep n) none xs
      = some (xs.foldl (fun acc ic => acc.set ic.2 (some ic.1)) (List.replicate n none)) := by
  cases xs with
  | nil => exact absurd rfl h
  | cons x t =>
    show Dict.aggVal (slotStep n) (some (slotStep n none x)) t = _
    rw [aggVal_slot]; rfl

theorem slotStream_names (mask : Nat) (srcs : List Scope) (k : Nat) :
    (slotStream mask srcs k).map (fun ic => ic.1.name)
      = srcs.flatMap (fun s => (s.scopes mask).map (·.name)) := by
  induction srcs generalizing k with
  | nil => rfl
  | cons s t ih =>
    simp only [slotStream, List.zipIdx_cons, List.flatMap_cons, List.map_append, List.map_map]
    rw [show (t.zipIdx (k + 1)).flatMap (fun si => (si.1.scopes mask).map (fun c => (c, si.2)))
      = slotStream mask t (k + 1) from rfl, ih]
    rfl

/-- Closed form of the grouping loop. -/
theorem collect_closed (mask : Nat) (srcs : List Scope) :
    collect mask srcs
      = (childNames mask srcs).map
          (fun k => (k, srcs.map (fun s => lastNamed k (s.scopes mask)))) := by
  rw [collect_eq_aggregate, Dict.aggregate_closed
    (f := fun k => srcs.map (fun s => lastNamed k (s.scopes mask)))]
  · rw [slotStream_names]; rfl
  · intro k hk
    rw [aggVal_slot_none]
    · have := slots_foldl k mask srcs []
      simpa using this
    · intro h
      rw [List.mem_map] at hk
      obtain ⟨x, hx, rfl⟩ := hk
      rw [List.filter_eq_nil_iff] at h
      exact h x hx (by simp)

theorem present_slots (mask : Nat) (srcs : List Scope) (k : String) :
    present (srcs.map (fun s => lastNamed k (s.scopes mask))) = named mask srcs k := by
  simp [present, named, List.filterMap_map]

theorem lastNamed_name {k : String} {l : List Scope} {c : Scope} (h : lastNamed k l = some c) :
    c.name = k ∧ c ∈ l := by
  have := List.mem_of_getLast? h
  simp only [List.mem_filter, decide_eq_true_eq] at this
  exact ⟨this.2, this.1⟩

theorem lastNamed_isSome {k : String} {l : List Scope} :
    (lastNamed k l).isSome ↔ k ∈ l.map (·.name) := by
  unfold lastNamed
  rw [← Option.ne_none_iff_isSome, Ne, List.getLast?_eq_none_iff]
  constructor
  · intro h
    obtain ⟨c, hc⟩ := List.exists_mem_of_ne_nil _ h
    simp only [List.mem_filter, decide_eq_true_eq] at hc
    exact List.mem_map.2 ⟨c, hc⟩
  · intro h e
    obtain ⟨c, hc, rfl⟩ := List.mem_map.1 h
    rw [List.filter_eq_nil_iff] at e
    exact e c hc (by simp)

theorem named_name {mask : Nat} {srcs : List Scope} {k : String} {c : Scope}
    (h : c ∈ named mask srcs k) : c.name = k := by
  simp only [named, List.mem_filterMap] at h
  obtain ⟨s, _, hs⟩ := h
  exact (lastNamed_name hs).1

theorem named_ne_nil {mask : Nat} {srcs : List Scope} {k : String}
    (h : k ∈ childNames mask srcs) : named mask srcs k ≠ [] := by
  rw [childNames, mem_firstSeen, List.mem_flatMap] at h
  obtain ⟨s, hs, hk⟩ := h
  have := lastNamed_isSome.2 hk
  obtain ⟨c, hc⟩ := Option.isSome_iff_exists.1 this
  intro e
  have : c ∈ named mask srcs k := List.mem_filterMap.2 ⟨s, hs, hc⟩
  rw [e] at this
  cases this

/-! ## Bins -/

/-- Sum of the counts of the items with a name. -/
def sumNamed (n : String) (items : List Item) : Int :=
  ((items.filter (fun i => i.name = n)).map (·.count)).sum

/-- First item of a name. -/
def firstItem (n : String) (items : List Item) : Option Item := items.find? (fun i => i.name = n)

def binAgg (o : Option (Int × Int)) (it : Item) : Int × Int :=
  match o with
  | some e => (e.1 + it.count, e.2)
  | none => (0 + it.count, it.atLeast.getD 0)

/-- Threshold present on the first occurrence of each name. -/
def binsOk (items : List Item) : Prop :=
  ∀ n, ∀ it, firstItem n items = some it → it.atLeast.isSome

theorem binStep_ok {m : Dict (Int × Int)} {it : Item}
    (h : it.name ∈ m.keys ∨ it.atLeast.isSome) :
    binStep m it = .ok (m.set it.name (binAgg (m.get? it.name) it)) := by
  unfold binStep
  by_cases hc : it.name ∈ m.keys
  · have h1 : m.contains it.name = true := (Dict.contains_iff _ _).2 hc
    have h2 : (m.get? it.name).isSome := by rw [Dict.get?_isSome]; simpa using hc
    obtain ⟨e, he⟩ := Option.isSome_iff_exists.1 h2
    simp [h1, Dict.getE, he, binAgg, bind, Except.bind, pure, Except.pure]
  · have h1 : m.contains it.name = false := by
      rw [← Bool.not_eq_true]; exact fun h' => hc ((Dict.contains_iff _ _).1 h')
    have h2 : m.get? it.name = none := Dict.get?_eq_none.2 hc
    obtain ⟨a, ha⟩ := Option.isSome_iff_exists.1 (h.resolve_left hc)
    have hss : ∀ (m : Dict (Int × Int)) (k : String) (v w : Int × Int),
        (m.set k v).set k w = m.set k w := by
      intro m k v w
      induction m with
      | nil => simp [Dict.set]
      | cons e t ih =>
        obtain ⟨a, b⟩ := e
        by_cases h : a = k <;> simp [Dict.set, h, ih]
    simp [h1, ha, h2, Dict.getE, Dict.get?_set, binAgg, bind, Except.bind, pure, Except.pure, hss]

theorem binStep_err {m : Dict (Int × Int)} {it : Item}
    (h : ¬ (it.name ∈ m.keys ∨ it.atLeast.isSome)) :
    binStep m it = .error .attributeError := by
  unfold binStep
  simp only [not_or] at h
  have h1 : m.contains it.name = false := by
    rw [← Bool.not_eq_true]; exact fun h' => h.1 ((Dict.contains_iff _ _).1 h')
  have h2 : it.atLeast = none := by simpa using h.2
  simp [h1, h2, bind, Except.bind, throw, throwThe, MonadExceptOf.throw]

theorem foldlM_bin_aux (items : List Item) (m : Dict (Int × Int)) :
    ((∀ n, n ∉ m.keys → ∀ it, firstItem n items = some it → it.atLeast.isSome) →
      items.foldlM binStep m = .ok (Dict.aggregate (·.name) binAgg m items)) ∧
    ((¬ ∀ n, n ∉ m.keys → ∀ it, firstItem n items = some it → it.atLeast.isSome) →
      items.foldlM binStep m = .error .attributeError) := by
  induction items generalizing m with
  | nil => simp [firstItem, Dict.aggregate, pure, Except.pure]
  | cons a t ih =>
    have hkeys : ∀ n, n ∈ (m.set a.name (binAgg (m.get? a.name) a)).keys ↔ n ∈ m.keys ∨ n = a.name := by
      intro n
      rw [Dict.keys_set]
      by_cases h : a.name ∈ m.keys
      · simp only [h, if_true]
        constructor
        · exact Or.inl
        · rintro (h' | rfl) <;> assumption
      · simp [h]
    have hcond : (a.name ∈ m.keys ∨ a.atLeast.isSome) →
        ((∀ n, n ∉ m.keys → ∀ it, firstItem n (a :: t) = some it → it.atLeast.isSome) ↔
         (∀ n, n ∉ (m.set a.name (binAgg (m.get? a.name) a)).keys →
            ∀ it, firstItem n t = some it → it.atLeast.isSome)) := by
      intro h0
      constructor
      · intro h n hn it hit
        rw [hkeys, not_or] at hn
        refine h n hn.1 it ?_
        have : ¬ a.name = n := fun e => hn.2 e.symm
        simpa [firstItem, this] using hit
      · intro h n hn it hit
        by_cases hne : a.name = n
        · subst hne
          simp [firstItem] at hit
          subst hit
          exact h0.resolve_left hn
        · refine h n ?_ it ?_
          · rw [hkeys, not_or]; exact ⟨hn, fun e => hne e.symm⟩
          · simpa [firstItem, hne] using hit
    by_cases h0 : a.name ∈ m.keys ∨ a.atLeast.isSome
    · rw [List.foldlM_cons, binStep_ok h0]
      have := ih (m.set a.name (binAgg (m.get? a.name) a))
      rw [hcond h0]
      exact this
    · rw [List.foldlM_cons, binStep_err h0]
      refine ⟨fun h => ?_, fun _ => rfl⟩
      rw [not_or] at h0
      exact absurd (h a.name h0.1 a (by simp [firstItem])) h0.2

theorem aggVal_bin (xs : List Item) (e : Int × Int) :
    Dict.aggVal binAgg (some e) xs = some (e.1 + (xs.map (·.count)).sum, e.2) := by
  induction xs generalizing e with
  | nil => simp [Dict.aggVal]
  | cons x t ih =>
    show Dict.aggVal binAgg (some (binAgg (some e) x)) t = _
    rw [ih]
    simp [binAgg, Int.add_assoc]

/-- Items of all sources with a kind, in order. -/
def kindItems (srcs : List Scope) (kind : Nat) : List Item := srcs.flatMap (fun s => s.coverItems kind)

/-- The merged bin of a name. -/
def pBin (items : List Item) (kind : Nat) (n : String) : Item :=
  mkBin n kind (((firstItem n items).bind (·.atLeast)).getD 0) (sumNamed n items)

def pBinsOfKind (items : List Item) (kind : Nat) : List Item :=
  (firstSeen (items.map (·.name))).map (pBin items kind)

theorem aggregate_bins (items : List Item) :
    Dict.aggregate (·.name) binAgg [] items
      = (firstSeen (items.map (·.name))).map
          (fun n => (n, (sumNamed n items, ((firstItem n items).bind (·.atLeast)).getD 0))) := by
  apply Dict.aggregate_closed
  intro k hk
  have hfi : firstItem k items = (items.filter (fun i => i.name = k)).head? := by
    simp [firstItem, List.head?_filter]
  rw [hfi, sumNamed]
  cases hl : items.filter (fun i => i.name = k) with
  | nil =>
    obtain ⟨x, hx, rfl⟩ := List.mem_map.1 hk
    rw [List.filter_eq_nil_iff] at hl
    exact absurd (by simp) (hl x hx)
  | cons x t =>
    show Dict.aggVal binAgg (some (binAgg none x)) t = _
    rw [aggVal_bin]
    simp [binAgg]

theorem mergeBinsOfKind_ok {srcs : List Scope} {kind : Nat} (h : binsOk (kindItems srcs kind)) :
    mergeBinsOfKind srcs kind = .ok (pBinsOfKind (kindItems srcs kind) kind) := by
  unfold mergeBinsOfKind
  have := (foldlM_bin_aux (kindItems srcs kind) []).1 (fun n _ => h n)
  rw [show (srcs.flatMap (fun s => s.coverItems kind)) = kindItems srcs kind from rfl, this,
    aggregate_bins]
  simp [bind, Except.bind, pure, Except.pure, pBinsOfKind, pBin, Function.comp_def]

theorem mergeBinsOfKind_err {srcs : List Scope} {kind : Nat} (h : ¬ binsOk (kindItems srcs kind)) :
    mergeBinsOfKind srcs kind = .error .attributeError := by
  unfold mergeBinsOfKind
  have := (foldlM_bin_aux (kindItems srcs kind) []).2 (fun h' => h (fun n => h' n (by simp)))
  rw [show (srcs.flatMap (fun s => s.coverItems kind)) = kindItems srcs kind from rfl, this]
  rfl

def allBinsOk (srcs : List Scope) : Prop :=
  binsOk (kindItems srcs CT.CVGBIN) ∧ binsOk (kindItems srcs CT.IGNOREBIN) ∧
    binsOk (kindItems srcs CT.ILLEGALBIN)

def pBins (srcs : List Scope) : List Item :=
  pBinsOfKind (kindItems srcs CT.CVGBIN) CT.CVGBIN
    ++ pBinsOfKind (kindItems srcs CT.IGNOREBIN) CT.IGNOREBIN
    ++ pBinsOfKind (kindItems srcs CT.ILLEGALBIN) CT.ILLEGALBIN

theorem mergeBins_ok {srcs : List Scope} (h : allBinsOk srcs) :
    mergeBins srcs = .ok (pBins srcs) := by
  obtain ⟨h1, h2, h3⟩ := h
  simp [mergeBins, mergeBinsOfKind_ok h1, mergeBinsOfKind_ok h2, mergeBinsOfKind_ok h3, bind,
    Except.bind, pure, Except.pure, pBins]

theorem mergeBins_err {srcs : List Scope} (h : ¬ allBinsOk srcs) :
    mergeBins srcs = .error .attributeError := by
  unfold mergeBins
  by_cases h1 : binsOk (kindItems srcs CT.CVGBIN)
  · by_cases h2 : binsOk (kindItems srcs CT.IGNOREBIN)
    · have h3 : ¬ binsOk (kindItems srcs CT.ILLEGALBIN) := fun h3 => h ⟨h1, h2, h3⟩
      simp [mergeBinsOfKind_ok h1, mergeBinsOfKind_ok h2, mergeBinsOfKind_err h3, bind, Except.bind]
    · simp [mergeBinsOfKind_ok h1, mergeBinsOfKind_err h2, bind, Except.bind]
  · simp [mergeBinsOfKind_err h1, bind, Except.bind]

/-! ## Coverpoints -/

def headSrc (l : List Scope) : SrcInfo := (l.head?.map (·.src)).getD SrcInfo.none
def headWeight (l : List Scope) : Int := (l.head?.map (·.weight)).getD 0

def pCoverpoint (srcs : List Scope) (k : String) : Scope :=
  let l := named ST.COVERPOINT srcs k
  mkCoverpoint k (headSrc l) (headWeight l) (pBins l)

def pCoverpoints (srcs : List Scope) : List Scope :=
  (childNames ST.COVERPOINT srcs).map (pCoverpoint srcs)

def cpsOk (srcs : List Scope) : Prop :=
  ∀ k ∈ childNames ST.COVERPOINT srcs, allBinsOk (named ST.COVERPOINT srcs k)

theorem listGetE_zero {l : List Scope} (h : l ≠ []) :
    ∃ c, l.head? = some c ∧ listGetE l 0 = .ok c := by
  cases l with
  | nil => exact absurd rfl h
  | cons c t => exact ⟨c, rfl, rfl⟩

theorem mergeCoverpoints_closed (srcs : List Scope) :
    (cpsOk srcs → mergeCoverpoints srcs = .ok (pCoverpoints srcs)) ∧
    (¬ cpsOk srcs → mergeCoverpoints srcs = .error .attributeError) := by
  unfold mergeCoverpoints cpsOk pCoverpoints
  rw [collect_closed, List.mapM_map]
  apply mapM_ite (p := fun k => allBinsOk (named ST.COVERPOINT srcs k))
  · intro k hk hok
    obtain ⟨c, hc, hg⟩ := listGetE_zero (named_ne_nil hk)
    have hn : c.name = k := named_name (List.mem_of_mem_head? hc)
    simp [mergeCoverpoint, present_slots, hg, mergeBins_ok hok, bind, Except.bind, pure,
      Except.pure, pCoverpoint, headSrc, headWeight, hc, hn]
  · intro k hk hok
    obtain ⟨c, hc, hg⟩ := listGetE_zero (named_ne_nil hk)
    simp [mergeCoverpoint, present_slots, hg, mergeBins_err hok, bind, Except.bind]

/-! ## Crosses -/

/-- All crosses of a name in all sources, in order. -/
def crossesNamed (srcs : List Scope) (k : String) : List Scope :=
  srcs.flatMap (fun s => (s.scopes ST.CROSS).filter (fun c => c.name = k))

def crossStep (o : Option (List Scope)) (c : Scope) : List Scope := (o.getD []) ++ [c]

theorem putCross_eq (m : Dict (List Scope)) (c : Scope) :
    putCross m c = m.set c.name (crossStep (m.get? c.name) c) := by
  unfold putCross crossStep
  cases hm : m.get? c.name with
  | some l =>
    have hc : m.contains c.name = true := by simp [Dict.contains, hm]
    simp [hc, hm]
  | none =>
    have hc : m.contains c.name = false := by simp [Dict.contains, hm]
    have hss : ∀ (m : Dict (List Scope)) (k : String) (v w : List Scope),
        (m.set k v).set k w = m.set k w := by
      intro m k v w
      induction m with
      | nil => simp [Dict.set]
      | cons e t ih =>
        obtain ⟨a, b⟩ := e
        by_cases h : a = k <;> simp [Dict.set, h, ih]
    simp [hc, Dict.get?_set, hss]

theorem aggVal_cross (xs : List Scope) (o : List Scope) :
    Dict.aggVal crossStep (some o) xs = some (o ++ xs) := by
  induction xs generalizing o with
  | nil => simp [Dict.aggVal]
  | cons x t ih =>
    show Dict.aggVal crossStep (some (crossStep (some o) x)) t = _
    rw [ih]; simp [crossStep]

theorem collectCross_closed (srcs : List Scope) :
    collectCross srcs
      = (childNames ST.CROSS srcs).map (fun k => (k, crossesNamed srcs k)) := by
  have h1 : collectCross srcs
      = Dict.aggregate (·.name) crossStep [] (srcs.flatMap (fun s => s.scopes ST.CROSS)) := by
    unfold collectCross Dict.aggregate
    rw [List.foldl_flatMap]
    congr 1
    funext m s
    congr 1
    funext m c
    exact putCross_eq m c
  rw [h1, Dict.aggregate_closed (f := crossesNamed srcs)]
  · congr 1
    simp [childNames, List.map_flatMap]
  · intro k hk
    have hfl : (srcs.flatMap (fun s => s.scopes ST.CROSS)).filter (fun x => x.name = k)
        = crossesNamed srcs k := by
      simp [crossesNamed, List.filter_flatMap]
    rw [hfl]
    cases hl : crossesNamed srcs k with
    | nil =>
      rw [← hfl, List.filter_eq_nil_iff] at hl
      obtain ⟨x, hx, rfl⟩ := List.mem_map.1 hk
      exact absurd (by simp) (hl x hx)
    | cons x t =>
      show Dict.aggVal crossStep (some (crossStep none x)) t = _
      rw [aggVal_cross]; rfl

theorem crossesNamed_ne_nil {srcs : List Scope} {k : String}
    (h : k ∈ childNames ST.CROSS srcs) : crossesNamed srcs k ≠ [] := by
  rw [childNames, mem_firstSeen, List.mem_flatMap] at h
  obtain ⟨s, hs, hk⟩ := h
  obtain ⟨c, hc, hn⟩ := List.mem_map.1 hk
  intro e
  have : c ∈ crossesNamed srcs k :=
    List.mem_flatMap.2 ⟨s, hs, List.mem_filter.2 ⟨hc, by simpa using hn⟩⟩
  rw [e] at this
  cases this

theorem crossesNamed_name {srcs : List Scope} {k : String} {c : Scope}
    (h : c ∈ crossesNamed srcs k) : c.name = k := by
  simp only [crossesNamed, List.mem_flatMap, List.mem_filter, decide_eq_true_eq] at h
  obtain ⟨_, _, _, h⟩ := h
  exact h

def headCps (l : List Scope) : List String := (l.head?.bind (·.cps)).getD []

def pCross (srcs : List Scope) (k : String) : Scope :=
  let l := crossesNamed srcs k
  mkCross k (headSrc l) (headWeight l) (headCps l) (pBins l)

def pCrosses (srcs : List Scope) : List Scope :=
  (childNames ST.CROSS srcs).map (pCross srcs)

/-- Success condition of one merged cross. -/
def crossOk (dst : List String) (l : List Scope) : Prop :=
  (∃ c cps, l.head? = some c ∧ c.cps = some cps ∧ ∀ n ∈ cps, n ∈ dst) ∧ allBinsOk l

def crossesOk (dst : List String) (srcs : List Scope) : Prop :=
  ∀ k ∈ childNames ST.CROSS srcs, crossOk dst (crossesNamed srcs k)

theorem mergeCrosses_closed (dst : List String) (srcs : List Scope) :
    (crossesOk dst srcs → mergeCrosses dst srcs = .ok (pCrosses srcs)) ∧
    (¬ crossesOk dst srcs → mergeCrosses dst srcs = .error .attributeError) := by
  unfold mergeCrosses crossesOk pCrosses
  rw [collectCross_closed, List.mapM_map]
  have hres : ∀ l : List String,
      ((∀ n ∈ l, n ∈ dst) → l.mapM (resolveCp dst) = .ok l) ∧
      ((¬ ∀ n ∈ l, n ∈ dst) → l.mapM (resolveCp dst) = .error .attributeError) := by
    intro l
    have := mapM_ite (f := resolveCp dst) (g := id) (p := fun n => n ∈ dst)
      (e := Err.attributeError) (l := l)
      (fun x _ hx => by simp [resolveCp, hx]) (fun x _ hx => by simp [resolveCp, hx])
    simpa using this
  apply mapM_ite (p := fun k => crossOk dst (crossesNamed srcs k))
  · intro k hk hok
    obtain ⟨⟨c, cps, hc, hcps, hin⟩, hb⟩ := hok
    obtain ⟨c', hc', hg⟩ := listGetE_zero (crossesNamed_ne_nil hk)
    rw [hc] at hc'; cases hc'
    simp [mergeCross, hg, hcps, (hres cps).1 hin, mergeBins_ok hb, bind, Except.bind, pure,
      Except.pure, pCross, headSrc, headWeight, headCps, hc]
  · intro k hk hok
    obtain ⟨c, hc, hg⟩ := listGetE_zero (crossesNamed_ne_nil hk)
    cases hcps : c.cps with
    | none => simp [mergeCross, hg, hcps, bind, Except.bind, throw, throwThe, MonadExceptOf.throw]
    | some cps =>
      by_cases hin : ∀ n ∈ cps, n ∈ dst
      · have hb : ¬ allBinsOk (crossesNamed srcs k) := fun hb => hok ⟨⟨c, cps, hc, hcps, hin⟩, hb⟩
        simp [mergeCross, hg, hcps, (hres cps).1 hin, mergeBins_err hb, bind, Except.bind]
      · simp [mergeCross, hg, hcps, (hres cps).2 hin, bind, Except.bind]

/-! ## Cover-instances, covergroups, instances -/

theorem names_pCoverpoints (srcs : List Scope) :
    (pCoverpoints srcs).map (·.name) = childNames ST.COVERPOINT srcs := by
  simp [pCoverpoints, Function.comp_def, pCoverpoint, mkCoverpoint]

/-- Success condition for the coverpoints and crosses of one merged covergroup. -/
def itemsOk (srcs : List Scope) : Prop :=
  cpsOk srcs ∧ crossesOk (childNames ST.COVERPOINT srcs) srcs

def pCoverinst (srcs : List Scope) (k : String) : Scope :=
  let l := named ST.COVERINSTANCE srcs k
  mkCoverInst k (headSrc l) (headWeight l) (pCoverpoints l ++ pCrosses l)

def pCoverinsts (srcs : List Scope) : List Scope :=
  (childNames ST.COVERINSTANCE srcs).map (pCoverinst srcs)

def coverinstsOk (srcs : List Scope) : Prop :=
  ∀ k ∈ childNames ST.COVERINSTANCE srcs, itemsOk (named ST.COVERINSTANCE srcs k)

theorem mergeCoverinsts_closed (srcs : List Scope) :
    (coverinstsOk srcs → mergeCoverinsts srcs = .ok (pCoverinsts srcs)) ∧
    (¬ coverinstsOk srcs → mergeCoverinsts srcs = .error .attributeError) := by
  unfold mergeCoverinsts coverinstsOk pCoverinsts
  rw [collect_closed, List.mapM_map]
  apply mapM_ite (p := fun k => itemsOk (named ST.COVERINSTANCE srcs k))
  · intro k hk hok
    obtain ⟨c, hc, hg⟩ := listGetE_zero (named_ne_nil hk)
    simp [mergeCoverinst, present_slots, hg, (mergeCoverpoints_closed _).1 hok.1,
      names_pCoverpoints, (mergeCrosses_closed _ _).1 hok.2, bind, Except.bind, pure, Except.pure,
      pCoverinst, headSrc, headWeight, hc]
  · intro k hk hok
    obtain ⟨c, hc, hg⟩ := listGetE_zero (named_ne_nil hk)
    by_cases h1 : cpsOk (named ST.COVERINSTANCE srcs k)
    · have h2 : ¬ crossesOk (childNames ST.COVERPOINT (named ST.COVERINSTANCE srcs k))
          (named ST.COVERINSTANCE srcs k) := fun h2 => hok ⟨h1, h2⟩
      simp [mergeCoverinst, present_slots, hg, (mergeCoverpoints_closed _).1 h1,
        names_pCoverpoints, (mergeCrosses_closed _ _).2 h2, bind, Except.bind]
    · simp [mergeCoverinst, present_slots, hg, (mergeCoverpoints_closed _).2 h1, bind, Except.bind]

def pCovergroupBody (l : List Scope) : List Scope := pCoverpoints l ++ pCrosses l ++ pCoverinsts l

def covergroupOk (l : List Scope) : Prop := itemsOk l ∧ coverinstsOk l

theorem mergeCovergroupBody_closed (l : List Scope) :
    (covergroupOk l → mergeCovergroupBody l = .ok (pCovergroupBody l)) ∧
    (¬ covergroupOk l → mergeCovergroupBody l = .error .attributeError) := by
  unfold mergeCovergroupBody
  constructor
  · rintro ⟨⟨h1, h2⟩, h3⟩
    simp [(mergeCoverpoints_closed _).1 h1, names_pCoverpoints, (mergeCrosses_closed _ _).1 h2,
      (mergeCoverinsts_closed _).1 h3, bind, Except.bind, pure, Except.pure, pCovergroupBody]
  · intro h
    by_cases h1 : cpsOk l
    · by_cases h2 : crossesOk (childNames ST.COVERPOINT l) l
      · have h3 : ¬ coverinstsOk l := fun h3 => h ⟨⟨h1, h2⟩, h3⟩
        simp [(mergeCoverpoints_closed _).1 h1, names_pCoverpoints, (mergeCrosses_closed _ _).1 h2,
          (mergeCoverinsts_closed _).2 h3, bind, Except.bind]
      · simp [(mergeCoverpoints_closed _).1 h1, names_pCoverpoints, (mergeCrosses_closed _ _).2 h2,
          bind, Except.bind]
    · simp [(mergeCoverpoints_closed _).2 h1, bind, Except.bind]

def pCovergroup (srcs : List Scope) (k : String) : Scope :=
  let l := named ST.COVERGROUP srcs k
  mkCovergroup k (headSrc l) (headWeight l) (pCovergroupBody l)

def pCovergroups (srcs : List Scope) : List Scope :=
  (childNames ST.COVERGROUP srcs).map (pCovergroup srcs)

def covergroupsOk (srcs : List Scope) : Prop :=
  ∀ k ∈ childNames ST.COVERGROUP srcs, covergroupOk (named ST.COVERGROUP srcs k)

theorem mergeCovergroups_closed (srcs : List Scope) :
    (covergroupsOk srcs → mergeCovergroups srcs = .ok (pCovergroups srcs)) ∧
    (¬ covergroupsOk srcs → mergeCovergroups srcs = .error .attributeError) := by
  unfold mergeCovergroups covergroupsOk pCovergroups
  rw [collect_closed, List.mapM_map]
  apply mapM_ite (p := fun k => covergroupOk (named ST.COVERGROUP srcs k))
  · intro k hk hok
    obtain ⟨c, hc, hg⟩ := listGetE_zero (named_ne_nil hk)
    have hn : c.name = k := named_name (List.mem_of_mem_head? hc)
    simp [mergeCovergroup, present_slots, hg, (mergeCovergroupBody_closed _).1 hok, bind,
      Except.bind, pure, Except.pure, pCovergroup, headSrc, headWeight, hc, hn]
  · intro k hk hok
    obtain ⟨c, hc, hg⟩ := listGetE_zero (named_ne_nil hk)
    simp [mergeCovergroup, present_slots, hg, (mergeCovergroupBody_closed _).2 hok, bind,
      Except.bind]

def headDu (l : List Scope) : DuInfo := (l.head?.bind (·.du)).getD ⟨"", SrcInfo.none, 0⟩

def pInstance (srcs : List Scope) (k : String) : List Scope :=
  let l := named ST.INSTANCE srcs k
  [mkDu (headDu l).name (headDu l).src (headDu l).weight,
   mkInstance k (headSrc l) 1 (some (headDu l)) (pCovergroups l)]

def instOk (l : List Scope) : Prop :=
  (∃ s du, l.head? = some s ∧ s.du = some du) ∧ covergroupsOk l

def mergeOk (srcs : List Scope) : Prop :=
  ∀ k ∈ childNames ST.INSTANCE srcs, instOk (named ST.INSTANCE srcs k)

def pMerge (dst : Scope) (srcs : List Scope) : Scope :=
  { dst with children := dst.children ++ (childNames ST.INSTANCE srcs).flatMap (pInstance srcs) }

theorem merge_closed (dst : Scope) (srcs : List Scope) :
    (mergeOk srcs → merge dst srcs = .ok (pMerge dst srcs)) ∧
    (¬ mergeOk srcs → merge dst srcs = .error .attributeError) := by
  have h : (mergeOk srcs → (collect ST.INSTANCE srcs).mapM mergeInstance
        = .ok ((childNames ST.INSTANCE srcs).map (pInstance srcs))) ∧
      (¬ mergeOk srcs → (collect ST.INSTANCE srcs).mapM mergeInstance = .error .attributeError) := by
    rw [collect_closed, List.mapM_map]
    apply mapM_ite (p := fun k => instOk (named ST.INSTANCE srcs k))
    · intro k hk hok
      obtain ⟨⟨s, du, hs, hdu⟩, hcg⟩ := hok
      obtain ⟨c, hc, hg⟩ := listGetE_zero (named_ne_nil hk)
      rw [hs] at hc; cases hc
      have hn : s.name = k := named_name (List.mem_of_mem_head? hs)
      simp [mergeInstance, present_slots, hg, hdu, (mergeCovergroups_closed _).1 hcg, bind,
        Except.bind, pure, Except.pure, pInstance, headSrc, headDu, hs, hn]
    · intro k hk hok
      obtain ⟨c, hc, hg⟩ := listGetE_zero (named_ne_nil hk)
      cases hdu : c.du with
      | none => simp [mergeInstance, present_slots, hg, hdu, bind, Except.bind, throw, throwThe,
          MonadExceptOf.throw]
      | some du =>
        have hcg : ¬ covergroupsOk (named ST.INSTANCE srcs k) :=
          fun hcg => hok ⟨⟨c, du, hc, hdu⟩, hcg⟩
        simp [mergeInstance, present_slots, hg, hdu, (mergeCovergroups_closed _).2 hcg, bind,
          Except.bind]
  constructor
  · intro hok
    simp [merge, h.1 hok, bind, Except.bind, pure, Except.pure, pMerge, List.flatMap]
  · intro hok
    simp [merge, h.2 hok, bind, Except.bind]

theorem merge_ok {dst : Scope} {srcs : List Scope} {out : Scope} (h : merge dst srcs = .ok out) :
    mergeOk srcs ∧ out = pMerge dst srcs := by
  by_cases hok : mergeOk srcs
  · rw [(merge_closed dst srcs).1 hok] at h
    cases h
    exact ⟨hok, rfl⟩
  · rw [(merge_closed dst srcs).2 hok] at h
    cases h

end Merge
end Verif
