import Verif.Py
import Verif.FirstSeen
import Mathlib.Data.List.Induction
/-!
# Laws of insertion ordered dictionaries
-/

namespace Verif
namespace Dict
variable {α β : Type}

@[simp] theorem get?_nil (k : String) : get? ([] : Dict α) k = none := rfl
@[simp] theorem keys_cons (e : String × α) (d : Dict α) : keys (e :: d) = e.1 :: keys d := rfl
@[simp] theorem keys_nil : keys ([] : Dict α) = [] := rfl

theorem get?_set (d : Dict α) (k k' : String) (v : α) :
    (d.set k v).get? k' = if k = k' then some v else d.get? k' := by
  induction d with
  | nil => simp [set, get?]
  | cons e t ih =>
    obtain ⟨a, b⟩ := e
    by_cases h : a = k
    · subst h
      by_cases h2 : a = k' <;> simp [set, get?, h2]
    · by_cases h2 : a = k'
      · subst h2
        have : ¬ k = a := fun e => h e.symm
        simp [set, get?, h, this]
      · simp [set, get?, h, h2, ih]

theorem get?_isSome (d : Dict α) (k : String) : (d.get? k).isSome = decide (k ∈ d.keys) := by
  induction d with
  | nil => simp
  | cons e t ih =>
    obtain ⟨a, b⟩ := e
    by_cases h : a = k
    · subst h; simp [get?, keys]
    · have h' : ¬ k = a := fun e => h e.symm
      simp [get?, h, h', ih]

theorem contains_iff (d : Dict α) (k : String) : d.contains k = true ↔ k ∈ d.keys := by
  simp [contains, get?_isSome]

theorem get?_eq_none {d : Dict α} {k : String} : d.get? k = none ↔ k ∉ d.keys := by
  rw [← Option.not_isSome_iff_eq_none, get?_isSome]; simp

theorem keys_set (d : Dict α) (k : String) (v : α) :
    (d.set k v).keys = if k ∈ d.keys then d.keys else d.keys ++ [k] := by
  induction d with
  | nil => simp [set, keys]
  | cons e t ih =>
    obtain ⟨a, b⟩ := e
    by_cases h : a = k
    · subst h; simp [set, keys]
    · have h' : ¬ k = a := fun e => h e.symm
      simp only [set, h, if_false, keys_cons, List.mem_cons, h', false_or]
      rw [ih]
      split <;> simp

/-- A dictionary with distinct keys is determined by its key list and its lookups. -/
theorem ext_keys {d e : Dict α} (hd : d.keys.Nodup) (hk : d.keys = e.keys)
    (hg : ∀ k, d.get? k = e.get? k) : d = e := by
  induction d generalizing e with
  | nil => cases e with
    | nil => rfl
    | cons x t => simp [keys] at hk
  | cons x t ih =>
    cases e with
    | nil => simp [keys] at hk
    | cons y u =>
      obtain ⟨a, b⟩ := x
      obtain ⟨a', b'⟩ := y
      simp only [keys, List.map_cons, List.cons.injEq] at hk hd
      obtain ⟨rfl, hk⟩ := hk
      have h0 := hg a
      simp [get?] at h0
      subst h0
      congr 1
      simp only [List.nodup_cons] at hd
      refine ih hd.2 hk ?_
      intro k
      by_cases hka : a = k
      · subst hka
        have h1 : get? t a = none := get?_eq_none.2 hd.1
        have h2 : get? u a = none := by
          apply get?_eq_none.2
          show a ∉ u.map (·.1)
          rw [← hk]; exact hd.1
        rw [h1, h2]
      · have := hg k
        simpa [get?, hka] using this

/-- Generic accumulation loop: `d[key x] = step (d.get (key x)) x` for every `x`. -/
def aggregate (key : β → String) (step : Option α → β → α) (d : Dict α) (xs : List β) : Dict α :=
  xs.foldl (fun d x => d.set (key x) (step (d.get? (key x)) x)) d

/-- The value accumulated for one key. -/
def aggVal (step : Option α → β → α) (o : Option α) (xs : List β) : Option α :=
  xs.foldl (fun o x => some (step o x)) o

theorem get?_aggregate (key : β → String) (step : Option α → β → α) (d : Dict α) (xs : List β)
    (k : String) :
    (aggregate key step d xs).get? k
      = aggVal step (d.get? k) (xs.filter (fun x => key x = k)) := by
  induction xs generalizing d with
  | nil => rfl
  | cons x t ih =>
    show (aggregate key step (d.set (key x) (step (d.get? (key x)) x)) t).get? k = _
    rw [ih, get?_set]
    by_cases h : key x = k
    · simp [h, aggVal]
    · simp [h, aggVal]

theorem keys_aggregate (key : β → String) (step : Option α → β → α) (xs : List β) :
    (aggregate key step [] xs).keys = firstSeen (xs.map key) := by
  induction xs using List.reverseRecOn with
  | nil => rfl
  | append_singleton t x ih =>
    simp only [aggregate, List.foldl_append, List.foldl_cons, List.foldl_nil] at ih ⊢
    rw [keys_set, ih, List.map_append, List.map_singleton, firstSeen_concat]
    by_cases h : key x ∈ t.map key
    · simp [mem_firstSeen]
    · simp [mem_firstSeen]

theorem keys_map_pair (l : List String) (f : String → α) :
    keys (l.map (fun k => (k, f k))) = l := by
  simp [keys, Function.comp_def]

theorem get?_map_pair (l : List String) (f : String → α) (k : String) :
    get? (l.map (fun k => (k, f k))) k = if k ∈ l then some (f k) else none := by
  induction l with
  | nil => simp
  | cons a t ih =>
    by_cases h : a = k
    · subst h; simp [get?]
    · have h' : ¬ k = a := fun e => h e.symm
      simp [get?, h, h', ih]

/-- Closed form of an accumulation loop started on the empty dictionary. -/
theorem aggregate_closed (key : β → String) (step : Option α → β → α) (xs : List β)
    (f : String → α)
    (hf : ∀ k ∈ xs.map key, aggVal step none (xs.filter (fun x => key x = k)) = some (f k)) :
    aggregate key step [] xs = (firstSeen (xs.map key)).map (fun k => (k, f k)) := by
  apply ext_keys
  · rw [keys_aggregate]; exact firstSeen_nodup _
  · rw [keys_aggregate, keys_map_pair]
  · intro k
    rw [get?_aggregate, get?_map_pair]
    by_cases h : k ∈ xs.map key
    · rw [if_pos (mem_firstSeen.2 h), get?_nil, hf k h]
    · rw [if_neg (fun h' => h (mem_firstSeen.1 h'))]
      have : xs.filter (fun x => key x = k) = [] := by
        rw [List.filter_eq_nil_iff]
        intro x hx
        simp only [decide_eq_true_eq]
        intro e
        exact h (List.mem_map.2 ⟨x, hx, e⟩)
      rw [this]; rfl

end Dict
end Verif
