import Verif.StoreDelta
/-!
# Invariants of the store

They hold in the empty store and are kept by every call.
-/

namespace Verif
namespace Store

/-! ## The tree of scopes -/

/-- The tree invariant, on the positions of the scopes. -/
structure TreeL (l : List (Cls × Option Nat × List Nat)) : Prop where
  sorted : ∀ (o : Nat) c p ch, l[o]? = some (c, p, ch) → ch.Pairwise (· < ·)
  mem : ∀ (o : Nat) c p ch, l[o]? = some (c, p, ch) → ∀ k : Nat, k ∈ ch ↔ ∃ c' ch', l[k]? = some (c', some o, ch')
  older : ∀ (o : Nat) c p ch, l[o]? = some (c, some p, ch) → p < o
  root : ∀ (o : Nat) c p ch, l[o]? = some (c, p, ch) → (p = none ↔ c = .db)

theorem treeL_nil : TreeL [] := ⟨by simp, by simp, by simp, by simp⟩

theorem treeL_root {l : List (Cls × Option Nat × List Nat)} (t : TreeL l) : TreeL (l ++ [(.db, none, [])]) := by
  have key : ∀ (o : Nat) e, (l ++ [(Cls.db, (none : Option Nat), ([] : List Nat))])[o]? = some e ↔
      l[o]? = some e ∨ (o = l.length ∧ e = (.db, none, [])) := by
    intro o e
    rw [List.getElem?_append]
    by_cases ho : o < l.length
    · simp [ho, Nat.ne_of_lt ho]
    · simp only [ho, if_false]
      rw [List.getElem?_eq_none (Nat.le_of_not_lt ho)]
      by_cases h2 : o = l.length
      · subst h2; simp [eq_comm]
      · simp [h2, List.getElem?_cons, Nat.sub_ne_zero_of_lt (Nat.lt_of_le_of_ne (Nat.le_of_not_lt ho) (Ne.symm h2))]
  constructor
  · intro o c p ch h
    rcases (key o _).1 h with h | ⟨rfl, e⟩
    · exact t.sorted o c p ch h
    · cases e; exact .nil
  · intro o c p ch h k
    have kk : (∃ c' ch', (l ++ [(Cls.db, (none : Option Nat), ([] : List Nat))])[k]? = some (c', some o, ch')) ↔
        ∃ c' ch', l[k]? = some (c', some o, ch') :=
      ⟨fun ⟨c', ch', h⟩ => ⟨c', ch', by rcases (key k _).1 h with h | ⟨_, h⟩; exact h; cases h⟩,
        fun ⟨c', ch', h⟩ => ⟨c', ch', (key k _).2 (.inl h)⟩⟩
    rw [kk]
    rcases (key o _).1 h with h | ⟨rfl, e⟩
    · exact t.mem o c p ch h k
    · cases e
      refine ⟨fun h => by simp at h, fun ⟨c', ch', h⟩ => ?_⟩
      have := t.older k c' _ ch' h
      have := (List.getElem?_eq_some_iff.1 h).1
      omega
  · intro o c p ch h
    rcases (key o _).1 h with h | ⟨rfl, e⟩
    · exact t.older o c p ch h
    · cases e
  · intro o c p ch h
    rcases (key o _).1 h with h | ⟨rfl, e⟩
    · exact t.root o c p ch h
    · cases e; simp

theorem treeL_child {l : List (Cls × Option Nat × List Nat)} (t : TreeL l) {o : Nat} {c : Cls} {p : Option Nat} {ch : List Nat}
    (ho : l[o]? = some (c, p, ch)) {d : Cls} (hd : d ≠ .db) :
    TreeL ((l ++ [(d, some o, [])]).set o (c, p, ch ++ [l.length])) := by
  have hol := (List.getElem?_eq_some_iff.1 ho).1
  have key : ∀ (q : Nat) e, ((l ++ [(d, some o, ([] : List Nat))]).set o (c, p, ch ++ [l.length]))[q]? = some e ↔
      (q = o ∧ e = (c, p, ch ++ [l.length])) ∨ (q ≠ o ∧ l[q]? = some e) ∨ (q = l.length ∧ e = (d, some o, [])) := by
    intro q e
    rw [get_set (x := (c, p, ch)) (by rw [List.getElem?_append_left hol]; exact ho)]
    by_cases hq : o = q
    · subst hq
      have : o ≠ l.length := by omega
      simp [this, eq_comm]
    · simp only [hq, if_false, List.getElem?_append]
      have hq' : q ≠ o := fun h => hq h.symm
      by_cases hql : q < l.length
      · have : q ≠ l.length := by omega
        simp [hql, hq', this]
      · simp only [hql, if_false]
        rw [List.getElem?_eq_none (Nat.le_of_not_lt hql)]
        by_cases h2 : q = l.length
        · subst h2; simp [eq_comm, hq]
        · have : q - l.length ≠ 0 := by omega
          simp [h2, hq', List.getElem?_cons, this]
  have kk : ∀ k q : Nat, (∃ c' ch', ((l ++ [(d, some o, ([] : List Nat))]).set o (c, p, ch ++ [l.length]))[k]? = some (c', some q, ch')) ↔
      (∃ c' ch', l[k]? = some (c', some q, ch')) ∨ (k = l.length ∧ q = o) := by
    intro k q
    constructor
    · rintro ⟨c', ch', h⟩
      rcases (key k _).1 h with ⟨rfl, e⟩ | ⟨_, h⟩ | ⟨rfl, e⟩
      · cases e; exact .inl ⟨_, _, ho⟩
      · exact .inl ⟨_, _, h⟩
      · cases e; exact .inr ⟨rfl, rfl⟩
    · rintro (⟨c', ch', h⟩ | ⟨rfl, rfl⟩)
      · by_cases hk : k = o
        · subst hk
          rw [ho] at h; cases  h
          exact ⟨_, _, (key k _).2 (.inl ⟨rfl, rfl⟩)⟩
        · exact ⟨_, _, (key k _).2 (.inr (.inl ⟨hk, h⟩))⟩
      · exact ⟨_, _, (key _ _).2 (.inr (.inr ⟨rfl, rfl⟩))⟩
  have bound : ∀ k : Nat, k ∈ ch → k < l.length := by
    intro k hk
    obtain ⟨_, _, h⟩ := (t.mem o c p ch ho k).1 hk
    exact (List.getElem?_eq_some_iff.1 h).1
  constructor
  · intro q c' p' ch' h
    rcases (key q _).1 h with ⟨rfl, e⟩ | ⟨_, h⟩ | ⟨rfl, e⟩
    · cases e
      rw [List.pairwise_append]
      exact ⟨t.sorted q c p ch ho, by simp, fun a ha b hb => by simp at hb; subst hb; exact bound a ha⟩
    · exact t.sorted q c' p' ch' h
    · cases e; exact .nil
  · intro q c' p' ch' h k
    rw [kk]
    rcases (key q _).1 h with ⟨rfl, e⟩ | ⟨hq, h⟩ | ⟨rfl, e⟩
    · cases e
      simp [t.mem q c p ch ho k]
    · rw [t.mem q c' p' ch' h k]
      simp [hq]
    · cases e
      refine ⟨fun h => by simp at h, ?_⟩
      rintro (⟨c', ch', h⟩ | ⟨rfl, e⟩)
      · have := t.older k c' _ ch' h
        have := (List.getElem?_eq_some_iff.1 h).1
        omega
      · omega
  · intro q c' p' ch' h
    rcases (key q _).1 h with ⟨rfl, e⟩ | ⟨_, h⟩ | ⟨rfl, e⟩
    · cases e; exact t.older q c p' ch ho
    · exact t.older q c' p' ch' h
    · cases e; exact hol
  · intro q c' p' ch' h
    rcases (key q _).1 h with ⟨rfl, e⟩ | ⟨_, h⟩ | ⟨rfl, e⟩
    · cases e; exact t.root q c p ch ho
    · exact t.root q c' p' ch' h
    · cases e; simp [hd]

theorem map_set_same {α β : Type} {l : List α} {o : Nat} {x y : α} (f : α → β) (h : l[o]? = some x) (hy : f y = f x) :
    (l.set o y).map f = l.map f := by
  apply List.ext_getElem?
  intro j
  simp only [List.getElem?_map, get_set h]
  by_cases hj : o = j
  · subst hj; simp [h, hy]
  · simp [hj]

theorem core_shape {x y : Obj} (h : core y = core x) : shape y = shape x := by
  simp only [core, Core.mk.injEq] at h
  simp [shape, h]

theorem tree_set {s s' : Heap} {o : Nat} {x y : Obj} (hx : s.objs[o]? = some x)
    (ho : s'.objs = s.objs.set o y) (hy : shape y = shape x) (t : TreeL (s.objs.map shape)) : TreeL (s'.objs.map shape) := by
  rw [ho, map_set_same shape hx hy]; exact t

theorem delta_tree {s s' : Heap} (d : Delta s s') (t : TreeL (s.objs.map shape)) : TreeL (s'.objs.map shape) := by
  cases d with
  | same ho => rw [ho]; exact t
  | attrs o x y hx hy ho => rw [ho, map_set_same shape hx (core_shape hy)]; exact t
  | item o x b hx h1 h2 ho => exact tree_set hx ho rfl t
  | file o x n hx hc hf ho => exact tree_set hx ho rfl t
  | hist o x hx hc ho => exact tree_set hx ho rfl t
  | record o x n hx hc ho => exact tree_set hx ho rfl t
  | child o x y n hx hy h =>
    subst h
    have hl := (List.getElem?_eq_some_iff.1 hx).1
    have e : (s.withChild o y).objs.map shape =
        ((s.objs.map shape) ++ [(y.cls, some o, [])]).set o (x.cls, x.parent, x.children ++ [(s.objs.map shape).length]) := by
      simp only [Heap.withChild]
      rw [modify_eq_set (x := x) (by rw [List.getElem?_append_left hl]; exact hx)]
      simp [List.map_set, shape, hy.parent, hy.children]
    rw [e]
    exact treeL_child t (by simp [hx, shape]) hy.notDb
  | root h => subst h; simpa [shape, memUcis, memScope] using treeL_root t

theorem run_inv {P : Heap → Prop} (h0 : P Heap.empty) (hs : ∀ s s', Delta s s' → P s → P s') (cs : List Call) : P (run Heap.empty cs) := by
  suffices ∀ s, P s → P (run s cs) from this _ h0
  induction cs with
  | nil => exact fun s h => h
  | cons c t ih => exact fun s h => ih _ (hs _ _ (exec_delta c s) h)

theorem run_tree (cs : List Call) : TreeL ((run Heap.empty cs).objs.map shape) :=
  run_inv (P := fun s => TreeL (s.objs.map shape)) treeL_nil (fun _ _ d t => delta_tree d t) cs

/-! ## Bins -/

/-- Bins belong to exactly one scope, and instance scopes have none. -/
structure Items (s : Heap) : Prop where
  sorted : ∀ (o : Nat) x, s.objs[o]? = some x → x.items.Pairwise (· < ·)
  bound : ∀ (o : Nat) x, s.objs[o]? = some x → ∀ b ∈ x.items, b < s.bins.length
  owner : ∀ b < s.bins.length, ∃ (o : Nat) (x : Obj), s.objs[o]? = some x ∧ b ∈ x.items
  unique : ∀ (o o' : Nat) x x' b, s.objs[o]? = some x → s.objs[o']? = some x' → b ∈ x.items → b ∈ x'.items → o = o'
  inst : ∀ (o : Nat) x, s.objs[o]? = some x → x.cls = .inst ∨ x.cls = .toggle → x.items = []

/-- What `Items` depends on. -/
def itemsOf (x : Obj) : Cls × List Nat := (x.cls, x.items)

theorem items_congr {s s' : Heap} (h : s'.objs.map itemsOf = s.objs.map itemsOf) (hb : s'.bins.length = s.bins.length)
    (t : Items s) : Items s' := by
  have key : ∀ (o : Nat) x, s'.objs[o]? = some x → ∃ y, s.objs[o]? = some y ∧ y.items = x.items ∧ y.cls = x.cls := by
    intro o x hx
    have := congrArg (·[o]?) h
    simp only [List.getElem?_map, hx, Option.map_some] at this
    cases hy : s.objs[o]? with
    | none => rw [hy] at this; cases this
    | some y =>
      rw [hy] at this
      simp only [Option.map_some, Option.some.injEq, itemsOf, Prod.mk.injEq] at this
      exact ⟨y, rfl, this.2.symm, this.1.symm⟩
  have key' : ∀ (o : Nat) y, s.objs[o]? = some y → ∃ x, s'.objs[o]? = some x ∧ y.items = x.items := by
    intro o y hy
    have := congrArg (·[o]?) h
    simp only [List.getElem?_map, hy, Option.map_some] at this
    cases hx : s'.objs[o]? with
    | none => rw [hx] at this; cases this
    | some x =>
      rw [hx] at this
      simp only [Option.map_some, Option.some.injEq, itemsOf, Prod.mk.injEq] at this
      exact ⟨x, rfl, this.2.symm⟩
  constructor
  · intro o x hx
    obtain ⟨y, hy, e, _⟩ := key o x hx
    exact e ▸ t.sorted o y hy
  · intro o x hx b hm
    obtain ⟨y, hy, e, _⟩ := key o x hx
    rw [hb]; exact t.bound o y hy b (e ▸ hm)
  · intro b hbl
    obtain ⟨o, y, hy, hm⟩ := t.owner b (hb ▸ hbl)
    obtain ⟨x, hx, e⟩ := key' o y hy
    exact ⟨o, x, hx, e ▸ hm⟩
  · intro o o' x x' b hx hx' h1 h2
    obtain ⟨y, hy, e, _⟩ := key o x hx
    obtain ⟨y', hy', e', _⟩ := key o' x' hx'
    exact t.unique o o' y y' b hy hy' (e ▸ h1) (e' ▸ h2)
  · intro o x hx hc
    obtain ⟨y, hy, e, ec⟩ := key o x hx
    exact e ▸ t.inst o y hy (ec ▸ hc)

theorem items_append {s : Heap} {x : Obj} (hx : x.items = []) (t : Items s) : Items { s with objs := s.objs ++ [x] } := by
  have key : ∀ (o : Nat) y, (s.objs ++ [x])[o]? = some y → s.objs[o]? = some y ∨ (y = x) := by
    intro o y h
    rw [List.getElem?_append] at h
    split at h
    · exact .inl h
    · rw [List.getElem?_cons] at h
      split at h
      · exact .inr (Option.some.inj h).symm
      · simp at h
  constructor
  · intro o y h
    rcases key o y h with h | rfl
    · exact t.sorted o y h
    · rw [hx]; exact .nil
  · intro o y h b hb
    rcases key o y h with h | rfl
    · exact t.bound o y h b hb
    · simp [hx] at hb
  · intro b hb
    obtain ⟨o, y, hy, hm⟩ := t.owner b hb
    exact ⟨o, y, by
      show (s.objs ++ [x])[o]? = some y
      rw [List.getElem?_append_left (List.getElem?_eq_some_iff.1 hy).1]; exact hy, hm⟩
  · intro o o' y y' b h h' h1 h2
    rcases key o y h with h | rfl
    · rcases key o' y' h' with h' | rfl
      · exact t.unique o o' y y' b h h' h1 h2
      · simp [hx] at h2
    · simp [hx] at h1
  · intro o y h hc
    rcases key o y h with h | rfl
    · exact t.inst o y h hc
    · exact hx

theorem core_items {x y : Obj} (h : core y = core x) : itemsOf y = itemsOf x := by
  simp only [core, Core.mk.injEq] at h
  simp [itemsOf, h]

theorem delta_items {s s' : Heap} (d : Delta s s') (t : Items s) : Items s' := by
  cases d with
  | same ho hb => exact items_congr (by rw [ho]) (by rw [hb]) t
  | attrs o x y hx hy ho hb => exact items_congr (by rw [ho, map_set_same itemsOf hx (core_items hy)]) (by rw [hb]) t
  | file o x n hx hc hf ho hb => exact items_congr (by rw [ho]; exact map_set_same itemsOf hx rfl) (by rw [hb]) t
  | hist o x hx hc ho hb => exact items_congr (by rw [ho]; exact map_set_same itemsOf hx rfl) (by rw [hb]) t
  | record o x n hx hc ho hb => exact items_congr (by rw [ho]; exact map_set_same itemsOf hx rfl) (by rw [hb]) t
  | child o x y n hx hy h =>
    subst h
    have hl := (List.getElem?_eq_some_iff.1 hx).1
    refine items_congr (s := { s with objs := s.objs ++ [y] }) ?_ rfl (items_append hy.items t)
    simp only [Heap.withChild]
    rw [modify_eq_set (x := x) (by rw [List.getElem?_append_left hl]; exact hx)]
    exact map_set_same itemsOf (x := x) (by rw [List.getElem?_append_left hl]; exact hx) rfl
  | root h => subst h; exact items_append rfl t
  | item o x b hx h1 h2 ho hb =>
    have key : ∀ (q : Nat) y, s'.objs[q]? = some y → (q = o ∧ y = { x with items := x.items ++ [s.bins.length] }) ∨
        (q ≠ o ∧ s.objs[q]? = some y) := by
      intro q y h
      rw [ho, get_set hx] at h
      split at h
      · rename_i e; subst e; exact .inl ⟨rfl, (Option.some.inj h).symm⟩
      · rename_i e; exact .inr ⟨fun e' => e e'.symm, h⟩
    have hlen : s'.bins.length = s.bins.length + 1 := by simp [hb]
    constructor
    · intro q y h
      rcases key q y h with ⟨rfl, rfl⟩ | ⟨_, h⟩
      · rw [List.pairwise_append]
        exact ⟨t.sorted q x hx, by simp, fun a ha c hc => by simp at hc; subst hc; exact t.bound q x hx a ha⟩
      · exact t.sorted q y h
    · intro q y h c hc
      rw [hlen]
      rcases key q y h with ⟨rfl, rfl⟩ | ⟨_, h⟩
      · simp only [List.mem_append, List.mem_singleton] at hc
        rcases hc with hc | rfl
        · have := t.bound q x hx c hc; omega
        · omega
      · have := t.bound q y h c hc; omega
    · intro c hc
      rw [hlen] at hc
      by_cases hc' : c = s.bins.length
      · exact ⟨o, _, by rw [ho, get_set hx]; simp; rfl, by simp [hc']⟩
      · obtain ⟨q, y, hy, hm⟩ := t.owner c (by omega)
        by_cases hq : o = q
        · subst hq
          rw [hx] at hy; cases hy
          exact ⟨o, _, by rw [ho, get_set hx]; simp; rfl, by simp [hm]⟩
        · exact ⟨q, y, by rw [ho, get_set hx]; simp [hq, hy], hm⟩
    · intro q q' y y' c h h' m m'
      rcases key q y h with ⟨rfl, rfl⟩ | ⟨hq, h⟩
      · rcases key q' y' h' with ⟨rfl, rfl⟩ | ⟨_, h'⟩
        · rfl
        · simp only [List.mem_append, List.mem_singleton] at m
          rcases m with m | rfl
          · exact t.unique q q' x y' c hx h' m m'
          · have := t.bound q' y' h' _ m'; omega
      · rcases key q' y' h' with ⟨rfl, rfl⟩ | ⟨_, h'⟩
        · simp only [List.mem_append, List.mem_singleton] at m'
          rcases m' with m' | rfl
          · exact t.unique q q' y x c h hx m m'
          · have := t.bound q y h _ m; omega
        · exact t.unique q q' y y' c h h' m m'
    · intro q y h hc
      rcases key q y h with ⟨rfl, rfl⟩ | ⟨_, h⟩
      · rcases hc with hc | hc
        · exact absurd hc h1
        · exact absurd hc h2
      · exact t.inst q y h hc

theorem items_empty : Items Heap.empty :=
  ⟨by simp [Heap.empty], by simp [Heap.empty], by simp [Heap.empty], by simp [Heap.empty], by simp [Heap.empty]⟩

theorem run_items (cs : List Call) : Items (run Heap.empty cs) := run_inv items_empty (fun _ _ => delta_items) cs

/-! ## Side tables -/

/-- File tables, history lists and records of a scope are as their creation calls make them. -/
structure SideOk (s : Heap) (x : Obj) : Prop where
  files : ∀ n h, x.files.get? n = some h → s.handles[h]? = some n
  hist : x.hist.Pairwise (· < ·)
  histBound : ∀ n ∈ x.hist, n < s.nodes.length
  records : ∀ (i : Nat) r, x.covInsts[i]? = some r → r.2 = toString i

def Side (s : Heap) : Prop := ∀ (o : Nat) x, s.objs[o]? = some x → SideOk s x

theorem sideOk_mono {s s' : Heap} {x y : Obj} (hf : y.files = x.files) (hh : y.hist = x.hist) (hr : y.covInsts = x.covInsts)
    (hp : s.handles <+: s'.handles) (hn : s.nodes.length ≤ s'.nodes.length) (h : SideOk s x) : SideOk s' y := by
  constructor
  · intro n k hk
    rw [hf] at hk
    have := h.files n k hk
    obtain ⟨t, ht⟩ := hp
    rw [← ht, List.getElem?_append_left (List.getElem?_eq_some_iff.1 this).1]; exact this
  · rw [hh]; exact h.hist
  · rw [hh]; exact fun n m => Nat.lt_of_lt_of_le (h.histBound n m) hn
  · rw [hr]; exact h.records

theorem sideOk_fresh {s : Heap} {y : Obj} (h : y.files = [] ∧ y.hist = [] ∧ y.covInsts = []) : SideOk s y := by
  obtain ⟨h1, h2, h3⟩ := h
  exact ⟨by simp [h1], by simp [h2], by simp [h2], by simp [h3]⟩

theorem side_set {s s' : Heap} (t : Side s) {o : Nat} {x y : Obj} (hx : s.objs[o]? = some x) (ho : s'.objs = s.objs.set o y)
    (hp : s.handles <+: s'.handles) (hn : s.nodes.length ≤ s'.nodes.length) (hy : SideOk s' y) : Side s' := by
  intro q z hz
  rw [ho, get_set hx] at hz
  split at hz
  · cases hz; exact hy
  · exact sideOk_mono rfl rfl rfl hp hn (t q z hz)

theorem delta_side {s s' : Heap} (d : Delta s s') (t : Side s) : Side s' := by
  cases d with
  | same ho hb hh hn =>
    intro q z hz
    exact sideOk_mono rfl rfl rfl (hh ▸ List.prefix_refl _) (hn ▸ Nat.le_refl _) (t q z (ho ▸ hz))
  | attrs o x y hx hy ho hb hh hn =>
    simp only [core, Core.mk.injEq] at hy
    obtain ⟨_, _, _, _, _, _, _, _, _, e1, e2, e3⟩ := hy
    exact side_set t hx ho (hh ▸ List.prefix_refl _) (hn ▸ Nat.le_refl _)
      (sideOk_mono e1 e2 e3 (hh ▸ List.prefix_refl _) (hn ▸ Nat.le_refl _) (t o x hx))
  | item o x b hx h1 h2 ho hb hh hn =>
    exact side_set t hx ho (hh ▸ List.prefix_refl _) (hn ▸ Nat.le_refl _)
      (sideOk_mono (x := x) rfl rfl rfl (hh ▸ List.prefix_refl _) (hn ▸ Nat.le_refl _) (t o x hx))
  | file o x n hx hc hf ho hb hh hn =>
    have hp : s.handles <+: s'.handles := hh ▸ List.prefix_append _ _
    refine side_set t hx ho hp (hn ▸ Nat.le_refl _) ?_
    have h := t o x hx
    refine ⟨?_, h.hist, fun m hm => hn ▸ h.histBound m hm, h.records⟩
    intro m k hk
    change Dict.get? (Dict.set x.files n s.handles.length) m = some k at hk
    rw [Dict.get?_set] at hk
    split at hk
    · rename_i e; subst e
      cases hk; rw [hh]; simp
    · have := h.files m k hk
      obtain ⟨r, hr⟩ := hp
      rw [← hr, List.getElem?_append_left (List.getElem?_eq_some_iff.1 this).1]; exact this
  | hist o x hx hc ho hb hh hn =>
    have hp : s.handles <+: s'.handles := hh ▸ List.prefix_refl _
    refine side_set t hx ho hp (by omega) ?_
    have h := t o x hx
    refine ⟨fun m k hk => hh ▸ h.files m k hk, ?_, ?_, h.records⟩
    · show (x.hist ++ [s.nodes.length]).Pairwise (· < ·)
      rw [List.pairwise_append]
      exact ⟨h.hist, by simp, fun a ha c hc => by simp at hc; subst hc; exact h.histBound a ha⟩
    · intro m hm
      simp only [List.mem_append, List.mem_singleton] at hm
      rcases hm with hm | rfl
      · have := h.histBound m hm; omega
      · omega
  | record o x n hx hc ho hb hh hn =>
    refine side_set t hx ho (hh ▸ List.prefix_refl _) (hn ▸ Nat.le_refl _) ?_
    have h := t o x hx
    refine ⟨fun m k hk => hh ▸ h.files m k hk, h.hist, fun m hm => hn ▸ h.histBound m hm, ?_⟩
    intro i r hr
    change (x.covInsts ++ [(n, toString x.covInsts.length)])[i]? = some r at hr
    rw [List.getElem?_append] at hr
    split at hr
    · exact h.records i r hr
    · rw [List.getElem?_cons] at hr
      split at hr
      · rename_i h1 h2
        have : i = x.covInsts.length := by omega
        subst this; cases hr; rfl
      · simp at hr
  | child o x y n hx hy h =>
    subst h
    have hl := (List.getElem?_eq_some_iff.1 hx).1
    intro q z hz
    simp only [Heap.withChild] at hz
    rw [modify_eq_set (x := x) (by rw [List.getElem?_append_left hl]; exact hx),
      get_set (x := x) (by rw [List.getElem?_append_left hl]; exact hx)] at hz
    split at hz
    · cases hz; exact sideOk_mono (s := s) (x := x) rfl rfl rfl (List.prefix_refl _) (Nat.le_refl _) (t o x hx)
    · rw [List.getElem?_append] at hz
      split at hz
      · exact sideOk_mono (s := s) rfl rfl rfl (List.prefix_refl _) (Nat.le_refl _) (t q z hz)
      · rw [List.getElem?_cons] at hz
        split at hz
        · cases hz; exact sideOk_fresh hy.side
        · simp at hz
  | root h =>
    subst h
    intro q z hz
    simp only [List.getElem?_append] at hz
    split at hz
    · exact sideOk_mono (s := s) rfl rfl rfl (List.prefix_refl _) (Nat.le_refl _) (t q z hz)
    · rw [List.getElem?_cons] at hz
      split at hz
      · cases hz; exact sideOk_fresh ⟨rfl, rfl, rfl⟩
      · simp at hz

/-- Every bin has a `CoverData`. -/
def HasData (s : Heap) : Prop := ∀ (b : Nat) x, s.bins[b]? = some x → x.data < s.datas.length

theorem evolves_datas {s s' : Heap} (h : Evolves s s') : s.datas.length ≤ s'.datas.length := by
  by_contra hn
  have hl : s'.datas.length < s.datas.length := by omega
  obtain ⟨y, hy, _⟩ := h.datas s'.datas.length _ (List.getElem?_eq_getElem hl)
  simp at hy

theorem delta_hasData {s s' : Heap} (d : Delta s s') (e : Evolves s s') (t : HasData s) : HasData s' := by
  have hle := evolves_datas e
  have same : s'.bins = s.bins → HasData s' := fun hb b x hx => Nat.lt_of_lt_of_le (t b x (hb ▸ hx)) hle
  cases d with
  | same _ hb => exact same hb
  | attrs _ _ _ _ _ _ hb => exact same hb
  | file _ _ _ _ _ _ _ hb => exact same hb
  | hist _ _ _ _ _ hb => exact same hb
  | record _ _ _ _ _ _ hb => exact same hb
  | child o x y n hx hy h => subst h; exact same rfl
  | root h => subst h; exact same rfl
  | item o x c hx h1 h2 ho hb hh hn hd =>
    intro b y hy
    rw [hb, List.getElem?_append] at hy
    split at hy
    · exact Nat.lt_of_lt_of_le (t b y hy) hle
    · rw [List.getElem?_cons] at hy
      split at hy
      · cases hy; exact hd
      · simp at hy

theorem run_hasData (cs : List Call) : HasData (run Heap.empty cs) := by
  suffices ∀ s, HasData s → HasData (run s cs) from this _ (by intro b x h; simp [Heap.empty] at h)
  induction cs with
  | nil => exact fun s h => h
  | cons c t ih => exact fun s h => ih _ (delta_hasData (exec_delta c s) (exec_evolves c s) h)

theorem run_side (cs : List Call) : Side (run Heap.empty cs) := run_inv (by intro o x h; simp [Heap.empty] at h) (fun _ _ => delta_side) cs

end Store
end Verif
