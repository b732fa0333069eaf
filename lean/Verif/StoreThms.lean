import Verif.StoreSpec
/-!
# Iteration, tree structure and creation (C47–C50, C54)
-/

namespace Verif
namespace Store

/-! ## C49: the tree -/

theorem tree_facts (cs : List Call) {o : Nat} {x : Obj} (h : (run Heap.empty cs).objs[o]? = some x) :
    x.children.Pairwise (· < ·) ∧
    (∀ c, c ∈ x.children ↔ ∃ y, (run Heap.empty cs).objs[c]? = some y ∧ y.parent = some o) ∧
    (∀ p, x.parent = some p → p < o) ∧ (x.parent = none ↔ x.cls = .db) := by
  have t := run_tree cs
  generalize run Heap.empty cs = s at *
  have hs : (s.objs.map shape)[o]? = some (x.cls, x.parent, x.children) := by simp [h, shape]
  refine ⟨t.sorted _ _ _ _ hs, ?_, fun p hp => t.older o x.cls p x.children (by rw [hs, hp]), t.root _ _ _ _ hs⟩
  intro c
  rw [t.mem _ _ _ _ hs c]
  constructor
  · rintro ⟨c', ch', hc⟩
    rw [List.getElem?_map] at hc
    cases hy : s.objs[c]? with
    | none => rw [hy] at hc; cases hc
    | some y =>
      rw [hy] at hc
      simp only [Option.map_some, Option.some.injEq, shape, Prod.mk.injEq] at hc
      exact ⟨y, rfl, hc.2.1⟩
  · rintro ⟨y, hy, hp⟩
    exact ⟨y.cls, y.children, by simp [hy, shape, hp]⟩

/-- **C49.** After any calls, also failing ones: a scope is a database root or it reports a parent, which
is older, and it is a child exactly once of exactly this scope. -/
theorem C49_tree (cs : List Call) {o : Nat} {x : Obj} (h : (run Heap.empty cs).objs[o]? = some x) :
    (x.cls = .db ∧ x.parent = none ∧ ∀ (q : Nat) z, (run Heap.empty cs).objs[q]? = some z → o ∉ z.children) ∨
    ∃ p y, x.parent = some p ∧ p < o ∧ (run Heap.empty cs).objs[p]? = some y ∧ y.children.count o = 1 ∧
      ∀ (q : Nat) z, (run Heap.empty cs).objs[q]? = some z → o ∈ z.children → q = p := by
  obtain ⟨_, _, hold, hroot⟩ := tree_facts cs h
  have hpar : ∀ (q : Nat) z, (run Heap.empty cs).objs[q]? = some z → o ∈ z.children → x.parent = some q := by
    intro q z hz hm
    obtain ⟨y, hy, hp⟩ := ((tree_facts cs hz).2.1 o).1 hm
    rw [h] at hy; cases hy; exact hp
  cases hp : x.parent with
  | none =>
    refine .inl ⟨hroot.1 hp, rfl, fun q z hz hm => ?_⟩
    rw [hpar q z hz hm] at hp; cases hp
  | some p =>
    refine .inr ?_
    have hlt := hold p hp
    have hpl : p < (run Heap.empty cs).objs.length := Nat.lt_trans hlt (List.getElem?_eq_some_iff.1 h).1
    have hy := List.getElem?_eq_getElem hpl
    obtain ⟨hs, hm, _, _⟩ := tree_facts cs hy
    have hmem : o ∈ ((run Heap.empty cs).objs[p]).children := (hm o).2 ⟨x, h, hp⟩
    refine ⟨p, _, rfl, hlt, hy, ?_, fun q z hz hmz => ?_⟩
    · have nd : ((run Heap.empty cs).objs[p]).children.Nodup := hs.imp (fun h => Nat.ne_of_lt h)
      exact List.count_eq_one_of_mem nd hmem
    · have := hpar q z hz hmz
      rw [hp] at this; exact (Option.some.inj this).symm

/-- **C49.** No scope is its own ancestor. -/
theorem C49_acyclic (cs : List Call) (path : Nat → Nat) (n : Nat)
    (h : ∀ i < n, ∃ x, (run Heap.empty cs).objs[path i]? = some x ∧ x.parent = some (path (i + 1))) (hn : 0 < n) : path n ≠ path 0 := by
  have : path n < path 0 := by
    induction n with
    | zero => omega
    | succ k ih =>
      obtain ⟨x, hx, hp⟩ := h k (by omega)
      have hk : path (k + 1) < path k := (tree_facts cs hx).2.2.1 _ hp
      by_cases hk0 : k = 0
      · subst hk0; exact hk
      · have := ih (fun i hi => h i (by omega)) (by omega)
        omega
  omega

/-! ## C47: complete iterations -/

theorem scopes_eq {s : Heap} {o mask : Nat} {x : Obj} (h : s.objs[o]? = some x) :
    scopes o mask s = (.ok (x.children.filter (scopeHit s mask)), s) := by
  have e : scopes o mask s = (.ok (drain (scopeHit s mask) x.children (x.children.length + 1) 0), s) := bind_eq_of_ok (obj_some h)
  rw [e, drain_all]

theorem coverItems_eq {s : Heap} {o mask : Nat} {x : Obj} (h : s.objs[o]? = some x) :
    coverItems o mask s = (.ok (x.items.filter (binHit s mask)), s) := by
  have e : coverItems o mask s = (.ok (drain (binHit s mask) x.items (x.items.length + 1) 0), s) := bind_eq_of_ok (obj_some h)
  rw [e, drain_all]

theorem scopeHit_iff {s : Heap} {mask c : Nat} : scopeHit s mask c = true ↔ ∃ y, s.objs[c]? = some y ∧ Spec.Meets y.stype mask := by
  unfold scopeHit
  cases h : s.objs[c]? with
  | none => simp
  | some y => simp [maskHit_iff]

theorem binHit_iff {s : Heap} {mask b : Nat} : binHit s mask b = true ↔ Spec.BinOfKind s mask b := by
  unfold binHit Spec.BinOfKind
  cases h : s.bins[b]? with
  | none => simp
  | some x =>
    cases hd : s.datas[x.data]? with
    | none => simp [hd]
    | some d => simp [hd, maskHit_iff]

/-- **C47.** Iterating over the scopes of a scope gives exactly the scopes that report it as parent and have a
type of the mask, each once, in the order of their creation, and changes nothing. -/
theorem C47_scopes (cs : List Call) {o : Nat} {x : Obj} (mask : Nat) (h : (run Heap.empty cs).objs[o]? = some x) :
    ∃ r, scopes o mask (run Heap.empty cs) = (.ok r, run Heap.empty cs) ∧ r.Pairwise (· < ·) ∧
      ∀ c, c ∈ r ↔ Spec.ChildOfType (run Heap.empty cs) o mask c := by
  obtain ⟨hs, hm, _, _⟩ := tree_facts cs h
  refine ⟨_, scopes_eq h, hs.filter _, fun c => ?_⟩
  rw [List.mem_filter, scopeHit_iff, hm]
  constructor
  · rintro ⟨⟨y, hy, hp⟩, y', hy', ht⟩
    rw [hy] at hy'; cases hy'
    exact ⟨y, hy, hp, ht⟩
  · rintro ⟨y, hy, hp, ht⟩
    exact ⟨⟨y, hy, hp⟩, y, hy, ht⟩

/-- **C47.** Iterating over the bins: exactly the scope's bins of a kind of the mask, each once, in the order
of their creation.  Each bin is the bin of one scope only. -/
theorem C47_coverItems (cs : List Call) {o : Nat} {x : Obj} (mask : Nat) (h : (run Heap.empty cs).objs[o]? = some x) :
    ∃ r, coverItems o mask (run Heap.empty cs) = (.ok r, run Heap.empty cs) ∧ r.Pairwise (· < ·) ∧
      (∀ b, b ∈ r ↔ b ∈ x.items ∧ Spec.BinOfKind (run Heap.empty cs) mask b) ∧
      ∀ (q : Nat) z b, (run Heap.empty cs).objs[q]? = some z → b ∈ r → b ∈ z.items → q = o := by
  have t := run_items cs
  refine ⟨_, coverItems_eq h, (t.sorted _ _ h).filter _, fun b => ?_, fun q z b hz hb hbz => ?_⟩
  · rw [List.mem_filter, binHit_iff]
  · exact t.unique q o z x b hz h hbz (List.mem_filter.1 hb).1

/-- **C47.** Iterating over history nodes. -/
theorem C47_historyNodes (cs : List Call) {o : Nat} {x : Obj} (kind : Int) (h : (run Heap.empty cs).objs[o]? = some x)
    (hdb : x.cls = .db) :
    ∃ r, getHistoryNodes o kind (run Heap.empty cs) = (.ok r, run Heap.empty cs) ∧ r.Pairwise (· < ·) ∧
      ∀ n, n ∈ r ↔ n ∈ x.hist ∧ Spec.NodeOfKind (run Heap.empty cs) kind n := by
  have t := run_side cs o x h
  refine ⟨x.hist.filter (nodeHit (run Heap.empty cs) kind), ?_, t.hist.filter _, fun n => ?_⟩
  · have e : getHistoryNodes o kind (run Heap.empty cs) = _ := bind_eq_of_ok (obj_some h)
    rw [e, hdb]
    simp only [drain_all]; rfl
  · rw [List.mem_filter]
    refine and_congr_right fun hn => ?_
    have hl := t.histBound n hn
    unfold nodeHit Spec.NodeOfKind kindALL
    rw [List.getElem?_eq_getElem hl]
    simp

/-! ## C48: iterations in progress -/

/-- A program that uses an iterator: API calls and steps of the iterator in any order. -/
inductive Step where
  | call (c : Call)
  | next

/-- Running such a program; the last component collects what the iterator yields. -/
def drive (nx : Iter → Heap → Option Nat × Iter) : Heap × Iter × List Nat → List Step → Heap × Iter × List Nat
  | st, [] => st
  | (s, it, ys), .call c :: t => drive nx ((exec c s).2, it, ys) t
  | (s, it, ys), .next :: t =>
    match nx it s with
    | (some y, it') => drive nx (s, it', ys ++ [y]) t
    | (none, it') => drive nx (s, it', ys) t

/-- The calls of such a program. -/
def Step.calls : List Step → List Call
  | [] => []
  | .call c :: t => c :: Step.calls t
  | .next :: t => Step.calls t

theorem drive_heap (nx : Iter → Heap → Option Nat × Iter) (st : Heap × Iter × List Nat) (steps : List Step) :
    (drive nx st steps).1 = run st.1 (Step.calls steps) := by
  induction steps generalizing st with
  | nil => rfl
  | cons p t ih =>
    obtain ⟨s, it, ys⟩ := st
    cases p with
    | call c => exact ih _
    | next =>
      unfold drive
      rcases nx it s with ⟨r, it'⟩
      cases r <;> exact ih _

/-- State of an iteration: what has been yielded are the hits among the elements passed. -/
structure Passed (list : Obj → List Nat) (hit : Heap → Nat → Nat → Bool) (s : Heap) (it : Iter) (ys : List Nat) : Prop where
  idx : ∃ x, s.objs[it.o]? = some x ∧ it.idx ≤ (list x).length ∧ ys = ((list x).take it.idx).filter (hit s it.mask)

/-- One kind of iteration: the list grows at the end and hits do not change. -/
structure IterKind (list : Obj → List Nat) (hit : Heap → Nat → Nat → Bool) (nx : Iter → Heap → Option Nat × Iter) : Prop where
  grows : ∀ x y, Kept x y → list x <+: list y
  next : ∀ it s x, s.objs[it.o]? = some x →
    nx it s = ((Store.next (hit s it.mask) (list x) it.idx).1, { it with idx := (Store.next (hit s it.mask) (list x) it.idx).2 })
  stable : ∀ cs c (o : Nat) x mask, (run Heap.empty cs).objs[o]? = some x → ∀ a ∈ list x,
    hit (exec c (run Heap.empty cs)).2 mask a = hit (run Heap.empty cs) mask a

theorem drive_passed {list : Obj → List Nat} {hit : Heap → Nat → Nat → Bool} {nx : Iter → Heap → Option Nat × Iter}
    (K : IterKind list hit nx) (steps : List Step) (cs : List Call) (s : Heap) (hs : s = run Heap.empty cs) (it : Iter) (ys : List Nat)
    (h : Passed list hit s it ys) :
    (drive nx (s, it, ys) steps).2.1.o = it.o ∧ (drive nx (s, it, ys) steps).2.1.mask = it.mask ∧
    Passed list hit (drive nx (s, it, ys) steps).1 (drive nx (s, it, ys) steps).2.1 (drive nx (s, it, ys) steps).2.2 := by
  induction steps generalizing cs s it ys with
  | nil => exact ⟨rfl, rfl, h⟩
  | cons p t ih =>
    obtain ⟨x, hx, hi, hy⟩ := h.idx
    cases p with
    | call c =>
      refine ih (cs ++ [c]) (exec c s).2 (by rw [hs]; simp [run, List.foldl_append]) it ys ⟨?_⟩
      obtain ⟨y, hy', hk⟩ := (exec_evolves c s).objs _ _ hx
      have hpre := K.grows x y hk
      refine ⟨y, hy', Nat.le_trans hi hpre.length_le, ?_⟩
      rw [hy]
      obtain ⟨r, hr⟩ := hpre
      rw [← hr, List.take_append_of_le_length hi]
      apply List.filter_congr
      intro a ha
      subst hs
      exact (K.stable cs c it.o x it.mask hx a (List.mem_of_mem_take ha)).symm
    | next =>
      unfold drive
      rw [K.next it s x hx]
      have sp := next_spec (hit s it.mask) (list x) it.idx hi
      rcases hr : Store.next (hit s it.mask) (list x) it.idx with ⟨r, j⟩
      rw [hr] at sp
      cases r with
      | none =>
        simp only
        refine ih cs s hs { it with idx := j } ys ⟨x, hx, ?_, ?_⟩
        · exact Nat.le_of_eq sp.1
        · show ys = ((list x).take j).filter (hit s it.mask)
          rw [hy, sp.1, List.take_length]
          conv => rhs; rw [← List.take_append_drop it.idx (list x), List.filter_append, sp.2, List.append_nil]
      | some a =>
        simp only
        obtain ⟨_, h2, _, h4, _⟩ := sp
        exact ih cs s hs { it with idx := j } (ys ++ [a]) ⟨x, hx, h2, by rw [hy]; exact h4.symm⟩

/-- What has been yielded is the beginning of what a complete iteration now would give; if the iterator is at
its end, it is all of it. -/
theorem drive_yields {list : Obj → List Nat} {hit : Heap → Nat → Nat → Bool} {nx : Iter → Heap → Option Nat × Iter}
    (K : IterKind list hit nx) (cs : List Call) (steps : List Step) {o : Nat} {x : Obj} (mask : Nat)
    (h : (run Heap.empty cs).objs[o]? = some x) {s : Heap} {it : Iter} {ys : List Nat}
    (hd : drive nx (run Heap.empty cs, ⟨o, mask, 0⟩, []) steps = (s, it, ys)) :
    ∃ z, s.objs[o]? = some z ∧ ys <+: (list z).filter (hit s mask) ∧
      ((nx it s).1 = none → ys = (list z).filter (hit s mask)) := by
  have := drive_passed K steps cs (run Heap.empty cs) rfl ⟨o, mask, 0⟩ [] ⟨x, h, Nat.zero_le _, by simp⟩
  rw [hd] at this
  obtain ⟨e1, e2, ⟨z, hz, hi, hy⟩⟩ := this
  simp only at e1 e2 hz hi hy
  rw [e1] at hz
  rw [e2] at hy
  have split : (list z).filter (hit s mask) = ys ++ ((list z).drop it.idx).filter (hit s mask) := by
    conv => lhs; rw [← List.take_append_drop it.idx (list z), List.filter_append, ← hy]
  refine ⟨z, hz, ⟨_, split.symm⟩, fun hend => ?_⟩
  rw [K.next it s z (by rw [e1]; exact hz)] at hend
  have sp := next_spec (hit s it.mask) (list z) it.idx hi
  rcases hr : Store.next (hit s it.mask) (list z) it.idx with ⟨r, j⟩
  rw [hr] at sp hend
  cases r with
  | some a => cases hend
  | none =>
    have sp2 := sp.2
    rw [e2] at sp2
    rw [split, sp2, List.append_nil]

theorem scopeKind : IterKind Obj.children scopeHit nextScope where
  grows _ _ k := k.children
  next it s x h := by simp [nextScope, h]
  stable cs c o x mask h a ha := by
    obtain ⟨y, hy, _⟩ := ((tree_facts cs h).2.1 a).1 ha
    obtain ⟨z, hz, hk⟩ := (exec_evolves c _).objs a y hy
    simp [scopeHit, hy, hz, hk.stype]

theorem itemKind : IterKind Obj.items binHit nextItem where
  grows _ _ k := k.items
  next it s x h := by simp [nextItem, h]
  stable cs c o x mask h a ha := by
    have hb := (run_items cs).bound o x h a ha
    have hx := List.getElem?_eq_getElem hb
    have hdl := run_hasData cs a _ hx
    have hd := List.getElem?_eq_getElem hdl
    have ev := exec_evolves c (run Heap.empty cs)
    obtain ⟨r, hr⟩ := ev.bins
    obtain ⟨d', hd', hk, _⟩ := ev.datas _ _ hd
    have hx' : (exec c (run Heap.empty cs)).2.bins[a]? = (run Heap.empty cs).bins[a]? := by
      rw [← hr, List.getElem?_append_left hb]
    simp [binHit, hx', hx, hd, hd', hk]

/-- **C48.** An iteration over scopes with arbitrary calls in between: whenever the iterator is at its end, it has
yielded exactly the matching scopes that exist by then, each once, in the order of their creation. -/
theorem C48_scopes (cs : List Call) (steps : List Step) {o : Nat} {x : Obj} (mask : Nat) (h : (run Heap.empty cs).objs[o]? = some x)
    {s : Heap} {it : Iter} {ys : List Nat} (hd : drive nextScope (run Heap.empty cs, ⟨o, mask, 0⟩, []) steps = (s, it, ys))
    (hend : (nextScope it s).1 = none) :
    ys.Pairwise (· < ·) ∧ ∀ c, c ∈ ys ↔ Spec.ChildOfType s o mask c := by
  obtain ⟨z, hz, _, hall⟩ := drive_yields scopeKind cs steps mask h hd
  have hs : s = run Heap.empty (cs ++ Step.calls steps) := by
    have := drive_heap nextScope (run Heap.empty cs, ⟨o, mask, 0⟩, []) steps
    rw [hd] at this
    simpa [run, List.foldl_append] using this
  have hz' := hz
  rw [hs] at hz'
  obtain ⟨r, hr, hp, hm⟩ := C47_scopes (cs ++ Step.calls steps) mask hz'
  rw [scopes_eq hz'] at hr
  rw [← hs] at hr hm
  cases hr
  rw [hall hend]
  exact ⟨hp, hm⟩

/-- **C48.** At any time the iterator has yielded the oldest matching scopes: nothing is skipped and
nothing yielded twice. -/
theorem C48_scopes_prefix (cs : List Call) (steps : List Step) {o : Nat} {x : Obj} (mask : Nat) (h : (run Heap.empty cs).objs[o]? = some x)
    {s : Heap} {it : Iter} {ys : List Nat} (hd : drive nextScope (run Heap.empty cs, ⟨o, mask, 0⟩, []) steps = (s, it, ys)) :
    ys.Pairwise (· < ·) ∧ (∀ c ∈ ys, Spec.ChildOfType s o mask c) ∧
      ∀ c c', Spec.ChildOfType s o mask c → c' ∈ ys → c < c' → c ∈ ys := by
  obtain ⟨z, hz, ⟨rest, hrest⟩, _⟩ := drive_yields scopeKind cs steps mask h hd
  have hs : s = run Heap.empty (cs ++ Step.calls steps) := by
    have := drive_heap nextScope (run Heap.empty cs, ⟨o, mask, 0⟩, []) steps
    rw [hd] at this
    simpa [run, List.foldl_append] using this
  have hz' := hz
  rw [hs] at hz'
  obtain ⟨r, hr, hp, hm⟩ := C47_scopes (cs ++ Step.calls steps) mask hz'
  rw [scopes_eq hz'] at hr
  rw [← hs] at hr hm
  cases hr
  rw [← hrest] at hp hm
  rw [List.pairwise_append] at hp
  refine ⟨hp.1, fun c hc => (hm c).1 (List.mem_append_left _ hc), fun c c' hc hc' hlt => ?_⟩
  rcases List.mem_append.1 ((hm c).2 hc) with h1 | h1
  · exact h1
  · have := hp.2.2 c' hc' c h1; omega

/-- **C48.** The same for iterations over bins. -/
theorem C48_coverItems (cs : List Call) (steps : List Step) {o : Nat} {x : Obj} (mask : Nat) (h : (run Heap.empty cs).objs[o]? = some x)
    {s : Heap} {it : Iter} {ys : List Nat} (hd : drive nextItem (run Heap.empty cs, ⟨o, mask, 0⟩, []) steps = (s, it, ys))
    (hend : (nextItem it s).1 = none) :
    ys.Pairwise (· < ·) ∧ ∃ z, s.objs[o]? = some z ∧ ∀ b, b ∈ ys ↔ b ∈ z.items ∧ Spec.BinOfKind s mask b := by
  obtain ⟨z, hz, _, hall⟩ := drive_yields itemKind cs steps mask h hd
  have hs : s = run Heap.empty (cs ++ Step.calls steps) := by
    have := drive_heap nextItem (run Heap.empty cs, ⟨o, mask, 0⟩, []) steps
    rw [hd] at this
    simpa [run, List.foldl_append] using this
  have hz' := hz
  rw [hs] at hz'
  obtain ⟨r, hr, hp, hm, _⟩ := C47_coverItems (cs ++ Step.calls steps) mask hz'
  rw [coverItems_eq hz'] at hr
  rw [← hs] at hr hm
  cases hr
  rw [hall hend]
  exact ⟨hp, z, hz, hm⟩

/-- A database with a design unit, an instance in it, a covergroup with a coverpoint. -/
def sample : List Call :=
  [.newDb, .createScope 0 "m" none 1 1 ST.DU_MODULE 0, .createInstance 0 "i" none 1 1 ST.INSTANCE (some 1) 0,
    .createCovergroup 2 "cg" none 1 1, .createCoverpoint 3 "cp" none 1 1, .createBin 4 "a" none 1 3 1, .createBin 4 "b" none 1 0 1]

/-- **C49**, **C47** apply: the instance is a child of the root. -/
example : ∃ x, (run Heap.empty sample).objs[2]? = some x ∧ x.parent = some 0 := by
  refine ⟨_, rfl, ?_⟩
  rfl

/-- **C48** applies: a covergroup is added while the children of the instance are iterated. -/
example : ∃ s it ys, drive nextScope (run Heap.empty sample, ⟨2, ST.COVERGROUP, 0⟩, [])
    [.next, .call (.createCovergroup 2 "late" none 1 1), .next] = (s, it, ys) ∧ (nextScope it s).1 = none ∧ ys = [3, 5] := by
  refine ⟨_, _, _, rfl, ?_, ?_⟩
  · decide
  · decide

/-! ## C54: visibility of cover items -/

/-- **C54, partial.** Full statement: a cover item created on any scope is seen when its cover items are
iterated.  That holds exactly for the scopes that are not instances (see `C54_refuted`): there the new bin is the last one
yielded. -/
theorem C54_visible_partial {s s' : Heap} {o d : Nat} {x : Obj} {c : CData} {n : String} {src : Option SrcInfo} {r : Cover} {mask : Nat}
    (h : s.objs[o]? = some x) (hd : s.datas[d]? = some c) (h1 : x.cls ≠ .inst) (h2 : x.cls ≠ .toggle)
    (hr : createNextCover o n d src s = (.ok r, s')) (hm : Spec.Meets c.kind mask) :
    ∃ b old, r = .bin b ∧ coverItems o mask s' = (.ok (old ++ [b]), s') ∧ s'.bins[b]? = some ⟨n, d, src⟩ := by
  rw [createNextCover_bin h hd h1 h2] at hr
  cases hr
  have ho : (s.withBin o ⟨n, d, src⟩).objs[o]? = some { x with items := x.items ++ [s.bins.length] } := by
    simp only [Heap.withBin]; rw [modify_eq_set h, get_set h]; simp
  have hb : (s.withBin o ⟨n, d, src⟩).bins[s.bins.length]? = some ⟨n, d, src⟩ := by simp [Heap.withBin]
  refine ⟨s.bins.length, x.items.filter (binHit (s.withBin o ⟨n, d, src⟩) mask), rfl, ?_, hb⟩
  rw [coverItems_eq ho]
  simp only [List.filter_append]
  have : binHit (s.withBin o ⟨n, d, src⟩) mask s.bins.length = true := binHit_iff.2 ⟨_, c, hb, hd, hm⟩
  simp [this]

/-- **C54, refuted for instance scopes.** However many cover items have been created on an instance scope, iterating
over them yields none, for any mask. -/
theorem C54_refuted (cs : List Call) {o : Nat} {x : Obj} (mask : Nat) (h : (run Heap.empty cs).objs[o]? = some x)
    (hi : x.cls = .inst ∨ x.cls = .toggle) : coverItems o mask (run Heap.empty cs) = (.ok [], run Heap.empty cs) := by
  rw [coverItems_eq h, (run_items cs).inst o x h hi]; rfl

/-- Although the creation succeeded. -/
example : ∃ s' x, createNextCover 2 "stmt" 0 none (run Heap.empty sample) = (.ok (.index 0), s') ∧ s'.objs[2]? = some x ∧
    x.stmts.length = 1 ∧ (coverItems 2 0xFFFFFFFF s').1 = .ok [] := by
  refine ⟨_, _, rfl, rfl, rfl, ?_⟩
  rfl

/-! ## C50: creation -/

theorem raise_of_bind_pure {α β : Type} {x : M α} {g : α → β} {s s' : Heap} {e : Err}
    (h : (x >>= fun a => (pure (g a) : M β)) s = (.error e, s')) : x s = (.error e, s') := by
  rcases bind_error.1 h with h | ⟨a, s1, _, h⟩
  · exact h
  · cases h

/-- **C50.** A call that raises changes nothing, whichever call it is. -/
theorem C50_raise {c : Call} {s s' : Heap} {e : Err} (h : exec c s = (.error e, s')) : s' = s := by
  cases hc : c.creates with
  | some on =>
    obtain ⟨o, n⟩ := on
    rcases exec_creates hc s with ⟨x, y, _, _, h'⟩ | ⟨e', h'⟩
    · rw [h'] at h; cases h
    · rw [h'] at h; cases h; rfl
  | none =>
  have two : ∀ {α : Type} {y : M α} {o : Nat} {k : Obj → M α}, (y = obj o >>= k) →
      (∀ x, s.objs[o]? = some x → ∀ e s', k x s = (.error e, s') → s' = s) → ∀ e s', y s = (.error e, s') → s' = s := by
    rintro α y o k rfl hk e s' h
    rcases obj_cases s o with ⟨x, hx, ho⟩ | ⟨_, ho⟩
    · rw [bind_eq_of_ok ho] at h; exact hk x hx e s' h
    · rw [bind_eq_of_error ho] at h; cases h; rfl
  cases c with
  | newDb => cases h
  | createScope => cases hc
  | createInstance => cases hc
  | createCovergroup => cases hc
  | createToggle => cases hc
  | createCoverpoint => cases hc
  | createCross => cases hc
  | createCoverInstance => cases hc
  | newCoverData k f => cases h
  | assignData d f v =>
    have h := raise_of_bind_pure h
    cases hd : s.datas[d]? with
    | none => rw [assignData_none hd] at h; cases h; rfl
    | some x => rw [assignData_eq hd] at h; cases h
  | createNextCover o n d src =>
    have h := raise_of_bind_pure h
    cases hd : s.datas[d]? with
    | none => rw [createNextCover_none hd] at h; cases h; rfl
    | some c =>
      refine two rfl (fun x hx e s' hk => ?_) e s' h
      have hx2 : createNextCover o n d src s = (.error e, s') := (bind_eq_of_ok (obj_some hx)).trans hk
      by_cases hcl : x.cls = .inst ∨ x.cls = .toggle
      · rw [createNextCover_inst hx hd hcl] at hx2; cases hx2
      · rw [createNextCover_bin hx hd (fun h => hcl (.inl h)) (fun h => hcl (.inr h))] at hx2; cases hx2
  | createBin o n src a c k =>
    have h := raise_of_bind_pure h
    refine two rfl (fun x hx e s' hk => ?_) e s' h
    have hx2 : createBin o n src a c k s = (.error e, s') := (bind_eq_of_ok (obj_some hx)).trans hk
    by_cases hcl : x.cls = .coverpoint ∨ x.cls = .cross
    · rw [createBin_eq hx hcl] at hx2; cases hx2
    · rw [createBin_error hx (fun h => hcl (.inl h)) (fun h => hcl (.inr h))] at hx2; cases hx2; rfl
  | incrementCover b a =>
    have h := raise_of_bind_pure h
    cases hb : s.bins[b]? with
    | none => unfold Store.incrementCover at h; rw [bind_eq_of_error (bin_none hb)] at h; cases h; rfl
    | some x =>
      cases hd : s.datas[x.data]? with
      | none =>
        unfold Store.incrementCover at h
        rw [bind_eq_of_ok (bin_some hb), bind_eq_of_error (cdata_none hd)] at h; cases h; rfl
      | some d => rw [incrementCover_eq hb hd] at h; cases h
  | setIntProperty o i p v => exact setIntProperty_error (raise_of_bind_pure h)
  | setStringProperty o p v => exact two rfl (fun x _ e s' hk => by cases hk) e s' (raise_of_bind_pure h)
  | setWeight o w => exact two rfl (fun x _ e s' hk => by cases hk) e s' (raise_of_bind_pure h)
  | setGoal o g => exact two rfl (fun x _ e s' hk => by cases hk) e s' (raise_of_bind_pure h)
  | setComment o c =>
    refine two rfl (fun x _ e s' hk => ?_) e s' (raise_of_bind_pure h)
    cases hcl : x.cls <;> rw [hcl] at hk <;> cases hk <;> rfl
  | createFileHandle o n =>
    refine two rfl (fun x _ e s' hk => ?_) e s' (raise_of_bind_pure h)
    cases hcl : x.cls <;> rw [hcl] at hk <;> try (cases hk; rfl)
    cases hf : x.files.get? n <;> rw [hf] at hk <;> cases hk
  | createHistoryNode o now p l ph k =>
    refine two rfl (fun x _ e s' hk => ?_) e s' (raise_of_bind_pure h)
    cases hcl : x.cls <;> rw [hcl] at hk <;> cases hk <;> rfl
  | createInstanceCoverage o n =>
    refine two rfl (fun x _ e s' hk => ?_) e s' (raise_of_bind_pure h)
    cases hcl : x.cls <;> rw [hcl] at hk <;> cases hk <;> rfl
  | setTestData n t =>
    have h := raise_of_bind_pure h
    cases hn : s.nodes[n]? with
    | none => unfold Store.setTestData at h; rw [bind_eq_of_error (node_none hn)] at h; cases h; rfl
    | some x => unfold Store.setTestData at h; rw [bind_eq_of_ok (node_some hn)] at h; cases h
  | assignNode n a =>
    have h := raise_of_bind_pure h
    cases hn : s.nodes[n]? with
    | none => unfold Store.assignNode at h; rw [bind_eq_of_error (node_none hn)] at h; cases h; rfl
    | some x => unfold Store.assignNode at h; rw [bind_eq_of_ok (node_some hn)] at h; cases h
  | setNodeProperty n p v =>
    have h := raise_of_bind_pure h
    unfold Store.setNodeProperty at h
    cases hn : s.nodes[n]? with
    | none => rw [bind_eq_of_error (node_none hn)] at h; cases h; rfl
    | some x =>
      rw [bind_eq_of_ok (node_some hn)] at h
      cases hy : nodeSet x p v with
      | error er => simp only [bind_def, read, hy] at h; cases h; rfl
      | ok y => simp only [bind_def, read, hy, modNode] at h; cases h

/-- **C50.** A call that creates a scope and succeeds: there is one scope more, it has the name and parent asked for
and nothing below, it is the new last child of its parent, and nothing else differs. -/
theorem C50_scope {c : Call} {o : Nat} {n : String} {s s' : Heap} {r : Ret} (hc : c.creates = some (o, n))
    (h : exec c s = (.ok r, s')) :
    r = .scope s.objs.length ∧ ∃ x y, s.objs[o]? = some x ∧
      s' = { s with objs := s.objs.set o { x with children := x.children ++ [s.objs.length] } ++ [y] } ∧
      y.parent = some o ∧ y.name = n ∧ y.children = [] ∧ y.items = [] ∧ y.stmts = [] := by
  rcases exec_creates hc s with ⟨x, y, hx, hy, h'⟩ | ⟨e, h'⟩
  · rw [h'] at h
    cases h
    refine ⟨rfl, x, y, hx, ?_, hy.parent, hy.name, hy.children, hy.items, hy.stmts⟩
    have hl := (List.getElem?_eq_some_iff.1 hx).1
    unfold Heap.withChild
    rw [modify_eq_set (x := x) (by rw [List.getElem?_append_left hl]; exact hx), List.set_append_left _ _ hl]
  · rw [h'] at h; cases h

/-- **C50.** A bin created with `createBin`: one more bin, which is the new last one of its scope and has a `CoverData`
of its own with the given values; nothing else differs.  Only coverpoints and crosses accept the call. -/
theorem C50_createBin {o : Nat} {n : String} {src : Option SrcInfo} {a c : Int} {k : Nat} {s s' : Heap} {r : Cover}
    (h : createBin o n src a c k s = (.ok r, s')) :
    r = .bin s.bins.length ∧ ∃ x d, s.objs[o]? = some x ∧ (x.cls = .coverpoint ∨ x.cls = .cross) ∧
      s' = { s with
        objs := s.objs.set o { x with items := x.items ++ [s.bins.length] },
        bins := s.bins ++ [⟨n, s.datas.length, src⟩],
        datas := s.datas ++ [d] } ∧
      d.kind = k ∧ d.count = c ∧ d.atLeast = some a ∧ d.goal = 1 ∧ d.weight = 1 := by
  rcases obj_cases s o with ⟨x, hx, ho⟩ | ⟨_, ho⟩
  · by_cases hcl : x.cls = .coverpoint ∨ x.cls = .cross
    · rw [createBin_eq hx hcl] at h
      cases h
      refine ⟨rfl, x, binData k a c, hx, hcl, ?_, rfl, rfl, rfl, rfl, rfl⟩
      simp only [Heap.withBin]
      rw [modify_eq_set hx]
    · rw [createBin_error hx (fun h => hcl (.inl h)) (fun h => hcl (.inr h))] at h; cases h
  · unfold createBin at h
    rw [bind_eq_of_error ho] at h; cases h

/-- **C50.** A cover item created with the generic call: on instance scopes a new last statement item, elsewhere a new
last bin; the `CoverData` given is used as it is, and nothing else differs. -/
theorem C50_createNextCover {o d : Nat} {n : String} {src : Option SrcInfo} {s s' : Heap} {r : Cover}
    (h : createNextCover o n d src s = (.ok r, s')) :
    ∃ x, s.objs[o]? = some x ∧ d < s.datas.length ∧
      if x.cls = .inst ∨ x.cls = .toggle then
        r = .index x.stmts.length ∧ s' = { s with objs := s.objs.set o { x with stmts := x.stmts ++ [⟨n, d, 0⟩] } }
      else r = .bin s.bins.length ∧
        s' = { s with objs := s.objs.set o { x with items := x.items ++ [s.bins.length] }, bins := s.bins ++ [⟨n, d, src⟩] } := by
  cases hd : s.datas[d]? with
  | none => rw [createNextCover_none hd] at h; cases h
  | some c =>
    rcases obj_cases s o with ⟨x, hx, ho⟩ | ⟨_, ho⟩
    · refine ⟨x, hx, (List.getElem?_eq_some_iff.1 hd).1, ?_⟩
      by_cases hcl : x.cls = .inst ∨ x.cls = .toggle
      · rw [createNextCover_inst hx hd hcl] at h
        cases h
        rw [if_pos hcl, modify_eq_set hx]
        exact ⟨rfl, rfl⟩
      · rw [createNextCover_bin hx hd (fun h => hcl (.inl h)) (fun h => hcl (.inr h))] at h
        cases h
        rw [if_neg hcl]
        refine ⟨rfl, ?_⟩
        simp only [Heap.withBin]
        rw [modify_eq_set hx]
    · unfold createNextCover at h
      rw [bind_eq_of_error ho] at h; cases h

/-- **C50.** Which types the generic scope creation accepts, and which type the new scope gets: below an instance only
masks containing "covergroup", always giving a covergroup; elsewhere the design unit types, covergroup, cover instance
and coverpoint, giving a scope of the type asked for. -/
theorem C50_createScope_accepts {o t : Nat} {n : String} {src : Option SrcInfo} {w so f : Int} {s : Heap} {x : Obj}
    (hx : s.objs[o]? = some x) :
    match createScope o n src w so t f s with
    | (.ok c, s') => ∃ y, s'.objs[c]? = some y ∧
        if x.cls = .inst ∨ x.cls = .toggle then Spec.Meets t ST.COVERGROUP ∧ y.stype = ST.COVERGROUP
        else (ST.duAny t = true ∨ t = ST.COVERGROUP ∨ t = ST.COVERINSTANCE ∨ t = ST.COVERPOINT) ∧ y.stype = t
    | (.error e, _) =>
        if x.cls = .inst ∨ x.cls = .toggle then ¬ Spec.Meets t ST.COVERGROUP ∧ e = .unimpl
        else ¬ (ST.duAny t = true ∨ t = ST.COVERGROUP ∨ t = ST.COVERINSTANCE ∨ t = ST.COVERPOINT) ∧ e = .notImplemented := by
  have hl := (List.getElem?_eq_some_iff.1 hx).1
  have last : ∀ y, (s.withChild o y).objs[s.objs.length]? = some y := by
    intro y
    simp only [Heap.withChild]
    rw [List.getElem?_modify]
    have : o ≠ s.objs.length := by omega
    simp [this]
  by_cases hcl : x.cls = .inst ∨ x.cls = .toggle
  · simp only [if_pos hcl]
    have e : createScope o n src w so t f s =
        if maskHit t ST.COVERGROUP then (.ok s.objs.length, s.withChild o (memCovergroup o n src w so)) else (.error .unimpl, s) := by
      rw [createScope_eq hx]
      rcases hcl with h | h <;> simp [h]
    rw [e]
    by_cases hm : maskHit t ST.COVERGROUP = true
    · rw [if_pos hm]; exact ⟨_, last _, (maskHit_iff _ _).1 hm, rfl⟩
    · rw [if_neg hm]; exact ⟨fun h => hm ((maskHit_iff _ _).2 h), rfl⟩
  · simp only [if_neg hcl]
    have e : createScope o n src w so t f s =
        if ST.duAny t then (.ok s.objs.length, s.withChild o (memScope .unit (some o) n src w so t f))
        else if t = ST.COVERGROUP then (.ok s.objs.length, s.withChild o (memCovergroup o n src w so))
        else if t = ST.COVERINSTANCE then
          (.ok s.objs.length, s.withChild o { memCovergroup o n src w so with stype := ST.COVERINSTANCE })
        else if t = ST.COVERPOINT then (.ok s.objs.length, s.withChild o (memCoverpoint o n src w so))
        else (.error .notImplemented, s) := by
      rw [createScope_eq hx]
      cases h : x.cls <;> first | rfl | (exfalso; simp [h] at hcl)
    rw [e]
    by_cases h1 : ST.duAny t = true
    · rw [if_pos h1]; exact ⟨_, last _, .inl h1, rfl⟩
    · rw [if_neg h1]
      by_cases h2 : t = ST.COVERGROUP
      · rw [if_pos h2]; exact ⟨_, last _, .inr (.inl h2), h2.symm⟩
      · rw [if_neg h2]
        by_cases h3 : t = ST.COVERINSTANCE
        · rw [if_pos h3]; exact ⟨_, last _, .inr (.inr (.inl h3)), h3.symm⟩
        · rw [if_neg h3]
          by_cases h4 : t = ST.COVERPOINT
          · rw [if_pos h4]; exact ⟨_, last _, .inr (.inr (.inr h4)), h4.symm⟩
          · rw [if_neg h4]; exact ⟨by rintro (h | h | h | h) <;> contradiction, rfl⟩

/-- The creation calls of the sample succeed; a coverpoint cannot be created below an instance. -/
example : (∃ r s', exec (.createCoverpoint 3 "x" none 1 1) (run Heap.empty sample) = (.ok r, s')) ∧
    (∃ r s', createBin 4 "c" none 1 0 1 (run Heap.empty sample) = (.ok r, s')) ∧
    ∃ s', exec (.createCoverpoint 2 "x" none 1 1) (run Heap.empty sample) = (.error .attributeError, s') :=
  ⟨⟨_, _, rfl⟩, ⟨_, _, rfl⟩, _, rfl⟩

end Store
end Verif
