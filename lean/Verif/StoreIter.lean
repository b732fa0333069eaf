import Verif.StoreThms
/-!
# Iterations over history records in progress (C48)
-/

namespace Verif
namespace Store

/-- `__next__` of a `MemHistoryNodeIterator` (`mem_history_node_iterator.py:21-35`) made by `historyNodes(kind)` (`mem_ucis.py:102-103`): it holds the live
list of the database and the kind; the field `mask` of `Iter` is not used. -/
def nextNode (kind : Int) (it : Iter) (s : Heap) : Option Nat × Iter :=
  match s.objs[it.o]? with
  | none => (none, it)
  | some x => let r := next (nodeHit s kind) x.hist it.idx; (r.1, { it with idx := r.2 })

theorem nodeKind (kind : Int) : IterKind Obj.hist (fun s _ n => nodeHit s kind n) (nextNode kind) where
  grows _ _ k := k.hist
  next it s x h := by simp [nextNode, h]
  stable cs c o x mask h a ha := by
    have hb := (run_side cs o x h).histBound a ha
    have hx := List.getElem?_eq_getElem hb
    obtain ⟨y, hy, hk⟩ := (exec_evolves c (run Heap.empty cs)).nodes a _ hx
    simp [nodeHit, hx, hy, hk.kind]

/-- An iteration in progress and a complete iteration. -/
theorem node_yields (cs : List Call) (steps : List Step) {o : Nat} {x : Obj} (kind : Int) (h : (run Heap.empty cs).objs[o]? = some x)
    {s : Heap} {it : Iter} {ys : List Nat} (hd : drive (nextNode kind) (run Heap.empty cs, ⟨o, 0, 0⟩, []) steps = (s, it, ys)) :
    ∃ z r, s.objs[o]? = some z ∧ r.Pairwise (· < ·) ∧ (∀ n, n ∈ r ↔ n ∈ z.hist ∧ Spec.NodeOfKind s kind n) ∧ ys <+: r ∧
      ((nextNode kind it s).1 = none → ys = r) := by
  obtain ⟨z, hz, hp, hall⟩ := drive_yields (nodeKind kind) cs steps 0 h hd
  have hs : s = run Heap.empty (cs ++ Step.calls steps) := by
    have := drive_heap (nextNode kind) (run Heap.empty cs, ⟨o, 0, 0⟩, []) steps
    rw [hd] at this
    simpa [run, List.foldl_append] using this
  refine ⟨z, z.hist.filter (nodeHit s kind), hz, ?_, ?_, hp, hall⟩
  · rw [hs] at hz
    exact (run_side _ o z hz).hist.filter _
  · intro n
    rw [List.mem_filter]
    refine and_congr_right fun hn => ?_
    rw [hs] at hz ⊢
    have hl := (run_side _ o z hz).histBound n hn
    unfold nodeHit Spec.NodeOfKind kindALL
    rw [List.getElem?_eq_getElem hl]
    simp

/-- **C48.** Iterations over the history records of one kind (or all kinds) with arbitrary calls in between: whenever the iterator is at its end, it has
yielded exactly the records of that kind that exist by then, each once, in the order of their creation. -/
theorem C48_historyNodes (cs : List Call) (steps : List Step) {o : Nat} {x : Obj} (kind : Int) (h : (run Heap.empty cs).objs[o]? = some x)
    {s : Heap} {it : Iter} {ys : List Nat} (hd : drive (nextNode kind) (run Heap.empty cs, ⟨o, 0, 0⟩, []) steps = (s, it, ys))
    (hend : (nextNode kind it s).1 = none) :
    ys.Pairwise (· < ·) ∧ ∃ z, s.objs[o]? = some z ∧ ∀ n, n ∈ ys ↔ n ∈ z.hist ∧ Spec.NodeOfKind s kind n := by
  obtain ⟨z, r, hz, hp, hm, _, hall⟩ := node_yields cs steps kind h hd
  rw [hall hend]
  exact ⟨hp, z, hz, hm⟩

/-- **C48.** At any time the iterator has yielded the oldest records of the kind: nothing is skipped and nothing yielded twice. -/
theorem C48_historyNodes_prefix (cs : List Call) (steps : List Step) {o : Nat} {x : Obj} (kind : Int) (h : (run Heap.empty cs).objs[o]? = some x)
    {s : Heap} {it : Iter} {ys : List Nat} (hd : drive (nextNode kind) (run Heap.empty cs, ⟨o, 0, 0⟩, []) steps = (s, it, ys)) :
    ys.Pairwise (· < ·) ∧ ∃ z, s.objs[o]? = some z ∧ (∀ n ∈ ys, n ∈ z.hist ∧ Spec.NodeOfKind s kind n) ∧
      ∀ n n', n ∈ z.hist → Spec.NodeOfKind s kind n → n' ∈ ys → n < n' → n ∈ ys := by
  obtain ⟨z, r, hz, hp, hm, ⟨rest, rfl⟩, _⟩ := node_yields cs steps kind h hd
  rw [List.pairwise_append] at hp
  refine ⟨hp.1, z, hz, fun n hn => (hm n).1 (List.mem_append_left _ hn), fun n n' h1 h2 hn' hlt => ?_⟩
  rcases List.mem_append.1 ((hm n).2 ⟨h1, h2⟩) with h3 | h3
  · exact h3
  · have := hp.2.2 n' hn' n h3; omega

/-- **C48.** At any time an iteration over bins has yielded the oldest matching bins of the scope. -/
theorem C48_coverItems_prefix (cs : List Call) (steps : List Step) {o : Nat} {x : Obj} (mask : Nat) (h : (run Heap.empty cs).objs[o]? = some x)
    {s : Heap} {it : Iter} {ys : List Nat} (hd : drive nextItem (run Heap.empty cs, ⟨o, mask, 0⟩, []) steps = (s, it, ys)) :
    ys.Pairwise (· < ·) ∧ ∃ z, s.objs[o]? = some z ∧ (∀ b ∈ ys, b ∈ z.items ∧ Spec.BinOfKind s mask b) ∧
      ∀ b b', b ∈ z.items → Spec.BinOfKind s mask b → b' ∈ ys → b < b' → b ∈ ys := by
  obtain ⟨z, hz, ⟨rest, hrest⟩, _⟩ := drive_yields itemKind cs steps mask h hd
  have hs : s = run Heap.empty (cs ++ Step.calls steps) := by
    have := drive_heap nextItem (run Heap.empty cs, ⟨o, mask, 0⟩, []) steps
    rw [hd] at this
    simpa [run, List.foldl_append] using this
  have hz' := hz
  rw [hs] at hz'
  obtain ⟨r, hr, hp, hm, _⟩ := C47_coverItems (cs ++ Step.calls steps) mask hz'
  rw [coverItems_eq hz'] at hr
  rw [← hs] at hr hm
  cases hr
  rw [← hrest] at hp hm
  rw [List.pairwise_append] at hp
  refine ⟨hp.1, z, hz, fun c hc => (hm c).1 (List.mem_append_left _ hc), fun c c' h1 h2 hc' hlt => ?_⟩
  rcases List.mem_append.1 ((hm c).2 ⟨h1, h2⟩) with h3 | h3
  · exact h3
  · have := hp.2.2 c' hc' c h3; omega

/-- **C48** applies: a test record is added while the records of tests are iterated; the merge record is passed over. -/
example : ∃ s it ys, drive (nextNode 1) (run Heap.empty [.newDb, .createHistoryNode 0 0 none (some "a") none (.num 1)], ⟨0, 0, 0⟩, [])
    [.next, .call (.createHistoryNode 0 5 none (some "m") none (.num 2)), .call (.createHistoryNode 0 7 none (some "b") none (.num 1)), .next] = (s, it, ys) ∧
      (nextNode 1 it s).1 = none ∧ ys = [0, 2] := by
  refine ⟨_, _, _, rfl, ?_, ?_⟩ <;> rfl

end Store
end Verif
