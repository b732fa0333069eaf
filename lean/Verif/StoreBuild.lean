import Verif.StoreEdit
import Verif.StoreYamlReadMain
/-!
# Which contents API calls can make

The value-level model of merging, reports and file formats works on arbitrary trees.  Here: which of these trees are the
content of a database that API calls can create.
-/

namespace Verif
namespace Spec

/-- What a scope can show, by its role: database, design unit, instance, covergroup (or cover-instance), coverpoint, cross. -/
def RoleOk (k : Store.Cls) (v : Scope) : Prop :=
  match k with
  | .db => v.stype = ST.RESERVED ∧ v.name = "" ∧ v.src = SrcInfo.none ∧ v.du = none ∧ v.cps = none
  | .unit => ST.duAny v.stype = true ∧ v.du = none ∧ v.cps = none
  | .inst => v.cps = none ∧ v.items = []
  | .toggle => False
  | .covergroup => (v.stype = ST.COVERGROUP ∨ v.stype = ST.COVERINSTANCE) ∧ v.du = none ∧ v.cps = none
  | .coverpoint => v.stype = ST.COVERPOINT ∧ v.du = none ∧ v.cps = none
  | .cross => v.stype = ST.CROSS ∧ v.du = none ∧ v.cps ≠ none

/-- Which roles the children of a scope can have. -/
def MayHold (parent kid : Store.Cls) (t : Nat) : Prop :=
  match kid with
  | .inst => True
  | .covergroup => t = ST.COVERGROUP ∨ parent ≠ .inst
  | .unit | .coverpoint => parent ≠ .inst
  | .cross => parent = .covergroup
  | .db | .toggle => False

/-- The scopes of the tree can be given roles: names, weights, source locations, bins, design units and names of crossed
coverpoints are arbitrary, except that instances have no bins and no crossed coverpoints, that only instances have a design unit and only crosses
have crossed coverpoints; the types are those of the roles, and every parent may hold its children. -/
inductive Possible : Store.Cls → Scope → Prop
  | mk {k : Store.Cls} {v : Scope} (role : Nat → Store.Cls) (own : RoleOk k v)
      (holds : ∀ i c, v.children[i]? = some c → MayHold k (role i) c.stype) (kids : ∀ i c, v.children[i]? = some c → Possible (role i) c) : Possible k v

/-- No scope of the tree is a cross. -/
inductive NoCross : Scope → Prop
  | mk {v : Scope} (own : v.cps = none) (kids : ∀ c ∈ v.children, NoCross c) : NoCross v

theorem noCross_own {v : Scope} (h : NoCross v) : v.cps = none := by cases h with | mk o _ => exact o
theorem noCross_child {v c : Scope} (h : NoCross v) (hc : c ∈ v.children) : NoCross c := by cases h with | mk _ k => exact k c hc

end Spec

namespace Store
open Spec

/-! ## Growing -/

/-- The calls that are enough for everything but crosses. -/
def Basic : Call → Prop
  | .newDb | .createScope .. | .createInstance .. | .newCoverData .. | .assignData .. | .createNextCover ..
  | .setIntProperty _ _ .scopeWeight _ => True
  | _ => False

/-- Only those calls, and those that make crosses if allowed. -/
def Uses (X : Prop) (cs : List Call) : Prop :=
  ∀ c ∈ cs, Basic c ∨ X ∧ ∃ o n src w so us, c = .createCross o n src w so us

theorem uses_append {X : Prop} {a b : List Call} (ha : Uses X a) (hb : Uses X b) : Uses X (a ++ b) := by
  intro c hc
  rcases List.mem_append.1 hc with hc | hc
  · exact ha c hc
  · exact hb c hc

theorem uses_basic {X : Prop} {cs : List Call} (h : ∀ c ∈ cs, Basic c) : Uses X cs := fun c hc => .inl (h c hc)

/-- Only new objects, and `o` has more children and bins, all through API calls. -/
structure Grown (X : Prop) (s s' : Heap) (o : Nat) : Prop where
  calls : ∃ cs, RealCalls s cs ∧ Uses X cs ∧ s' = run s cs
  old : ∀ (q : Nat) x, q ≠ o → s.objs[q]? = some x → s'.objs[q]? = some x
  self : ∀ x, s.objs[o]? = some x → ∃ k i, s'.objs[o]? = some (grow k i x)
  bins : s.bins <+: s'.bins
  datas : s.datas <+: s'.datas

theorem realCalls_append {s : Heap} {a b : List Call} (ha : RealCalls s a) (hb : RealCalls (run s a) b) : RealCalls s (a ++ b) := by
  induction a generalizing s with
  | nil => exact hb
  | cons c t ih => exact ⟨ha.1, ih ha.2 hb⟩

namespace Grown

theorem refl (s : Heap) (o : Nat) : Grown X s s o :=
  ⟨⟨[], trivial, by intro c hc; simp at hc, rfl⟩, fun _ _ _ h => h, fun x h => ⟨[], [], by rw [grow_nil]; exact h⟩, List.prefix_rfl, List.prefix_rfl⟩

theorem len {s s' : Heap} {o : Nat} (g : Grown X s s' o) : s.objs.length ≤ s'.objs.length := by
  by_contra h
  have hl : s'.objs.length < s.objs.length := by omega
  by_cases ho : s'.objs.length = o
  · subst ho
    obtain ⟨k, i, h'⟩ := g.self _ (List.getElem?_eq_getElem hl)
    have := (List.getElem?_eq_some_iff.1 h').1
    omega
  · have := (List.getElem?_eq_some_iff.1 (g.old _ _ ho (List.getElem?_eq_getElem hl))).1
    omega

theorem calls_trans {s s1 s2 : Heap} {o o' : Nat} (f : Grown X s s1 o) (g : Grown X s1 s2 o') : ∃ cs, RealCalls s cs ∧ Uses X cs ∧ s2 = run s cs := by
  obtain ⟨a, ha, ua, rfl⟩ := f.calls
  obtain ⟨b, hb, ub, rfl⟩ := g.calls
  exact ⟨a ++ b, realCalls_append ha hb, uses_append ua ub, (run_append s a b).symm⟩

theorem trans {s s1 s2 : Heap} {o : Nat} (f : Grown X s s1 o) (g : Grown X s1 s2 o) : Grown X s s2 o where
  calls := calls_trans f g
  old q x hq hx := g.old q x hq (f.old q x hq hx)
  self x hx := by
    obtain ⟨k, i, h1⟩ := f.self x hx
    obtain ⟨k', i', h2⟩ := g.self _ h1
    exact ⟨k ++ k', i ++ i', by rw [h2]; simp [grow]⟩
  bins := f.bins.trans g.bins
  datas := f.datas.trans g.datas

/-- Growing below a new object. -/
theorem deep {s s1 s2 : Heap} {o c : Nat} (f : Grown X s s1 o) (g : Grown X s1 s2 c) (hc : s.objs.length ≤ c) (ho : o < s.objs.length) : Grown X s s2 o where
  calls := calls_trans f g
  old q x hq hx := g.old q x (by have := (List.getElem?_eq_some_iff.1 hx).1; omega) (f.old q x hq hx)
  self x hx := by
    obtain ⟨k, i, h1⟩ := f.self x hx
    exact ⟨k, i, g.old o _ (by omega) h1⟩
  bins := f.bins.trans g.bins
  datas := f.datas.trans g.datas

theorem at_run {cs : List Call} {s' : Heap} {o : Nat} (g : Grown X (run Heap.empty cs) s' o) : ∃ cs', s' = run Heap.empty cs' := by
  obtain ⟨a, _, _, rfl⟩ := g.calls
  exact ⟨cs ++ a, (run_append _ _ _).symm⟩

theorem same {s s' : Heap} {o : Nat} (g : Grown X s s' o) {q : Nat} (hq : q ≠ o) : SameNode s s' q := by
  intro x hx
  have look : ∀ (u : Nat) y, s.objs[u]? = some y → ∃ y', s'.objs[u]? = some y' ∧ y'.name = y.name ∧ y'.src = y.src ∧ y'.weight = y.weight := by
    intro u y hy
    by_cases hu : u = o
    · subst hu
      obtain ⟨k, i, h⟩ := g.self y hy
      exact ⟨_, h, rfl, rfl, rfl⟩
    · exact ⟨y, g.old u y hu hy, rfl, rfl, rfl⟩
  refine ⟨x, g.old q x hq hx, rfl, rfl, rfl, rfl, fun du h => ?_, fun cps h => ?_, rfl, rfl, fun b _ it h => ?_⟩
  · unfold ShowsDu at *
    cases hd : x.du with
    | none => rw [hd] at h; exact h
    | some u =>
      rw [hd] at h
      obtain ⟨hc, y, hy, rfl⟩ := h
      obtain ⟨y', hy', h1, h2, h3⟩ := look u y hy
      exact ⟨hc, y', hy', by rw [h1, h2, h3]⟩
  · unfold ShowsCps at *
    split
    · rename_i hc
      rw [if_pos hc] at h
      obtain ⟨l, hl, hf⟩ := h
      refine ⟨l, hl, forall2_imp hf (fun a _ b hab => ?_)⟩
      obtain ⟨y, hy, rfl⟩ := hab
      obtain ⟨y', hy', h1, _⟩ := look a y hy
      exact ⟨y', hy', h1⟩
    · rename_i hc
      rw [if_neg hc] at h
      exact h
  · obtain ⟨z, d, hz, hd, rfl⟩ := h
    exact ⟨z, d, getElem?_prefix g.bins hz, getElem?_prefix g.datas hd, rfl⟩

theorem showsDu {s s' : Heap} {o : Nat} (g : Grown X s s' o) {x : Obj} {du : Option DuInfo} (h : ShowsDu s x du) : ShowsDu s' x du := by
  unfold ShowsDu at *
  cases hd : x.du with
  | none => rw [hd] at h; exact h
  | some u =>
    rw [hd] at h
    obtain ⟨hc, y, hy, rfl⟩ := h
    by_cases hu : u = o
    · subst hu
      obtain ⟨k, i, h⟩ := g.self y hy
      exact ⟨hc, _, h, rfl⟩
    · exact ⟨hc, y, g.old u y hu hy, rfl⟩

theorem showsCps {s s' : Heap} {o : Nat} (g : Grown X s s' o) {x : Obj} {cps : Option (List String)} (h : ShowsCps s x cps) : ShowsCps s' x cps := by
  unfold ShowsCps at *
  split
  · rename_i hc
    rw [if_pos hc] at h
    obtain ⟨l, hl, hf⟩ := h
    refine ⟨l, hl, forall2_imp hf (fun a _ b hab => ?_)⟩
    obtain ⟨y, hy, rfl⟩ := hab
    by_cases hu : a = o
    · subst hu
      obtain ⟨k, i, h⟩ := g.self y hy
      exact ⟨_, h, rfl⟩
    · exact ⟨y, g.old a y hu hy, rfl⟩
  · rename_i hc
    rw [if_neg hc] at h
    exact h

theorem showsItem {s s' : Heap} {o : Nat} (g : Grown X s s' o) {b : Nat} {it : Item} (h : ShowsItem s b it) : ShowsItem s' b it := by
  obtain ⟨z, d, hz, hd, rfl⟩ := h
  exact ⟨z, d, getElem?_prefix g.bins hz, getElem?_prefix g.datas hd, rfl⟩

/-- A scope below a child of `o` is not `o`. -/
theorem shows {cs : List Call} {s' : Heap} {o c : Nat} {x : Obj} (g : Grown X (run Heap.empty cs) s' o) (hx : (run Heap.empty cs).objs[o]? = some x)
    (hc : c ∈ x.children) {v : Scope} (h : Shows (run Heap.empty cs) c v) : Shows s' c v := by
  obtain ⟨n, h⟩ := h
  refine ⟨n, showsIn_same (fun q hq => g.same ?_) h⟩
  have := below_le hq
  have := child_lt hx hc
  omega

end Grown

/-- A call that only makes new data, or new objects elsewhere. -/
theorem grown_new {s s' : Heap} {c : Call} {r : Except Err Ret} (o : Nat) (h : exec c s = (r, s')) (hr : RealCall s c)
    (hu : Uses X [c]) (ho : s.objs <+: s'.objs)
    (hb : s.bins <+: s'.bins) (hd : s.datas <+: s'.datas) : Grown X s s' o where
  calls := ⟨[c], ⟨hr, trivial⟩, hu, by simp [run, h]⟩
  old q x _ hx := getElem?_prefix ho hx
  self x hx := ⟨[], [], by rw [grow_nil]; exact getElem?_prefix ho hx⟩
  bins := hb
  datas := hd

theorem grown_child {s : Heap} {c : Call} {r : Except Err Ret} {o : Nat} {y : Obj} (h : exec c s = (r, s.withChild o y))
    (hr : RealCall s c) (hu : Uses X [c]) : Grown X s (s.withChild o y) o where
  calls := ⟨[c], ⟨hr, trivial⟩, hu, by simp [run, h]⟩
  old q z hq hz := by rw [withChild_get hz, if_neg (Ne.symm hq)]
  self z hz := ⟨[s.objs.length], [], by rw [withChild_get hz, if_pos rfl]; simp [grow]⟩
  bins := List.prefix_rfl
  datas := List.prefix_rfl

/-- Something on a new object. -/
theorem grown_over {s s1 s2 : Heap} {o c : Nat} (f : Grown X s s1 o) (g : Grown X s1 s2 c) (hc : s.objs.length ≤ c) (hoc : o ≠ c) : Grown X s s2 o where
  calls := f.calls_trans g
  old q x hq hx := g.old q x (by have := (List.getElem?_eq_some_iff.1 hx).1; omega) (f.old q x hq hx)
  self x hx := by
    obtain ⟨k, i, h1⟩ := f.self x hx
    exact ⟨k, i, g.old o _ hoc h1⟩
  bins := f.bins.trans g.bins
  datas := f.datas.trans g.datas

/-! ## Scopes to refer to -/

/-- A scope with a given name, source location and weight, in a database of its own. -/
theorem build_ref {s : Heap} {o : Nat} (ho : o < s.objs.length) (n : String) (src : SrcInfo) (w : Int) :
    ∃ s' u y, Grown X s s' o ∧ s'.objs[o]? = s.objs[o]? ∧ u < s'.objs.length ∧ s'.objs[u]? = some y ∧ y.name = n ∧ y.src = src ∧ y.weight = w := by
  let s1 : Heap := { s with objs := s.objs ++ [memUcis] }
  have h1 : exec .newDb s = (.ok (.scope s.objs.length), s1) := rfl
  have g1 : Grown X s s1 o := grown_new o h1 trivial (uses_basic (by simp [Basic])) ⟨_, rfl⟩ List.prefix_rfl List.prefix_rfl
  have hx : s1.objs[s.objs.length]? = some memUcis := by simp [s1]
  have h2 : exec (.createScope s.objs.length n (some src) w 1 ST.DU_MODULE 0) s1 =
      (.ok (.scope s1.objs.length), s1.withChild s.objs.length (memScope .unit (some s.objs.length) n (some src) w 1 ST.DU_MODULE 0)) := by
    show (Store.createScope s.objs.length n (some src) w 1 ST.DU_MODULE 0 >>= fun a => pure (Ret.scope a)) s1 = _
    have e := createScope_eq hx n (some src) w 1 ST.DU_MODULE 0
    have hd : ST.duAny ST.DU_MODULE = true := by decide
    simp only [memUcis, memScope, hd, if_true] at e
    rw [bind_eq_of_ok e]; rfl
  have g2 := grown_child (X := X) h2 trivial (uses_basic (by simp [Basic]))
  have g := grown_over g1 g2 (Nat.le_refl _) (by omega)
  refine ⟨_, s1.objs.length, _, g, ?_, ?_, withChild_new hx, rfl, rfl, rfl⟩
  · have hs := List.getElem?_eq_getElem ho
    rw [hs]
    exact g2.old o _ (by omega) (getElem?_prefix (m := s1.objs) ⟨_, rfl⟩ hs)
  · simp [Heap.withChild]

theorem build_names {s : Heap} {o : Nat} (ho : o < s.objs.length) (l : List String) :
    ∃ s' us, Grown X s s' o ∧ s'.objs[o]? = s.objs[o]? ∧ (∀ u ∈ us, u < s'.objs.length) ∧ List.Forall₂ (ShowsName s') us l := by
  induction l generalizing s with
  | nil => exact ⟨s, [], Grown.refl s o, rfl, by simp, .nil⟩
  | cons n t ih =>
    obtain ⟨s1, u, y, g1, e1, hu, hy, hn, _, _⟩ := build_ref (X := X) ho n SrcInfo.none 1
    obtain ⟨s2, us, g2, e2, hus, hf⟩ := ih (s := s1) (by have := g1.len; omega)
    refine ⟨s2, u :: us, g1.trans g2, e2.trans e1, ?_, .cons ?_ hf⟩
    · intro a ha
      rcases List.mem_cons.1 ha with rfl | ha
      · have := g2.len; omega
      · exact hus a ha
    · by_cases huo : u = o
      · subst huo
        exact ⟨y, e2.trans hy, hn⟩
      · exact ⟨y, g2.old u y huo hy, hn⟩

/-! ## Bins -/

theorem build_item {s : Heap} {o : Nat} {x : Obj} (hx : s.objs[o]? = some x) (h1 : x.cls ≠ .inst) (h2 : x.cls ≠ .toggle) (it : Item) :
    ∃ s' b, Grown X s s' o ∧ s'.objs[o]? = some (grow [] [b] x) ∧ ShowsItem s' b it := by
  have assign : ∀ (s1 : Heap) (l : List CData) (z : CData), s1 = { s with datas := l ++ [z] } → ∀ f v,
      exec (.assignData l.length f v) s1 = (.ok .none, { s with datas := l ++ [CData.assign f v z] }) := by
    rintro s1 l z rfl f v
    show (Store.assignData l.length f v >>= fun _ => pure Ret.none) _ = _
    have e : Store.assignData l.length f v { s with datas := l ++ [z] } = _ := assignData_eq (x := z) (by simp) f v
    rw [bind_eq_of_ok e]
    simp only [modify_last]
    rfl
  let z0 : CData := { kind := it.kind, flags := 0, count := 0, goal := 0, weight := 0, atLeast := none }
  let z1 := CData.assign .data it.count z0
  let z2 := CData.assign .goal it.goal z1
  let z3 := CData.assign .weight it.weight z2
  have c0 : exec (.newCoverData it.kind 0) s = (.ok (.data s.datas.length), { s with datas := s.datas ++ [z0] }) := rfl
  have c1 := assign _ s.datas z0 rfl .data it.count
  have c2 := assign _ s.datas z1 rfl .goal it.goal
  have c3 := assign _ s.datas z2 rfl .weight it.weight
  have fin : ∀ (cs : List Call) (z : CData), RealCalls s cs → (∀ c ∈ cs, Basic c) → run s cs = { s with datas := s.datas ++ [z] } →
      it = { name := it.name, kind := z.kind, count := z.count, atLeast := z.atLeast, goal := z.goal, weight := z.weight } →
      ∃ s' b, Grown X s s' o ∧ s'.objs[o]? = some (grow [] [b] x) ∧ ShowsItem s' b it := by
    intro cs z hr hu hrun hit
    let s4 : Heap := { s with datas := s.datas ++ [z] }
    have hc : Store.createNextCover o it.name s.datas.length none s4 = (.ok (.bin s4.bins.length), s4.withBin o ⟨it.name, s.datas.length, none⟩) :=
      createNextCover_bin (s := s4) hx (by simp [s4] : s4.datas[s.datas.length]? = some z) h1 h2 _ _
    have hex : exec (.createNextCover o it.name s.datas.length none) s4 = (.ok (.cover (.bin s4.bins.length)), s4.withBin o ⟨it.name, s.datas.length, none⟩) := by
      show (Store.createNextCover o it.name s.datas.length none >>= fun a => pure (Ret.cover a)) s4 = _
      rw [bind_eq_of_ok hc]; rfl
    have hself : ∀ x, s.objs[o]? = some x → (s4.withBin o ⟨it.name, s.datas.length, none⟩).objs[o]? = some (grow [] [s.bins.length] x) := by
      intro x hx
      simp [Heap.withBin, s4, hx, grow]
    refine ⟨s4.withBin o ⟨it.name, s.datas.length, none⟩, s.bins.length, ⟨⟨cs ++ [.createNextCover o it.name s.datas.length none],
      realCalls_append hr (show RealCalls _ [.createNextCover o it.name s.datas.length none] from ⟨trivial, trivial⟩), uses_append (uses_basic hu) (uses_basic (by simp [Basic])), ?_⟩, ?_, fun x hx => ⟨[], [s.bins.length], hself x hx⟩, ⟨_, rfl⟩, ⟨_, rfl⟩⟩, hself x hx, ?_⟩
    · rw [run_append, hrun]
      show _ = (exec _ s4).2
      rw [hex]
    · intro q y hq hy
      simp [Heap.withBin, s4, Ne.symm hq, hy]
    · exact ⟨⟨it.name, s.datas.length, none⟩, z, by simp [Heap.withBin, s4], by simp [Heap.withBin, s4], hit⟩
  cases ha : it.atLeast with
  | none =>
    refine fin [.newCoverData it.kind 0, .assignData s.datas.length .data it.count, .assignData s.datas.length .goal it.goal,
      .assignData s.datas.length .weight it.weight] z3 ⟨trivial, trivial, trivial, trivial, trivial⟩ (by simp [Basic]) ?_ ?_
    · simp only [run, List.foldl_cons, List.foldl_nil, c0, c1, c2, c3, z1, z2, z3]
    · show it = Item.mk it.name it.kind it.count none it.goal it.weight
      rw [← ha]
  | some a =>
    have c4 := assign _ s.datas z3 rfl .atLeast a
    refine fin [.newCoverData it.kind 0, .assignData s.datas.length .data it.count, .assignData s.datas.length .goal it.goal,
      .assignData s.datas.length .weight it.weight, .assignData s.datas.length .atLeast a] (CData.assign .atLeast a z3)
      ⟨trivial, trivial, trivial, trivial, trivial, trivial⟩ (by simp [Basic]) ?_ ?_
    · simp only [run, List.foldl_cons, List.foldl_nil, c0, c1, c2, c3, c4, z1, z2, z3]
    · show it = Item.mk it.name it.kind it.count (some a) it.goal it.weight
      rw [← ha]

theorem build_items {s : Heap} {o : Nat} {x : Obj} (hx : s.objs[o]? = some x) (h1 : x.cls ≠ .inst) (h2 : x.cls ≠ .toggle) (its : List Item) :
    ∃ s' bs, Grown X s s' o ∧ s'.objs[o]? = some (grow [] bs x) ∧ List.Forall₂ (ShowsItem s') bs its := by
  induction its generalizing s x with
  | nil => exact ⟨s, [], Grown.refl s o, by rw [grow_nil]; exact hx, .nil⟩
  | cons it t ih =>
    obtain ⟨s1, b, g1, hx1, hb⟩ := build_item hx h1 h2 it
    obtain ⟨s2, bs, g2, hx2, hbs⟩ := ih hx1 h1 h2
    exact ⟨s2, b :: bs, g1.trans g2, by rw [hx2]; simp [grow], .cons (g2.showsItem hb) hbs⟩

/-! ## Scopes -/

/-- A scope without children and bins that otherwise shows `v`. -/
def Bare (s : Heap) (y : Obj) (k : Cls) (v : Scope) : Prop :=
  y.cls = k ∧ y.children = [] ∧ y.items = [] ∧ v.stype = y.stype ∧ v.name = y.name ∧ v.src = y.src ∧ v.weight = y.weight ∧
  ShowsDu s y v.du ∧ ShowsCps s y v.cps

theorem build_bare {s : Heap} {o : Nat} {x : Obj} (hx : s.objs[o]? = some x) {k' : Cls} {v : Scope} (hm : MayHold x.cls k' v.stype)
    (ht : x.cls ≠ .toggle) (hr : RoleOk k' v) (hX : X ∨ v.cps = none) :
    ∃ s' kid y, Grown X s s' o ∧ s'.objs[o]? = some (grow [kid] [] x) ∧ s.objs.length ≤ kid ∧ s'.objs[kid]? = some y ∧ Bare s' y k' v := by
  have hol := (List.getElem?_eq_some_iff.1 hx).1
  have fin : ∀ (s1 : Heap) (c : Call) (y : Obj), Grown X s s1 o → s1.objs[o]? = some x → RealCall s1 c → Uses X [c] →
      exec c s1 = (.ok (.scope s1.objs.length), s1.withChild o y) → Bare s1 y k' v →
      ∃ s' kid y, Grown X s s' o ∧ s'.objs[o]? = some (grow [kid] [] x) ∧ s.objs.length ≤ kid ∧ s'.objs[kid]? = some y ∧ Bare s' y k' v := by
    intro s1 c y g hx1 hrc hu he hb
    have g2 := grown_child (X := X) he hrc hu
    obtain ⟨b1, b2, b3, b4, b5, b6, b7, b8, b9⟩ := hb
    refine ⟨_, s1.objs.length, y, g.trans g2, ?_, g.len, withChild_new hx1, b1, b2, b3, b4, b5, b6, b7, g2.showsDu b8, g2.showsCps b9⟩
    rw [withChild_get hx1, if_pos rfl]
    simp [grow]
  have plain : ∀ (y : Obj), y.cls = k' → y.children = [] → y.items = [] → v.stype = y.stype → v.name = y.name → v.src = y.src → v.weight = y.weight →
      y.du = none → y.cls ≠ .cross → v.du = none → v.cps = none → Bare s y k' v := by
    intro y h1 h2 h3 h4 h5 h6 h7 h8 h9 h10 h11
    exact ⟨h1, h2, h3, h4, h5, h6, h7, by simp [ShowsDu, h8, h10], by simp [ShowsCps, h9, h11]⟩
  have scope : ∀ (t : Nat) (y : Obj), createScope o v.name (some v.src) v.weight 1 t 0 s = (.ok s.objs.length, s.withChild o y) →
      exec (.createScope o v.name (some v.src) v.weight 1 t 0) s = (.ok (.scope s.objs.length), s.withChild o y) := by
    intro t y h
    show (Store.createScope o v.name (some v.src) v.weight 1 t 0 >>= fun a => pure (Ret.scope a)) s = _
    rw [bind_eq_of_ok h]; rfl
  have eq : x.cls ≠ .inst → ∀ t, createScope o v.name (some v.src) v.weight 1 t 0 s =
      (if ST.duAny t then (.ok s.objs.length, s.withChild o (memScope .unit (some o) v.name (some v.src) v.weight 1 t 0))
        else if t = ST.COVERGROUP then (.ok s.objs.length, s.withChild o (memCovergroup o v.name (some v.src) v.weight 1))
        else if t = ST.COVERINSTANCE then
          (.ok s.objs.length, s.withChild o { memCovergroup o v.name (some v.src) v.weight 1 with stype := ST.COVERINSTANCE })
        else if t = ST.COVERPOINT then (.ok s.objs.length, s.withChild o (memCoverpoint o v.name (some v.src) v.weight 1))
        else (.error .notImplemented, s)) := by
    intro hi t
    rw [createScope_eq hx]
    cases hc : x.cls <;> first | rfl | exact absurd hc hi | exact absurd hc ht
  cases k' with
  | db => exact hm.elim
  | toggle => exact hm.elim
  | unit =>
    obtain ⟨h1, h2, h3⟩ := hr
    refine fin s (.createScope o v.name (some v.src) v.weight 1 v.stype 0) _ (Grown.refl s o) hx trivial (uses_basic (by simp [Basic]))
      (scope v.stype (memScope .unit (some o) v.name (some v.src) v.weight 1 v.stype 0) ?_) (plain _ rfl rfl rfl rfl rfl rfl rfl rfl (by simp [memScope]) h2 h3)
    rw [eq hm, if_pos h1]
  | coverpoint =>
    obtain ⟨h1, h2, h3⟩ := hr
    refine fin s (.createScope o v.name (some v.src) v.weight 1 ST.COVERPOINT 0) _ (Grown.refl s o) hx trivial (uses_basic (by simp [Basic]))
      (scope ST.COVERPOINT (memCoverpoint o v.name (some v.src) v.weight 1) ?_)
      (plain _ rfl rfl rfl h1 rfl rfl rfl rfl (by simp [memCoverpoint, memCvg, memScope]) h2 h3)
    rw [eq hm]; rfl
  | covergroup =>
    obtain ⟨h1, h2, h3⟩ := hr
    by_cases ht' : v.stype = ST.COVERGROUP
    · refine fin s (.createScope o v.name (some v.src) v.weight 1 ST.COVERGROUP 0) _ (Grown.refl s o) hx trivial (uses_basic (by simp [Basic]))
        (scope ST.COVERGROUP (memCovergroup o v.name (some v.src) v.weight 1) ?_)
        (plain _ rfl rfl rfl ht' rfl rfl rfl rfl (by simp [memCovergroup, memCvg, memScope]) h2 h3)
      by_cases hi : x.cls = .inst
      · rw [createScope_eq hx, hi]
        exact if_pos (by decide)
      · rw [eq hi]; rfl
    · have ht2 : v.stype = ST.COVERINSTANCE := h1.resolve_left ht'
      refine fin s (.createScope o v.name (some v.src) v.weight 1 ST.COVERINSTANCE 0) _ (Grown.refl s o) hx trivial (uses_basic (by simp [Basic]))
        (scope ST.COVERINSTANCE { memCovergroup o v.name (some v.src) v.weight 1 with stype := ST.COVERINSTANCE } ?_)
        (plain { memCovergroup o v.name (some v.src) v.weight 1 with stype := ST.COVERINSTANCE } rfl rfl rfl ht2 rfl rfl rfl rfl
          (by simp [memCovergroup, memCvg, memScope]) h2 h3)
      rw [eq (hm.resolve_left ht')]; rfl
  | inst =>
    obtain ⟨h3, _⟩ := hr
    have inst : ∀ (s1 : Heap) (du : Option Nat), s1.objs[o]? = some x →
        exec (.createInstance o v.name (some v.src) v.weight 1 v.stype du 0) s1 =
          (.ok (.scope s1.objs.length), s1.withChild o (memInstance o v.name (some v.src) v.weight 1 v.stype du 0)) := by
      intro s1 du hx1
      show (Store.createInstance o v.name (some v.src) v.weight 1 v.stype du 0 >>= fun a => pure (Ret.scope a)) s1 = _
      have e : Store.createInstance o v.name (some v.src) v.weight 1 v.stype du 0 s1 = _ := bind_eq_of_ok (obj_some hx1)
      rw [attach_eq] at e
      rw [bind_eq_of_ok e]; rfl
    cases hd : v.du with
    | none =>
      exact fin s (.createInstance o v.name (some v.src) v.weight 1 v.stype none 0) _ (Grown.refl s o) hx (by intro u hu; cases hu) (uses_basic (by simp [Basic])) (inst s none hx)
        (plain _ rfl rfl rfl rfl rfl rfl rfl rfl (by simp [memInstance, memScope]) hd h3)
    | some di =>
      obtain ⟨s1, u, y, g, e, hu, hy, h1, h2, h4⟩ := build_ref hol di.name di.src di.weight
      rw [hx] at e
      refine fin s1 (.createInstance o v.name (some v.src) v.weight 1 v.stype (some u) 0) _ g e (by intro u' hu'; cases hu'; exact hu) (uses_basic (by simp [Basic])) (inst s1 (some u) e)
        ⟨rfl, rfl, rfl, rfl, rfl, rfl, rfl, ?_, by simp [ShowsCps, memInstance, memScope, h3]⟩
      exact ⟨.inl rfl, y, hy, by rw [hd, h1, h2, h4]⟩
  | cross =>
    obtain ⟨h1, h2, h3⟩ := hr
    obtain ⟨l, hl⟩ := Option.ne_none_iff_exists'.1 h3
    obtain ⟨s1, us, g, e, hus, hf⟩ := build_names hol l
    rw [hx] at e
    refine fin s1 (.createCross o v.name (some v.src) v.weight 1 us) (memCross o v.name (some v.src) v.weight 1 us) g e hus ?_ ?_
      ⟨rfl, rfl, rfl, h1, rfl, rfl, rfl, h2, ?_⟩
    · intro c hc
      obtain rfl := List.mem_singleton.1 hc
      exact .inr ⟨hX.resolve_right h3, _, _, _, _, _, _, rfl⟩
    · show (Store.createCross o v.name (some v.src) v.weight 1 us >>= fun a => pure (Ret.scope a)) s1 = _
      have e' : Store.createCross o v.name (some v.src) v.weight 1 us s1 = _ := bind_eq_of_ok (obj_some e)
      rw [show x.cls = .covergroup from hm] at e'
      simp only [attach_eq] at e'
      rw [bind_eq_of_ok e']; rfl
    · exact (if_pos rfl : ShowsCps s1 (memCross o v.name (some v.src) v.weight 1 us) _ = _).mpr ⟨l, hl, hf⟩

/-- Everything possible can be built below a bare scope. -/
theorem build {X : Prop} {k : Cls} {v : Scope} (hp : Possible k v) (hX : X ∨ NoCross v) : ∀ (cs : List Call) (o : Nat) (x : Obj), (run Heap.empty cs).objs[o]? = some x →
    Bare (run Heap.empty cs) x k v → ∃ s', Grown X (run Heap.empty cs) s' o ∧ Shows s' o v := by
  induction hp with
  | @mk k v role own holds kids ih =>
    intro cs o x hx hb
    have hown' : ∀ c ∈ v.children, X ∨ NoCross c := fun c hc => hX.imp id (noCross_child · hc)
    obtain ⟨b1, b2, b3, b4, b5, b6, b7, b8, b9⟩ := hb
    have htog : x.cls ≠ .toggle := by
      intro h
      rw [← b1, h] at own
      exact own
    -- bins
    have hits : ∃ s1 bs, Grown X (run Heap.empty cs) s1 o ∧ s1.objs[o]? = some (grow [] bs x) ∧ List.Forall₂ (ShowsItem s1) bs v.items := by
      by_cases hi : x.cls = .inst
      · refine ⟨_, [], Grown.refl _ o, by rw [grow_nil]; exact hx, ?_⟩
        have : v.items = [] := by
          rw [← b1, hi] at own
          exact own.2
        rw [this]; exact .nil
      · exact build_items hx hi htog v.items
    obtain ⟨s1, bs, g1, hx1, hbs⟩ := hits
    -- children
    have hkids : ∀ (n : Nat), n ≤ v.children.length → ∃ s2 ks, Grown X (run Heap.empty cs) s2 o ∧ s2.objs[o]? = some (grow ks bs x) ∧
        List.Forall₂ (ShowsItem s2) bs v.items ∧ List.Forall₂ (Shows s2) ks (v.children.take n) := by
      intro n
      induction n with
      | zero => exact fun _ => ⟨s1, [], g1, hx1, hbs, by simp⟩
      | succ n ihn =>
        intro hn
        obtain ⟨s2, ks, g2, hx2, hbs2, hks⟩ := ihn (by omega)
        have hc : v.children[n]? = some v.children[n] := List.getElem?_eq_getElem (by omega)
        obtain ⟨cs2, rfl⟩ := g2.at_run
        have hown : RoleOk (role n) v.children[n] := by
          cases kids n _ hc with
          | mk r o h k => exact o
        obtain ⟨s3, kid, y, g3, hx3, hkid, hy, hbare⟩ := build_bare hx2 (by rw [show (grow ks bs x).cls = k from b1]; exact holds n _ hc) htog hown
          ((hown' _ (List.getElem_mem _)).imp id noCross_own)
        obtain ⟨cs3, rfl⟩ := g3.at_run
        obtain ⟨s4, g4, hs4⟩ := ih n _ hc (hown' _ (List.getElem_mem _)) cs3 kid y hy hbare
        have hok : o < (run Heap.empty cs2).objs.length := (List.getElem?_eq_some_iff.1 hx2).1
        have g34 := g3.deep g4 hkid hok
        refine ⟨s4, ks ++ [kid], g2.trans g34, ?_, forall2_imp hbs2 (fun a _ b h => g34.showsItem h), ?_⟩
        · rw [g4.old o _ (by omega) hx3]; simp [grow]
        · rw [List.take_add_one, hc]
          refine forall2_snoc (forall2_imp hks (fun a ha b h => g34.shows hx2 ?_ h)) hs4
          simp [grow, ha]
    obtain ⟨s2, ks, g2, hx2, hbs2, hks⟩ := hkids _ (Nat.le_refl _)
    rw [List.take_length] at hks
    obtain ⟨n, hn⟩ := showsIn_list (P := fun _ => True) (s := s2) hks
    refine ⟨s2, g2, n + 1, trivial, _, hx2, b4, b5, b6, b7, g2.showsDu (x := x) b8, g2.showsCps (x := x) b9, ?_, ?_⟩
    · simpa [grow, b2] using hn
    · simpa [grow, b3] using hbs2

/-! ## Nothing else -/

/-- Toggles are instances. -/
def roleOf : Cls → Cls
  | .toggle => .inst
  | k => k

/-- What an object can be, by its class. -/
def KindOk (x : Obj) : Prop :=
  match x.cls with
  | .db => x.stype = ST.RESERVED ∧ x.name = "" ∧ x.src = SrcInfo.none
  | .unit => ST.duAny x.stype = true
  | .inst | .toggle => True
  | .covergroup => x.stype = ST.COVERGROUP ∨ x.stype = ST.COVERINSTANCE
  | .coverpoint => x.stype = ST.COVERPOINT
  | .cross => x.stype = ST.CROSS

/-- Every object is what its class allows, and its parent may hold it. -/
def Roles (s : Heap) : Prop :=
  ∀ (q : Nat) y, s.objs[q]? = some y → KindOk y ∧
    ∀ p, y.parent = some p → ∃ z, s.objs[p]? = some z ∧ MayHold (roleOf z.cls) (roleOf y.cls) y.stype

theorem KindOk.kept {x y : Obj} (k : Kept x y) (h : KindOk x) : KindOk y := by
  unfold KindOk at h ⊢
  rw [k.cls, k.stype, k.name, k.src]
  exact h

theorem roles_quiet {s s' : Heap} (q : Quiet s s') (h : Roles s) : Roles s' := by
  intro o y hy
  have hl : s'.objs.length = s.objs.length := by
    have := congrArg List.length q.shapes
    simpa using this
  have ho : o < s.objs.length := hl ▸ (List.getElem?_eq_some_iff.1 hy).1
  obtain ⟨y', hy', k⟩ := q.evolves.objs o _ (List.getElem?_eq_getElem ho)
  rw [hy] at hy'
  cases hy'
  obtain ⟨h1, h2⟩ := h o _ (List.getElem?_eq_getElem ho)
  refine ⟨h1.kept k, fun p hp => ?_⟩
  obtain ⟨z, hz, hm⟩ := h2 p (k.parent ▸ hp)
  obtain ⟨z', hz', k'⟩ := q.evolves.objs p z hz
  exact ⟨z', hz', by rw [k'.cls, k.cls, k.stype]; exact hm⟩

/-- What a creation call does, as far as classes are concerned. -/
def Holds (s : Heap) (o : Nat) (p : Except Err Nat × Heap) : Prop :=
  p.2 = s ∨ ∃ x y, s.objs[o]? = some x ∧ KindOk y ∧ y.parent = some o ∧ MayHold (roleOf x.cls) (roleOf y.cls) y.stype ∧ p.2 = s.withChild o y

theorem Holds.roles {s : Heap} {o : Nat} {p : Except Err Nat × Heap} (h : Holds s o p) (hs : Roles s) : Roles p.2 := by
  rcases h with h | ⟨x, y, hx, hk, hp, hm, h⟩
  · rw [h]; exact hs
  · rw [h]
    have old := (withChild_evolves s o y).objs
    intro q z hz
    by_cases hq : q < s.objs.length
    · obtain ⟨z', hz', k⟩ := old q _ (List.getElem?_eq_getElem hq)
      rw [hz] at hz'; cases hz'
      obtain ⟨h1, h2⟩ := hs q _ (List.getElem?_eq_getElem hq)
      refine ⟨h1.kept k, fun p hp => ?_⟩
      obtain ⟨z', hz', hm⟩ := h2 p (k.parent ▸ hp)
      obtain ⟨z'', hz'', k'⟩ := old p z' hz'
      exact ⟨z'', hz'', by rw [k'.cls, k.cls, k.stype]; exact hm⟩
    · have hlt := (List.getElem?_eq_some_iff.1 hz).1
      rw [withChild_len] at hlt
      obtain rfl : q = s.objs.length := by omega
      rw [withChild_new hx] at hz; cases hz
      refine ⟨hk, fun p' hp' => ?_⟩
      rw [hp] at hp'; cases hp'
      obtain ⟨z', hz', k⟩ := old o x hx
      exact ⟨z', hz', by rw [k.cls]; exact hm⟩

theorem holds_ok {s : Heap} {o : Nat} {p : Except Err Nat × Heap} {x y : Obj} {r : Except Err Nat} (hx : s.objs[o]? = some x)
    (h : p = (r, s.withChild o y)) (hk : KindOk y) (hp : y.parent = some o) (hm : MayHold (roleOf x.cls) (roleOf y.cls) y.stype) :
    Holds s o p := .inr ⟨x, y, hx, hk, hp, hm, by rw [h]⟩

theorem holds_none {s : Heap} {o : Nat} {p : Except Err Nat × Heap} {r : Except Err Nat} (h : p = (r, s)) : Holds s o p := .inl (by rw [h])

theorem createScope_holds (o : Nat) (n : String) (src : Option SrcInfo) (w so : Int) (t : Nat) (f : Int) (s : Heap) :
    Holds s o (createScope o n src w so t f s) := by
  rcases obj_cases s o with ⟨x, hx, ho⟩ | ⟨hx, ho⟩
  · rw [createScope_eq hx n src w so t f]
    have other : roleOf x.cls ≠ .inst → Holds s o
        (if ST.duAny t then (.ok s.objs.length, s.withChild o (memScope .unit (some o) n src w so t f))
        else if t = ST.COVERGROUP then (.ok s.objs.length, s.withChild o (memCovergroup o n src w so))
        else if t = ST.COVERINSTANCE then
          (.ok s.objs.length, s.withChild o { memCovergroup o n src w so with stype := ST.COVERINSTANCE })
        else if t = ST.COVERPOINT then (.ok s.objs.length, s.withChild o (memCoverpoint o n src w so))
        else (.error .notImplemented, s)) := by
      intro hi
      by_cases h1 : ST.duAny t = true
      · rw [if_pos h1]; exact holds_ok hx rfl h1 rfl hi
      rw [if_neg h1]
      by_cases h2 : t = ST.COVERGROUP
      · rw [if_pos h2]; exact holds_ok hx rfl (.inl rfl) rfl (.inl rfl)
      rw [if_neg h2]
      by_cases h3 : t = ST.COVERINSTANCE
      · rw [if_pos h3]; exact holds_ok hx rfl (.inr rfl) rfl (.inr hi)
      rw [if_neg h3]
      by_cases h4 : t = ST.COVERPOINT
      · rw [if_pos h4]; exact holds_ok hx rfl rfl rfl hi
      rw [if_neg h4]
      exact holds_none rfl
    have inst : Holds s o (if maskHit t ST.COVERGROUP then (.ok s.objs.length, s.withChild o (memCovergroup o n src w so)) else (.error .unimpl, s)) := by
      by_cases h : maskHit t ST.COVERGROUP = true
      · rw [if_pos h]; exact holds_ok hx rfl (.inl rfl) rfl (.inl rfl)
      · rw [if_neg h]; exact holds_none rfl
    cases hc : x.cls <;> first | exact inst | exact other (by rw [hc]; decide)
  · exact holds_none (bind_eq_of_error ho)

theorem roles_exec {c : Call} {s : Heap} (h : Roles s) : Roles (exec c s).2 := by
  have lift : ∀ {act : M Nat} {o : Nat}, Holds s o (act s) → exec c = (do return .scope (← act)) → Roles (exec c s).2 := by
    intro act o ha hex
    have := ha.roles h
    rw [hex, snd_bind_pure]
    exact this
  cases hcr : c.creates with
  | none =>
    by_cases hn : c = .newDb
    · subst hn
      have ho : (exec .newDb s).2.objs = s.objs ++ [memUcis] := rfl
      intro q z hz
      rw [ho] at hz ⊢
      rw [List.getElem?_append] at hz
      split at hz
      · obtain ⟨h1, h2⟩ := h q z hz
        refine ⟨h1, fun p hp => ?_⟩
        obtain ⟨z, hz, hm⟩ := h2 p hp
        exact ⟨z, by rw [List.getElem?_append_left (List.getElem?_eq_some_iff.1 hz).1]; exact hz, hm⟩
      · rw [List.getElem?_cons] at hz
        split at hz
        · cases hz
          exact ⟨⟨rfl, rfl, rfl⟩, by intro p hp; cases hp⟩
        · simp at hz
    · exact roles_quiet (exec_quiet hcr hn s) h
  | some on =>
    cases c with
    | createScope o n src w so t f => exact lift (createScope_holds o n src w so t f s) rfl
    | createInstance o n src w so t du f =>
      refine lift (o := o) ?_ rfl
      rcases obj_cases s o with ⟨x, hx, ho⟩ | ⟨hx, ho⟩
      · exact holds_ok hx (bind_eq_of_ok ho) trivial rfl trivial
      · exact holds_none (bind_eq_of_error ho)
    | createCovergroup o n src w so =>
      refine lift (o := o) ?_ rfl
      rcases obj_cases s o with ⟨x, hx, ho⟩ | ⟨hx, ho⟩
      · exact holds_ok hx (bind_eq_of_ok ho) (.inl rfl) rfl (.inl rfl)
      · exact holds_none (bind_eq_of_error ho)
    | createToggle o n f =>
      refine lift (o := o) ?_ rfl
      rcases obj_cases s o with ⟨x, hx, ho⟩ | ⟨hx, ho⟩
      · have h : createToggle o n f s = _ := bind_eq_of_ok ho
        cases hc : x.cls <;> rw [hc] at h <;>
          first | exact holds_none h | exact holds_ok hx h trivial rfl trivial
      · exact holds_none (bind_eq_of_error ho)
    | createCoverpoint o n src w so =>
      refine lift (o := o) ?_ rfl
      rcases obj_cases s o with ⟨x, hx, ho⟩ | ⟨hx, ho⟩
      · have h : createCoverpoint o n src w so s = _ := bind_eq_of_ok ho
        cases hc : x.cls <;> rw [hc] at h <;>
          first | exact holds_none h | exact holds_ok hx h rfl rfl (by rw [hc]; intro e; cases e)
      · exact holds_none (bind_eq_of_error ho)
    | createCross o n src w so cps =>
      refine lift (o := o) ?_ rfl
      rcases obj_cases s o with ⟨x, hx, ho⟩ | ⟨hx, ho⟩
      · have h : createCross o n src w so cps s = _ := bind_eq_of_ok ho
        cases hc : x.cls <;> rw [hc] at h <;>
          first | exact holds_none h | exact holds_ok hx h rfl rfl (by rw [hc]; rfl)
      · exact holds_none (bind_eq_of_error ho)
    | createCoverInstance o n src w so =>
      refine lift (o := o) ?_ rfl
      rcases obj_cases s o with ⟨x, hx, ho⟩ | ⟨hx, ho⟩
      · have h : createCoverInstance o n src w so s = _ := bind_eq_of_ok ho
        cases hc : x.cls <;> rw [hc] at h <;> try exact holds_none h
        have := createScope_holds o n src w so ST.COVERINSTANCE 0 s
        unfold Holds at this ⊢
        rwa [h]
      · exact holds_none (bind_eq_of_error ho)
    | _ => cases hcr

theorem run_roles (cs : List Call) : Roles (run Heap.empty cs) := by
  suffices ∀ s, Roles s → Roles (run s cs) from this _ (by intro o x hx; simp [Heap.empty] at hx)
  induction cs with
  | nil => exact fun s h => h
  | cons c t ih => exact fun s h => ih _ (roles_exec h)

theorem shows_possible {cs : List Call} {n : Nat} : ∀ {o : Nat} {x : Obj} {v : Scope}, (run Heap.empty cs).objs[o]? = some x →
    ShowsIn (fun _ => True) (run Heap.empty cs) n o v → Possible (roleOf x.cls) v := by
  induction n with
  | zero => exact fun _ h => h.elim
  | succ n ih =>
    intro o x v hx h
    obtain ⟨_, x', hx', h1, h2, h3, h4, h5, h6, h7, h8⟩ := h
    rw [hx] at hx'; cases hx'
    have hk := (run_roles cs o x hx).1
    have hkid : ∀ (i : Nat) c, v.children[i]? = some c → ∃ k y, x.children[i]? = some k ∧ (run Heap.empty cs).objs[k]? = some y ∧
        ShowsIn (fun _ => True) (run Heap.empty cs) n k c ∧ y.parent = some o := by
      intro i c hc
      obtain ⟨hlen, hget⟩ := List.forall₂_iff_get.1 h7
      have hi : i < v.children.length := (List.getElem?_eq_some_iff.1 hc).1
      have hs := hget i (by omega) hi
      have hc' : v.children.get ⟨i, hi⟩ = c := (List.getElem?_eq_some_iff.1 hc).2
      rw [hc'] at hs
      have hmem := (tree_facts cs hx).2.1
      have hm := (hmem (x.children.get ⟨i, by omega⟩)).1 (List.get_mem _ _)
      obtain ⟨y, hy, hp⟩ := hm
      exact ⟨_, y, List.getElem?_eq_getElem (by omega), hy, hs, hp⟩
    refine .mk (fun i => match x.children[i]? with
      | some k => (match (run Heap.empty cs).objs[k]? with
        | some y => roleOf y.cls
        | none => .db)
      | none => .db) ?_ ?_ ?_
    · have du : x.cls ≠ .inst → x.cls ≠ .toggle → v.du = none := by
        intro n1 n2
        unfold ShowsDu at h5
        cases hd : x.du with
        | none => rw [hd] at h5; exact h5
        | some u => rw [hd] at h5; exact (h5.1.elim n1 n2).elim
      have cps : x.cls ≠ .cross → v.cps = none := by
        intro n1
        unfold ShowsCps at h6
        rwa [if_neg n1] at h6
      have noitems : x.cls = .inst ∨ x.cls = .toggle → v.items = [] := by
        intro hi
        rw [(run_items cs).inst o x hx hi] at h8
        exact List.forall₂_nil_left_iff.1 h8
      unfold KindOk at hk
      cases hc : x.cls <;> rw [hc] at hk du cps noitems <;> simp only [roleOf, RoleOk]
      · exact ⟨h1.trans hk.1, h2.trans hk.2.1, h3.trans hk.2.2, du (by simp) (by simp), cps (by simp)⟩
      · exact ⟨h1 ▸ hk, du (by simp) (by simp), cps (by simp)⟩
      · exact ⟨cps (by simp), noitems (.inl rfl)⟩
      · exact ⟨cps (by simp), noitems (.inr rfl)⟩
      · exact ⟨h1 ▸ hk, du (by simp) (by simp), cps (by simp)⟩
      · exact ⟨h1.trans hk, du (by simp) (by simp), cps (by simp)⟩
      · refine ⟨h1.trans hk, du (by simp) (by simp), ?_⟩
        unfold ShowsCps at h6
        rw [if_pos hc] at h6
        obtain ⟨l, hl, _⟩ := h6
        rw [hl]; simp
    · intro i c hc
      obtain ⟨k, y, hk1, hk2, hs, hp⟩ := hkid i c hc
      simp only [hk1, hk2]
      obtain ⟨z, hz, hm⟩ := (run_roles cs k y hk2).2 o hp
      rw [hx] at hz; cases hz
      obtain ⟨_, hst⟩ : True ∧ c.stype = y.stype := by
        cases n with
        | zero => exact hs.elim
        | succ n =>
          obtain ⟨_, y', hy', e, _⟩ := hs
          rw [hk2] at hy'; cases hy'
          exact ⟨trivial, e⟩
      rw [hst]; exact hm
    · intro i c hc
      obtain ⟨k, y, hk1, hk2, hs, hp⟩ := hkid i c hc
      simp only [hk1, hk2]
      exact ih hk2 hs

/-- **C106.** The contents of the databases that API calls create are exactly the possible trees. -/
theorem C106_exact (v : Scope) :
    (∃ cs d x, RealCalls Heap.empty cs ∧ (run Heap.empty cs).objs[d]? = some x ∧ x.cls = .db ∧ Shows (run Heap.empty cs) d v) ↔
      Possible .db v := by
  constructor
  · rintro ⟨cs, d, x, _, hx, hc, n, hs⟩
    have := shows_possible hx hs
    rwa [hc] at this
  · intro hp
    have hx : (run Heap.empty [.newDb, .setIntProperty 0 (-1) .scopeWeight v.weight]).objs[0]? = some { memUcis with weight := v.weight } := rfl
    obtain ⟨h1, h2, h3, h4, h5⟩ : RoleOk .db v := by cases hp with | mk r o h k => exact o
    obtain ⟨s', g, hs⟩ := build (X := True) hp (.inl trivial) _ 0 _ hx ⟨rfl, rfl, rfl, h1, h2, h3, rfl, h4, h5⟩
    obtain ⟨y, i, hy⟩ := g.self _ hx
    obtain ⟨cs2, hr, _, rfl⟩ := g.calls
    refine ⟨[.newDb, .setIntProperty 0 (-1) .scopeWeight v.weight] ++ cs2, 0, grow y i { memUcis with weight := v.weight }, realCalls_append (a := [.newDb, .setIntProperty 0 (-1) .scopeWeight v.weight]) ⟨trivial, trivial, trivial⟩ hr, ?_, ?_, ?_⟩
    · rw [run_append]; exact hy
    · rfl
    · rw [run_append]; exact hs

/-- **C106.** Any list of possible databases can be held in one program. -/
theorem C106_together {vs : List Scope} (h : ∀ v ∈ vs, Possible .db v) :
    ∃ cs os, RealCalls Heap.empty cs ∧ List.Forall₂ (Shows (run Heap.empty cs)) os vs ∧
      ∀ o ∈ os, ∃ x, (run Heap.empty cs).objs[o]? = some x ∧ x.cls = .db := by
  induction vs using List.reverseRecOn with
  | nil => exact ⟨[], [], trivial, .nil, by simp⟩
  | append_singleton t v ih =>
    obtain ⟨cs, os, hr, hf, hd⟩ := ih (fun u hu => h u (by simp [hu]))
    have hp := h v (by simp)
    let D := (run Heap.empty cs).objs.length
    let s1 := run (run Heap.empty cs) [.newDb, .setIntProperty D (-1) .scopeWeight v.weight]
    have e1 : s1 = run Heap.empty (cs ++ [.newDb, .setIntProperty D (-1) .scopeWeight v.weight]) := (run_append _ _ _).symm
    have hs1 : s1 = { run Heap.empty cs with objs := (run Heap.empty cs).objs ++ [{ memUcis with weight := v.weight }] } := by
      have h1 : (exec .newDb (run Heap.empty cs)).2 = { run Heap.empty cs with objs := (run Heap.empty cs).objs ++ [memUcis] } := rfl
      have hx0 : ((run Heap.empty cs).objs ++ [memUcis])[D]? = some memUcis := by simp [D]
      show (exec (.setIntProperty D (-1) .scopeWeight v.weight) (exec .newDb (run Heap.empty cs)).2).2 = _
      rw [h1]
      have h2 : Store.setIntProperty D (-1) .scopeWeight v.weight { run Heap.empty cs with objs := (run Heap.empty cs).objs ++ [memUcis] } =
          (.ok (), { run Heap.empty cs with objs := ((run Heap.empty cs).objs ++ [memUcis]).modify D (fun _ => { memUcis with weight := v.weight }) }) :=
        bind_eq_of_ok (obj_some hx0)
      show ((Store.setIntProperty D (-1) .scopeWeight v.weight >>= fun _ => pure Ret.none) _).2 = _
      rw [bind_eq_of_ok h2, modify_eq_set hx0]
      simp [pure_def, D]
    have hx : s1.objs[D]? = some { memUcis with weight := v.weight } := by rw [hs1]; simp [D]
    have hr1 : RealCalls Heap.empty (cs ++ [.newDb, .setIntProperty D (-1) .scopeWeight v.weight]) := realCalls_append hr ⟨trivial, trivial, trivial⟩
    obtain ⟨h1, h2, h3, h4, h5⟩ : RoleOk .db v := by cases hp with | mk r o h k => exact o
    obtain ⟨s', g, hs⟩ := build (X := True) hp (.inl trivial) (cs ++ [.newDb, .setIntProperty D (-1) .scopeWeight v.weight]) D { memUcis with weight := v.weight } (e1 ▸ hx) ⟨rfl, rfl, rfl, h1, h2, h3, rfl, h4, h5⟩
    obtain ⟨cs2, hr2, _, hc2⟩ := g.calls
    have g0 : Grown True (run Heap.empty cs) s1 D :=
      { calls := ⟨[.newDb, .setIntProperty D (-1) .scopeWeight v.weight], ⟨trivial, trivial, trivial⟩, uses_basic (by simp [Basic]), rfl⟩
        old := fun q x _ hq => by
          rw [hs1]; exact getElem?_prefix (m := (run Heap.empty cs).objs ++ [_]) ⟨_, rfl⟩ hq
        self := fun x hq => absurd (List.getElem?_eq_some_iff.1 hq).1 (by simp [D])
        bins := by rw [hs1]
        datas := by rw [hs1] }
    have g1 : Grown True (run Heap.empty cs) s' D := g0.trans (e1 ▸ g)
    refine ⟨cs ++ [.newDb, .setIntProperty D (-1) .scopeWeight v.weight] ++ cs2, os ++ [D], realCalls_append hr1 hr2, ?_, ?_⟩
    · rw [run_append, ← hc2]
      refine forall2_snoc (forall2_imp hf (fun o ho u hu => ?_)) hs
      obtain ⟨n, hu⟩ := hu
      refine ⟨n, showsIn_same (fun q hq x hx => g1.same ?_ x hx) hu⟩
      have := (List.getElem?_eq_some_iff.1 hx).1
      show q ≠ D
      omega
    · rw [run_append, ← hc2]
      intro o ho
      rcases List.mem_append.1 ho with ho | ho
      · obtain ⟨x, hx, hc⟩ := hd o ho
        have := (List.getElem?_eq_some_iff.1 hx).1
        exact ⟨x, g1.old o x (by show o ≠ D; omega) hx, hc⟩
      · obtain rfl := List.mem_singleton.1 ho
        obtain ⟨k, i, hk⟩ := g.self _ (e1 ▸ hx)
        exact ⟨_, hk, rfl⟩

/-- **C106.** What the merger makes of possible databases is possible. -/
theorem C106_merge {v w : Scope} {vs : List Scope} (hv : Possible .db v) (hvs : ∀ u ∈ vs, Possible .db u) (h : Merge.merge v vs = .ok w) : Possible .db w := by
  obtain ⟨cs, os, hr, hf, hd⟩ := C106_together (vs := v :: vs) (by
    intro u hu
    rcases List.mem_cons.1 hu with rfl | hu
    · exact hv
    · exact hvs u hu)
  cases hf with
  | @cons d _ srcs _ hd' hf =>
    obtain ⟨x, hx, hc⟩ := hd d (by simp)
    obtain ⟨r, s', hm⟩ : ∃ r s', DbMerger.merge d srcs (run Heap.empty cs) = (r, s') := ⟨_, _, rfl⟩
    obtain ⟨n, hw⟩ := ((C84_refines hx hc hd' hf hm).2 w h).2
    obtain ⟨k, i, f⟩ := merge_frame hx hc hf hm
    obtain ⟨cs', hcs'⟩ := f.calls
    obtain rfl : s' = run Heap.empty (cs ++ cs') := by rw [run_append]; exact hcs'
    have hx' := f.old d x hx
    rw [if_pos rfl] at hx'
    have := shows_possible hx' hw
    rwa [show (grow k i x).cls = .db from hc] at this

/-- **C106.** What the XML reader makes of a document is possible. -/
theorem C106_read {flt : Xml.FloatText} {doc : Xml.Elem} (hd : FilesNamed doc) {d : Database} (h : Xml.read flt doc = .ok d) : Possible .db d.root := by
  obtain ⟨cs, _, ⟨n, hs⟩, x, hx, hc, _⟩ := C99_read_refines [] flt 0 hd (fun _ => "") h
  have := shows_possible (cs := [] ++ cs) hx hs
  rwa [hc] at this

/-- **C106.** What the YAML reader makes of a document is possible. -/
theorem C106_load {j : Yaml.Json} {d : Database} (h : Yaml.load j = .ok d) : Possible .db d.root := by
  obtain ⟨cs, _, ⟨n, hs⟩, x, hx, hc, _⟩ := C100_load_refines [] (fun _ => "") h
  have := shows_possible (cs := [] ++ cs) hx hs
  rwa [hc] at this

/-- The database of the example before is possible. -/
theorem editTree_possible : Possible .db editTree :=
  .mk (fun _ => .covergroup) ⟨rfl, rfl, rfl, rfl, rfl⟩ (by intro i c h; match i with | 0 => cases h; exact .inl rfl)
    (by
      intro i c h
      match i with
      | 0 =>
        cases h
        exact .mk (fun _ => .coverpoint) ⟨.inl rfl, rfl, rfl⟩ (by intro i c h; match i with | 0 => cases h; exact (by intro e; cases e))
          (by
            intro i c h
            match i with
            | 0 => cases h; exact .mk (fun _ => .db) ⟨rfl, rfl, rfl⟩ (by intro i c h; cases h) (by intro i c h; cases h)))

/-- **C106** applies. -/
example : ∃ cs d x, RealCalls Heap.empty cs ∧ (run Heap.empty cs).objs[d]? = some x ∧ x.cls = .db ∧ Shows (run Heap.empty cs) d editTree :=
  (C106_exact _).2 editTree_possible

/-- A cross directly in the database cannot be made. -/
example (v : Scope) (c : Scope) (hc : c ∈ v.children) (hk : c.cps ≠ none) :
    ¬ ∃ cs d x, RealCalls Heap.empty cs ∧ (run Heap.empty cs).objs[d]? = some x ∧ x.cls = .db ∧ Shows (run Heap.empty cs) d v := by
  rw [C106_exact]
  intro h
  cases h with
  | mk role own holds kids =>
    obtain ⟨i, hi⟩ := List.getElem?_of_mem hc
    have h1 := holds i c hi
    have h2 := kids i c hi
    have h3 : RoleOk (role i) c := by cases h2 with | mk _ o _ _ => exact o
    generalize role i = k at h1 h3
    cases k with
    | db => exact h1
    | toggle => exact h1
    | cross => cases h1
    | unit => exact hk h3.2.2
    | inst => exact hk h3.1
    | covergroup => exact hk h3.2.2
    | coverpoint => exact hk h3.2.2

end Store
end Verif
