import Verif.StoreLemmas
/-!
# Effects of the remaining calls, and what no call ever changes
-/

namespace Verif
namespace Store

/-! ## Exact effects -/

theorem assignData_eq {s : Heap} {d : Nat} {x : CData} (h : s.datas[d]? = some x) (f : DField) (v : Int) :
    assignData d f v s = (.ok (), { s with datas := s.datas.modify d (CData.assign f v) }) :=
  bind_eq_of_ok (cdata_some h)

theorem assignData_none {s : Heap} {d : Nat} (h : s.datas[d]? = none) (f : DField) (v : Int) :
    assignData d f v s = (.error .attributeError, s) :=
  bind_eq_of_error (cdata_none h)

theorem createNextCover_none {s : Heap} {o d : Nat} (h : s.datas[d]? = none) (n : String) (src : Option SrcInfo) :
    createNextCover o n d src s = (.error .attributeError, s) := by
  rcases obj_cases s o with ⟨x, hx, ho⟩ | ⟨_, ho⟩
  · exact (bind_eq_of_ok ho).trans (bind_eq_of_error (cdata_none h))
  · exact bind_eq_of_error ho

theorem createNextCover_bin {s : Heap} {o d : Nat} {x : Obj} {c : CData} (h : s.objs[o]? = some x) (hd : s.datas[d]? = some c)
    (h1 : x.cls ≠ .inst) (h2 : x.cls ≠ .toggle) (n : String) (src : Option SrcInfo) :
    createNextCover o n d src s = (.ok (.bin s.bins.length), s.withBin o ⟨n, d, src⟩) := by
  have e : createNextCover o n d src s = _ := (bind_eq_of_ok (obj_some h)).trans (bind_eq_of_ok (cdata_some hd))
  cases hc : x.cls <;> rw [hc] at e <;> first | exact e | (exfalso; simp_all)

theorem createNextCover_inst {s : Heap} {o d : Nat} {x : Obj} {c : CData} (h : s.objs[o]? = some x) (hd : s.datas[d]? = some c)
    (h1 : x.cls = .inst ∨ x.cls = .toggle) (n : String) (src : Option SrcInfo) :
    createNextCover o n d src s = (.ok (.index x.stmts.length),
      { s with objs := s.objs.modify o (fun x => { x with stmts := x.stmts ++ [⟨n, d, 0⟩] }) }) := by
  have e : createNextCover o n d src s = _ := (bind_eq_of_ok (obj_some h)).trans (bind_eq_of_ok (cdata_some hd))
  rcases h1 with hc | hc <;> rw [hc] at e <;> exact e

/-- The cover data that `createBin` makes. -/
def binData (kind : Nat) (atLeast count : Int) : CData :=
  { kind, flags := binFlags, count, goal := 1, weight := 1, atLeast := some atLeast }

theorem modify_last {α : Type} (l : List α) (a : α) (f : α → α) : (l ++ [a]).modify l.length f = l ++ [f a] := by
  induction l with
  | nil => rfl
  | cons b t ih => simp [ih]

theorem createBin_eq {s : Heap} {o : Nat} {x : Obj} (h : s.objs[o]? = some x) (h1 : x.cls = .coverpoint ∨ x.cls = .cross)
    (n : String) (src : Option SrcInfo) (a c : Int) (k : Nat) :
    createBin o n src a c k s = (.ok (.bin s.bins.length),
      { s.withBin o ⟨n, s.datas.length, src⟩ with datas := s.datas ++ [binData k a c] }) := by
  have e : createBin o n src a c k s = _ := bind_eq_of_ok (obj_some h)
  have key : ∀ d0 : CData, ∀ s1 : Heap, s1 = { s with datas := s.datas ++ [d0] } → ∀ f v,
      assignData s.datas.length f v s1 = (.ok (), { s with datas := s.datas ++ [CData.assign f v d0] }) := by
    rintro d0 s1 rfl f v
    rw [assignData_eq (x := d0) (by simp)]
    simp only [modify_last]
  have fin : ∀ d0 : CData, createNextCover o n s.datas.length src { s with datas := s.datas ++ [d0] } =
      (.ok (.bin s.bins.length), { s.withBin o ⟨n, s.datas.length, src⟩ with datas := s.datas ++ [d0] }) := by
    intro d0
    exact createNextCover_bin (s := { s with datas := s.datas ++ [d0] }) (c := d0) h (by simp)
      (by rcases h1 with h1 | h1 <;> simp [h1]) (by rcases h1 with h1 | h1 <;> simp [h1]) n src
  rcases h1 with hc | hc <;> rw [hc] at e <;> rw [e] <;>
    simp only [bind_def, allocData, key _ _ rfl, CData.assign] <;> exact fin _

theorem createBin_error {s : Heap} {o : Nat} {x : Obj} (h : s.objs[o]? = some x) (h1 : x.cls ≠ .coverpoint) (h2 : x.cls ≠ .cross)
    (n : String) (src : Option SrcInfo) (a c : Int) (k : Nat) : createBin o n src a c k s = (.error .attributeError, s) := by
  have e : createBin o n src a c k s = _ := bind_eq_of_ok (obj_some h)
  cases hc : x.cls <;> rw [hc] at e <;> first | exact e | (exfalso; simp_all)

theorem incrementCover_eq {s : Heap} {b : Nat} {x : Bin} {d : CData} (hb : s.bins[b]? = some x) (hd : s.datas[x.data]? = some d) (a : Int) :
    incrementCover b a s = (.ok (), { s with datas := s.datas.modify x.data (fun d => { d with count := d.count + a }) }) := by
  have e : incrementCover b a s = _ := (bind_eq_of_ok (bin_some hb)).trans (bind_eq_of_ok (cdata_some hd))
  rw [e, assignData_eq hd]
  congr 2
  apply List.ext_getElem?
  intro i
  rw [List.getElem?_modify, List.getElem?_modify]
  by_cases hi : x.data = i
  · subst hi; simp [hd, CData.assign]
  · simp [hi]

theorem setIntProperty_ok {s s' : Heap} {o : Nat} {i v : Int} {p : IProp} :
    setIntProperty o i p v s = (.ok (), s') ↔
      ∃ x y, s.objs[o]? = some x ∧ objSet x i p v = .ok y ∧ s' = { s with objs := s.objs.set o y } := by
  rcases obj_cases s o with ⟨x, hx, ho⟩ | ⟨hx, ho⟩
  · unfold setIntProperty
    rw [bind_eq_of_ok ho]
    cases hy : objSet x i p v with
    | error e => simp [bind_def, read, hy, hx]
    | ok y =>
      have e : s.objs.modify o (fun _ => y) = s.objs.set o y := by
        apply List.ext_getElem?
        intro j
        rw [List.getElem?_modify, List.getElem?_set]
        by_cases hj : o = j
        · subst hj; simp [hx, (List.getElem?_eq_some_iff.1 hx).1]
        · simp [hj]
      simp only [bind_def, read, hy, modObj, e, Prod.mk.injEq, true_and, hx, Option.some.injEq]
      exact ⟨fun h => ⟨x, y, rfl, hy, h.symm⟩, fun ⟨x', y', h1, h2, h3⟩ => by subst h1; rw [hy] at h2; cases h2; exact h3.symm⟩
  · unfold setIntProperty
    rw [bind_eq_of_error ho]
    simp [hx]

theorem setIntProperty_error {s s' : Heap} {o : Nat} {i v : Int} {p : IProp} {e : Err}
    (h : setIntProperty o i p v s = (.error e, s')) : s' = s := by
  rcases obj_cases s o with ⟨x, hx, ho⟩ | ⟨hx, ho⟩
  · unfold setIntProperty at h
    rw [bind_eq_of_ok ho] at h
    cases hy : objSet x i p v with
    | error e => simp only [bind_def, read, hy, Prod.mk.injEq] at h; exact h.2.symm
    | ok y => simp [bind_def, read, hy, modObj] at h
  · unfold setIntProperty at h
    rw [bind_eq_of_error ho] at h
    cases h; rfl

/-! ## What setting a property keeps -/

/-- The part of a scope that no property setter touches. -/
structure Core where
  cls : Cls
  parent : Option Nat
  name : String
  src : SrcInfo
  stype : Nat
  children : List Nat
  items : List Nat
  du : Option Nat
  cps : List Nat
  files : Dict Nat
  hist : List Nat
  covInsts : List (String × String)

def core (x : Obj) : Core :=
  ⟨x.cls, x.parent, x.name, x.src, x.stype, x.children, x.items, x.du, x.cps, x.files, x.hist, x.covInsts⟩

theorem scopeSet_core {x y : Obj} {p : IProp} {v : Int} (h : scopeSet x p v = .ok y) : core y = core x := by
  cases p <;> simp only [scopeSet, reduceCtorEq, Except.ok.injEq] at h
  subst h; rfl

theorem cvgSet_core {x y : Obj} {p : IProp} {v : Int} (h : cvgSet x p v = .ok y) : core y = core x := by
  cases p <;> simp only [cvgSet, Except.ok.injEq] at h <;> first | exact scopeSet_core h | (subst h; rfl)

theorem covergroupSet_core {x y : Obj} {p : IProp} {v : Int} (h : covergroupSet x p v = .ok y) : core y = core x := by
  cases p <;> simp only [covergroupSet, Except.ok.injEq] at h <;> first | exact cvgSet_core h | (subst h; rfl)

theorem instSet_core {x y : Obj} {i : Int} {p : IProp} {v : Int} (h : instSet x i p v = .ok y) : core y = core x := by
  cases p <;> simp only [instSet] at h <;> first | exact scopeSet_core h | skip
  split at h
  · cases h; rfl
  · cases h

theorem objSet_core {x y : Obj} {i : Int} {p : IProp} {v : Int} (h : objSet x i p v = .ok y) : core y = core x := by
  cases hc : x.cls <;> cases p <;> simp only [objSet, hc, Except.ok.injEq] at h <;>
    first | exact scopeSet_core h | exact instSet_core h | exact covergroupSet_core h | exact cvgSet_core h | (subst h; simp [core, hc])

end Store
end Verif
