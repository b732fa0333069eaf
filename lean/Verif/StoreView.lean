import Verif.StoreMerge
import Verif.StoreThms
import Mathlib.Data.List.Forall2
/-!
# Content of an object, and growing below one object

`Spec.Shows s o v`: reading the scope `o` of the store `s` through the API shows the tree `v`.
`Frame N s s' d k i`: from `s` to `s'` only new objects were made and attached below `d`.
-/

namespace Verif
namespace Spec

/-- Reading a bin. -/
def ShowsItem (s : Store.Heap) (b : Nat) (it : Item) : Prop :=
  ∃ x d, s.bins[b]? = some x ∧ s.datas[x.data]? = some d ∧
    it = { name := x.name, kind := d.kind, count := d.count, atLeast := d.atLeast, goal := d.goal, weight := d.weight }

/-- Reading the name of a scope. -/
def ShowsName (s : Store.Heap) (o : Nat) (n : String) : Prop := ∃ y, s.objs[o]? = some y ∧ y.name = n

/-- Reading the design unit of a scope. -/
def ShowsDu (s : Store.Heap) (x : Store.Obj) (du : Option DuInfo) : Prop :=
  match x.du with
  | none => du = none
  | some d => (x.cls = .inst ∨ x.cls = .toggle) ∧ ∃ y, s.objs[d]? = some y ∧ du = some ⟨y.name, y.src, y.weight⟩

/-- Reading the crossed coverpoints of a scope; only crosses have them. -/
def ShowsCps (s : Store.Heap) (x : Store.Obj) (cps : Option (List String)) : Prop :=
  if x.cls = .cross then ∃ l, cps = some l ∧ List.Forall₂ (ShowsName s) x.cps l else cps = none

/-- Reading a scope to the given depth; all scopes met are among those with `P`. -/
def ShowsIn (P : Nat → Prop) (s : Store.Heap) : Nat → Nat → Scope → Prop
  | 0, _, _ => False
  | n + 1, o, v => P o ∧ ∃ x, s.objs[o]? = some x ∧ v.stype = x.stype ∧ v.name = x.name ∧ v.src = x.src ∧ v.weight = x.weight ∧
      ShowsDu s x v.du ∧ ShowsCps s x v.cps ∧
      List.Forall₂ (ShowsIn P s n) x.children v.children ∧ List.Forall₂ (ShowsItem s) x.items v.items

/-- Reading the scope `o` shows `v`. -/
def Shows (s : Store.Heap) (o : Nat) (v : Scope) : Prop := ∃ n, ShowsIn (fun _ => True) s n o v

end Spec

namespace Store
open Spec

/-! ## Depth and region -/

theorem forall2_imp {α β : Type} {R S : α → β → Prop} {l : List α} {m : List β} (h : List.Forall₂ R l m)
    (hi : ∀ a ∈ l, ∀ b, R a b → S a b) : List.Forall₂ S l m := by
  induction h with
  | nil => exact .nil
  | cons hab _ ih => exact .cons (hi _ (by simp) _ hab) (ih (fun a ha => hi a (by simp [ha])))

theorem showsIn_mono {P Q : Nat → Prop} {s : Heap} (hPQ : ∀ o, P o → Q o) {n m : Nat} (hnm : n ≤ m) {o : Nat} {v : Scope}
    (h : ShowsIn P s n o v) : ShowsIn Q s m o v := by
  induction n generalizing m o v with
  | zero => exact h.elim
  | succ n ih =>
    obtain ⟨m, rfl⟩ : ∃ k, m = k + 1 := ⟨m - 1, by omega⟩
    obtain ⟨hp, x, hx, h1, h2, h3, h4, h5, h6, h7, h8⟩ := h
    exact ⟨hPQ _ hp, x, hx, h1, h2, h3, h4, h5, h6, forall2_imp h7 (fun a _ b hab => ih (by omega) hab), h8⟩

/-- Lists of scopes shown, whatever their depths. -/
theorem showsIn_list {P : Nat → Prop} {s : Heap} {l : List Nat} {vs : List Scope}
    (h : List.Forall₂ (fun o v => ∃ n, ShowsIn P s n o v) l vs) : ∃ n, List.Forall₂ (ShowsIn P s n) l vs := by
  induction h with
  | nil => exact ⟨0, .nil⟩
  | cons hab _ ih =>
    obtain ⟨n, hn⟩ := hab
    obtain ⟨m, hm⟩ := ih
    exact ⟨max n m, .cons (showsIn_mono (fun _ h => h) (Nat.le_max_left _ _) hn)
      (forall2_imp hm (fun a _ b hab => showsIn_mono (fun _ h => h) (Nat.le_max_right _ _) hab))⟩

/-! ## Growing below one object -/

/-- The object `d` after growing. -/
def grow (k i : List Nat) (x : Obj) : Obj := { x with children := x.children ++ k, items := x.items ++ i }

/-- What holds of every new object: it is below `d` or below another new object, crosses refer to coverpoints
of the same covergroup, the design unit of an instance is an object beside it made after the first `N` ones.  (`N = 0` asks nothing of
crosses; the YAML reader binds crosses to coverpoints of other instances.) -/
structure NewObj (N : Nat) (s s' : Heap) (d : Nat) (y : Obj) : Prop where
  parent : ∃ p, y.parent = some p ∧ (p = d ∨ s.objs.length ≤ p)
  notDb : y.cls ≠ .db
  cps : 0 < N → ∀ p ∈ y.cps, ∃ z, s'.objs[p]? = some z ∧ z.parent = y.parent ∧ z.cls = .coverpoint
  cross : y.cps ≠ [] → ∃ q x, y.parent = some q ∧ s'.objs[q]? = some x ∧ x.cls = .covergroup
  du : ∀ u, y.du = some u → N ≤ u ∧ y.cls = .inst ∧ ∃ z, s'.objs[u]? = some z ∧ z.parent = y.parent
  bins : ∀ b ∈ y.items, s.bins.length ≤ b

/-- Only new objects were made, and `d` got the new children `k` and the new bins `i`; it happened through
API calls. -/
structure Frame (N : Nat) (s s' : Heap) (d : Nat) (k i : List Nat) : Prop where
  old : ∀ o x, s.objs[o]? = some x → s'.objs[o]? = some (if o = d then grow k i x else x)
  bins : s.bins <+: s'.bins
  datas : s.datas <+: s'.datas
  handles : s'.handles = s.handles
  nodes : s'.nodes = s.nodes
  kids : ∀ c ∈ k, s.objs.length ≤ c
  items : ∀ b ∈ i, s.bins.length ≤ b
  itemsAt : i ≠ [] → ∃ x, s.objs[d]? = some x ∧ (x.cls = .coverpoint ∨ x.cls = .cross)
  new : ∀ c y, s.objs.length ≤ c → s'.objs[c]? = some y → NewObj N s s' d y
  newBins : ∀ b x, s.bins.length ≤ b → s'.bins[b]? = some x → s.datas.length ≤ x.data
  calls : ∃ cs, s' = run s cs

theorem run_append (s : Heap) (a b : List Call) : run s (a ++ b) = run (run s a) b := by
  simp [run]

theorem getElem?_prefix {α : Type} {l m : List α} (h : l <+: m) {i : Nat} {x : α} (hx : l[i]? = some x) : m[i]? = some x := by
  obtain ⟨t, rfl⟩ := h
  rw [List.getElem?_append_left (List.getElem?_eq_some_iff.1 hx).1]; exact hx

theorem grow_nil (x : Obj) : grow [] [] x = x := by simp [grow]

namespace Frame

theorem len {N : Nat} {s s' : Heap} {d : Nat} {k i : List Nat} (f : Frame N s s' d k i) : s.objs.length ≤ s'.objs.length := by
  by_contra h
  have hl : s'.objs.length < s.objs.length := by omega
  have := f.old s'.objs.length _ (List.getElem?_eq_getElem hl)
  have := (List.getElem?_eq_some_iff.1 this).1
  omega

theorem bins_len {N : Nat} {s s' : Heap} {d : Nat} {k i : List Nat} (f : Frame N s s' d k i) : s.bins.length ≤ s'.bins.length := f.bins.length_le
theorem datas_len {N : Nat} {s s' : Heap} {d : Nat} {k i : List Nat} (f : Frame N s s' d k i) : s.datas.length ≤ s'.datas.length := f.datas.length_le

/-- Attributes of old objects that never change. -/
theorem keeps {N : Nat} {s s' : Heap} {d : Nat} {k i : List Nat} (f : Frame N s s' d k i) {o : Nat} {x : Obj} (hx : s.objs[o]? = some x) :
    ∃ y, s'.objs[o]? = some y ∧ y.name = x.name ∧ y.src = x.src ∧ y.weight = x.weight ∧ y.cls = x.cls ∧ y.parent = x.parent := by
  have := f.old o x hx
  split at this
  · exact ⟨_, this, rfl, rfl, rfl, rfl, rfl⟩
  · exact ⟨_, this, rfl, rfl, rfl, rfl, rfl⟩

theorem refl (N : Nat) (s : Heap) (d : Nat) : Frame N s s d [] [] where
  old o x hx := by simp [grow_nil, hx]
  bins := List.prefix_rfl
  datas := List.prefix_rfl
  handles := rfl
  nodes := rfl
  kids := by simp
  items := by simp
  itemsAt h := absurd rfl h
  new c y hc hy := by
    have := (List.getElem?_eq_some_iff.1 hy).1
    omega
  newBins b x hb hx := by
    have := (List.getElem?_eq_some_iff.1 hx).1
    omega
  calls := ⟨[], rfl⟩

theorem newObj_mono {N : Nat} {s s1 s2 : Heap} {d d' : Nat} {k i : List Nat} {y y' : Obj} (h : NewObj N s s1 d y) (f : Frame N s1 s2 d' k i)
    (hp : y'.parent = y.parent) (hc : y'.cls = y.cls) (hcp : y'.cps = y.cps) (hdu : y'.du = y.du)
    (hb : ∀ b ∈ y'.items, s.bins.length ≤ b) : NewObj N s s2 d y' where
  parent := by rw [hp]; exact h.parent
  notDb := by rw [hc]; exact h.notDb
  cps hN p hpm := by
    obtain ⟨z, hz, h1, h2⟩ := h.cps hN p (hcp ▸ hpm)
    obtain ⟨z', hz', _, _, _, h3, h4⟩ := f.keeps hz
    exact ⟨z', hz', by rw [h4, h1, hp], by rw [h3, h2]⟩
  cross hne := by
    obtain ⟨q, x, h1, h2, h3⟩ := h.cross (hcp ▸ hne)
    obtain ⟨x', hx', _, _, _, h4, _⟩ := f.keeps h2
    exact ⟨q, x', by rw [hp, h1], hx', by rw [h4, h3]⟩
  du u hu := by
    obtain ⟨h1, h0, z, hz, h2⟩ := h.du u (hdu ▸ hu)
    obtain ⟨z', hz', _, _, _, _, h4⟩ := f.keeps hz
    exact ⟨h1, hc.trans h0, z', hz', by rw [h4, h2, hp]⟩
  bins := hb

theorem newObj_lift {N : Nat} {s s1 s2 : Heap} {d d' : Nat} {y : Obj} (h : NewObj N s1 s2 d' y) (hl : s.objs.length ≤ s1.objs.length)
    (hb : s.bins.length ≤ s1.bins.length) (hd : d' = d ∨ s.objs.length ≤ d') : NewObj N s s2 d y where
  parent := by
    obtain ⟨p, h1, h2⟩ := h.parent
    refine ⟨p, h1, ?_⟩
    rcases h2 with rfl | h2
    · exact hd
    · right; omega
  notDb := h.notDb
  cps := h.cps
  cross := h.cross
  du u hu := by
    exact h.du u hu
  bins b hbm := by have := h.bins b hbm; omega

/-- Growing below a new object is growing below `d`. -/
theorem deep {N : Nat} {s s1 s2 : Heap} {d d' : Nat} {k i k' i' : List Nat} (f : Frame N s s1 d k i) (g : Frame N s1 s2 d' k' i')
    (hd : s.objs.length ≤ d') : Frame N s s2 d k i where
  old o x hx := by
    have h1 := f.old o x hx
    have hl := (List.getElem?_eq_some_iff.1 hx).1
    have h2 := g.old o _ h1
    rw [if_neg (by omega)] at h2
    exact h2
  bins := f.bins.trans g.bins
  datas := f.datas.trans g.datas
  handles := g.handles.trans f.handles
  nodes := g.nodes.trans f.nodes
  kids := f.kids
  items := f.items
  itemsAt := f.itemsAt
  new c y hc hy := by
    by_cases hcl : c < s1.objs.length
    · have h1 := f.new c _ hc (List.getElem?_eq_getElem hcl)
      have h2 := g.old c _ (List.getElem?_eq_getElem hcl)
      rw [hy] at h2
      cases Option.some.inj h2
      refine newObj_mono h1 g ?_ ?_ ?_ ?_ ?_
      · split <;> rfl
      · split <;> rfl
      · split <;> rfl
      · split <;> rfl
      · split
        · intro b hb
          simp only [grow, List.mem_append] at hb
          rcases hb with hb | hb
          · exact h1.bins b hb
          · have := g.items b hb; have := f.bins_len; omega
        · exact h1.bins
    · exact newObj_lift (g.new c y (by omega) hy) f.len f.bins_len (.inr hd)
  newBins b x hb hx := by
    by_cases hbl : b < s1.bins.length
    · have := getElem?_prefix g.bins (List.getElem?_eq_getElem hbl)
      rw [hx] at this
      cases Option.some.inj this
      exact f.newBins b _ hb (List.getElem?_eq_getElem hbl)
    · have := g.newBins b x (by omega) hx
      have := f.datas_len
      omega
  calls := by
    obtain ⟨a, rfl⟩ := f.calls
    obtain ⟨b, rfl⟩ := g.calls
    exact ⟨a ++ b, (run_append s a b).symm⟩

/-- Growing twice below `d`. -/
theorem trans {N : Nat} {s s1 s2 : Heap} {d : Nat} {k i k' i' : List Nat} (f : Frame N s s1 d k i) (g : Frame N s1 s2 d k' i')
    (hd : d < s.objs.length) : Frame N s s2 d (k ++ k') (i ++ i') where
  old o x hx := by
    have h1 := f.old o x hx
    have h2 := g.old o _ h1
    rw [h2]
    by_cases ho : o = d
    · simp [ho, grow]
    · simp [ho]
  bins := f.bins.trans g.bins
  datas := f.datas.trans g.datas
  handles := g.handles.trans f.handles
  nodes := g.nodes.trans f.nodes
  kids c hc := by
    rcases List.mem_append.1 hc with h | h
    · exact f.kids c h
    · have := g.kids c h; have := f.len; omega
  items c hc := by
    rcases List.mem_append.1 hc with h | h
    · exact f.items c h
    · have := g.items c h; have := f.bins_len; omega
  itemsAt h := by
    by_cases hi : i = []
    · obtain ⟨z, hz, hc⟩ := g.itemsAt (fun e => h (by simp [hi, e]))
      obtain ⟨y, hy, _, _, _, hcls, _⟩ := f.keeps (List.getElem?_eq_getElem hd)
      rw [hy] at hz
      cases hz
      exact ⟨_, List.getElem?_eq_getElem hd, by rwa [hcls] at hc⟩
    · exact f.itemsAt hi
  new c y hc hy := by
    by_cases hcl : c < s1.objs.length
    · have h1 := f.new c _ hc (List.getElem?_eq_getElem hcl)
      have h2 := g.old c _ (List.getElem?_eq_getElem hcl)
      rw [hy, if_neg (by omega)] at h2
      cases Option.some.inj h2
      exact newObj_mono h1 g rfl rfl rfl rfl h1.bins
    · exact newObj_lift (g.new c y (by omega) hy) f.len f.bins_len (.inl rfl)
  newBins b x hb hx := by
    by_cases hbl : b < s1.bins.length
    · have := getElem?_prefix g.bins (List.getElem?_eq_getElem hbl)
      rw [hx] at this
      cases Option.some.inj this
      exact f.newBins b _ hb (List.getElem?_eq_getElem hbl)
    · have := g.newBins b x (by omega) hx
      have := f.datas_len
      omega
  calls := by
    obtain ⟨a, rfl⟩ := f.calls
    obtain ⟨b, rfl⟩ := g.calls
    exact ⟨a ++ b, (run_append s a b).symm⟩

/-! ### What is shown stays shown -/

theorem showsItem {N : Nat} {s s' : Heap} {d : Nat} {k i : List Nat} (f : Frame N s s' d k i) {b : Nat} {it : Item} (h : ShowsItem s b it) :
    ShowsItem s' b it := by
  obtain ⟨x, c, h1, h2, h3⟩ := h
  exact ⟨x, c, getElem?_prefix f.bins h1, getElem?_prefix f.datas h2, h3⟩

theorem showsName {N : Nat} {s s' : Heap} {d : Nat} {k i : List Nat} (f : Frame N s s' d k i) {o : Nat} {n : String} (h : ShowsName s o n) :
    ShowsName s' o n := by
  obtain ⟨y, hy, h1⟩ := h
  obtain ⟨y', hy', h2, _⟩ := f.keeps hy
  exact ⟨y', hy', by rw [h2, h1]⟩

theorem showsDu {N : Nat} {s s' : Heap} {d : Nat} {k i : List Nat} (f : Frame N s s' d k i) {x : Obj} {du : Option DuInfo} (h : ShowsDu s x du) :
    ShowsDu s' x du := by
  unfold ShowsDu at h ⊢
  split at h
  · exact h
  · obtain ⟨h0, y, hy, h1⟩ := h
    obtain ⟨y', hy', h2, h3, h4, _⟩ := f.keeps hy
    exact ⟨h0, y', hy', by rw [h2, h3, h4, h1]⟩

theorem showsCps {N : Nat} {s s' : Heap} {d : Nat} {k i : List Nat} (f : Frame N s s' d k i) {x : Obj} {cps : Option (List String)} (h : ShowsCps s x cps) :
    ShowsCps s' x cps := by
  unfold ShowsCps at h ⊢
  split at h
  · rename_i hc
    obtain ⟨l, h1, h2⟩ := h
    rw [if_pos hc]
    exact ⟨l, h1, forall2_imp h2 (fun a _ b hab => f.showsName hab)⟩
  · rename_i hc
    rw [if_neg hc]; exact h

theorem showsIn {N : Nat} {s s' : Heap} {d : Nat} {k i : List Nat} (f : Frame N s s' d k i) {P : Nat → Prop} (hP : ¬ P d) {n o : Nat} {v : Scope}
    (h : ShowsIn P s n o v) : ShowsIn P s' n o v := by
  induction n generalizing o v with
  | zero => exact h
  | succ n ih =>
    obtain ⟨hp, x, hx, h1, h2, h3, h4, h5, h6, h7, h8⟩ := h
    have hod : o ≠ d := fun e => hP (e ▸ hp)
    have := f.old o x hx
    rw [if_neg hod] at this
    exact ⟨hp, x, this, h1, h2, h3, h4, f.showsDu h5, f.showsCps h6, forall2_imp h7 (fun a _ b hab => ih hab),
      forall2_imp h8 (fun a _ b hab => f.showsItem hab)⟩

end Frame

end Store
end Verif
