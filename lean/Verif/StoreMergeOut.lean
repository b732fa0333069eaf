import Verif.StoreMergeRel
/-!
# What the creating calls of a merge do
-/

namespace Verif
namespace Store
open Spec

/-! ## Single calls -/

theorem exec_run (s : Heap) (c : Call) : (exec c s).2 = run s [c] := rfl

/-- Attaching a fresh scope. -/
theorem frame_attach {N : Nat} {s : Heap} {d : Nat} {x y : Obj} {n : String} (hx : s.objs[d]? = some x) (hy : Fresh d n y)
    (hcps : 0 < N → ∀ p ∈ y.cps, ∃ z, s.objs[p]? = some z ∧ z.parent = some d ∧ z.cls = .coverpoint)
    (hcr : y.cps ≠ [] → x.cls = .covergroup)
    (hdu : ∀ u, y.du = some u → N ≤ u ∧ y.cls = .inst ∧ ∃ z, s.objs[u]? = some z ∧ z.parent = some d)
    (hcall : ∃ c, (exec c s).2 = s.withChild d y) : Frame N s (s.withChild d y) d [s.objs.length] [] := by
  have hl := (List.getElem?_eq_some_iff.1 hx).1
  have key : ∀ o, (s.withChild d y).objs[o]? = if o = d then some (grow [s.objs.length] [] x) else (s.objs ++ [y])[o]? := by
    intro o
    simp only [Heap.withChild]
    rw [modify_eq_set (x := x) (by rw [List.getElem?_append_left hl]; exact hx), get_set (x := x) (by rw [List.getElem?_append_left hl]; exact hx)]
    by_cases h : d = o
    · subst h; simp [grow]
    · rw [if_neg h, if_neg (fun e : o = d => h e.symm)]
  exact {
    old := by
      intro o x' hx'
      rw [key]
      by_cases h : o = d
      · subst h; rw [hx] at hx'; cases hx'; simp
      · simp only [h, if_false]
        rw [List.getElem?_append_left (List.getElem?_eq_some_iff.1 hx').1]; exact hx'
    bins := List.prefix_rfl
    datas := List.prefix_rfl
    handles := rfl
    nodes := rfl
    kids := by simp
    items := by simp
    itemsAt := fun h => absurd rfl h
    new := by
      intro c y' hc hy'
      rw [key, if_neg (by omega)] at hy'
      have : y' = y := by
        rw [List.getElem?_append_right hc] at hy'
        cases hk : c - s.objs.length with
        | zero => rw [hk] at hy'; simpa using hy'.symm
        | succ k => rw [hk] at hy'; simp at hy'
      subst this
      have surv : ∀ (p : Nat) (z : Obj), s.objs[p]? = some z → ∃ z' : Obj, (s.withChild d y').objs[p]? = some z' ∧ z'.parent = z.parent ∧ z'.cls = z.cls := by
        intro p z hz
        rw [key]
        by_cases h : p = d
        · subst h; rw [hx] at hz; cases hz; exact ⟨grow [s.objs.length] [] x, if_pos rfl, rfl, rfl⟩
        · refine ⟨z, ?_, rfl, rfl⟩
          simp only [h, if_false]
          rw [List.getElem?_append_left (List.getElem?_eq_some_iff.1 hz).1]; exact hz
      exact {
        parent := ⟨d, hy.parent, .inl rfl⟩
        notDb := hy.notDb
        cps := by
          intro hN p hp
          obtain ⟨z, hz, h1, h2⟩ := hcps hN p hp
          obtain ⟨z', hz', h3, h4⟩ := surv p z hz
          exact ⟨z', hz', by rw [h3, h1, hy.parent], by rw [h4, h2]⟩
        cross := by
          intro hne
          obtain ⟨x', hx', _, h4⟩ := surv d x hx
          exact ⟨d, x', hy.parent, hx', by rw [h4, hcr hne]⟩
        du := by
          intro u hu
          obtain ⟨h0, hi, z, hz, h1⟩ := hdu u hu
          obtain ⟨z', hz', h3, _⟩ := surv u z hz
          exact ⟨h0, hi, z', hz', by rw [h3, h1, hy.parent]⟩
        bins := by rw [hy.items]; simp }
    newBins := by
      intro b x' hb hx'
      have := (List.getElem?_eq_some_iff.1 hx').1
      simp only [Heap.withChild] at this
      omega
    calls := by
      obtain ⟨c, hc⟩ := hcall
      exact ⟨[c], by rw [← hc]; rfl⟩ }

/-- The attached object. -/
theorem withChild_new {s : Heap} {d : Nat} {x y : Obj} (hx : s.objs[d]? = some x) : (s.withChild d y).objs[s.objs.length]? = some y := by
  have hl := (List.getElem?_eq_some_iff.1 hx).1
  simp only [Heap.withChild]
  rw [List.getElem?_modify]
  have : d ≠ s.objs.length := by omega
  simp [this]

theorem withChild_len {s : Heap} {d : Nat} {y : Obj} : (s.withChild d y).objs.length = s.objs.length + 1 := by
  simp [Heap.withChild]

/-- `createBin` on a coverpoint or cross. -/
theorem frame_createBin {N : Nat} {s : Heap} {d : Nat} {x : Obj} (hx : s.objs[d]? = some x) (hc : x.cls = .coverpoint ∨ x.cls = .cross)
    (n : String) (a c : Int) (k : Nat) :
    ∃ s', createBin d n none a c k s = (.ok (.bin s.bins.length), s') ∧ Frame N s s' d [] [s.bins.length] ∧
      ShowsItem s' s.bins.length (mkBin n k a c) := by
  refine ⟨_, createBin_eq hx hc n none a c k, ?_, ?_⟩
  · have key : ∀ o, (s.objs.modify d (fun x => { x with items := x.items ++ [s.bins.length] }))[o]? =
        if o = d then some (grow [] [s.bins.length] x) else s.objs[o]? := by
      intro o
      rw [modify_eq_set hx, get_set hx]
      by_cases h : d = o
      · subst h; simp [grow]
      · rw [if_neg h, if_neg (fun e : o = d => h e.symm)]
    exact {
      old := by
        intro o x' hx'
        show (s.objs.modify d _)[o]? = _
        rw [key]
        by_cases h : o = d
        · subst h; rw [hx] at hx'; cases hx'; simp
        · simp [h, hx']
      bins := List.prefix_append _ _
      datas := List.prefix_append _ _
      handles := rfl
      nodes := rfl
      kids := by simp
      items := by simp
      itemsAt := fun _ => ⟨x, hx, hc⟩
      new := by
        intro o y ho hy
        have h1 : (s.objs.modify d (fun x => { x with items := x.items ++ [s.bins.length] }))[o]? = some y := hy
        have := (List.getElem?_eq_some_iff.1 h1).1
        rw [List.length_modify] at this
        omega
      newBins := by
        intro b x' hb hx'
        have hx2 : (s.bins ++ [⟨n, s.datas.length, none⟩])[b]? = some x' := hx'
        rw [List.getElem?_append_right hb] at hx2
        cases hk : b - s.bins.length with
        | zero => rw [hk] at hx2; simp at hx2; rw [← hx2]; exact Nat.le_refl _
        | succ k => rw [hk] at hx2; simp at hx2
      calls := ⟨[.createBin d n none a c k], by
        show _ = (exec (.createBin d n none a c k) s).2
        show _ = ((createBin d n none a c k >>= fun a => pure (Ret.cover a)) s).2
        rw [snd_bind_pure, createBin_eq hx hc]⟩ }
  · exact ⟨⟨n, s.datas.length, none⟩, binData k a c, by simp [Heap.withBin], by simp, rfl⟩

/-! ## Outcomes -/

/-- Running `act` in `s` raises exactly when `r` is an error, and then the same; in any case only new objects
appeared below `d`; on success `Q` relates the results. -/
def Outcome (N : Nat) {α β : Type} (act : M α) (s : Heap) (d : Nat) (r : Except Err β) (Q : α → β → Heap → List Nat → List Nat → Prop) : Prop :=
  match r with
  | .ok v => ∃ a s' k i, act s = (.ok a, s') ∧ Frame N s s' d k i ∧ Q a v s' k i
  | .error e => ∃ s' k i, act s = (.error e, s') ∧ Frame N s s' d k i

theorem Outcome.mono {N : Nat} {α β : Type} {act : M α} {s : Heap} {d : Nat} {r : Except Err β} {Q Q' : α → β → Heap → List Nat → List Nat → Prop}
    (h : Outcome N act s d r Q) (hq : ∀ a v s' k i, Frame N s s' d k i → Q a v s' k i → Q' a v s' k i) : Outcome N act s d r Q' := by
  cases r with
  | error e => exact h
  | ok v =>
    obtain ⟨a, s', k, i, h1, h2, h3⟩ := h
    exact ⟨a, s', k, i, h1, h2, hq _ _ _ _ _ h2 h3⟩

/-- A step that only reads. -/
theorem Outcome.skip {N : Nat} {α β γ : Type} {x : M α} {f : α → M γ} {s : Heap} {d : Nat} {a : α} {r : Except Err β}
    {Q : γ → β → Heap → List Nat → List Nat → Prop} (hx : x s = (.ok a, s)) (h : Outcome N (f a) s d r Q) : Outcome N (x >>= f) s d r Q := by
  unfold Outcome at h ⊢
  rw [bind_eq_of_ok hx]
  exact h

/-- A step that raises without effect. -/
theorem Outcome.raise {N : Nat} {α β γ : Type} {x : M α} {f : α → M γ} {s : Heap} {d : Nat} {e : Err}
    {Q : γ → β → Heap → List Nat → List Nat → Prop} (hx : x s = (.error e, s)) : Outcome N (x >>= f) s d (.error e : Except Err β) Q :=
  ⟨s, [], [], bind_eq_of_error hx, Frame.refl N s d⟩

/-- Two steps below the same object. -/
theorem Outcome.bind {N : Nat} {α β γ δ : Type} {x : M α} {f : α → M γ} {r : Except Err β} {g : β → Except Err δ} {s : Heap} {d : Nat}
    {Q : α → β → Heap → List Nat → List Nat → Prop} {Q' : γ → δ → Heap → List Nat → List Nat → Prop} (hd : d < s.objs.length)
    (hx : Outcome N x s d r Q)
    (hf : ∀ a b s1 k i, Frame N s s1 d k i → Q a b s1 k i → Outcome N (f a) s1 d (g b) (fun a' b' s2 k' i' => Q' a' b' s2 (k ++ k') (i ++ i'))) :
    Outcome N (x >>= f) s d (r >>= g) Q' := by
  cases r with
  | error e =>
    obtain ⟨s', k, i, h1, h2⟩ := hx
    exact ⟨s', k, i, bind_eq_of_error h1, h2⟩
  | ok b =>
    obtain ⟨a, s1, k, i, h1, h2, h3⟩ := hx
    have := hf a b s1 k i h2 h3
    show Outcome N (x >>= f) s d (g b) Q'
    unfold Outcome at this ⊢
    cases hg : g b with
    | error e =>
      rw [hg] at this
      obtain ⟨s2, k', i', h4, h5⟩ := this
      exact ⟨s2, k ++ k', i ++ i', by rw [bind_eq_of_ok h1, h4], h2.trans h5 hd⟩
    | ok v =>
      rw [hg] at this
      obtain ⟨c, s2, k', i', h4, h5, h6⟩ := this
      exact ⟨c, s2, k ++ k', i ++ i', by rw [bind_eq_of_ok h1, h4], h2.trans h5 hd, h6⟩

/-- Creating an object and filling it. -/
theorem Outcome.create {N : Nat} {α β δ : Type} {x : M Nat} {f : Nat → M α} {r : Except Err β} {g : β → Except Err δ} {w : β → δ} {s s1 : Heap} {d c : Nat}
    {k i : List Nat} {Q : α → β → Heap → List Nat → List Nat → Prop} {Q' : α → δ → Heap → List Nat → List Nat → Prop}
    (hx : x s = (.ok c, s1)) (hfr : Frame N s s1 d k i) (hc : s.objs.length ≤ c) (hg : ∀ b, g b = .ok (w b))
    (hf : Outcome N (f c) s1 c r Q) (hq : ∀ a b s2 k' i', Frame N s1 s2 c k' i' → Q a b s2 k' i' → Q' a (w b) s2 k i) :
    Outcome N (x >>= f) s d (r >>= g) Q' := by
  cases r with
  | error e =>
    obtain ⟨s', k', i', h1, h2⟩ := hf
    exact ⟨s', k, i, by rw [bind_eq_of_ok hx, h1], hfr.deep h2 hc⟩
  | ok b =>
    obtain ⟨a, s2, k', i', h1, h2, h3⟩ := hf
    show Outcome N (x >>= f) s d (g b) Q'
    rw [hg b]
    exact ⟨a, s2, k, i, by rw [bind_eq_of_ok hx, h1], hfr.deep h2 hc, hq _ _ _ _ _ h2 h3⟩

/-- The tree `v` is shown by a new object `o` (`≥ m`) and new objects below it. -/
def New (m : Nat) (s : Heap) (o : Nat) (v : Scope) : Prop := ∃ n, ShowsIn (fun o => m ≤ o) s n o v

theorem New.frame {N : Nat} {m : Nat} {s s' : Heap} {d : Nat} {k i : List Nat} {o : Nat} {v : Scope} (h : New m s o v) (f : Frame N s s' d k i)
    (hd : d < m) : New m s' o v := by
  obtain ⟨n, hn⟩ := h
  exact ⟨n, f.showsIn (by omega) hn⟩

theorem New.mono {m m' : Nat} (hm : m' ≤ m) {s : Heap} {o : Nat} {v : Scope} (h : New m s o v) : New m' s o v := by
  obtain ⟨n, hn⟩ := h
  exact ⟨n, showsIn_mono (fun _ h => Nat.le_trans hm h) (Nat.le_refl _) hn⟩

/-- The object just created and filled shows its tree. -/
theorem new_filled {N : Nat} {m : Nat} {s1 s2 : Heap} {c : Nat} {y : Obj} {k i : List Nat} {v : Scope} (hy : s1.objs[c]? = some y) (f : Frame N s1 s2 c k i)
    (hm : m ≤ c) (hm1 : m ≤ s1.objs.length) (hk : y.children = []) (hi : y.items = [])
    (h1 : v.stype = y.stype) (h2 : v.name = y.name) (h3 : v.src = y.src) (h4 : v.weight = y.weight) (h5 : ShowsDu s1 y v.du) (h6 : ShowsCps s1 y v.cps)
    (h7 : List.Forall₂ (New s1.objs.length s2) k v.children) (h8 : List.Forall₂ (ShowsItem s2) i v.items) : New m s2 c v := by
  have hy2 := f.old c y hy
  rw [if_pos rfl] at hy2
  obtain ⟨n, hn⟩ := showsIn_list (P := fun o => m ≤ o) (forall2_imp h7 (fun a _ b hab => hab.mono hm1))
  refine ⟨n + 1, hm, grow k i y, hy2, h1, h2, h3, h4, f.showsDu h5, f.showsCps h6, ?_, ?_⟩
  · simp only [grow, hk, List.nil_append]; exact hn
  · simp only [grow, hi, List.nil_append]; exact h8

/-! ## Bins -/

theorem makeBins_out {N : Nat} (kind : Nat) {d : Nat} (m : Dict (Int × Int)) {s : Heap} {x : Obj} (hx : s.objs[d]? = some x)
    (hc : x.cls = .coverpoint ∨ x.cls = .cross) :
    Outcome N (DbMerger.makeBins d kind m) s d (.ok (m.map (fun e => mkBin e.1 kind e.2.2 e.2.1)) : Except Err (List Item))
      (fun _ its s' k i => k = [] ∧ List.Forall₂ (ShowsItem s') i its) := by
  induction m generalizing s x with
  | nil => exact ⟨(), s, [], [], rfl, Frame.refl N s d, rfl, .nil⟩
  | cons e t ih =>
    obtain ⟨s1, h1, f1, hs⟩ := frame_createBin hx hc e.1 e.2.2 e.2.1 kind
    obtain ⟨x1, hx1, _, _, _, hcls, _⟩ := f1.keeps hx
    obtain ⟨a, s2, k, i, h2, f2, rfl, h3⟩ := ih hx1 (hcls ▸ hc)
    refine ⟨a, s2, [] ++ [], [s.bins.length] ++ i, ?_, f1.trans f2 (List.getElem?_eq_some_iff.1 hx).1, rfl, ?_⟩
    · show (createBin d e.1 none e.2.2 e.2.1 kind >>= fun _ => DbMerger.makeBins d kind t) s = _
      rw [bind_eq_of_ok h1, h2]
    · exact .cons (f2.showsItem hs) h3

theorem mergeBinsOfKind_out {N D : Nat} {s : Heap} {d : Nat} {x : Obj} (hx : s.objs[d]? = some x) (hc : x.cls = .coverpoint ∨ x.cls = .cross)
    {srcs : List Nat} {vs : List Scope} (h : List.Forall₂ (Old N D s) srcs vs) (kind : Nat) :
    Outcome N (DbMerger.mergeBinsOfKind d srcs kind) s d (Merge.mergeBinsOfKind vs kind)
      (fun _ its s' k i => k = [] ∧ List.Forall₂ (ShowsItem s') i its) := by
  unfold DbMerger.mergeBinsOfKind Merge.mergeBinsOfKind
  have hs := sumBins_rel h kind
  cases hr : (vs.flatMap (fun v => v.coverItems kind)).foldlM Merge.binStep [] with
  | error e => rw [hr] at hs; exact Outcome.raise hs
  | ok m => rw [hr] at hs; exact Outcome.skip hs (makeBins_out kind m hx hc)

theorem mergeBins_out {N D : Nat} {s : Heap} {d : Nat} {x : Obj} (hx : s.objs[d]? = some x) (hc : x.cls = .coverpoint ∨ x.cls = .cross)
    (hd : d = D ∨ N ≤ d) {srcs : List Nat} {vs : List Scope} (h : List.Forall₂ (Old N D s) srcs vs) :
    Outcome N (DbMerger.mergeBins d srcs) s d (Merge.mergeBins vs)
      (fun _ its s' k i => k = [] ∧ List.Forall₂ (ShowsItem s') i its) := by
  have hl := (List.getElem?_eq_some_iff.1 hx).1
  unfold DbMerger.mergeBins Merge.mergeBins
  refine Outcome.bind hl (mergeBinsOfKind_out hx hc h _) ?_
  rintro _ a s1 k i f1 ⟨rfl, ha⟩
  obtain ⟨x1, hx1, _, _, _, hcls, _⟩ := f1.keeps hx
  refine Outcome.bind (List.getElem?_eq_some_iff.1 hx1).1 (mergeBinsOfKind_out hx1 (hcls ▸ hc) (olds_frame h f1 hd) _) ?_
  rintro _ b s2 k i2 f2 ⟨rfl, hb⟩
  obtain ⟨x2, hx2, _, _, _, hcls2, _⟩ := f2.keeps hx1
  have h3 := mergeBinsOfKind_out hx2 (hcls2 ▸ hcls ▸ hc) (olds_frame (olds_frame h f1 hd) f2 hd) CT.ILLEGALBIN
  unfold Outcome at h3 ⊢
  cases hr : Merge.mergeBinsOfKind vs CT.ILLEGALBIN with
  | error e => rw [hr] at h3; exact h3
  | ok c =>
    rw [hr] at h3
    obtain ⟨u, s3, k, i3, h4, f3, rfl, h5⟩ := h3
    refine ⟨u, s3, [], i3, h4, f3, rfl, ?_⟩
    rw [List.append_assoc]
    exact List.rel_append (forall2_imp ha (fun _ _ _ hh => f3.showsItem (f2.showsItem hh)))
      (List.rel_append (forall2_imp hb (fun _ _ _ hh => f3.showsItem hh)) h5)

end Store
end Verif
