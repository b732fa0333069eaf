import Verif.StoreMergeMain
import Verif.MergeLeft
/-!
# What the destination holds after a merge, also after one that raised (C84, C122)

Refinement of `MergeLeft.lean` by the calls on the objects (`StoreMerge.lean`), as `StoreMergeOut.lean` and `StoreMergeThms.lean`
do it for successful merges.
-/

namespace Verif
namespace Store
open Spec

/-- Running `act` in `s` has the result of `r`, and added below `d` exactly what `r` says. -/
def Grows (N : Nat) {α β : Type} (act : M α) (s : Heap) (d : Nat) (r : Merge.Left β) (Q : α → β → Heap → Prop) : Prop :=
  ∃ s' k i, Frame N s s' d k i ∧ List.Forall₂ (New s.objs.length s') k r.kids ∧ List.Forall₂ (ShowsItem s') i r.items ∧
    match r.res with
    | .ok b => ∃ a, act s = (.ok a, s') ∧ Q a b s'
    | .error e => act s = (.error e, s')

theorem Grows.mono {N : Nat} {α β : Type} {act : M α} {s : Heap} {d : Nat} {r : Merge.Left β} {Q Q' : α → β → Heap → Prop}
    (h : Grows N act s d r Q) (hq : ∀ a b s' k i, Frame N s s' d k i → Q a b s' → Q' a b s') : Grows N act s d r Q' := by
  obtain ⟨s', k, i, f, hk, hi, h⟩ := h
  refine ⟨s', k, i, f, hk, hi, ?_⟩
  cases hr : r.res with
  | error e => rw [hr] at h; exact h
  | ok b =>
    rw [hr] at h
    obtain ⟨a, h1, h2⟩ := h
    exact ⟨a, h1, hq _ _ _ _ _ f h2⟩

/-- A step that only reads. -/
theorem Grows.skip {N : Nat} {α β γ : Type} {x : M α} {f : α → M γ} {s : Heap} {d : Nat} {a : α} {r : Merge.Left β} {Q : γ → β → Heap → Prop}
    (hx : x s = (.ok a, s)) (h : Grows N (f a) s d r Q) : Grows N (x >>= f) s d r Q := by
  unfold Grows at h ⊢
  rw [bind_eq_of_ok hx]
  exact h

theorem Grows.raise {N : Nat} {α β γ : Type} {x : M α} {f : α → M γ} {s : Heap} {d : Nat} {e : Err} {Q : γ → β → Heap → Prop}
    (hx : x s = (.error e, s)) : Grows N (x >>= f) s d (Merge.Left.lift (.error e) : Merge.Left β) Q :=
  ⟨s, [], [], Frame.refl N s d, .nil, .nil, bind_eq_of_error hx⟩

theorem Grows.bind {N : Nat} {α β γ δ : Type} {x : M α} {f : α → M γ} {r : Merge.Left β} {g : β → Merge.Left δ} {s : Heap} {d : Nat}
    {Q : α → β → Heap → Prop} {Q' : γ → δ → Heap → Prop} (hd : d < s.objs.length) (hx : Grows N x s d r Q)
    (hf : ∀ a b s1 k i, Frame N s s1 d k i → Q a b s1 → Grows N (f a) s1 d (g b) Q') : Grows N (x >>= f) s d (r >>= g) Q' := by
  obtain ⟨s1, k, i, f1, hk, hi, h⟩ := hx
  show Grows N (x >>= f) s d (Merge.Left.bind r g) Q'
  unfold Merge.Left.bind
  cases hr : r.res with
  | error e =>
    rw [hr] at h
    exact ⟨s1, k, i, f1, hk, hi, bind_eq_of_error h⟩
  | ok b =>
    rw [hr] at h
    obtain ⟨a, h1, h2⟩ := h
    obtain ⟨s2, k2, i2, f2, hk2, hi2, h3⟩ := hf a b s1 k i f1 h2
    refine ⟨s2, k ++ k2, i ++ i2, f1.trans f2 hd, List.rel_append (news_frame hk f2 hd) (news_mono f1.len hk2),
      List.rel_append (forall2_imp hi (fun _ _ _ hh => f2.showsItem hh)) hi2, ?_⟩
    show match (g b).res with
      | .ok b => _
      | .error e => _
    rw [bind_eq_of_ok h1]
    exact h3

/-- A result computed at the end. -/
theorem Grows.map {N : Nat} {α β γ : Type} {act : M α} {g : α → γ} {s : Heap} {d : Nat} {r : Merge.Left β} {Q : α → β → Heap → Prop}
    (h : Grows N act s d r Q) : Grows N (act >>= fun a => (pure (g a) : M γ)) s d r (fun c b s' => ∃ a, c = g a ∧ Q a b s') := by
  obtain ⟨s', k, i, f, hk, hi, h⟩ := h
  refine ⟨s', k, i, f, hk, hi, ?_⟩
  cases hr : r.res with
  | error e => rw [hr] at h; exact bind_eq_of_error h
  | ok b =>
    rw [hr] at h
    obtain ⟨a, h1, h2⟩ := h
    exact ⟨g a, by rw [bind_eq_of_ok h1]; rfl, a, rfl, h2⟩

/-- Creating an object and filling it. -/
theorem Grows.under {N : Nat} {α β : Type} {x : M Nat} {f : Nat → M α} {r : Merge.Left β} {h : Scope} {s s1 : Heap} {d c : Nat} {y : Obj}
    {Q : α → β → Heap → Prop} {Q' : α → β → Heap → Prop}
    (hx : x s = (.ok c, s1)) (hfr : Frame N s s1 d [c] []) (hc : s.objs.length ≤ c) (hlen : s.objs.length ≤ s1.objs.length)
    (hy : s1.objs[c]? = some y) (hk : y.children = []) (hi : y.items = [])
    (h1 : h.stype = y.stype) (h2 : h.name = y.name) (h3 : h.src = y.src) (h4 : h.weight = y.weight) (h5 : ShowsDu s1 y h.du) (h6 : ShowsCps s1 y h.cps)
    (hf : Grows N (f c) s1 c r Q) (hq : ∀ a b s2 k i, Frame N s1 s2 c k i → Q a b s2 → Q' a b s2) :
    Grows N (x >>= f) s d (Merge.Left.under h r) Q' := by
  obtain ⟨s2, k, i, f2, hk2, hi2, h7⟩ := hf
  refine ⟨s2, [c], [], hfr.deep f2 hc, .cons ?_ .nil, .nil, ?_⟩
  · exact new_filled hy f2 hc hlen hk hi h1 h2 h3 h4 h5 h6 hk2 hi2
  · show match r.res with
      | .ok b => _
      | .error e => _
    rw [bind_eq_of_ok hx]
    cases hr : r.res with
    | error e => rw [hr] at h7; exact h7
    | ok b =>
      rw [hr] at h7
      obtain ⟨a, h8, h9⟩ := h7
      exact ⟨a, h8, hq _ _ _ _ _ f2 h9⟩

/-! ## Bins -/

theorem mergeBinsOfKind_grows {N D : Nat} {s : Heap} {d : Nat} {x : Obj} (hx : s.objs[d]? = some x) (hc : x.cls = .coverpoint ∨ x.cls = .cross)
    {srcs : List Nat} {vs : List Scope} (h : List.Forall₂ (Old N D s) srcs vs) (kind : Nat) :
    Grows N (DbMerger.mergeBinsOfKind d srcs kind) s d (Merge.leftBinsOfKind vs kind) (fun _ _ _ => True) := by
  unfold DbMerger.mergeBinsOfKind Merge.leftBinsOfKind
  have hs := sumBins_rel h kind
  cases hr : (vs.flatMap (fun v => v.coverItems kind)).foldlM Merge.binStep [] with
  | error e => rw [hr] at hs; exact Grows.raise hs
  | ok m =>
    rw [hr] at hs
    refine Grows.skip hs ?_
    obtain ⟨a, s', k, i, h1, f, rfl, h3⟩ := makeBins_out (N := N) kind m hx hc
    exact ⟨s', [], i, f, .nil, h3, a, h1, trivial⟩

theorem mergeBins_grows {N D : Nat} {s : Heap} {d : Nat} {x : Obj} (hx : s.objs[d]? = some x) (hc : x.cls = .coverpoint ∨ x.cls = .cross)
    (hd : d = D ∨ N ≤ d) {srcs : List Nat} {vs : List Scope} (h : List.Forall₂ (Old N D s) srcs vs) :
    Grows N (DbMerger.mergeBins d srcs) s d (Merge.leftBins vs) (fun _ _ _ => True) := by
  have hl := (List.getElem?_eq_some_iff.1 hx).1
  unfold DbMerger.mergeBins Merge.leftBins
  refine Grows.bind hl (mergeBinsOfKind_grows hx hc h _) ?_
  rintro _ _ s1 k i f1 -
  obtain ⟨x1, hx1, _, _, _, hcls, _⟩ := f1.keeps hx
  refine Grows.bind (List.getElem?_eq_some_iff.1 hx1).1 (mergeBinsOfKind_grows hx1 (hcls ▸ hc) (olds_frame h f1 hd) _) ?_
  rintro _ _ s2 k i2 f2 -
  obtain ⟨x2, hx2, _, _, _, hcls2, _⟩ := f2.keeps hx1
  exact mergeBinsOfKind_grows hx2 (hcls2 ▸ hcls ▸ hc) (olds_frame (olds_frame h f1 hd) f2 hd) CT.ILLEGALBIN

/-! ## Coverpoints -/

theorem mergeCoverpoint_grows {N D : Nat} {s : Heap} (hN : N ≤ s.objs.length) {d : Nat} {x : Obj} (hx : s.objs[d]? = some x)
    (hc : x.cls = .covergroup) (hd : N ≤ d) (cps : Dict Nat)
    {e : String × List (Option Nat)} {e' : String × List (Option Scope)} (h1 : e.1 = e'.1) (h2 : Slots N D s e.2 e'.2)
    (hn : ∀ c ∈ Merge.present e'.2, c.name = e'.1) :
    Grows N (DbMerger.mergeCoverpoint d cps e) s d (Merge.leftCoverpoint e')
      (fun cps' _ s' => ∃ q, cps' = cps.set e.1 q ∧ IsCp s' d e.1 q) := by
  have hp := present_rel h2
  unfold DbMerger.mergeCoverpoint Merge.leftCoverpoint
  simp only
  rcases listGetE_rel hp s with ⟨c0, v0, hr, hv, hold, hmem⟩ | ⟨er, hr, hv⟩
  · rw [hv]
    refine Grows.skip hr (Grows.skip (getScopeName_old hold) (Grows.skip (getSourceInfo_old hold) (Grows.skip (getWeight_old hold) ?_)))
    have hcr := createCoverpoint_eq hx hc v0.name (some v0.src) v0.weight srcOTHER
    have hfr : Frame N s _ d [s.objs.length] [] := frame_attach (y := memCoverpoint d v0.name (some v0.src) v0.weight srcOTHER) hx fresh_coverpoint
      (by simp [memCoverpoint, memCvg, memScope]) (by simp [memCoverpoint, memCvg, memScope]) (by simp [memCoverpoint, memCvg, memScope])
      ⟨.createCoverpoint d v0.name (some v0.src) v0.weight srcOTHER, exec_scope rfl hcr⟩
    have hnew := withChild_new (y := memCoverpoint d v0.name (some v0.src) v0.weight srcOTHER) hx
    have hbins := mergeBins_grows (D := D) (N := N) hnew (.inl rfl) (.inr hN) (olds_frame hp hfr (.inr hd))
    have hname : v0.name = e.1 := by rw [h1]; exact hn v0 hmem
    refine Grows.under (h := mkCoverpoint v0.name v0.src v0.weight []) hcr hfr (Nat.le_refl _) (by rw [withChild_len]; omega) hnew rfl rfl rfl rfl rfl rfl
      (by simp [ShowsDu, memCoverpoint, memCvg, memScope, mkCoverpoint]) (by simp [ShowsCps, memCoverpoint, memCvg, memScope, mkCoverpoint])
      (Grows.map hbins) ?_
    rintro cps' _ s2 k i f2 ⟨_, rfl, _⟩
    exact ⟨s.objs.length, rfl, IsCp.frame ⟨_, hnew, rfl, rfl, hname⟩ f2⟩
  · rw [hv]
    exact Grows.raise hr

theorem coverpointLoop_grows {N D : Nat} {d : Nat} (hd : N ≤ d) {m : Dict (List (Option Nat))} {m' : Dict (List (Option Scope))} {s : Heap}
    (hN : N ≤ s.objs.length) {x : Obj} (hx : s.objs[d]? = some x) (hc : x.cls = .covergroup)
    (hm : DRel (Slots N D s) m m') (hn : ∀ e ∈ m', ∀ c ∈ Merge.present e.2, c.name = e.1) {cps : Dict Nat} {names : List String}
    (hcp : CpMap s d cps names) :
    Grows N (m.foldlM (DbMerger.mergeCoverpoint d) cps) s d (Merge.Left.each Merge.leftCoverpoint m')
      (fun cps' _ s' => CpMap s' d cps' (names ++ m'.map (·.1))) := by
  induction m generalizing m' s x cps names with
  | nil =>
    cases hm
    exact ⟨s, [], [], Frame.refl N s d, .nil, .nil, cps, rfl, by simpa using hcp⟩
  | cons e t ih =>
    obtain ⟨e', t', ⟨h1, h2⟩, ht, rfl⟩ := List.forall₂_cons_left_iff.1 hm
    rw [List.foldlM_cons]
    have hl := (List.getElem?_eq_some_iff.1 hx).1
    refine Grows.bind (g := fun _ => Merge.Left.each Merge.leftCoverpoint t') hl (mergeCoverpoint_grows hN hx hc hd cps h1 h2 (hn e' (by simp))) ?_
    rintro cps1 _ s1 k i f1 ⟨q, rfl, hcpq⟩
    obtain ⟨x1, hx1, _, _, _, hcls, _⟩ := f1.keeps hx
    have hrec := ih (s := s1) (x := x1) (m' := t') (Nat.le_trans hN f1.len) hx1 (hcls ▸ hc) (dslots_frame ht f1 (.inr hd))
      (fun e he => hn e (by simp [he])) (cps := cps.set e.1 q) (names := names ++ [e.1]) ⟨by
        intro n q' hg
        rw [Dict.get?_set] at hg
        split at hg
        · rename_i heq
          cases Option.some.inj hg
          exact heq ▸ hcpq
        · exact (hcp.cp n q' hg).frame f1, by
        intro n
        rw [Dict.keys_set]
        split
        · rename_i hmem
          rw [hcp.keys]
          have := (hcp.keys _).1 hmem
          constructor
          · intro h; simp [h]
          · intro h
            rcases List.mem_append.1 h with h | h
            · exact h
            · simp at h; rw [h]; exact this
        · simp [hcp.keys]⟩
    refine hrec.mono ?_
    intro cps2 _ s2 _ _ _ hc2
    simpa [h1] using hc2

theorem mergeCoverpoints_grows {N D : Nat} {d : Nat} (hd : N ≤ d) {s : Heap} (hN : N ≤ s.objs.length) {x : Obj} (hx : s.objs[d]? = some x)
    (hc : x.cls = .covergroup) {srcs : List Nat} {vs : List Scope} (h : List.Forall₂ (Old N D s) srcs vs) :
    Grows N (DbMerger.mergeCoverpoints d srcs) s d (Merge.leftCoverpoints vs) (fun cps' ns s' => CpMap s' d cps' ns) := by
  obtain ⟨m, h1, h2⟩ := collect_rel ST.COVERPOINT (forall2_imp h (fun _ _ _ hab => hab.kids))
  refine Grows.skip h1 ?_
  obtain ⟨s', k, i, f, hk, hi, h3⟩ := coverpointLoop_grows hd hN hx hc h2 (fun e he => collect_named he) (cps := []) (names := []) ⟨by simp, by simp⟩
  show Grows N _ s d (Merge.Left.bind _ _) _
  unfold Merge.Left.bind
  cases hr : (Merge.Left.each Merge.leftCoverpoint (Merge.collect ST.COVERPOINT vs)).res with
  | error e => rw [hr] at h3; exact ⟨s', k, i, f, hk, hi, h3⟩
  | ok b =>
    rw [hr] at h3
    obtain ⟨a, h4, h5⟩ := h3
    refine ⟨s', k, i, f, ?_, ?_, a, h4, ?_⟩
    · show List.Forall₂ _ k (_ ++ []); rw [List.append_nil]; exact hk
    · show List.Forall₂ _ i (_ ++ []); rw [List.append_nil]; exact hi
    · simpa using h5

/-! ## Crosses -/

theorem mergeCross_grows {N D : Nat} {s : Heap} (hN : N ≤ s.objs.length) {d : Nat} {x : Obj} (hx : s.objs[d]? = some x)
    (hc : x.cls = .covergroup) (hd : N ≤ d) {cps : Dict Nat} {names : List String} (hcp : CpMap s d cps names)
    {e : String × List Nat} {e' : String × List Scope} (h1 : e.1 = e'.1) (h2 : List.Forall₂ (Old N D s) e.2 e'.2) :
    Grows N (DbMerger.mergeCross d cps e) s d (Merge.leftCross names e') (fun _ _ _ => True) := by
  unfold DbMerger.mergeCross Merge.leftCross
  rcases listGetE_rel h2 s with ⟨c0, v0, hr, hv, hold, hmem⟩ | ⟨er, hr, hv⟩
  · rw [hv]
    refine Grows.skip hr ?_
    obtain ⟨y, hy, _, _, _, _, _, hcps, _⟩ := hold.obj
    show Grows N _ s d (match v0.cps with
      | none => Merge.Left.lift (.error .attributeError)
      | some cpNames => do
        let cps ← Merge.Left.lift (cpNames.mapM (Merge.resolveCp names))
        Merge.Left.under (mkCross e'.1 v0.src v0.weight cps []) (Merge.leftBins e'.2)) _
    by_cases hcy : y.cls = .cross
    · rw [ShowsCps, if_pos hcy] at hcps
      obtain ⟨ns, hv0, hns⟩ := hcps
      have hnum : getNumCrossedCoverpoints c0 s = (.ok y.cps.length, s) := by
        have h : getNumCrossedCoverpoints c0 s = _ := bind_eq_of_ok (obj_some hy)
        rw [hcy] at h
        exact h
      rw [hv0]
      refine Grows.skip hnum ?_
      have hres := resolve_out hy hcy hcp (l1 := []) rfl hns []
      rw [List.range_eq_range']
      show Grows N _ s d (Merge.Left.lift (ns.mapM (Merge.resolveCp names)) >>= fun cps =>
        Merge.Left.under (mkCross e'.1 v0.src v0.weight cps []) (Merge.leftBins e'.2)) _
      cases hm : ns.mapM (Merge.resolveCp names) with
      | error er => rw [hm] at hres; exact Grows.raise hres
      | ok r =>
        rw [hm] at hres
        obtain ⟨rfl, qs, hq, hqs⟩ := hres
        refine Grows.skip hq (Grows.skip (getSourceInfo_old hold) (Grows.skip (getWeight_old hold) ?_))
        rw [List.nil_append]
        have hcr := createCross_eq hx hc e.1 (some v0.src) v0.weight srcOTHER qs
        have hqcp : ∀ p ∈ qs, ∃ z, s.objs[p]? = some z ∧ z.parent = some d ∧ z.cls = .coverpoint := by
          intro p hp
          obtain ⟨n, _, h⟩ := forall2_mem hqs hp
          obtain ⟨z, hz, h1, h2, _⟩ := h
          exact ⟨z, hz, h1, h2⟩
        have hfr : Frame N s _ d [s.objs.length] [] := frame_attach (y := memCross d e.1 (some v0.src) v0.weight srcOTHER qs) hx fresh_cross
          (fun _ => hqcp) (fun _ => hc) (by simp [memCross, memCvg, memScope])
          ⟨.createCross d e.1 (some v0.src) v0.weight srcOTHER qs, exec_scope rfl hcr⟩
        have hnew := withChild_new (y := memCross d e.1 (some v0.src) v0.weight srcOTHER qs) hx
        have hbins := mergeBins_grows (D := D) (N := N) hnew (.inr rfl) (.inr hN) (olds_frame h2 hfr (.inr hd))
        refine Grows.under (h := mkCross e'.1 v0.src v0.weight r []) hcr hfr (Nat.le_refl _) (by rw [withChild_len]; omega) hnew rfl rfl rfl h1.symm rfl rfl
          (by simp [ShowsDu, memCross, memCvg, memScope, mkCross]) ?_ hbins (fun _ _ _ _ _ _ _ => trivial)
        rw [ShowsCps, if_pos (by rfl)]
        refine ⟨r, rfl, forall2_imp hqs (fun a _ b hab => ?_)⟩
        obtain ⟨z, hz, _, _, hn⟩ := hab.frame hfr
        exact ⟨z, hz, hn⟩
    · rw [ShowsCps, if_neg hcy] at hcps
      have hnum : getNumCrossedCoverpoints c0 s = (.error .attributeError, s) := by
        have h : getNumCrossedCoverpoints c0 s = _ := bind_eq_of_ok (obj_some hy)
        cases hcy' : y.cls <;> rw [hcy'] at h <;> first | exact h | exact absurd hcy' hcy
      rw [hcps]
      exact Grows.raise hnum
  · rw [hv]
    exact Grows.raise hr

theorem mergeCrosses_grows {N D : Nat} {d : Nat} (hd : N ≤ d) {s : Heap} (hN : N ≤ s.objs.length) {x : Obj} (hx : s.objs[d]? = some x)
    (hc : x.cls = .covergroup) {srcs : List Nat} {vs : List Scope} (h : List.Forall₂ (Old N D s) srcs vs) {cps : Dict Nat} {names : List String}
    (hcp : CpMap s d cps names) :
    Grows N (DbMerger.mergeCrosses d cps srcs) s d (Merge.leftCrosses names vs) (fun _ _ _ => True) := by
  obtain ⟨m, h1, h2⟩ := collectCross_rel h
  refine Grows.skip h1 ?_
  unfold Merge.leftCrosses
  generalize Merge.collectCross vs = m' at h2
  clear h h1
  induction m generalizing m' s x with
  | nil =>
    cases h2
    exact ⟨s, [], [], Frame.refl N s d, .nil, .nil, (), rfl, trivial⟩
  | cons e t ih =>
    obtain ⟨e', t', ⟨h1, h3⟩, ht, rfl⟩ := List.forall₂_cons_left_iff.1 h2
    have hl := (List.getElem?_eq_some_iff.1 hx).1
    refine Grows.bind (g := fun _ => Merge.Left.each (Merge.leftCross names) t') hl (mergeCross_grows hN hx hc hd hcp h1 h3) ?_
    rintro _ _ s1 k i f1 -
    obtain ⟨x1, hx1, _, _, _, hcls, _⟩ := f1.keeps hx
    exact ih (s := s1) (x := x1) (Nat.le_trans hN f1.len) hx1 (hcls ▸ hc) ⟨fun n q hg => (hcp.cp n q hg).frame f1, hcp.keys⟩
      (m' := t') (forall2_imp ht (fun _ _ _ hab => ⟨hab.1, olds_frame hab.2 f1 (.inr hd)⟩))

/-! ## Cover-instances and covergroups -/

/-- A loop over slots whose body creates scopes below `d`. -/
theorem forEach_grows {N D : Nat} {d : Nat} (hd : d = D ∨ N ≤ d) {f : String × List (Option Nat) → M Unit}
    {g : String × List (Option Scope) → Merge.Left Unit} (C : Obj → Prop) (hC : ∀ x y : Obj, y.cls = x.cls → C x → C y)
    (hfg : ∀ (s : Heap) (x : Obj) e e', N ≤ s.objs.length → s.objs[d]? = some x → C x → e.1 = e'.1 → Slots N D s e.2 e'.2 →
      Grows N (f e) s d (g e') (fun _ _ _ => True))
    {m : Dict (List (Option Nat))} {m' : Dict (List (Option Scope))} {s : Heap} (hN : N ≤ s.objs.length) {x : Obj} (hx : s.objs[d]? = some x)
    (hc : C x) (hm : DRel (Slots N D s) m m') :
    Grows N (DbMerger.forEach f m) s d (Merge.Left.each g m') (fun _ _ _ => True) := by
  induction m generalizing m' s x with
  | nil =>
    cases hm
    exact ⟨s, [], [], Frame.refl N s d, .nil, .nil, (), rfl, trivial⟩
  | cons e t ih =>
    obtain ⟨e', t', ⟨h1, h2⟩, ht, rfl⟩ := List.forall₂_cons_left_iff.1 hm
    have hl := (List.getElem?_eq_some_iff.1 hx).1
    refine Grows.bind (g := fun _ => Merge.Left.each g t') hl (hfg s x e e' hN hx hc h1 h2) ?_
    rintro _ _ s1 k i f1 -
    obtain ⟨x1, hx1, _, _, _, hcls, _⟩ := f1.keeps hx
    exact ih (s := s1) (x := x1) (m' := t') (Nat.le_trans hN f1.len) hx1 (hC x x1 hcls hc) (dslots_frame ht f1 hd)

theorem mergeCoverinst_grows {N D : Nat} {d : Nat} (hd : N ≤ d) {s : Heap} (hN : N ≤ s.objs.length) {x : Obj} (hx : s.objs[d]? = some x)
    (hc : x.cls = .covergroup) {e : String × List (Option Nat)} {e' : String × List (Option Scope)} (h1 : e.1 = e'.1) (h2 : Slots N D s e.2 e'.2) :
    Grows N (DbMerger.mergeCoverinst d e) s d (Merge.leftCoverinst e') (fun _ _ _ => True) := by
  have hp := present_rel h2
  unfold DbMerger.mergeCoverinst Merge.leftCoverinst
  simp only
  rcases listGetE_rel hp s with ⟨c0, v0, hr, hv, hold, hmem⟩ | ⟨er, hr, hv⟩
  · rw [hv]
    refine Grows.skip hr (Grows.skip (getSourceInfo_old hold) (Grows.skip (getWeight_old hold) ?_))
    have hcr := createCoverInstance_eq hx hc e.1 (some v0.src) v0.weight srcOTHER
    have hfr : Frame N s _ d [s.objs.length] [] := frame_attach (y := { memCovergroup d e.1 (some v0.src) v0.weight srcOTHER with stype := ST.COVERINSTANCE })
      hx fresh_coverinst
      (by simp [memCovergroup, memCvg, memScope]) (by simp [memCovergroup, memCvg, memScope]) (by simp [memCovergroup, memCvg, memScope])
      ⟨.createCoverInstance d e.1 (some v0.src) v0.weight srcOTHER, exec_scope rfl hcr⟩
    have hnew := withChild_new (y := { memCovergroup d e.1 (some v0.src) v0.weight srcOTHER with stype := ST.COVERINSTANCE }) hx
    have hp1 := olds_frame hp hfr (.inr hd)
    refine Grows.under (h := mkCoverInst e'.1 v0.src v0.weight []) (Q := fun _ _ _ => True) hcr hfr (Nat.le_refl _) (by rw [withChild_len]; omega) hnew rfl rfl rfl h1.symm rfl rfl
      (by simp [ShowsDu, memCovergroup, memCvg, memScope, mkCoverInst]) (by simp [ShowsCps, memCovergroup, memCvg, memScope, mkCoverInst]) ?_ (fun _ _ _ _ _ _ _ => trivial)
    refine Grows.bind (List.getElem?_eq_some_iff.1 hnew).1 (mergeCoverpoints_grows hN (Nat.le_trans hN hfr.len) hnew rfl hp1) ?_
    rintro cps ns s1 k i f1 hcpm
    obtain ⟨x1, hx1, _, _, _, hcls, _⟩ := f1.keeps hnew
    exact mergeCrosses_grows hN (Nat.le_trans (Nat.le_trans hN hfr.len) f1.len) hx1 hcls (olds_frame hp1 f1 (.inr hN)) hcpm
  · rw [hv]
    exact Grows.raise hr

theorem mergeCoverinsts_grows {N D : Nat} {d : Nat} (hd : N ≤ d) {s : Heap} (hN : N ≤ s.objs.length) {x : Obj} (hx : s.objs[d]? = some x)
    (hc : x.cls = .covergroup) {srcs : List Nat} {vs : List Scope} (h : List.Forall₂ (Old N D s) srcs vs) :
    Grows N (DbMerger.mergeCoverinsts d srcs) s d (Merge.leftCoverinsts vs) (fun _ _ _ => True) := by
  obtain ⟨m, h1, h2⟩ := collect_rel ST.COVERINSTANCE (forall2_imp h (fun _ _ _ hab => hab.kids))
  exact Grows.skip h1 (forEach_grows (.inr hd) (fun x => x.cls = .covergroup) (fun x y h hx => h.trans hx)
    (fun s x e e' hN hx hc h1 h2 => mergeCoverinst_grows hd hN hx hc h1 h2) hN hx hc h2)

theorem mergeCovergroupBody_grows {N D : Nat} {d : Nat} (hd : N ≤ d) {s : Heap} (hN : N ≤ s.objs.length) {x : Obj} (hx : s.objs[d]? = some x)
    (hc : x.cls = .covergroup) {srcs : List Nat} {vs : List Scope} (h : List.Forall₂ (Old N D s) srcs vs) :
    Grows N (DbMerger.mergeCovergroupBody d srcs) s d (Merge.leftCovergroupBody vs) (fun _ _ _ => True) := by
  unfold DbMerger.mergeCovergroupBody Merge.leftCovergroupBody
  have hl := (List.getElem?_eq_some_iff.1 hx).1
  refine Grows.bind hl (mergeCoverpoints_grows hd hN hx hc h) ?_
  rintro cps ws s1 k i f1 hcpm
  obtain ⟨x1, hx1, _, _, _, hcls, _⟩ := f1.keeps hx
  have hl1 := (List.getElem?_eq_some_iff.1 hx1).1
  have hN1 := Nat.le_trans hN f1.len
  have hs1 := olds_frame h f1 (.inr hd)
  refine Grows.bind hl1 (mergeCrosses_grows hd hN1 hx1 (hcls.trans hc) hs1 hcpm) ?_
  rintro _ _ s2 k2 i2 f2 -
  obtain ⟨x2, hx2, _, _, _, hcls2, _⟩ := f2.keeps hx1
  exact mergeCoverinsts_grows hd (Nat.le_trans hN1 f2.len) hx2 (hcls2.trans (hcls.trans hc)) (olds_frame hs1 f2 (.inr hd))

theorem mergeCovergroup_grows {N D : Nat} {d : Nat} (hd : d = D ∨ N ≤ d) {s : Heap} (hN : N ≤ s.objs.length) {x : Obj} (hx : s.objs[d]? = some x)
    {e : String × List (Option Nat)} {e' : String × List (Option Scope)} (h2 : Slots N D s e.2 e'.2) :
    Grows N (DbMerger.mergeCovergroup d e) s d (Merge.leftCovergroup e') (fun _ _ _ => True) := by
  have hp := present_rel h2
  unfold DbMerger.mergeCovergroup Merge.leftCovergroup
  simp only
  rcases listGetE_rel hp s with ⟨c0, v0, hr, hv, hold, hmem⟩ | ⟨er, hr, hv⟩
  · rw [hv]
    refine Grows.skip hr (Grows.skip (getScopeName_old hold) (Grows.skip (getSourceInfo_old hold) (Grows.skip (getWeight_old hold) ?_)))
    have hcr : createCovergroup d v0.name (some v0.src) v0.weight srcOTHER s = (.ok s.objs.length, s.withChild d (memCovergroup d v0.name (some v0.src) v0.weight srcOTHER)) :=
      bind_eq_of_ok (obj_some hx)
    have hfr : Frame N s _ d [s.objs.length] [] := frame_attach (y := memCovergroup d v0.name (some v0.src) v0.weight srcOTHER) hx fresh_covergroup
      (by simp [memCovergroup, memCvg, memScope]) (by simp [memCovergroup, memCvg, memScope]) (by simp [memCovergroup, memCvg, memScope])
      ⟨.createCovergroup d v0.name (some v0.src) v0.weight srcOTHER, exec_scope rfl hcr⟩
    have hnew := withChild_new (y := memCovergroup d v0.name (some v0.src) v0.weight srcOTHER) hx
    exact Grows.under (h := mkCovergroup v0.name v0.src v0.weight []) (Q := fun _ _ _ => True) hcr hfr (Nat.le_refl _) (by rw [withChild_len]; omega) hnew rfl rfl rfl rfl rfl rfl
      (by simp [ShowsDu, memCovergroup, memCvg, memScope, mkCovergroup]) (by simp [ShowsCps, memCovergroup, memCvg, memScope, mkCovergroup])
      (mergeCovergroupBody_grows hN (Nat.le_trans hN hfr.len) hnew rfl (olds_frame hp hfr hd)) (fun _ _ _ _ _ _ _ => trivial)
  · rw [hv]
    exact Grows.raise hr

theorem mergeCovergroups_grows {N D : Nat} {d : Nat} (hd : d = D ∨ N ≤ d) {s : Heap} (hN : N ≤ s.objs.length) {x : Obj} (hx : s.objs[d]? = some x)
    {srcs : List Nat} {vs : List Scope} (h : List.Forall₂ (Old N D s) srcs vs) :
    Grows N (DbMerger.mergeCovergroups d srcs) s d (Merge.leftCovergroups vs) (fun _ _ _ => True) := by
  obtain ⟨m, h1, h2⟩ := collect_rel ST.COVERGROUP (forall2_imp h (fun _ _ _ hab => hab.kids))
  exact Grows.skip h1 (forEach_grows hd (fun _ => True) (fun _ _ _ _ => trivial)
    (fun s x e e' hN hx _ _ h2 => mergeCovergroup_grows hd hN hx h2) hN hx trivial h2)

/-! ## Instances -/

theorem mergeInstance_grows {N D : Nat} {s : Heap} (hN : N ≤ s.objs.length) {x : Obj} (hx : s.objs[D]? = some x) (hc : x.cls = .db)
    {e : String × List (Option Nat)} {e' : String × List (Option Scope)} (h2 : Slots N D s e.2 e'.2) :
    Grows N (DbMerger.mergeInstance D e) s D (Merge.leftInstance e') (fun _ _ _ => True) := by
  have hp := present_rel h2
  unfold DbMerger.mergeInstance Merge.leftInstance
  simp only
  rcases listGetE_rel hp s with ⟨c0, v0, hr, hv, hold, hmem⟩ | ⟨er, hr, hv⟩
  · rw [hv]
    refine Grows.skip hr ?_
    rcases getInstanceDu_old hold with ⟨hd, hg⟩ | ⟨du, z, hg, hz, hd⟩
    · show Grows N _ s D (match v0.du with
        | none => Merge.Left.lift (.error .attributeError)
        | some du => _) _
      rw [hd]
      exact Grows.raise hg
    · show Grows N _ s D (match v0.du with
        | none => Merge.Left.lift (.error .attributeError)
        | some du => do
          Merge.Left.under (mkDu du.name du.src du.weight) (pure ())
          Merge.Left.under (mkInstance v0.name v0.src 1 (some du) []) (Merge.leftCovergroups (Merge.present e'.2))) _
      rw [hd]
      have g1 : getScopeName du s = (.ok z.name, s) := bind_eq_of_ok (obj_some hz)
      have g2 : getSourceInfo du s = (.ok z.src, s) := bind_eq_of_ok (obj_some hz)
      have g3 : getWeight du s = (.ok z.weight, s) := bind_eq_of_ok (obj_some hz)
      refine Grows.skip hg (Grows.skip g1 (Grows.skip g2 (Grows.skip g3 ?_)))
      -- the design unit
      have hcr : createScope D z.name (some z.src) z.weight srcOTHER ST.DU_MODULE DbMerger.duFlags s =
          (.ok s.objs.length, s.withChild D (memScope .unit (some D) z.name (some z.src) z.weight srcOTHER ST.DU_MODULE DbMerger.duFlags)) := by
        rw [createScope_eq hx, hc]
        have : ST.duAny ST.DU_MODULE = true := by decide
        simp [this]
      have hfr : Frame N s _ D [s.objs.length] [] := frame_attach
        (y := memScope .unit (some D) z.name (some z.src) z.weight srcOTHER ST.DU_MODULE DbMerger.duFlags) hx fresh_scope
        (by simp [memScope]) (by simp [memScope]) (by simp [memScope])
        ⟨.createScope D z.name (some z.src) z.weight srcOTHER ST.DU_MODULE DbMerger.duFlags, exec_scope rfl hcr⟩
      have hnew := withChild_new (y := memScope .unit (some D) z.name (some z.src) z.weight srcOTHER ST.DU_MODULE DbMerger.duFlags) hx
      have hlen := withChild_len (s := s) (d := D) (y := memScope .unit (some D) z.name (some z.src) z.weight srcOTHER ST.DU_MODULE DbMerger.duFlags)
      generalize hs1 : s.withChild D (memScope .unit (some D) z.name (some z.src) z.weight srcOTHER ST.DU_MODULE DbMerger.duFlags) = s1 at hcr hfr hnew hlen
      have hD := (List.getElem?_eq_some_iff.1 hx).1
      have hfirst : Grows N (createScope D z.name (some z.src) z.weight srcOTHER ST.DU_MODULE DbMerger.duFlags) s D
          (Merge.Left.under (mkDu z.name z.src z.weight) (pure ())) (fun a _ s' => a = s.objs.length ∧ s1 = s') := by
        refine ⟨s1, [s.objs.length], [], hfr, .cons ?_ .nil, .nil, s.objs.length, hcr, rfl, rfl⟩
        exact ⟨1, Nat.le_refl _, _, hnew, rfl, rfl, rfl, rfl, by simp [ShowsDu, memScope, mkDu], by simp [ShowsCps, memScope, mkDu], .nil, .nil⟩
      refine Grows.bind (g := fun _ => Merge.Left.under (mkInstance v0.name v0.src 1 (some ⟨z.name, z.src, z.weight⟩) []) (Merge.leftCovergroups (Merge.present e'.2)))
        hD hfirst ?_
      rintro _ _ _ _ _ - ⟨rfl, rfl⟩
      obtain ⟨x1, hx1, _, _, _, hcls, _⟩ := hfr.keeps hx
      have hold1 := hold.frame hfr (.inl rfl)
      have hN1 := Nat.le_trans hN hfr.len
      refine Grows.skip (getScopeName_old hold1) (Grows.skip (getSourceInfo_old hold1) ?_)
      -- the instance
      have hci : createInstance D v0.name (some v0.src) 1 srcOTHER ST.INSTANCE (some s.objs.length) DbMerger.instFlags s1 =
          (.ok s1.objs.length, s1.withChild D (memInstance D v0.name (some v0.src) 1 srcOTHER ST.INSTANCE (some s.objs.length) DbMerger.instFlags)) :=
        bind_eq_of_ok (obj_some hx1)
      have hfr1 : Frame N s1 _ D [s1.objs.length] [] := frame_attach
        (y := memInstance D v0.name (some v0.src) 1 srcOTHER ST.INSTANCE (some s.objs.length) DbMerger.instFlags) hx1 fresh_instance
        (by simp [memInstance, memScope]) (by simp [memInstance, memScope])
        (by
          intro u hu
          simp only [memInstance, memScope, Option.some.injEq] at hu
          subst hu
          exact ⟨hN, rfl, _, hnew, rfl⟩)
        ⟨.createInstance D v0.name (some v0.src) 1 srcOTHER ST.INSTANCE (some s.objs.length) DbMerger.instFlags, exec_scope rfl hci⟩
      have hnew1 := withChild_new (y := memInstance D v0.name (some v0.src) 1 srcOTHER ST.INSTANCE (some s.objs.length) DbMerger.instFlags) hx1
      have hlen1 := withChild_len (s := s1) (d := D) (y := memInstance D v0.name (some v0.src) 1 srcOTHER ST.INSTANCE (some s.objs.length) DbMerger.instFlags)
      generalize hs2 : s1.withChild D (memInstance D v0.name (some v0.src) 1 srcOTHER ST.INSTANCE (some s.objs.length) DbMerger.instFlags) = s2
        at hci hfr1 hnew1 hlen1
      refine Grows.under (h := mkInstance v0.name v0.src 1 (some ⟨z.name, z.src, z.weight⟩) []) (Q := fun _ _ _ => True) hci hfr1 (Nat.le_refl _) (by omega) hnew1
        rfl rfl rfl rfl rfl rfl ?_ (by simp [ShowsCps, memInstance, memScope, mkInstance])
        (mergeCovergroups_grows (d := s1.objs.length) (.inr hN1) (Nat.le_trans hN1 hfr1.len) hnew1
          (olds_frame (olds_frame hp hfr (.inl rfl)) hfr1 (.inl rfl))) (fun _ _ _ _ _ _ _ => trivial)
      show ShowsDu s2 _ (some ⟨z.name, z.src, z.weight⟩)
      have h0 := hfr1.old _ _ hnew
      rw [if_neg (by omega)] at h0
      exact ⟨.inl rfl, _, h0, rfl⟩
  · rw [hv]
    exact Grows.raise hr

/-- The whole merge. -/
theorem merge_grows {N D : Nat} {s : Heap} (hN : N ≤ s.objs.length) {x : Obj} (hx : s.objs[D]? = some x) (hc : x.cls = .db)
    {srcs : List Nat} {vs : List Scope} (h : List.Forall₂ (Kids N D s) srcs vs) :
    Grows N (DbMerger.merge D srcs) s D (Merge.leftMerge vs) (fun _ _ _ => True) := by
  obtain ⟨m, h1, h2⟩ := collect_rel ST.INSTANCE h
  exact Grows.skip h1 (forEach_grows (.inl rfl) (fun x => x.cls = .db) (fun x y h hx => h.trans hx)
    (fun s x e e' hN hx hc _ h2 => mergeInstance_grows hN hx hc h2) hN hx hc h2)

/-! ## C84: outcome and content depend on the contents only -/

/-- The destination after any merge. -/
theorem merge_leaves {cs : List Call} {dst : Nat} {x : Obj} (hx : (run Heap.empty cs).objs[dst]? = some x) (hc : x.cls = .db) {v : Scope}
    (hv : Shows (run Heap.empty cs) dst v) {srcs : List Nat} {vs : List Scope} (h : List.Forall₂ (Shows (run Heap.empty cs)) srcs vs)
    {r : Except Err Unit} {s' : Heap} (hm : DbMerger.merge dst srcs (run Heap.empty cs) = (r, s')) :
    r = (Merge.leftMerge vs).res ∧ Shows s' dst (Merge.leftIn v vs) := by
  obtain ⟨s1, k, i, f, hk, hi, h1⟩ := merge_grows (Nat.le_refl _) hx hc (forall2_imp h (fun _ _ _ hab => shows_kids hx hc hab))
  have hkids := shows_kids hx hc hv
  have hs : s1 = s' ∧ r = (Merge.leftMerge vs).res := by
    cases hr : (Merge.leftMerge vs).res with
    | error e => rw [hr, hm] at h1; cases h1; exact ⟨rfl, rfl⟩
    | ok b =>
      rw [hr, hm] at h1
      obtain ⟨a, h1, _⟩ := h1
      cases h1
      exact ⟨rfl, rfl⟩
  obtain ⟨rfl, hr⟩ := hs
  refine ⟨hr, ?_⟩
  rw [Merge.leftMerge_items] at hi
  cases hi
  obtain ⟨n, hn⟩ := hv
  cases n with
  | zero => exact hn.elim
  | succ n =>
    obtain ⟨_, y, hy, a1, a2, a3, a4, a5, a6, a7, a8⟩ := hn
    obtain ⟨y2, hy2, hold⟩ := hkids
    rw [hy] at hy2
    cases hy2
    have hd := f.old dst y hy
    rw [if_pos rfl] at hd
    have hch : List.Forall₂ (fun o v => ∃ n, ShowsIn (fun _ => True) s1 n o v) (y.children ++ k) (v.children ++ (Merge.leftMerge vs).kids) := by
      refine List.rel_append ?_ ?_
      · refine forall2_imp hold ?_
        rintro a _ b ⟨n, hab⟩
        exact ⟨n, showsIn_mono (fun _ _ => trivial) (Nat.le_refl _) (f.showsIn (by simp) hab)⟩
      · refine forall2_imp hk ?_
        rintro a _ b ⟨n, hab⟩
        exact ⟨n, showsIn_mono (fun _ _ => trivial) (Nat.le_refl _) hab⟩
    obtain ⟨m, hm'⟩ := showsIn_list hch
    refine ⟨m + 1, trivial, _, hd, a1, a2, a3, a4, ?_, ?_, hm', ?_⟩
    · exact f.showsDu a5
    · exact f.showsCps a6
    · simpa [grow, Merge.leftIn] using forall2_imp a8 (fun _ _ _ hab => f.showsItem hab)

/-- **C84.** Two merges whose inputs and destinations show the same, in whatever stores and with whatever sharing, have
the same outcome, and afterwards the destinations show the same, whether the merges raised or not. -/
theorem C84_copies {cs cs' : List Call} {dst dst' : Nat} {x x' : Obj} (hx : (run Heap.empty cs).objs[dst]? = some x) (hc : x.cls = .db)
    (hx' : (run Heap.empty cs').objs[dst']? = some x') (hc' : x'.cls = .db) {v : Scope} (hv : Shows (run Heap.empty cs) dst v)
    (hv' : Shows (run Heap.empty cs') dst' v) {srcs srcs' : List Nat} {vs : List Scope} (h : List.Forall₂ (Shows (run Heap.empty cs)) srcs vs)
    (h' : List.Forall₂ (Shows (run Heap.empty cs')) srcs' vs) :
    (DbMerger.merge dst srcs (run Heap.empty cs)).1 = (DbMerger.merge dst' srcs' (run Heap.empty cs')).1 ∧
    ∃ w, Shows (DbMerger.merge dst srcs (run Heap.empty cs)).2 dst w ∧ Shows (DbMerger.merge dst' srcs' (run Heap.empty cs')).2 dst' w := by
  obtain ⟨a1, a2⟩ := merge_leaves hx hc hv h (r := (DbMerger.merge dst srcs (run Heap.empty cs)).1) rfl
  obtain ⟨b1, b2⟩ := merge_leaves hx' hc' hv' h' (r := (DbMerger.merge dst' srcs' (run Heap.empty cs')).1) rfl
  exact ⟨a1.trans b1.symm, _, a2, b2⟩

/-! ## C122: what a failed merge leaves behind -/

/-- **C122.** Whether or not the merge raises, afterwards each bin of a coverpoint or cross of the destination is one that was there before, or the
one new bin of its place, with the complete sum of the counts of the inputs there: no count is ever left half added, and no bin is there twice. -/
theorem C122_whole_bins {cs : List Call} {dst : Nat} {x : Obj} (hx : (run Heap.empty cs).objs[dst]? = some x) (hc : x.cls = .db) {v : Scope}
    (hv : Shows (run Heap.empty cs) dst v) {srcs : List Nat} {vs : List Scope} (h : List.Forall₂ (Shows (run Heap.empty cs)) srcs vs)
    {r : Except Err Unit} {s' : Heap} (hm : DbMerger.merge dst srcs (run Heap.empty cs) = (r, s')) :
    ∃ w, Shows s' dst w ∧ ∀ {p : Addr}, LeafAddr p → ∀ {k : Nat}, IsKind k → ∀ b,
      binsAt p k b w = binsAt p k b v ∨
      ∃ it, binsAt p k b w = binsAt p k b v ++ [it] ∧ it.name = b ∧ it.kind = k ∧ it.count = sumCounts (Spec.itemsOf k b (contrib p vs)) :=
  ⟨_, (merge_leaves hx hc hv h hm).2, fun hp _ hk b => (Merge.binsAt_left hp hk b v vs).imp id
    (fun ⟨_, h⟩ => ⟨_, h, rfl, rfl, rfl⟩)⟩

/-- **C122.** For inputs without same-named siblings: the total at a place is unchanged, or has grown by the totals of all inputs. -/
theorem C122_totals {cs : List Call} {dst : Nat} {x : Obj} (hx : (run Heap.empty cs).objs[dst]? = some x) (hc : x.cls = .db) {v : Scope}
    (hv : Shows (run Heap.empty cs) dst v) {srcs : List Nat} {vs : List Scope} (h : List.Forall₂ (Shows (run Heap.empty cs)) srcs vs)
    (hu : ∀ u ∈ vs, UniqueNames u) {r : Except Err Unit} {s' : Heap} (hm : DbMerger.merge dst srcs (run Heap.empty cs) = (r, s')) :
    ∃ w, Shows s' dst w ∧ ∀ {p : Addr}, LeafAddr p → ∀ {k : Nat}, IsKind k → ∀ b,
      total p k b w = total p k b v ∨ total p k b w = total p k b v + (vs.map (total p k b)).sum := by
  refine ⟨_, (merge_leaves hx hc hv h hm).2, fun {p} hp {k} hk b => ?_⟩
  rcases Merge.binsAt_left hp hk b v vs with h1 | ⟨_, h1⟩
  · exact .inl (by unfold total; rw [h1])
  · refine .inr ?_
    unfold total
    rw [h1, Merge.itemsOf_contrib_of_unique (.leaf hp) hu, ← sumCounts_flatMap]
    simp [sumCounts, mkBin]

/-- **C122.** The instances are treated one after the other, in the order in which their names appear first in the inputs, and the merge stops at the
first whose part of the inputs cannot be merged: those before it are complete, those after it have not been begun. -/
theorem C122_in_order {cs : List Call} {dst : Nat} {x : Obj} (hx : (run Heap.empty cs).objs[dst]? = some x) (hc : x.cls = .db) {v : Scope}
    (hv : Shows (run Heap.empty cs) dst v) {srcs : List Nat} {vs : List Scope} (h : List.Forall₂ (Shows (run Heap.empty cs)) srcs vs)
    {e : Err} {s' : Heap} (hm : DbMerger.merge dst srcs (run Heap.empty cs) = (.error e, s')) :
    ∃ w done n rest, Shows s' dst w ∧
      firstSeen (vs.flatMap (fun u => (u.scopes ST.INSTANCE).map (·.name))) = done ++ n :: rest ∧
      (∀ i ∈ done, ∃ o, Merge.merge emptyDb (vs.map (onlyNamed i)) = .ok o) ∧ Merge.merge emptyDb (vs.map (onlyNamed n)) = .error e ∧
      (∀ {i : String} {q : Addr}, i ∈ done → LeafAddr ((ST.INSTANCE, i) :: q) → ∀ {k : Nat}, IsKind k → ∀ b,
        (Spec.itemsOf k b (contrib ((ST.INSTANCE, i) :: q) vs) ≠ [] → (binsAt ((ST.INSTANCE, i) :: q) k b w).length = (binsAt ((ST.INSTANCE, i) :: q) k b v).length + 1) ∧
        total ((ST.INSTANCE, i) :: q) k b w = total ((ST.INSTANCE, i) :: q) k b v + sumCounts (Spec.itemsOf k b (contrib ((ST.INSTANCE, i) :: q) vs))) ∧
      (∀ {i : String} {q : Addr}, i ∈ rest → reach ((ST.INSTANCE, i) :: q) w = reach ((ST.INSTANCE, i) :: q) v) := by
  obtain ⟨h1, h2⟩ := merge_leaves hx hc hv h hm
  obtain ⟨done, n, rest, h3, h7, h8, h4⟩ := Merge.left_split h1.symm
  refine ⟨_, done, n, rest, h2, h3, fun i hi => ?_, ?_, ?_, fun hi => (h4 v _ _).2 hi⟩
  · rw [Merge.merge_left, h7 i hi]; exact ⟨_, rfl⟩
  · rw [Merge.merge_left, h8]; rfl
  intro i q hi hp k hk b
  have h5 : binsAt ((ST.INSTANCE, i) :: q) k b (Merge.leftIn v vs) = binsAt ((ST.INSTANCE, i) :: q) k b (Merge.pMerge v vs) := by
    unfold binsAt
    rw [(h4 v i q).1 hi]
  unfold total
  rw [h5, Merge.binsAt_merge hp hk]
  split
  · rename_i h6
    simp [h6, sumCounts]
  · exact ⟨by simp, by simp [sumCounts, mkBin]⟩

/-- The database of `sample` with a second instance, which has no design unit, and a third one; and an empty database. -/
def stuck : List Call := sample ++ [.createInstance 0 "j" none 1 1 ST.INSTANCE none 0, .createInstance 0 "k" none 1 1 ST.INSTANCE (some 1) 0, .newDb]

theorem stuck_real : RealCalls Heap.empty stuck := by
  refine ⟨trivial, trivial, ?_, trivial, trivial, trivial, trivial, ?_, ?_, trivial, trivial⟩
  · intro u hu
    cases hu
    decide
  · intro u hu
    cases hu
  · intro u hu
    cases hu
    decide

/-- **C122** and **C84** apply to a merge that raises: one database twice, the second of its three instances has no design unit. -/
example : ∃ x v vs s', (run Heap.empty stuck).objs[7]? = some x ∧ x.cls = .db ∧ Shows (run Heap.empty stuck) 7 v ∧
    List.Forall₂ (Shows (run Heap.empty stuck)) [0, 0] vs ∧ DbMerger.merge 7 [0, 0] (run Heap.empty stuck) = (.error .attributeError, s') ∧
    (s'.objs.map (·.children)).drop 7 = [[8, 9], [], [10], [11], []] ∧ s'.datas.map (·.count) = [3, 0, 6, 0] := by
  obtain ⟨vs, hvs⟩ := shows_all stuck_real (srcs := [0, 0]) (by decide)
  obtain ⟨v, hv⟩ := shows_exists (run_solid stuck_real) (o := 7) (by decide)
  have h1 : (match (DbMerger.merge 7 [0, 0] (run Heap.empty stuck)).1 with
    | .error e => some e
    | .ok _ => none) = some Err.attributeError := by decide +kernel
  have h2 : ((DbMerger.merge 7 [0, 0] (run Heap.empty stuck)).2.objs.map (·.children)).drop 7 = [[8, 9], [], [10], [11], []] := by decide +kernel
  have h3 : (DbMerger.merge 7 [0, 0] (run Heap.empty stuck)).2.datas.map (·.count) = [3, 0, 6, 0] := by decide +kernel
  have h4 : ∃ x, (run Heap.empty stuck).objs[7]? = some x ∧ x.cls = .db := ⟨_, rfl, rfl⟩
  obtain ⟨x, h4, h5⟩ := h4
  generalize DbMerger.merge 7 [0, 0] (run Heap.empty stuck) = g at h1 h2 h3 ⊢
  obtain ⟨r, s'⟩ := g
  refine ⟨x, v, vs, s', h4, h5, hv, hvs, ?_, h2, h3⟩
  cases r with
  | error e => cases h1; rfl
  | ok u => cases h1

end Store
end Verif
