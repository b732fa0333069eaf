import Verif.StoreMergeOut
/-!
# The merge on objects refines the merge on trees
-/

namespace Verif
namespace Store
open Spec

/-- A slot list of the grouping: the entry of a name holds scopes of that name only, and at least one. -/
theorem collect_named {mask : Nat} {vs : List Scope} {e : String × List (Option Scope)} (he : e ∈ Merge.collect mask vs) :
    ∀ c ∈ Merge.present e.2, c.name = e.1 := by
  rw [Merge.collect_closed] at he
  obtain ⟨k, _, rfl⟩ := List.mem_map.1 he
  intro c hc
  simp only [Merge.present, List.mem_filterMap, List.mem_map, id] at hc
  obtain ⟨o, ⟨v, _, rfl⟩, h⟩ := hc
  exact (Merge.lastNamed_name h).1

theorem listGetE_rel {α β : Type} {R : α → β → Prop} {l : List α} {l' : List β} (h : List.Forall₂ R l l') (s : Heap) :
    (∃ a b, (read (fun _ => listGetE l 0) : M α) s = (.ok a, s) ∧ listGetE l' 0 = .ok b ∧ R a b ∧ b ∈ l') ∨
    (∃ e, (read (fun _ => listGetE l 0) : M α) s = (.error e, s) ∧ listGetE l' 0 = .error e) := by
  cases h with
  | nil => exact .inr ⟨_, rfl, rfl⟩
  | cons hab _ => exact .inl ⟨_, _, rfl, rfl, hab, by simp⟩

/-! ## Coverpoints -/

theorem createCoverpoint_eq {s : Heap} {d : Nat} {x : Obj} (hx : s.objs[d]? = some x) (hc : x.cls = .covergroup) (n : String) (src : Option SrcInfo)
    (w so : Int) : createCoverpoint d n src w so s = (.ok s.objs.length, s.withChild d (memCoverpoint d n src w so)) := by
  have h : createCoverpoint d n src w so s = _ := bind_eq_of_ok (obj_some hx)
  rw [hc] at h
  exact h

theorem createCross_eq {s : Heap} {d : Nat} {x : Obj} (hx : s.objs[d]? = some x) (hc : x.cls = .covergroup) (n : String) (src : Option SrcInfo)
    (w so : Int) (cps : List Nat) : createCross d n src w so cps s = (.ok s.objs.length, s.withChild d (memCross d n src w so cps)) := by
  have h : createCross d n src w so cps s = _ := bind_eq_of_ok (obj_some hx)
  rw [hc] at h
  exact h

theorem exec_scope {s s' : Heap} {c : Call} {act : M Nat} {o : Nat} (he : exec c = (do return .scope (← act))) (h : act s = (.ok o, s')) :
    (exec c s).2 = s' := by
  rw [he, bind_eq_of_ok h]; rfl

/-- `q` is a coverpoint of `d` with the name `n`. -/
def IsCp (s : Heap) (d : Nat) (n : String) (q : Nat) : Prop :=
  ∃ z, s.objs[q]? = some z ∧ z.parent = some d ∧ z.cls = .coverpoint ∧ z.name = n

theorem IsCp.frame {N : Nat} {s s' : Heap} {d d' : Nat} {k i : List Nat} {n : String} {q : Nat} (h : IsCp s d n q) (f : Frame N s s' d' k i) :
    IsCp s' d n q := by
  obtain ⟨z, hz, h1, h2, h3⟩ := h
  obtain ⟨z', hz', h4, _, _, h5, h6⟩ := f.keeps hz
  exact ⟨z', hz', by rw [h6, h1], by rw [h5, h2], by rw [h4, h3]⟩

theorem Outcome.map {N : Nat} {α β γ : Type} {act : M α} {g : α → γ} {s : Heap} {d : Nat} {r : Except Err β}
    {Q : α → β → Heap → List Nat → List Nat → Prop} (h : Outcome N act s d r Q) :
    Outcome N (act >>= fun a => (pure (g a) : M γ)) s d r (fun c v s' k i => ∃ a, c = g a ∧ Q a v s' k i) := by
  cases r with
  | error e =>
    obtain ⟨s', k, i, h1, h2⟩ := h
    exact ⟨s', k, i, bind_eq_of_error h1, h2⟩
  | ok v =>
    obtain ⟨a, s', k, i, h1, h2, h3⟩ := h
    exact ⟨g a, s', k, i, by rw [bind_eq_of_ok h1]; rfl, h2, a, rfl, h3⟩

theorem mergeCoverpoint_out {N D : Nat} {s : Heap} (hN : N ≤ s.objs.length) {d : Nat} {x : Obj} (hx : s.objs[d]? = some x)
    (hc : x.cls = .covergroup) (hd : N ≤ d) (cps : Dict Nat)
    {e : String × List (Option Nat)} {e' : String × List (Option Scope)} (h1 : e.1 = e'.1) (h2 : Slots N D s e.2 e'.2)
    (hn : ∀ c ∈ Merge.present e'.2, c.name = e'.1) :
    Outcome N (DbMerger.mergeCoverpoint d cps e) s d (Merge.mergeCoverpoint e')
      (fun cps' v s' k i => v.name = e.1 ∧ i = [] ∧ ∃ q, cps' = cps.set e.1 q ∧ k = [q] ∧ New s.objs.length s' q v ∧ IsCp s' d e.1 q) := by
  have hp := present_rel h2
  unfold DbMerger.mergeCoverpoint Merge.mergeCoverpoint
  simp only
  rcases listGetE_rel hp s with ⟨c0, v0, hr, hv, hold, hmem⟩ | ⟨er, hr, hv⟩
  · rw [hv]
    refine Outcome.skip hr (Outcome.skip (getScopeName_old hold) (Outcome.skip (getSourceInfo_old hold) (Outcome.skip (getWeight_old hold) ?_)))
    have hcr := createCoverpoint_eq hx hc v0.name (some v0.src) v0.weight srcOTHER
    have hfr : Frame N s _ d [s.objs.length] [] := frame_attach (y := memCoverpoint d v0.name (some v0.src) v0.weight srcOTHER) hx fresh_coverpoint
      (by simp [memCoverpoint, memCvg, memScope]) (by simp [memCoverpoint, memCvg, memScope]) (by simp [memCoverpoint, memCvg, memScope])
      ⟨.createCoverpoint d v0.name (some v0.src) v0.weight srcOTHER, exec_scope rfl hcr⟩
    have hnew := withChild_new (y := memCoverpoint d v0.name (some v0.src) v0.weight srcOTHER) hx
    have hbins := mergeBins_out (D := D) (N := N) hnew (.inl rfl) (.inr hN) (olds_frame hp hfr (.inr hd))
    refine Outcome.create (w := fun bins => mkCoverpoint v0.name v0.src v0.weight bins) hcr hfr (Nat.le_refl _) (fun _ => rfl) (Outcome.map hbins) ?_
    rintro cps' its s2 k i f2 ⟨_, rfl, rfl, hits⟩
    have hname : v0.name = e.1 := by rw [h1]; exact hn v0 hmem
    refine ⟨hname, rfl, s.objs.length, rfl, rfl, ?_, ?_⟩
    · exact new_filled hnew f2 (Nat.le_refl _) (by rw [withChild_len]; omega) rfl rfl rfl rfl rfl rfl (by simp [ShowsDu, memCoverpoint, memCvg, memScope, mkCoverpoint])
        (by simp [ShowsCps, memCoverpoint, memCvg, memScope, mkCoverpoint]) .nil hits
    · exact IsCp.frame ⟨_, hnew, rfl, rfl, hname⟩ f2
  · rw [hv]
    exact Outcome.raise hr

/-- The dictionary of merged coverpoints. -/
structure CpMap (s : Heap) (d : Nat) (cps : Dict Nat) (names : List String) : Prop where
  cp : ∀ n q, cps.get? n = some q → IsCp s d n q
  keys : ∀ n, n ∈ cps.keys ↔ n ∈ names

theorem news_frame {N m : Nat} {s s' : Heap} {d : Nat} {k i : List Nat} {l : List Nat} {vs : List Scope}
    (h : List.Forall₂ (New m s) l vs) (f : Frame N s s' d k i) (hd : d < m) : List.Forall₂ (New m s') l vs :=
  forall2_imp h (fun _ _ _ hab => hab.frame f hd)

theorem news_mono {m m' : Nat} (hm : m' ≤ m) {s : Heap} {l : List Nat} {vs : List Scope} (h : List.Forall₂ (New m s) l vs) :
    List.Forall₂ (New m' s) l vs := forall2_imp h (fun _ _ _ hab => hab.mono hm)

theorem slots_frame {N D : Nat} {s s' : Heap} {d : Nat} {k i : List Nat} {l : List (Option Nat)} {vs : List (Option Scope)}
    (h : Slots N D s l vs) (f : Frame N s s' d k i) (hd : d = D ∨ N ≤ d) : Slots N D s' l vs :=
  forall2_imp h (fun a _ b hab => by
    cases hab with
    | none => exact .none
    | some h => exact .some (h.frame f hd))

theorem dslots_frame {N D : Nat} {s s' : Heap} {d : Nat} {k i : List Nat} {m : Dict (List (Option Nat))} {m' : Dict (List (Option Scope))}
    (h : DRel (Slots N D s) m m') (f : Frame N s s' d k i) (hd : d = D ∨ N ≤ d) : DRel (Slots N D s') m m' :=
  forall2_imp h (fun _ _ _ hab => ⟨hab.1, slots_frame hab.2 f hd⟩)

theorem coverpointLoop_out {N D : Nat} {d : Nat} (hd : N ≤ d) {m : Dict (List (Option Nat))} {m' : Dict (List (Option Scope))} {s : Heap}
    (hN : N ≤ s.objs.length) {x : Obj} (hx : s.objs[d]? = some x) (hc : x.cls = .covergroup)
    (hm : DRel (Slots N D s) m m') (hn : ∀ e ∈ m', ∀ c ∈ Merge.present e.2, c.name = e.1) {cps : Dict Nat} {names : List String}
    (hcp : CpMap s d cps names) :
    Outcome N (m.foldlM (DbMerger.mergeCoverpoint d) cps) s d (m'.mapM Merge.mergeCoverpoint)
      (fun cps' vs s' k i => i = [] ∧ List.Forall₂ (New s.objs.length s') k vs ∧ CpMap s' d cps' (names ++ vs.map (·.name))) := by
  induction m generalizing m' s x cps names with
  | nil =>
    cases hm
    exact ⟨cps, s, [], [], rfl, Frame.refl N s d, rfl, .nil, by simpa using hcp⟩
  | cons e t ih =>
    obtain ⟨e', t', ⟨h1, h2⟩, ht, rfl⟩ := List.forall₂_cons_left_iff.1 hm
    rw [List.foldlM_cons, List.mapM_cons]
    have hl := (List.getElem?_eq_some_iff.1 hx).1
    refine Outcome.bind hl (mergeCoverpoint_out hN hx hc hd cps h1 h2 (hn e' (by simp))) ?_
    rintro cps1 v s1 k i f1 ⟨hv, rfl, q, rfl, rfl, hnew, hcpq⟩
    obtain ⟨x1, hx1, _, _, _, hcls, _⟩ := f1.keeps hx
    have hrec := ih (s := s1) (x := x1) (m' := t') (Nat.le_trans hN f1.len) hx1 (hcls ▸ hc) (dslots_frame ht f1 (.inr hd))
      (fun e he => hn e (by simp [he])) (cps := cps.set e.1 q) (names := names ++ [v.name]) ⟨by
        intro n q' hg
        rw [Dict.get?_set] at hg
        split at hg
        · rename_i heq
          cases Option.some.inj hg
          exact heq ▸ hcpq
        · exact (hcp.cp n q' hg).frame f1, by
        intro n
        rw [Dict.keys_set]
        split
        · rename_i hmem
          rw [hcp.keys]
          have := (hcp.keys _).1 hmem
          constructor
          · intro h; simp [h]
          · intro h
            rcases List.mem_append.1 h with h | h
            · exact h
            · simp at h; rw [h, hv]; exact this
        · simp [hcp.keys, hv]⟩
    unfold Outcome at hrec ⊢
    cases hr : t'.mapM Merge.mergeCoverpoint with
    | error er => rw [hr] at hrec; exact hrec
    | ok vs =>
      rw [hr] at hrec
      obtain ⟨cps2, s2, k2, i2, hrun, f2, rfl, hk2, hc2⟩ := hrec
      refine ⟨cps2, s2, k2, [], hrun, f2, rfl, ?_, ?_⟩
      · exact .cons (hnew.frame f2 hl) (news_mono f1.len hk2)
      · simpa using hc2

theorem mergeCoverpoints_out {N D : Nat} {d : Nat} (hd : N ≤ d) {s : Heap} (hN : N ≤ s.objs.length) {x : Obj} (hx : s.objs[d]? = some x)
    (hc : x.cls = .covergroup) {srcs : List Nat} {vs : List Scope} (h : List.Forall₂ (Old N D s) srcs vs) :
    Outcome N (DbMerger.mergeCoverpoints d srcs) s d (Merge.mergeCoverpoints vs)
      (fun cps' ws s' k i => i = [] ∧ List.Forall₂ (New s.objs.length s') k ws ∧ CpMap s' d cps' (ws.map (·.name))) := by
  obtain ⟨m, h1, h2⟩ := collect_rel ST.COVERPOINT (forall2_imp h (fun _ _ _ hab => hab.kids))
  exact Outcome.skip h1 (coverpointLoop_out hd hN hx hc h2 (fun e he => collect_named he) (names := []) ⟨by simp, by simp⟩)

theorem forall2_mem {α β : Type} {R : α → β → Prop} {l : List α} {m : List β} (h : List.Forall₂ R l m) {a : α} (ha : a ∈ l) :
    ∃ b ∈ m, R a b := by
  induction h with
  | nil => cases ha
  | cons hab _ ih =>
    rcases List.mem_cons.1 ha with rfl | ha
    · exact ⟨_, by simp, hab⟩
    · obtain ⟨b, hb, h⟩ := ih ha
      exact ⟨b, by simp [hb], h⟩

/-! ## Crosses -/

theorem resolve_out {s : Heap} {d c0 : Nat} {x : Obj} (hx : s.objs[c0]? = some x) (hc : x.cls = .cross) {cps : Dict Nat} {names : List String}
    (hcp : CpMap s d cps names) {l1 l2 : List Nat} (hl : x.cps = l1 ++ l2) {ns : List String} (hns : List.Forall₂ (ShowsName s) l2 ns) (acc : List Nat) :
    match ns.mapM (Merge.resolveCp names) with
    | .ok r => r = ns ∧ ∃ qs, (List.range' l1.length l2.length).foldlM (DbMerger.resolveCp cps c0) acc s = (.ok (acc ++ qs), s) ∧
        List.Forall₂ (fun q n => IsCp s d n q) qs ns
    | .error e => (List.range' l1.length l2.length).foldlM (DbMerger.resolveCp cps c0) acc s = (.error e, s) := by
  induction l2 generalizing l1 ns acc with
  | nil =>
    cases hns
    exact ⟨rfl, [], by simp [List.foldlM, pure_def], .nil⟩
  | cons p t ih =>
    obtain ⟨n, ns', hpn, ht, rfl⟩ := List.forall₂_cons_left_iff.1 hns
    have hith : getIthCrossedCoverpoint c0 l1.length s = (.ok p, s) := by
      have h : getIthCrossedCoverpoint c0 l1.length s = _ := bind_eq_of_ok (obj_some hx)
      rw [hc] at h
      rw [h]
      simp [read, listGetE, hl]
    obtain ⟨z, hz, hzn⟩ := hpn
    have hname : getScopeName p s = (.ok n, s) := (bind_eq_of_ok (obj_some hz)).trans (by rw [pure_def, hzn])
    have step : DbMerger.resolveCp cps c0 acc l1.length s = (match cps.get? n with
        | some q => (.ok (acc ++ [q]), s)
        | none => (.error .attributeError, s)) := by
      unfold DbMerger.resolveCp
      rw [bind_eq_of_ok hith, bind_eq_of_ok hname]
      cases cps.get? n <;> rfl
    rw [List.length_cons, List.range'_succ, List.foldlM_cons, List.mapM_cons]
    cases hg : cps.get? n with
    | none =>
      rw [hg] at step
      have hno : n ∉ names := by rw [← hcp.keys]; exact Dict.get?_eq_none.1 hg
      have : Merge.resolveCp names n = .error .attributeError := by simp [Merge.resolveCp, hno]
      rw [this]
      exact bind_eq_of_error step
    | some q =>
      rw [hg] at step
      have hyes : n ∈ names := by
        rw [← hcp.keys]
        by_contra hno
        rw [Dict.get?_eq_none.2 hno] at hg
        cases hg
      have : Merge.resolveCp names n = .ok n := by simp [Merge.resolveCp, hyes]
      rw [this]
      have hrec := ih (l1 := l1 ++ [p]) (by simp [hl]) ht (acc ++ [q])
      rw [List.length_append, List.length_singleton] at hrec
      rw [bind_eq_of_ok step]
      cases hr : ns'.mapM (Merge.resolveCp names) with
      | error e => rw [hr] at hrec; exact hrec
      | ok r =>
        rw [hr] at hrec
        obtain ⟨rfl, qs, h1, h2⟩ := hrec
        exact ⟨rfl, q :: qs, by rw [h1, List.append_assoc]; rfl, .cons (hcp.cp n q hg) h2⟩

theorem mergeCross_out {N D : Nat} {s : Heap} (hN : N ≤ s.objs.length) {d : Nat} {x : Obj} (hx : s.objs[d]? = some x)
    (hc : x.cls = .covergroup) (hd : N ≤ d) {cps : Dict Nat} {names : List String} (hcp : CpMap s d cps names)
    {e : String × List Nat} {e' : String × List Scope} (h1 : e.1 = e'.1) (h2 : List.Forall₂ (Old N D s) e.2 e'.2) :
    Outcome N (DbMerger.mergeCross d cps e) s d (Merge.mergeCross names e')
      (fun _ v s' k i => i = [] ∧ ∃ q, k = [q] ∧ New s.objs.length s' q v) := by
  unfold DbMerger.mergeCross Merge.mergeCross
  rcases listGetE_rel h2 s with ⟨c0, v0, hr, hv, hold, hmem⟩ | ⟨er, hr, hv⟩
  · rw [hv]
    refine Outcome.skip hr ?_
    obtain ⟨y, hy, _, _, _, _, _, hcps, _⟩ := hold.obj
    show Outcome N _ s d (match v0.cps with
      | none => throw Err.attributeError
      | some cpNames => do
        let cps ← cpNames.mapM (Merge.resolveCp names)
        let bins ← Merge.mergeBins e'.2
        pure (mkCross e'.1 v0.src v0.weight cps bins)) _
    by_cases hcy : y.cls = .cross
    · rw [ShowsCps, if_pos hcy] at hcps
      obtain ⟨ns, hv0, hns⟩ := hcps
      have hnum : getNumCrossedCoverpoints c0 s = (.ok y.cps.length, s) := by
        have h : getNumCrossedCoverpoints c0 s = _ := bind_eq_of_ok (obj_some hy)
        rw [hcy] at h
        exact h
      rw [hv0]
      refine Outcome.skip hnum ?_
      have hres := resolve_out hy hcy hcp (l1 := []) rfl hns []
      rw [List.range_eq_range']
      show Outcome N _ s d (ns.mapM (Merge.resolveCp names) >>= fun cps => do
        let bins ← Merge.mergeBins e'.2
        pure (mkCross e'.1 v0.src v0.weight cps bins)) _
      cases hm : ns.mapM (Merge.resolveCp names) with
      | error er => rw [hm] at hres; exact Outcome.raise hres
      | ok r =>
        rw [hm] at hres
        obtain ⟨rfl, qs, hq, hqs⟩ := hres
        refine Outcome.skip hq (Outcome.skip (getSourceInfo_old hold) (Outcome.skip (getWeight_old hold) ?_))
        rw [List.nil_append]
        have hcr := createCross_eq hx hc e.1 (some v0.src) v0.weight srcOTHER qs
        have hqcp : ∀ p ∈ qs, ∃ z, s.objs[p]? = some z ∧ z.parent = some d ∧ z.cls = .coverpoint := by
          intro p hp
          obtain ⟨n, _, h⟩ := forall2_mem hqs hp
          obtain ⟨z, hz, h1, h2, _⟩ := h
          exact ⟨z, hz, h1, h2⟩
        have hfr : Frame N s _ d [s.objs.length] [] := frame_attach (y := memCross d e.1 (some v0.src) v0.weight srcOTHER qs) hx fresh_cross
          (fun _ => hqcp) (fun _ => hc) (by simp [memCross, memCvg, memScope])
          ⟨.createCross d e.1 (some v0.src) v0.weight srcOTHER qs, exec_scope rfl hcr⟩
        have hnew := withChild_new (y := memCross d e.1 (some v0.src) v0.weight srcOTHER qs) hx
        have hbins := mergeBins_out (D := D) (N := N) hnew (.inr rfl) (.inr hN) (olds_frame h2 hfr (.inr hd))
        refine Outcome.create (w := fun bins => mkCross e'.1 v0.src v0.weight r bins) hcr hfr (Nat.le_refl _) (fun _ => rfl) hbins ?_
        rintro _ its s2 k i f2 ⟨rfl, hits⟩
        refine ⟨rfl, s.objs.length, rfl, ?_⟩
        refine new_filled hnew f2 (Nat.le_refl _) (by rw [withChild_len]; omega) rfl rfl rfl h1.symm rfl rfl (by simp [ShowsDu, memCross, memCvg, memScope, mkCross])
          ?_ .nil hits
        rw [ShowsCps, if_pos (by rfl)]
        refine ⟨r, rfl, forall2_imp hqs (fun a _ b hab => ?_)⟩
        obtain ⟨z, hz, _, _, hn⟩ := hab.frame hfr
        exact ⟨z, hz, hn⟩
    · rw [ShowsCps, if_neg hcy] at hcps
      have hnum : getNumCrossedCoverpoints c0 s = (.error .attributeError, s) := by
        have h : getNumCrossedCoverpoints c0 s = _ := bind_eq_of_ok (obj_some hy)
        cases hcy' : y.cls <;> rw [hcy'] at h <;> first | exact h | exact absurd hcy' hcy
      rw [hcps]
      exact Outcome.raise hnum
  · rw [hv]
    exact Outcome.raise hr

theorem crossLoop_out {N D : Nat} {d : Nat} (hd : N ≤ d) {m : Dict (List Nat)} {m' : Dict (List Scope)} {s : Heap}
    (hN : N ≤ s.objs.length) {x : Obj} (hx : s.objs[d]? = some x) (hc : x.cls = .covergroup)
    (hm : DRel (List.Forall₂ (Old N D s)) m m') {cps : Dict Nat} {names : List String} (hcp : CpMap s d cps names) :
    Outcome N (DbMerger.makeCrosses d cps m) s d (m'.mapM (Merge.mergeCross names))
      (fun _ vs s' k i => i = [] ∧ List.Forall₂ (New s.objs.length s') k vs) := by
  induction m generalizing m' s x with
  | nil =>
    cases hm
    exact ⟨(), s, [], [], rfl, Frame.refl N s d, rfl, .nil⟩
  | cons e t ih =>
    obtain ⟨e', t', ⟨h1, h2⟩, ht, rfl⟩ := List.forall₂_cons_left_iff.1 hm
    rw [List.mapM_cons]
    have hl := (List.getElem?_eq_some_iff.1 hx).1
    refine Outcome.bind hl (mergeCross_out hN hx hc hd hcp h1 h2) ?_
    rintro _ v s1 k i f1 ⟨rfl, q, rfl, hnew⟩
    obtain ⟨x1, hx1, _, _, _, hcls, _⟩ := f1.keeps hx
    have hrec := ih (s := s1) (x := x1) (m' := t') (Nat.le_trans hN f1.len) hx1 (hcls ▸ hc)
      (forall2_imp ht (fun _ _ _ hab => ⟨hab.1, olds_frame hab.2 f1 (.inr hd)⟩)) ⟨fun n q hg => (hcp.cp n q hg).frame f1, hcp.keys⟩
    unfold Outcome at hrec ⊢
    cases hr : t'.mapM (Merge.mergeCross names) with
    | error er => rw [hr] at hrec; exact hrec
    | ok vs =>
      rw [hr] at hrec
      obtain ⟨_, s2, k2, i2, hrun, f2, rfl, hk2⟩ := hrec
      exact ⟨_, s2, k2, [], hrun, f2, rfl, .cons (hnew.frame f2 hl) (news_mono f1.len hk2)⟩

theorem mergeCrosses_out {N D : Nat} {d : Nat} (hd : N ≤ d) {s : Heap} (hN : N ≤ s.objs.length) {x : Obj} (hx : s.objs[d]? = some x)
    (hc : x.cls = .covergroup) {srcs : List Nat} {vs : List Scope} (h : List.Forall₂ (Old N D s) srcs vs) {cps : Dict Nat} {names : List String}
    (hcp : CpMap s d cps names) :
    Outcome N (DbMerger.mergeCrosses d cps srcs) s d (Merge.mergeCrosses names vs)
      (fun _ ws s' k i => i = [] ∧ List.Forall₂ (New s.objs.length s') k ws) := by
  obtain ⟨m, h1, h2⟩ := collectCross_rel h
  exact Outcome.skip h1 (crossLoop_out hd hN hx hc h2 hcp)

/-! ## Cover-instances and covergroups -/

/-- A loop over slots whose body creates scopes below `d`. -/
theorem forEach_out {N D : Nat} {β : Type} {d : Nat} (hd : d = D ∨ N ≤ d) {f : String × List (Option Nat) → M Unit}
    {g : String × List (Option Scope) → Except Err β} (out : β → List Scope) (C : Obj → Prop)
    (hC : ∀ x y : Obj, y.cls = x.cls → C x → C y)
    (hfg : ∀ (s : Heap) (x : Obj) e e', N ≤ s.objs.length → s.objs[d]? = some x → C x → e.1 = e'.1 → Slots N D s e.2 e'.2 →
      Outcome N (f e) s d (g e') (fun _ v s' k i => i = [] ∧ List.Forall₂ (New s.objs.length s') k (out v)))
    {m : Dict (List (Option Nat))} {m' : Dict (List (Option Scope))} {s : Heap} (hN : N ≤ s.objs.length) {x : Obj} (hx : s.objs[d]? = some x)
    (hc : C x) (hm : DRel (Slots N D s) m m') :
    Outcome N (DbMerger.forEach f m) s d (m'.mapM g)
      (fun _ vs s' k i => i = [] ∧ List.Forall₂ (New s.objs.length s') k (vs.flatMap out)) := by
  induction m generalizing m' s x with
  | nil =>
    cases hm
    exact ⟨(), s, [], [], rfl, Frame.refl N s d, rfl, .nil⟩
  | cons e t ih =>
    obtain ⟨e', t', ⟨h1, h2⟩, ht, rfl⟩ := List.forall₂_cons_left_iff.1 hm
    rw [List.mapM_cons]
    have hl := (List.getElem?_eq_some_iff.1 hx).1
    refine Outcome.bind hl (hfg s x e e' hN hx hc h1 h2) ?_
    rintro _ v s1 k i f1 ⟨rfl, hnew⟩
    obtain ⟨x1, hx1, _, _, _, hcls, _⟩ := f1.keeps hx
    have hrec := ih (s := s1) (x := x1) (m' := t') (Nat.le_trans hN f1.len) hx1 (hC x x1 hcls hc) (dslots_frame ht f1 hd)
    unfold Outcome at hrec ⊢
    cases hr : t'.mapM g with
    | error er => rw [hr] at hrec; exact hrec
    | ok vs =>
      rw [hr] at hrec
      obtain ⟨_, s2, k2, i2, hrun, f2, rfl, hk2⟩ := hrec
      exact ⟨_, s2, k2, [], hrun, f2, rfl, by
        rw [List.flatMap_cons]
        exact List.rel_append (news_frame hnew f2 hl) (news_mono f1.len hk2)⟩

theorem createCoverInstance_eq {s : Heap} {d : Nat} {x : Obj} (hx : s.objs[d]? = some x) (hc : x.cls = .covergroup) (n : String) (src : Option SrcInfo)
    (w so : Int) : createCoverInstance d n src w so s =
      (.ok s.objs.length, s.withChild d { memCovergroup d n src w so with stype := ST.COVERINSTANCE }) := by
  have h : createCoverInstance d n src w so s = _ := bind_eq_of_ok (obj_some hx)
  rw [hc] at h
  rw [h]
  show createScope d n src w so ST.COVERINSTANCE 0 s = _
  rw [createScope_eq hx, hc]
  have h1 : ST.duAny ST.COVERINSTANCE = false := by decide
  have h2 : ¬ ST.COVERINSTANCE = ST.COVERGROUP := by decide
  simp [h1, h2]

theorem mergeCoverinst_out {N D : Nat} {d : Nat} (hd : N ≤ d) {s : Heap} (hN : N ≤ s.objs.length) {x : Obj} (hx : s.objs[d]? = some x)
    (hc : x.cls = .covergroup) {e : String × List (Option Nat)} {e' : String × List (Option Scope)} (h1 : e.1 = e'.1) (h2 : Slots N D s e.2 e'.2) :
    Outcome N (DbMerger.mergeCoverinst d e) s d (Merge.mergeCoverinst e')
      (fun _ v s' k i => i = [] ∧ List.Forall₂ (New s.objs.length s') k [v]) := by
  have hp := present_rel h2
  unfold DbMerger.mergeCoverinst Merge.mergeCoverinst
  simp only
  rcases listGetE_rel hp s with ⟨c0, v0, hr, hv, hold, hmem⟩ | ⟨er, hr, hv⟩
  · rw [hv]
    refine Outcome.skip hr (Outcome.skip (getSourceInfo_old hold) (Outcome.skip (getWeight_old hold) ?_))
    have hcr := createCoverInstance_eq hx hc e.1 (some v0.src) v0.weight srcOTHER
    have hfr : Frame N s _ d [s.objs.length] [] := frame_attach (y := { memCovergroup d e.1 (some v0.src) v0.weight srcOTHER with stype := ST.COVERINSTANCE })
      hx fresh_coverinst
      (by simp [memCovergroup, memCvg, memScope]) (by simp [memCovergroup, memCvg, memScope]) (by simp [memCovergroup, memCvg, memScope])
      ⟨.createCoverInstance d e.1 (some v0.src) v0.weight srcOTHER, exec_scope rfl hcr⟩
    have hnew := withChild_new (y := { memCovergroup d e.1 (some v0.src) v0.weight srcOTHER with stype := ST.COVERINSTANCE }) hx
    have hNc := hN
    have hp1 := olds_frame hp hfr (.inr hd)
    have hbody : Outcome N (DbMerger.mergeCoverpoints s.objs.length (DbMerger.present e.2) >>= fun cps =>
        DbMerger.mergeCrosses s.objs.length cps (DbMerger.present e.2))
        (s.withChild d { memCovergroup d e.1 (some v0.src) v0.weight srcOTHER with stype := ST.COVERINSTANCE }) s.objs.length
        (Merge.mergeCoverpoints (Merge.present e'.2) >>= fun cps => Merge.mergeCrosses (cps.map (·.name)) (Merge.present e'.2) >>= fun crs =>
          (pure (cps ++ crs) : Except Err (List Scope)))
        (fun _ ws s' k i => i = [] ∧ List.Forall₂ (New (s.withChild d { memCovergroup d e.1 (some v0.src) v0.weight srcOTHER with stype := ST.COVERINSTANCE }).objs.length s') k ws) := by
      refine Outcome.bind (List.getElem?_eq_some_iff.1 hnew).1 (mergeCoverpoints_out hNc (Nat.le_trans hN hfr.len) hnew rfl hp1) ?_
      rintro cps ws s1 k i f1 ⟨rfl, hk, hcpm⟩
      obtain ⟨x1, hx1, _, _, _, hcls, _⟩ := f1.keeps hnew
      have h3 := mergeCrosses_out hNc (Nat.le_trans (Nat.le_trans hN hfr.len) f1.len) hx1 hcls (olds_frame hp1 f1 (.inr hNc)) hcpm
      unfold Outcome at h3 ⊢
      cases hm : Merge.mergeCrosses (ws.map (·.name)) (Merge.present e'.2) with
      | error er => rw [hm] at h3; exact h3
      | ok crs =>
        rw [hm] at h3
        obtain ⟨u, s2, k2, i2, hrun, f2, rfl, hk2⟩ := h3
        exact ⟨u, s2, k2, [], hrun, f2, rfl,
          List.rel_append (news_frame hk f2 (List.getElem?_eq_some_iff.1 hnew).1) (news_mono f1.len hk2)⟩
    have hval : (Merge.mergeCoverpoints (Merge.present e'.2) >>= fun cps => Merge.mergeCrosses (cps.map (·.name)) (Merge.present e'.2) >>= fun crs =>
          (pure (mkCoverInst e'.1 v0.src v0.weight (cps ++ crs)) : Except Err Scope)) =
        (Merge.mergeCoverpoints (Merge.present e'.2) >>= fun cps => Merge.mergeCrosses (cps.map (·.name)) (Merge.present e'.2) >>= fun crs =>
          (pure (cps ++ crs) : Except Err (List Scope))) >>= fun ch => pure (mkCoverInst e'.1 v0.src v0.weight ch) := by
      simp only [bind_assoc, pure_bind]
    show Outcome N _ s d (Merge.mergeCoverpoints (Merge.present e'.2) >>= fun cps => Merge.mergeCrosses (cps.map (·.name)) (Merge.present e'.2) >>= fun crs =>
          (pure (mkCoverInst e'.1 v0.src v0.weight (cps ++ crs)) : Except Err Scope)) _
    rw [hval]
    refine Outcome.create (w := fun ch => mkCoverInst e'.1 v0.src v0.weight ch) hcr hfr (Nat.le_refl _) (fun _ => rfl) hbody ?_
    rintro _ ws s2 k i f2 ⟨rfl, hk⟩
    refine ⟨rfl, .cons ?_ .nil⟩
    exact new_filled hnew f2 (Nat.le_refl _) (by rw [withChild_len]; omega) rfl rfl rfl h1.symm rfl rfl
      (by simp [ShowsDu, memCovergroup, memCvg, memScope, mkCoverInst]) (by simp [ShowsCps, memCovergroup, memCvg, memScope, mkCoverInst]) hk .nil
  · rw [hv]
    exact Outcome.raise hr

theorem mergeCoverinsts_out {N D : Nat} {d : Nat} (hd : N ≤ d) {s : Heap} (hN : N ≤ s.objs.length) {x : Obj} (hx : s.objs[d]? = some x)
    (hc : x.cls = .covergroup) {srcs : List Nat} {vs : List Scope} (h : List.Forall₂ (Old N D s) srcs vs) :
    Outcome N (DbMerger.mergeCoverinsts d srcs) s d (Merge.mergeCoverinsts vs)
      (fun _ ws s' k i => i = [] ∧ List.Forall₂ (New s.objs.length s') k ws) := by
  obtain ⟨m, h1, h2⟩ := collect_rel ST.COVERINSTANCE (forall2_imp h (fun _ _ _ hab => hab.kids))
  refine Outcome.skip h1 (Outcome.mono (forEach_out (.inr hd) (fun v => [v]) (fun x => x.cls = .covergroup) (fun x y h hx => h.trans hx)
    (fun s x e e' hN hx hc h1 h2 => mergeCoverinst_out hd hN hx hc h1 h2) hN hx hc h2) ?_)
  rintro _ v s' k i _ ⟨rfl, hk⟩
  exact ⟨rfl, by simpa using hk⟩

theorem mergeCovergroupBody_out {N D : Nat} {d : Nat} (hd : N ≤ d) {s : Heap} (hN : N ≤ s.objs.length) {x : Obj} (hx : s.objs[d]? = some x)
    (hc : x.cls = .covergroup) {srcs : List Nat} {vs : List Scope} (h : List.Forall₂ (Old N D s) srcs vs) :
    Outcome N (DbMerger.mergeCovergroupBody d srcs) s d (Merge.mergeCovergroupBody vs)
      (fun _ ws s' k i => i = [] ∧ List.Forall₂ (New s.objs.length s') k ws) := by
  unfold DbMerger.mergeCovergroupBody Merge.mergeCovergroupBody
  have hl := (List.getElem?_eq_some_iff.1 hx).1
  refine Outcome.bind hl (mergeCoverpoints_out hd hN hx hc h) ?_
  rintro cps ws s1 k i f1 ⟨rfl, hk, hcpm⟩
  obtain ⟨x1, hx1, _, _, _, hcls, _⟩ := f1.keeps hx
  have hl1 := (List.getElem?_eq_some_iff.1 hx1).1
  have hN1 := Nat.le_trans hN f1.len
  have hs1 := olds_frame h f1 (.inr hd)
  refine Outcome.bind hl1 (mergeCrosses_out hd hN1 hx1 (hcls.trans hc) hs1 hcpm) ?_
  rintro _ crs s2 k2 i2 f2 ⟨rfl, hk2⟩
  obtain ⟨x2, hx2, _, _, _, hcls2, _⟩ := f2.keeps hx1
  have h3 := mergeCoverinsts_out hd (Nat.le_trans hN1 f2.len) hx2 (hcls2.trans (hcls.trans hc)) (olds_frame hs1 f2 (.inr hd))
  unfold Outcome at h3 ⊢
  cases hm : Merge.mergeCoverinsts vs with
  | error er => rw [hm] at h3; exact h3
  | ok cis =>
    rw [hm] at h3
    obtain ⟨u, s3, k3, i3, hrun, f3, rfl, hk3⟩ := h3
    refine ⟨u, s3, k3, [], hrun, f3, rfl, ?_⟩
    rw [List.append_assoc]
    exact List.rel_append (news_frame (news_frame hk f2 hl) f3 hl)
      (List.rel_append (news_mono f1.len (news_frame hk2 f3 hl1)) (news_mono (Nat.le_trans f1.len f2.len) hk3))

theorem mergeCovergroup_out {N D : Nat} {d : Nat} (hd : d = D ∨ N ≤ d) {s : Heap} (hN : N ≤ s.objs.length) {x : Obj} (hx : s.objs[d]? = some x)
    {e : String × List (Option Nat)} {e' : String × List (Option Scope)} (h2 : Slots N D s e.2 e'.2) :
    Outcome N (DbMerger.mergeCovergroup d e) s d (Merge.mergeCovergroup e')
      (fun _ v s' k i => i = [] ∧ List.Forall₂ (New s.objs.length s') k [v]) := by
  have hp := present_rel h2
  unfold DbMerger.mergeCovergroup Merge.mergeCovergroup
  simp only
  rcases listGetE_rel hp s with ⟨c0, v0, hr, hv, hold, hmem⟩ | ⟨er, hr, hv⟩
  · rw [hv]
    refine Outcome.skip hr (Outcome.skip (getScopeName_old hold) (Outcome.skip (getSourceInfo_old hold) (Outcome.skip (getWeight_old hold) ?_)))
    have hcr : createCovergroup d v0.name (some v0.src) v0.weight srcOTHER s = (.ok s.objs.length, s.withChild d (memCovergroup d v0.name (some v0.src) v0.weight srcOTHER)) :=
      bind_eq_of_ok (obj_some hx)
    have hfr : Frame N s _ d [s.objs.length] [] := frame_attach (y := memCovergroup d v0.name (some v0.src) v0.weight srcOTHER) hx fresh_covergroup
      (by simp [memCovergroup, memCvg, memScope]) (by simp [memCovergroup, memCvg, memScope]) (by simp [memCovergroup, memCvg, memScope])
      ⟨.createCovergroup d v0.name (some v0.src) v0.weight srcOTHER, exec_scope rfl hcr⟩
    have hnew := withChild_new (y := memCovergroup d v0.name (some v0.src) v0.weight srcOTHER) hx
    refine Outcome.create (w := fun ch => mkCovergroup v0.name v0.src v0.weight ch) hcr hfr (Nat.le_refl _) (fun _ => rfl)
      (mergeCovergroupBody_out hN (Nat.le_trans hN hfr.len) hnew rfl (olds_frame hp hfr hd)) ?_
    rintro _ ws s2 k i f2 ⟨rfl, hk⟩
    refine ⟨rfl, .cons ?_ .nil⟩
    exact new_filled hnew f2 (Nat.le_refl _) (by rw [withChild_len]; omega) rfl rfl rfl rfl rfl rfl
      (by simp [ShowsDu, memCovergroup, memCvg, memScope, mkCovergroup]) (by simp [ShowsCps, memCovergroup, memCvg, memScope, mkCovergroup]) hk .nil
  · rw [hv]
    exact Outcome.raise hr

theorem mergeCovergroups_out {N D : Nat} {d : Nat} (hd : d = D ∨ N ≤ d) {s : Heap} (hN : N ≤ s.objs.length) {x : Obj} (hx : s.objs[d]? = some x)
    {srcs : List Nat} {vs : List Scope} (h : List.Forall₂ (Old N D s) srcs vs) :
    Outcome N (DbMerger.mergeCovergroups d srcs) s d (Merge.mergeCovergroups vs)
      (fun _ ws s' k i => i = [] ∧ List.Forall₂ (New s.objs.length s') k ws) := by
  obtain ⟨m, h1, h2⟩ := collect_rel ST.COVERGROUP (forall2_imp h (fun _ _ _ hab => hab.kids))
  refine Outcome.skip h1 (Outcome.mono (forEach_out hd (fun v => [v]) (fun _ => True) (fun _ _ _ _ => trivial)
    (fun s x e e' hN hx _ _ h2 => mergeCovergroup_out hd hN hx h2) hN hx trivial h2) ?_)
  rintro _ v s' k i _ ⟨rfl, hk⟩
  exact ⟨rfl, by simpa using hk⟩

/-! ## Instances -/

theorem getInstanceDu_old {N D : Nat} {s : Heap} {o : Nat} {v : Scope} (h : Old N D s o v) :
    (v.du = none ∧ getInstanceDu o s = (.error .attributeError, s)) ∨
    ∃ d y, getInstanceDu o s = (.ok d, s) ∧ s.objs[d]? = some y ∧ v.du = some ⟨y.name, y.src, y.weight⟩ := by
  obtain ⟨x, hx, _, _, _, _, hdu, _⟩ := h.obj
  have e : getInstanceDu o s = _ := bind_eq_of_ok (obj_some hx)
  unfold ShowsDu at hdu
  cases hd : x.du with
  | none =>
    rw [hd] at hdu e
    refine .inl ⟨hdu, ?_⟩
    rw [e]
    cases x.cls <;> rfl
  | some d =>
    rw [hd] at hdu e
    obtain ⟨hc, y, hy, hv⟩ := hdu
    refine .inr ⟨d, y, ?_, hy, hv⟩
    rw [e]
    rcases hc with hc | hc <;> rw [hc] <;> rfl

theorem mergeInstance_out {N D : Nat} {s : Heap} (hN : N ≤ s.objs.length) {x : Obj} (hx : s.objs[D]? = some x) (hc : x.cls = .db)
    {e : String × List (Option Nat)} {e' : String × List (Option Scope)} (h2 : Slots N D s e.2 e'.2) :
    Outcome N (DbMerger.mergeInstance D e) s D (Merge.mergeInstance e')
      (fun _ v s' k i => i = [] ∧ List.Forall₂ (New s.objs.length s') k v) := by
  have hp := present_rel h2
  unfold DbMerger.mergeInstance Merge.mergeInstance
  simp only
  rcases listGetE_rel hp s with ⟨c0, v0, hr, hv, hold, hmem⟩ | ⟨er, hr, hv⟩
  · rw [hv]
    refine Outcome.skip hr ?_
    rcases getInstanceDu_old hold with ⟨hd, hg⟩ | ⟨du, z, hg, hz, hd⟩
    · show Outcome N _ s D (match v0.du with
        | none => throw Err.attributeError
        | some du => _) _
      rw [hd]
      exact Outcome.raise hg
    · show Outcome N _ s D (match v0.du with
        | none => throw Err.attributeError
        | some du => do
          let cgs ← Merge.mergeCovergroups (Merge.present e'.2)
          pure [mkDu du.name du.src du.weight, mkInstance v0.name v0.src 1 (some du) cgs]) _
      rw [hd]
      have g1 : getScopeName du s = (.ok z.name, s) := bind_eq_of_ok (obj_some hz)
      have g2 : getSourceInfo du s = (.ok z.src, s) := bind_eq_of_ok (obj_some hz)
      have g3 : getWeight du s = (.ok z.weight, s) := bind_eq_of_ok (obj_some hz)
      refine Outcome.skip hg (Outcome.skip g1 (Outcome.skip g2 (Outcome.skip g3 ?_)))
      -- the design unit
      have hcr : createScope D z.name (some z.src) z.weight srcOTHER ST.DU_MODULE DbMerger.duFlags s =
          (.ok s.objs.length, s.withChild D (memScope .unit (some D) z.name (some z.src) z.weight srcOTHER ST.DU_MODULE DbMerger.duFlags)) := by
        rw [createScope_eq hx, hc]
        have : ST.duAny ST.DU_MODULE = true := by decide
        simp [this]
      have hfr : Frame N s _ D [s.objs.length] [] := frame_attach
        (y := memScope .unit (some D) z.name (some z.src) z.weight srcOTHER ST.DU_MODULE DbMerger.duFlags) hx fresh_scope
        (by simp [memScope]) (by simp [memScope]) (by simp [memScope])
        ⟨.createScope D z.name (some z.src) z.weight srcOTHER ST.DU_MODULE DbMerger.duFlags, exec_scope rfl hcr⟩
      have hnew := withChild_new (y := memScope .unit (some D) z.name (some z.src) z.weight srcOTHER ST.DU_MODULE DbMerger.duFlags) hx
      have hlen := withChild_len (s := s) (d := D) (y := memScope .unit (some D) z.name (some z.src) z.weight srcOTHER ST.DU_MODULE DbMerger.duFlags)
      generalize hs1 : s.withChild D (memScope .unit (some D) z.name (some z.src) z.weight srcOTHER ST.DU_MODULE DbMerger.duFlags) = s1 at hcr hfr hnew hlen
      obtain ⟨x1, hx1, _, _, _, hcls, _⟩ := hfr.keeps hx
      have hold1 := hold.frame hfr (.inl rfl)
      have hN1 := Nat.le_trans hN hfr.len
      -- the instance
      have hci : createInstance D v0.name (some v0.src) 1 srcOTHER ST.INSTANCE (some s.objs.length) DbMerger.instFlags s1 =
          (.ok s1.objs.length, s1.withChild D (memInstance D v0.name (some v0.src) 1 srcOTHER ST.INSTANCE (some s.objs.length) DbMerger.instFlags)) :=
        bind_eq_of_ok (obj_some hx1)
      have hfr1 : Frame N s1 _ D [s1.objs.length] [] := frame_attach
        (y := memInstance D v0.name (some v0.src) 1 srcOTHER ST.INSTANCE (some s.objs.length) DbMerger.instFlags) hx1 fresh_instance
        (by simp [memInstance, memScope]) (by simp [memInstance, memScope])
        (by
          intro u hu
          simp only [memInstance, memScope, Option.some.injEq] at hu
          subst hu
          exact ⟨hN, rfl, _, hnew, rfl⟩)
        ⟨.createInstance D v0.name (some v0.src) 1 srcOTHER ST.INSTANCE (some s.objs.length) DbMerger.instFlags, exec_scope rfl hci⟩
      have hnew1 := withChild_new (y := memInstance D v0.name (some v0.src) 1 srcOTHER ST.INSTANCE (some s.objs.length) DbMerger.instFlags) hx1
      have hlen1 := withChild_len (s := s1) (d := D) (y := memInstance D v0.name (some v0.src) 1 srcOTHER ST.INSTANCE (some s.objs.length) DbMerger.instFlags)
      generalize hs2 : s1.withChild D (memInstance D v0.name (some v0.src) 1 srcOTHER ST.INSTANCE (some s.objs.length) DbMerger.instFlags) = s2
        at hci hfr1 hnew1 hlen1
      have hbody := mergeCovergroups_out (d := s1.objs.length) (.inr hN1) (Nat.le_trans hN1 hfr1.len) hnew1
        (olds_frame (olds_frame hp hfr (.inl rfl)) hfr1 (.inl rfl))
      have hD := (List.getElem?_eq_some_iff.1 hx).1
      have hD1 := (List.getElem?_eq_some_iff.1 hx1).1
      have hfr2 := hfr.trans hfr1 hD
      have hci2 : (createScope D z.name (some z.src) z.weight srcOTHER ST.DU_MODULE DbMerger.duFlags >>= fun ddu => getScopeName c0 >>= fun n =>
          getSourceInfo c0 >>= fun src => createInstance D n (some src) 1 srcOTHER ST.INSTANCE (some ddu) DbMerger.instFlags) s = (.ok s1.objs.length, s2) := by
        rw [bind_eq_of_ok hcr, bind_eq_of_ok (getScopeName_old hold1), bind_eq_of_ok (getSourceInfo_old hold1), hci]
      have hassoc : (createScope D z.name (some z.src) z.weight srcOTHER ST.DU_MODULE DbMerger.duFlags >>= fun ddu => getScopeName c0 >>= fun n =>
          getSourceInfo c0 >>= fun src => createInstance D n (some src) 1 srcOTHER ST.INSTANCE (some ddu) DbMerger.instFlags >>= fun di =>
          DbMerger.mergeCovergroups di (DbMerger.present e.2)) s =
          ((createScope D z.name (some z.src) z.weight srcOTHER ST.DU_MODULE DbMerger.duFlags >>= fun ddu => getScopeName c0 >>= fun n =>
          getSourceInfo c0 >>= fun src => createInstance D n (some src) 1 srcOTHER ST.INSTANCE (some ddu) DbMerger.instFlags) >>= fun di =>
          DbMerger.mergeCovergroups di (DbMerger.present e.2)) s := by
        rw [bind_eq_of_ok hci2, bind_eq_of_ok hcr, bind_eq_of_ok (getScopeName_old hold1), bind_eq_of_ok (getSourceInfo_old hold1), bind_eq_of_ok hci]
      have hgoal := Outcome.create (N := N) (d := D) (f := fun di => DbMerger.mergeCovergroups di (DbMerger.present e.2))
        (g := fun cgs => (pure [mkDu z.name z.src z.weight, mkInstance v0.name v0.src 1 (some ⟨z.name, z.src, z.weight⟩) cgs] : Except Err (List Scope)))
        (w := fun cgs => [mkDu z.name z.src z.weight, mkInstance v0.name v0.src 1 (some ⟨z.name, z.src, z.weight⟩) cgs])
        (Q' := fun _ v s' k i => i = [] ∧ List.Forall₂ (New s.objs.length s') k v)
        hci2 hfr2 hfr.len (fun _ => rfl) hbody (by
          rintro _ ws s3 k i f3 ⟨rfl, hk⟩
          refine ⟨rfl, .cons ?_ (.cons ?_ .nil)⟩
          · have : New s.objs.length s1 s.objs.length (mkDu z.name z.src z.weight) :=
              ⟨1, Nat.le_refl _, _, hnew, rfl, rfl, rfl, rfl, by simp [ShowsDu, memScope, mkDu], by simp [ShowsCps, memScope, mkDu], .nil, .nil⟩
            obtain ⟨n, hn⟩ := this.frame hfr1 hD
            refine ⟨n, ?_⟩
            -- the design unit lies below nothing that grows
            have hone : ShowsIn (fun o => o = s.objs.length) s2 1 s.objs.length (mkDu z.name z.src z.weight) := by
              have h0 := hfr1.old _ _ hnew
              rw [if_neg (by omega)] at h0
              exact ⟨rfl, _, h0, rfl, rfl, rfl, rfl, by simp [ShowsDu, memScope, mkDu], by simp [ShowsCps, memScope, mkDu], .nil, .nil⟩
            have h3 := f3.showsIn (P := fun o => o = s.objs.length) (by omega) hone
            cases n with
            | zero => exact hn.elim
            | succ n => exact showsIn_mono (fun o ho => Nat.le_of_eq ho.symm) (by omega) h3
          · exact new_filled hnew1 f3 hfr.len (by omega) rfl rfl rfl rfl rfl rfl
              (by
                show ShowsDu s2 _ (some ⟨z.name, z.src, z.weight⟩)
                have h0 := hfr1.old _ _ hnew
                rw [if_neg (by omega)] at h0
                exact ⟨.inl rfl, _, h0, rfl⟩) (by simp [ShowsCps, memInstance, memScope, mkInstance]) hk .nil)
      unfold Outcome at hgoal ⊢
      rw [← hassoc] at hgoal
      exact hgoal
  · rw [hv]
    exact Outcome.raise hr

/-- The whole merge. -/
theorem merge_out {N D : Nat} {s : Heap} (hN : N ≤ s.objs.length) {x : Obj} (hx : s.objs[D]? = some x) (hc : x.cls = .db)
    {srcs : List Nat} {vs : List Scope} (h : List.Forall₂ (Kids N D s) srcs vs) :
    Outcome N (DbMerger.merge D srcs) s D ((Merge.collect ST.INSTANCE vs).mapM Merge.mergeInstance)
      (fun _ ws s' k i => i = [] ∧ List.Forall₂ (New s.objs.length s') k ws.flatten) := by
  obtain ⟨m, h1, h2⟩ := collect_rel ST.INSTANCE h
  refine Outcome.skip h1 (Outcome.mono (forEach_out (.inl rfl) id (fun x => x.cls = .db) (fun x y h hx => h.trans hx)
    (fun s x e e' hN hx hc _ h2 => mergeInstance_out hN hx hc h2) hN hx hc h2) ?_)
  rintro _ v s' k i _ ⟨rfl, hk⟩
  exact ⟨rfl, by simpa [List.flatMap_id'] using hk⟩

end Store
end Verif
