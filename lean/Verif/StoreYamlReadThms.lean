import Verif.StoreYamlRead
import Verif.StoreXmlReadThms
/-!
# Reading YAML into objects

Every function of `StoreYamlRead.lean` against its counterpart in `Yaml.lean`, up to `loadDoc`.
-/

namespace Verif

/-- The cross `q` refers to coverpoints whose parents are, in order, the objects of `owner` with the numbers `os`. -/
def Spec.Crossed (s : Store.Heap) (owner : List Nat) (q : Nat) (os : List Nat) : Prop :=
  ∃ x, s.objs[q]? = some x ∧ x.cls = .cross ∧
    List.Forall₂ (fun p o => ∃ z, s.objs[p]? = some z ∧ z.cls = .coverpoint ∧ z.parent.isSome ∧ z.parent = owner[o]?) x.cps os

/-- The children of the instance `c` are coverpoints and then crosses, and the crosses refer to coverpoints as `b` says. -/
def Spec.InstBinds (s : Store.Heap) (owner : List Nat) (c : Nat) (b : List (List Nat)) : Prop :=
  ∃ x pre qs, s.objs[c]? = some x ∧ x.children = pre ++ qs ∧ (∀ p ∈ pre, ∃ z, s.objs[p]? = some z ∧ z.cls = .coverpoint) ∧
    List.Forall₂ (Spec.Crossed s owner) qs b

namespace Store
open Spec Yaml

/-! ## Bins -/

theorem yamlBins_out {N : Nat} (a : Int) (kind : Nat) {d : Nat} (l : List YBin) {s : Heap} {x : Obj} (hx : s.objs[d]? = some x)
    (hc : x.cls = .coverpoint ∨ x.cls = .cross) :
    ∃ s' i, YamlReader.makeBins d a kind l s = (.ok (), s') ∧ Frame N s s' d [] i ∧
      List.Forall₂ (ShowsItem s') i (l.map (fun b => mkBin b.name kind a b.count)) := by
  unfold YamlReader.makeBins
  induction l generalizing s x with
  | nil => exact ⟨s, [], rfl, Frame.refl N s d, .nil⟩
  | cons b l ih =>
    obtain ⟨s1, h1, f1, hs⟩ := frame_createBin (N := N) hx hc b.name a b.count kind
    obtain ⟨x1, hx1, _, _, _, hcls, _⟩ := f1.keeps hx
    obtain ⟨s2, i, h2, f2, h3⟩ := ih hx1 (hcls ▸ hc)
    refine ⟨s2, [s.bins.length] ++ i, ?_, f1.trans f2 (List.getElem?_eq_some_iff.1 hx).1, .cons (f2.showsItem hs) h3⟩
    have : (do let _ ← createBin d b.name none a b.count kind : M Unit) s = (.ok (), s1) := by
      show (createBin d _ none a _ _ >>= fun _ => (pure () : M Unit)) s = _
      rw [bind_eq_of_ok h1]; rfl
    exact (bind_eq_of_ok this).trans h2

/-! ## Coverpoints -/

theorem recordCoverpoint_out {N : Nat} {s : Heap} {d : Nat} {x : Obj} (hx : s.objs[d]? = some x) (hc : x.cls = .covergroup) (cp : YCp) :
    ∃ s', YamlReader.recordCoverpoint d cp s = (.ok s.objs.length, s') ∧ Frame N s s' d [s.objs.length] [] ∧
      New s.objs.length s' s.objs.length (recordCp cp) ∧ IsCp s' d cp.name s.objs.length := by
  have hcr := createCoverpoint_eq hx hc cp.name none 1 srcOTHER
  have hfr : Frame N s _ d [s.objs.length] [] := frame_attach (y := memCoverpoint d cp.name none 1 srcOTHER) hx fresh_coverpoint
    (by simp [memCoverpoint, memCvg, memScope]) (by simp [memCoverpoint, memCvg, memScope]) (by simp [memCoverpoint, memCvg, memScope])
    ⟨.createCoverpoint d cp.name none 1 srcOTHER, exec_scope rfl hcr⟩
  have hnew := withChild_new (y := memCoverpoint d cp.name none 1 srcOTHER) hx
  obtain ⟨s1, i1, h1, f1, b1⟩ := yamlBins_out (N := N) (cp.atleast.getD 1) CT.CVGBIN cp.bins hnew (.inl rfl)
  obtain ⟨x1, hx1, _, _, _, hc1, _⟩ := f1.keeps hnew
  obtain ⟨s2, i2, h2, f2, b2⟩ := yamlBins_out (N := N) (cp.atleast.getD 1) CT.IGNOREBIN (cp.ignorebins.getD []) hx1 (.inl hc1)
  obtain ⟨x2, hx2, _, _, _, hc2, _⟩ := f2.keeps hx1
  obtain ⟨s3, i3, h3, f3, b3⟩ := yamlBins_out (N := N) (cp.atleast.getD 1) CT.ILLEGALBIN (cp.illegalbins.getD []) hx2 (.inl (hc2.trans hc1))
  have hl := (List.getElem?_eq_some_iff.1 hnew).1
  have hf := (f1.trans f2 hl).trans f3 hl
  refine ⟨s3, ?_, hfr.deep hf (Nat.le_refl _), ?_, IsCp.frame ⟨_, hnew, rfl, rfl, rfl⟩ hf⟩
  · unfold YamlReader.recordCoverpoint
    exact (bind_eq_of_ok hcr).trans ((bind_eq_of_ok h1).trans ((bind_eq_of_ok h2).trans ((bind_eq_of_ok h3).trans rfl)))
  · refine new_filled hnew hf (Nat.le_refl _) (by rw [withChild_len]; omega) rfl rfl rfl rfl rfl rfl (by simp [ShowsDu, memCoverpoint, memCvg, memScope, recordCp, mkCoverpoint])
      (by simp [ShowsCps, memCoverpoint, memCvg, memScope, recordCp, mkCoverpoint]) .nil ?_
    exact List.rel_append (List.rel_append (forall2_imp b1 (fun _ _ _ h => f3.showsItem (f2.showsItem h))) (forall2_imp b2 (fun _ _ _ h => f3.showsItem h))) b3

/-- `q` is a coverpoint `n` below the object of `owner` with the number `o`. -/
def Own (s : Heap) (owner : List Nat) (n : String) (q o : Nat) : Prop := ∃ w, owner[o]? = some w ∧ IsCp s w n q

/-- The dictionary of the reader against the one of the value model, whose entries are numbers of owners. -/
def KRel (s : Heap) (owner : List Nat) (known vknown : Dict Nat) : Prop :=
  ∀ n, (known.get? n = none ∧ vknown.get? n = none) ∨ ∃ q o, known.get? n = some q ∧ vknown.get? n = some o ∧ Own s owner n q o

theorem KRel.frame {N : Nat} {s s' : Heap} {owner : List Nat} {known vknown : Dict Nat} (h : KRel s owner known vknown) {d : Nat} {k i : List Nat}
    (f : Frame N s s' d k i) : KRel s' owner known vknown := by
  intro n
  rcases h n with h | ⟨q, o, h1, h2, w, h3, h4⟩
  · exact .inl h
  · exact .inr ⟨q, o, h1, h2, w, h3, h4.frame f⟩

theorem KRel.owner {s : Heap} {owner : List Nat} {known vknown : Dict Nat} (h : KRel s owner known vknown) (c : Nat) : KRel s (owner ++ [c]) known vknown := by
  intro n
  rcases h n with h | ⟨q, o, h1, h2, w, h3, h4⟩
  · exact .inl h
  · exact .inr ⟨q, o, h1, h2, w, by rw [List.getElem?_append_left (List.getElem?_eq_some_iff.1 h3).1]; exact h3, h4⟩

theorem KRel.set {s : Heap} {owner : List Nat} {known vknown : Dict Nat} (h : KRel s owner known vknown) {n : String} {q o : Nat} (ho : Own s owner n q o) :
    KRel s owner (known.set n q) (vknown.set n o) := by
  intro n'
  rw [Dict.get?_set, Dict.get?_set]
  by_cases hn : n = n'
  · subst hn
    rw [if_pos rfl, if_pos rfl]
    exact .inr ⟨q, o, rfl, rfl, ho⟩
  · rw [if_neg hn, if_neg hn]
    exact h n'

theorem recordCoverpoints_out {N : Nat} {d o : Nat} {owner : List Nat} (ho : owner[o]? = some d) (l : List YCp) {s : Heap} {x : Obj} (hx : s.objs[d]? = some x)
    (hc : x.cls = .covergroup) {known vknown : Dict Nat} (hk : KRel s owner known vknown) :
    ∃ known' s' k, YamlReader.recordCoverpoints d known l s = (.ok known', s') ∧ Frame N s s' d k [] ∧
      List.Forall₂ (New s.objs.length s') k (l.map recordCp) ∧ (∀ p ∈ k, ∃ z, s'.objs[p]? = some z ∧ z.cls = .coverpoint) ∧
      KRel s' owner known' (register o vknown (l.map (·.name))) := by
  unfold YamlReader.recordCoverpoints register
  induction l generalizing s x known vknown with
  | nil => exact ⟨known, s, [], rfl, Frame.refl N s d, .nil, by simp, hk⟩
  | cons cp l ih =>
    obtain ⟨s1, h1, f1, hn, hcp⟩ := recordCoverpoint_out (N := N) hx hc cp
    obtain ⟨x1, hx1, _, _, _, hcls, _⟩ := f1.keeps hx
    have hl := (List.getElem?_eq_some_iff.1 hx).1
    obtain ⟨known', s2, k, h2, f2, hk2, hp2, hr⟩ := ih hx1 (hcls ▸ hc) ((hk.frame f1).set (n := cp.name) ⟨d, ho, hcp⟩)
    refine ⟨known', s2, [s.objs.length] ++ k, ?_, f1.trans f2 hl, .cons (hn.frame f2 hl) (news_mono f1.len hk2), ?_, hr⟩
    · rw [List.foldlM_cons]
      have : (do let o ← YamlReader.recordCoverpoint d cp; pure (known.set cp.name o) : M (Dict Nat)) s = (.ok (known.set cp.name s.objs.length), s1) :=
        (bind_eq_of_ok h1).trans rfl
      exact (bind_eq_of_ok this).trans h2
    · intro p hp
      rcases List.mem_append.1 hp with hp | hp
      · rw [List.mem_singleton] at hp
        subst hp
        obtain ⟨z, hz, _, h3, _⟩ := hcp.frame f2
        exact ⟨z, hz, h3⟩
      · exact hp2 p hp

/-! ## Crosses -/

theorem _root_.Verif.Spec.Crossed.frame {N : Nat} {s s' : Heap} {owner : List Nat} {q : Nat} {os : List Nat} (h : Crossed s owner q os) {d : Nat} {k i : List Nat}
    (f : Frame N s s' d k i) : Crossed s' owner q os := by
  obtain ⟨x, hx, hc, h1⟩ := h
  have hcps : ∀ y : Obj, (if q = d then grow k i y else y).cps = y.cps := by intro y; split <;> rfl
  have hcls : ∀ y : Obj, (if q = d then grow k i y else y).cls = y.cls := by intro y; split <;> rfl
  refine ⟨_, f.old _ _ hx, (hcls x).trans hc, ?_⟩
  rw [hcps]
  refine forall2_imp h1 ?_
  rintro p _ o ⟨z, hz, h2, h3, h4⟩
  obtain ⟨z', hz', _, _, _, h5, h6⟩ := f.keeps hz
  exact ⟨z', hz', h5.trans h2, h6 ▸ h3, h6.trans h4⟩

theorem _root_.Verif.Spec.Crossed.owner {s : Heap} {owner : List Nat} {q : Nat} {os : List Nat} (h : Crossed s owner q os) (l : List Nat) : Crossed s (owner ++ l) q os := by
  obtain ⟨x, hx, hc, h1⟩ := h
  refine ⟨x, hx, hc, forall2_imp h1 ?_⟩
  rintro p _ o ⟨z, hz, h2, h3, h4⟩
  refine ⟨z, hz, h2, h3, ?_⟩
  rw [h4] at h3
  obtain ⟨w, hw⟩ := Option.isSome_iff_exists.1 h3
  rw [h4, List.getElem?_append_left (List.getElem?_eq_some_iff.1 hw).1]

theorem lookup_out {s : Heap} {owner : List Nat} {known vknown : Dict Nat} (hk : KRel s owner known vknown) (cr : YCross) :
    match lookupCps vknown cr with
    | .ok os => ∃ qs, YamlReader.lookup known cr s = (.ok qs, s) ∧ List.Forall₂ (fun q n => ∃ z, s.objs[q]? = some z ∧ z.name = n) qs cr.coverpoints ∧
        List.Forall₂ (fun p o => ∃ z, s.objs[p]? = some z ∧ z.cls = .coverpoint ∧ z.parent.isSome ∧ z.parent = owner[o]?) qs os
    | .error e => YamlReader.lookup known cr s = (.error e, s) := by
  unfold lookupCps YamlReader.lookup
  generalize hg : (fun n => match vknown.get? n with | some o => Except.ok o | none => Except.error Err.userError : String → Except Err Nat) = g
  have hgn : ∀ n, g n = match vknown.get? n with | some o => Except.ok o | none => Except.error Err.userError := by intro n; rw [← hg]
  clear hg
  induction cr.coverpoints with
  | nil => exact ⟨[], rfl, .nil, .nil⟩
  | cons n t ih =>
    rw [List.mapM_cons, List.mapM_cons]
    rcases hk n with ⟨h1, h2⟩ | ⟨q, o, h1, h2, w, h3, z, hz, h4, h5, h6⟩
    · have e1 : (match known.get? n with | some q => pure q | none => fail .userError : M Nat) s = (.error .userError, s) := by rw [h1]; rfl
      rw [hgn, h2]
      exact bind_eq_of_error e1
    · have e1 : (match known.get? n with | some q => pure q | none => fail .userError : M Nat) s = (.ok q, s) := by rw [h1]; rfl
      rw [hgn, h2]
      cases hr : t.mapM g with
      | error er =>
        rw [hr] at ih
        exact (bind_eq_of_ok e1).trans (bind_eq_of_error ih)
      | ok l =>
        rw [hr] at ih
        obtain ⟨qs, h7, h8, h9⟩ := ih
        exact ⟨q :: qs, (bind_eq_of_ok e1).trans (by rw [bind_eq_of_ok h7]; rfl), .cons ⟨z, hz, h6⟩ h8, .cons ⟨z, hz, h5, by rw [h4]; rfl, by rw [h4, h3]⟩ h9⟩

theorem recordCross_out {s : Heap} {d : Nat} {x : Obj} (hx : s.objs[d]? = some x) (hc : x.cls = .covergroup) {owner : List Nat} {known vknown : Dict Nat}
    (hk : KRel s owner known vknown) (cr : YCross) :
    Outcome 0 (do let cpL ← YamlReader.lookup known cr; let _ ← YamlReader.recordCross d cpL cr) s d (resolveCross vknown cr)
      (fun _ v s' k i => i = [] ∧ k = [s.objs.length] ∧ New s.objs.length s' s.objs.length v.1 ∧ Crossed s' owner s.objs.length v.2) := by
  have hres := lookup_out hk cr
  unfold resolveCross
  cases hr : lookupCps vknown cr with
  | error er => rw [hr] at hres; exact Outcome.raise hres
  | ok os =>
    rw [hr] at hres
    obtain ⟨qs, h1, h2, h3⟩ := hres
    have hcr := createCross_eq hx hc cr.name none 1 srcOTHER qs
    have hfr : Frame 0 s _ d [s.objs.length] [] := frame_attach (y := memCross d cr.name none 1 srcOTHER qs) hx fresh_cross
      (fun h => absurd h (by omega)) (fun _ => hc) (by simp [memCross, memCvg, memScope])
      ⟨.createCross d cr.name none 1 srcOTHER qs, exec_scope rfl hcr⟩
    have hnew := withChild_new (y := memCross d cr.name none 1 srcOTHER qs) hx
    obtain ⟨s1, i1, h4, f1, b1⟩ := yamlBins_out (N := 0) (cr.atleast.getD 1) CT.CVGBIN (cr.bins.getD []) hnew (.inr rfl)
    refine Outcome.skip h1 ⟨(), s1, [s.objs.length], [], ?_, hfr.deep f1 (Nat.le_refl _), rfl, rfl, ?_, ?_⟩
    · have : YamlReader.recordCross d qs cr s = (.ok s.objs.length, s1) := by
        unfold YamlReader.recordCross
        exact (bind_eq_of_ok hcr).trans ((bind_eq_of_ok h4).trans rfl)
      exact (bind_eq_of_ok this).trans rfl
    · refine new_filled hnew f1 (Nat.le_refl _) (by rw [withChild_len]; omega) rfl rfl rfl rfl rfl rfl (by simp [ShowsDu, memCross, memCvg, memScope, recordCross, mkCross])
        ⟨cr.coverpoints, rfl, forall2_imp h2 (fun _ _ _ hab => hfr.showsName hab)⟩ .nil b1
    · refine Crossed.frame ⟨_, hnew, rfl, forall2_imp h3 ?_⟩ f1
      rintro p _ o ⟨z, hz, h5, h6, h7⟩
      obtain ⟨z', hz', _, _, _, h8, h9⟩ := hfr.keeps hz
      exact ⟨z', hz', h8.trans h5, h9 ▸ h6, h9.trans h7⟩

theorem recordCrosses_out {d : Nat} {owner : List Nat} {known vknown : Dict Nat} (l : List YCross) {s : Heap} {x : Obj} (hx : s.objs[d]? = some x)
    (hc : x.cls = .covergroup) (hk : KRel s owner known vknown) :
    Outcome 0 (YamlReader.recordCrosses d known l) s d (l.mapM (resolveCross vknown))
      (fun _ vs s' k i => i = [] ∧ List.Forall₂ (New s.objs.length s') k (vs.map (·.1)) ∧ List.Forall₂ (Crossed s' owner) k (vs.map (·.2))) := by
  unfold YamlReader.recordCrosses
  induction l generalizing s x with
  | nil => exact ⟨(), s, [], [], rfl, Frame.refl 0 s d, rfl, .nil, .nil⟩
  | cons cr l ih =>
    rw [List.mapM_cons]
    have hl := (List.getElem?_eq_some_iff.1 hx).1
    refine Outcome.bind hl (recordCross_out hx hc hk cr) ?_
    rintro _ v s1 k i f1 ⟨rfl, rfl, hn, hb⟩
    obtain ⟨x1, hx1, _, _, _, hcls, _⟩ := f1.keeps hx
    have hrec := ih hx1 (hcls ▸ hc) (hk.frame f1)
    unfold Outcome at hrec ⊢
    cases hr : l.mapM (resolveCross vknown) with
    | error er => rw [hr] at hrec; exact hrec
    | ok vs =>
      rw [hr] at hrec
      obtain ⟨_, s2, k2, i2, hrun, f2, rfl, hk2, hb2⟩ := hrec
      exact ⟨(), s2, k2, [], hrun, f2, rfl, .cons (hn.frame f2 hl) (news_mono f1.len hk2), .cons (hb.frame f2) hb2⟩

/-! ## Instances -/

theorem _root_.Verif.Spec.InstBinds.frame {N : Nat} {s s' : Heap} {owner : List Nat} {c : Nat} {b : List (List Nat)} (h : InstBinds s owner c b) {d : Nat} {k i : List Nat}
    (f : Frame N s s' d k i) (hd : c ≠ d) : InstBinds s' owner c b := by
  obtain ⟨x, pre, qs, hx, h1, h2, h3⟩ := h
  have := f.old _ _ hx
  rw [if_neg hd] at this
  refine ⟨x, pre, qs, this, h1, ?_, forall2_imp h3 (fun _ _ _ h => h.frame f)⟩
  intro p hp
  obtain ⟨z, hz, h4⟩ := h2 p hp
  obtain ⟨z', hz', _, _, _, h5, _⟩ := f.keeps hz
  exact ⟨z', hz', h5.trans h4⟩

theorem _root_.Verif.Spec.InstBinds.owner {s : Heap} {owner : List Nat} {c : Nat} {b : List (List Nat)} (h : InstBinds s owner c b) (l : List Nat) :
    InstBinds s (owner ++ l) c b := by
  obtain ⟨x, pre, qs, hx, h1, h2, h3⟩ := h
  exact ⟨x, pre, qs, hx, h1, h2, forall2_imp h3 (fun _ _ _ h => h.owner l)⟩

theorem recordInst_out {s : Heap} {cg : Nat} {x : Obj} (hx : s.objs[cg]? = some x) (hc : x.cls = .covergroup) (w : Int) {owner : List Nat} {known vknown : Dict Nat}
    (hk : KRel s owner known vknown) (i : YInst) :
    Outcome 0 (YamlReader.recordInst cg w known i) s cg (recordInst w owner.length vknown i)
      (fun known' r s' k i => i = [] ∧ k = [s.objs.length] ∧ New s.objs.length s' s.objs.length r.2.scope ∧
        KRel s' (owner ++ [s.objs.length]) known' r.1 ∧ InstBinds s' (owner ++ [s.objs.length]) s.objs.length r.2.bound) := by
  have hcr := createCoverInstance_eq hx hc i.name none w srcOTHER
  have hfr : Frame 0 s _ cg [s.objs.length] [] := frame_attach (y := { memCovergroup cg i.name none w srcOTHER with stype := ST.COVERINSTANCE })
    hx fresh_coverinst
    (by simp [memCovergroup, memCvg, memScope]) (by simp [memCovergroup, memCvg, memScope]) (by simp [memCovergroup, memCvg, memScope])
    ⟨.createCoverInstance cg i.name none w srcOTHER, exec_scope rfl hcr⟩
  have hnew := withChild_new (y := { memCovergroup cg i.name none w srcOTHER with stype := ST.COVERINSTANCE }) hx
  have hl := (List.getElem?_eq_some_iff.1 hnew).1
  obtain ⟨known1, s1, k1, h1, f1, n1, p1, r1⟩ := recordCoverpoints_out (N := 0) (owner := owner ++ [s.objs.length]) (o := owner.length) (by simp) (i.coverpoints.getD []) hnew rfl
    ((hk.frame hfr).owner s.objs.length)
  obtain ⟨x1, hx1, _, _, _, hc1, _⟩ := f1.keeps hnew
  have hx1' : s1.objs[s.objs.length]? = some (grow k1 [] { memCovergroup cg i.name none w srcOTHER with stype := ST.COVERINSTANCE }) := by
    have := f1.old _ _ hnew
    rwa [if_pos rfl] at this
  have h2 := recordCrosses_out (i.crosses.getD []) hx1 hc1 r1
  unfold YamlReader.recordInst recordInst
  simp only
  generalize register owner.length vknown ((i.coverpoints.getD []).map (·.name)) = vk1 at r1 h2 ⊢
  have hbody : Outcome 0 (do
        let known ← YamlReader.recordCoverpoints s.objs.length known (i.coverpoints.getD [])
        YamlReader.recordCrosses s.objs.length known (i.crosses.getD [])
        pure known) (s.withChild cg { memCovergroup cg i.name none w srcOTHER with stype := ST.COVERINSTANCE }) s.objs.length ((i.crosses.getD []).mapM (resolveCross vk1))
      (fun known' vs s' k i' => i' = [] ∧ known' = known1 ∧
        List.Forall₂ (New (s.withChild cg { memCovergroup cg i.name none w srcOTHER with stype := ST.COVERINSTANCE }).objs.length s') k ((i.coverpoints.getD []).map recordCp ++ vs.map (·.1)) ∧
        KRel s' (owner ++ [s.objs.length]) known1 vk1 ∧
        InstBinds s' (owner ++ [s.objs.length]) s.objs.length (vs.map (·.2))) := by
    unfold Outcome at h2 ⊢
    cases hm : (i.crosses.getD []).mapM (resolveCross vk1) with
    | error er =>
      rw [hm] at h2
      obtain ⟨s2, k2, i2, h3, f2⟩ := h2
      exact ⟨s2, _, _, (bind_eq_of_ok h1).trans (bind_eq_of_error h3), f1.trans f2 hl⟩
    | ok vs =>
      rw [hm] at h2
      obtain ⟨_, s2, k2, i2, h3, f2, rfl, n2, b2⟩ := h2
      refine ⟨known1, s2, k1 ++ k2, [] ++ [], (bind_eq_of_ok h1).trans ((bind_eq_of_ok h3).trans rfl), f1.trans f2 hl, rfl, rfl,
        List.rel_append (news_frame n1 f2 hl) (news_mono f1.len n2), r1.frame f2, ?_⟩
      have hx2 := f2.old _ _ hx1'
      rw [if_pos rfl] at hx2
      refine ⟨_, k1, k2, hx2, rfl, ?_, b2⟩
      intro p hp
      obtain ⟨z, hz, h4⟩ := p1 p hp
      obtain ⟨z', hz', _, _, _, h5, _⟩ := f2.keeps hz
      exact ⟨z', hz', h5.trans h4⟩
  refine Outcome.create (w := fun crs => (vk1, ⟨mkCoverInst i.name SrcInfo.none w ((i.coverpoints.getD []).map recordCp ++ crs.map (·.1)), crs.map (·.2)⟩))
    hcr hfr (Nat.le_refl _) (fun _ => rfl) hbody ?_
  rintro known' vs s2 k i' f2 ⟨rfl, rfl, n2, r2, b2⟩
  refine ⟨rfl, rfl, ?_, r2, b2⟩
  exact new_filled hnew f2 (Nat.le_refl _) (by rw [withChild_len]; omega) rfl rfl rfl rfl rfl rfl
    (by simp [ShowsDu, memCovergroup, memCvg, memScope, mkCoverInst]) (by simp [ShowsCps, memCovergroup, memCvg, memScope, mkCoverInst]) n2 .nil

theorem recordInsts_out {cg : Nat} (w : Int) (l : List YInst) {s : Heap} {x : Obj} (hx : s.objs[cg]? = some x) (hc : x.cls = .covergroup) {owner : List Nat}
    {known vknown : Dict Nat} (hk : KRel s owner known vknown) :
    Outcome 0 (l.foldlM (YamlReader.recordInst cg w) known) s cg (recordInsts w owner.length vknown l)
      (fun _ rs s' k i => i = [] ∧ List.Forall₂ (New s.objs.length s') k (rs.map (·.scope)) ∧
        List.Forall₂ (InstBinds s' (owner ++ k)) k (rs.map (·.bound))) := by
  induction l generalizing s x owner known vknown with
  | nil => exact ⟨known, s, [], [], rfl, Frame.refl 0 s cg, rfl, .nil, .nil⟩
  | cons i l ih =>
    rw [List.foldlM_cons, recordInsts]
    have hl := (List.getElem?_eq_some_iff.1 hx).1
    refine Outcome.bind hl (recordInst_out hx hc w hk i) ?_
    rintro known' r s1 k i' f1 ⟨rfl, rfl, hn, hr, hb⟩
    obtain ⟨x1, hx1, _, _, _, hcls, _⟩ := f1.keeps hx
    have hrec := ih hx1 (hcls ▸ hc) hr
    rw [List.length_append, List.length_singleton] at hrec
    unfold Outcome at hrec ⊢
    cases hv : recordInsts w (owner.length + 1) r.1 l with
    | error er => rw [hv] at hrec; exact hrec
    | ok rs =>
      rw [hv] at hrec
      obtain ⟨kn, s2, k2, i2, hrun, f2, rfl, hk2, hb2⟩ := hrec
      rw [List.append_assoc] at hb2
      refine ⟨kn, s2, k2, [], hrun, f2, rfl, .cons (hn.frame f2 hl) (news_mono f1.len hk2), .cons ?_ hb2⟩
      rw [← List.append_assoc]
      exact (hb.frame f2 (by omega)).owner k2

/-! ## Covergroups -/

/-- The instances of the covergroup `g` are its last children, and their crosses refer to coverpoints as `b` says: number 0 is the covergroup,
number `k` its `k`-th instance. -/
def _root_.Verif.Spec.GroupBinds (s : Heap) (g : Nat) (b : List (List (List Nat))) : Prop :=
  ∃ x pre insts, s.objs[g]? = some x ∧ x.children = pre ++ insts ∧ (∀ p ∈ pre, ∃ z, s.objs[p]? = some z ∧ (z.cls = .coverpoint ∨ z.cls = .cross)) ∧
    List.Forall₂ (InstBinds s (g :: insts)) insts b

/-- The covergroup grew no further. -/
def GB (m : Nat) (s : Heap) (g : Nat) (b : List (List (List Nat))) : Prop :=
  m ≤ g ∧ ∃ x pre insts, s.objs[g]? = some x ∧ x.children = pre ++ insts ∧ (∀ p ∈ pre, ∃ z, s.objs[p]? = some z ∧ (z.cls = .coverpoint ∨ z.cls = .cross)) ∧
    (∀ c ∈ insts, m ≤ c) ∧ List.Forall₂ (InstBinds s (g :: insts)) insts b

theorem GB.binds {m : Nat} {s : Heap} {g : Nat} {b : List (List (List Nat))} (h : GB m s g b) : GroupBinds s g b := by
  obtain ⟨_, x, pre, insts, h1, h2, h3, _, h5⟩ := h
  exact ⟨x, pre, insts, h1, h2, h3, h5⟩

theorem GB.mono {m m' : Nat} (hm : m' ≤ m) {s : Heap} {g : Nat} {b : List (List (List Nat))} (h : GB m s g b) : GB m' s g b := by
  obtain ⟨h0, x, pre, insts, h1, h2, h3, h4, h5⟩ := h
  exact ⟨Nat.le_trans hm h0, x, pre, insts, h1, h2, h3, fun c hc => Nat.le_trans hm (h4 c hc), h5⟩

theorem GB.frame {N m : Nat} {s s' : Heap} {g : Nat} {b : List (List (List Nat))} (h : GB m s g b) {d : Nat} {k i : List Nat} (f : Frame N s s' d k i)
    (hd : d < m) : GB m s' g b := by
  obtain ⟨h0, x, pre, insts, h1, h2, h3, h4, h5⟩ := h
  have := f.old _ _ h1
  rw [if_neg (by omega)] at this
  refine ⟨h0, x, pre, insts, this, h2, ?_, h4, forall2_imp h5 (fun c hc _ h => h.frame f (by have := h4 c hc; omega))⟩
  intro p hp
  obtain ⟨z, hz, h4⟩ := h3 p hp
  obtain ⟨z', hz', _, _, _, h5, _⟩ := f.keeps hz
  exact ⟨z', hz', by rw [h5]; exact h4⟩

/-- The part of `process_covergroup` after the covergroup was made. -/
theorem groupBody_out {s : Heap} {c : Nat} {y : Obj} (hnew : s.objs[c]? = some y) (hc : y.cls = .covergroup) (cg : YCg) (st : Dict (List YBin) × Dict TCross) (w : Int) :
    Outcome 0 (do
        let known ← YamlReader.recordCoverpoints c [] (st.1.map typeCpObj)
        YamlReader.recordCrosses c known (st.2.map typeCrossObj)
        match cg.instances with
        | none => fail .typeError
        | some insts => do
          let _ ← insts.foldlM (YamlReader.recordInst c w) []
          pure ()) s c
      (do
        let crs ← (st.2.map typeCrossObj).mapM (resolveCross (register 0 [] st.1.keys))
        match cg.instances with
        | none => .error .typeError
        | some insts => do
          let is ← recordInsts w 1 [] insts
          pure (crs, is))
      (fun _ p s' k i => i = [] ∧ List.Forall₂ (New s.objs.length s') k (st.1.map (fun e => recordCp (typeCpObj e)) ++ p.1.map (·.1) ++ p.2.map (·.scope)) ∧
        ∃ pre insts, k = pre ++ insts ∧ (∀ p ∈ pre, ∃ z, s'.objs[p]? = some z ∧ (z.cls = .coverpoint ∨ z.cls = .cross)) ∧
          List.Forall₂ (InstBinds s' (c :: insts)) insts (p.2.map (·.bound))) := by
  have hl := (List.getElem?_eq_some_iff.1 hnew).1
  obtain ⟨known1, s1, k1, h1, f1, n1, p1, r1⟩ := recordCoverpoints_out (N := 0) (owner := [c]) (o := 0) (by simp) (st.1.map typeCpObj) hnew hc
    (known := []) (vknown := []) (fun n => .inl ⟨rfl, rfl⟩)
  have hnames : (st.1.map typeCpObj).map (·.name) = st.1.keys := by simp [Dict.keys, typeCpObj]
  rw [hnames] at r1
  rw [List.map_map] at n1
  obtain ⟨x1, hx1, _, _, _, hc1, _⟩ := f1.keeps hnew
  have h2 := recordCrosses_out (st.2.map typeCrossObj) hx1 (hc1.trans hc) r1
  generalize register 0 [] st.1.keys = vk1 at r1 h2 ⊢
  unfold Outcome at h2
  cases hm : (st.2.map typeCrossObj).mapM (resolveCross vk1) with
  | error er =>
    rw [hm] at h2
    obtain ⟨s2, k2, i2, h3, f2⟩ := h2
    exact ⟨s2, _, _, (bind_eq_of_ok h1).trans (bind_eq_of_error h3), f1.trans f2 hl⟩
  | ok crs =>
    rw [hm] at h2
    obtain ⟨_, s2, k2, i2, h3, f2, rfl, n2, b2⟩ := h2
    obtain ⟨x2, hx2, _, _, _, hc2, _⟩ := f2.keeps hx1
    have f12 := f1.trans f2 hl
    cases hi : cg.instances with
    | none => exact ⟨s2, _, _, (bind_eq_of_ok h1).trans ((bind_eq_of_ok h3).trans rfl), f12⟩
    | some insts =>
      have h4 := recordInsts_out w insts hx2 (hc2.trans (hc1.trans hc)) (owner := [c]) (known := []) (vknown := []) (fun n => .inl ⟨rfl, rfl⟩)
      unfold Outcome at h4
      simp only [List.length_singleton] at h4
      show Outcome 0 _ s c (recordInsts w 1 [] insts >>= fun is => Pure.pure (crs, is)) _
      cases hv : recordInsts w 1 [] insts with
      | error er =>
        rw [hv] at h4
        obtain ⟨s3, k3, i3, h5, f3⟩ := h4
        exact ⟨s3, _, _, (bind_eq_of_ok h1).trans ((bind_eq_of_ok h3).trans (bind_eq_of_error h5)), f12.trans f3 hl⟩
      | ok is =>
        rw [hv] at h4
        obtain ⟨_, s3, k3, i3, h5, f3, rfl, n3, b3⟩ := h4
        have hlen := f12.len
        refine ⟨(), s3, (k1 ++ k2) ++ k3, _, (bind_eq_of_ok h1).trans ((bind_eq_of_ok h3).trans ((bind_eq_of_ok h5).trans rfl)), f12.trans f3 hl, rfl, ?_, k1 ++ k2, k3, rfl, ?_, b3⟩
        · exact List.rel_append (List.rel_append (news_frame (news_frame n1 f2 hl) f3 hl) (news_mono f1.len (news_frame n2 f3 (Nat.lt_of_lt_of_le hl f1.len)))) (news_mono hlen n3)
        · intro p hp
          have hp' : ∃ z, s2.objs[p]? = some z ∧ (z.cls = .coverpoint ∨ z.cls = .cross) := by
            rcases List.mem_append.1 hp with hp | hp
            · obtain ⟨z, hz, h6⟩ := p1 p hp
              obtain ⟨z', hz', _, _, _, h7, _⟩ := f2.keeps hz
              exact ⟨z', hz', .inl (h7.trans h6)⟩
            · obtain ⟨_, _, z, hz, h6, _⟩ := forall2_mem b2 hp
              exact ⟨z, hz, .inr h6⟩
          obtain ⟨z, hz, h6⟩ := hp'
          obtain ⟨z', hz', _, _, _, h7, _⟩ := f3.keeps hz
          exact ⟨z', hz', by rw [h7]; exact h6⟩

theorem processCovergroup_out {s : Heap} {d : Nat} {x : Obj} (hx : s.objs[d]? = some x) (cg : YCg) :
    Outcome 0 (YamlReader.processCovergroup d cg) s d (processCg' cg)
      (fun _ v s' k i => i = [] ∧ k = [s.objs.length] ∧ New s.objs.length s' s.objs.length v.1 ∧ GB s.objs.length s' s.objs.length v.2) := by
  unfold YamlReader.processCovergroup processCg'
  cases hst : (cg.instances.getD []).foldlM typeInst ([], []) with
  | error er => exact Outcome.raise rfl
  | ok st =>
    refine Outcome.skip (a := st) rfl ?_
    have hcr := createCovergroup_eq hx cg.name none (cg.weight.getD 1) srcOTHER
    have hfr : Frame 0 s _ d [s.objs.length] [] := frame_attach (y := memCovergroup d cg.name none (cg.weight.getD 1) srcOTHER) hx fresh_covergroup
      (by simp [memCovergroup, memCvg, memScope]) (by simp [memCovergroup, memCvg, memScope]) (by simp [memCovergroup, memCvg, memScope])
      ⟨.createCovergroup d cg.name none (cg.weight.getD 1) srcOTHER, exec_scope rfl hcr⟩
    have hnew := withChild_new (y := memCovergroup d cg.name none (cg.weight.getD 1) srcOTHER) hx
    have hbody := groupBody_out hnew rfl cg st (cg.weight.getD 1)
    have hval : (do
        let st ← (.ok st : Except Err (Dict (List YBin) × Dict TCross))
        let cps := st.1.map (fun e => recordCp (typeCpObj e))
        let crs ← (st.2.map typeCrossObj).mapM (resolveCross (register 0 [] st.1.keys))
        match cg.instances with
        | none => .error .typeError
        | some insts => do
          let is ← recordInsts (cg.weight.getD 1) 1 [] insts
          .ok (mkCovergroup cg.name SrcInfo.none (cg.weight.getD 1) (cps ++ crs.map (·.1) ++ is.map (·.scope)), is.map (·.bound)) : Except Err (Scope × List (List (List Nat)))) =
      ((do
        let crs ← (st.2.map typeCrossObj).mapM (resolveCross (register 0 [] st.1.keys))
        match cg.instances with
        | none => .error .typeError
        | some insts => do
          let is ← recordInsts (cg.weight.getD 1) 1 [] insts
          pure (crs, is) : Except Err (List (Scope × List Nat) × List RInst)) >>= fun p =>
        .ok (mkCovergroup cg.name SrcInfo.none (cg.weight.getD 1) (st.1.map (fun e => recordCp (typeCpObj e)) ++ p.1.map (·.1) ++ p.2.map (·.scope)), p.2.map (·.bound))) := by
      show (((st.2.map typeCrossObj).mapM (resolveCross (register 0 [] st.1.keys))) >>= _) = _
      cases (st.2.map typeCrossObj).mapM (resolveCross (register 0 [] st.1.keys)) with
      | error er => rfl
      | ok crs =>
        cases cg.instances with
        | none => rfl
        | some insts =>
          show (recordInsts (cg.weight.getD 1) 1 [] insts >>= _) = ((recordInsts (cg.weight.getD 1) 1 [] insts >>= _) >>= _)
          cases recordInsts (cg.weight.getD 1) 1 [] insts <;> rfl
    refine (congrArg (fun r => Outcome 0 _ s d r _) hval).mpr ?_
    refine Outcome.create (w := fun p => (mkCovergroup cg.name SrcInfo.none (cg.weight.getD 1) (st.1.map (fun e => recordCp (typeCpObj e)) ++ p.1.map (·.1) ++ p.2.map (·.scope)),
      p.2.map (·.bound))) hcr hfr (Nat.le_refl _) (fun _ => rfl) hbody ?_
    rintro _ p s2 k i f2 ⟨rfl, n2, pre, insts, rfl, h2, h3⟩
    refine ⟨rfl, rfl, ?_, Nat.le_refl _, ?_⟩
    · exact new_filled hnew f2 (Nat.le_refl _) (by rw [withChild_len]; omega) rfl rfl rfl rfl rfl rfl
        (by simp [ShowsDu, memCovergroup, memCvg, memScope, mkCovergroup]) (by simp [ShowsCps, memCovergroup, memCvg, memScope, mkCovergroup]) n2 .nil
    · have hx2 := f2.old _ _ hnew
      rw [if_pos rfl] at hx2
      refine ⟨_, pre, insts, hx2, by simp [grow, memCovergroup, memCvg, memScope], h2, ?_, h3⟩
      intro c hc
      have := f2.kids c (by simp [hc])
      rw [withChild_len] at this
      omega

theorem covergroups_out {d : Nat} (l : List YCg) {s : Heap} {x : Obj} (hx : s.objs[d]? = some x) :
    Outcome 0 (each (YamlReader.processCovergroup d) l) s d (l.mapM processCg')
      (fun _ vs s' k i => i = [] ∧ List.Forall₂ (New s.objs.length s') k (vs.map (·.1)) ∧ List.Forall₂ (GB s.objs.length s') k (vs.map (·.2))) := by
  induction l generalizing s x with
  | nil => exact ⟨(), s, [], [], rfl, Frame.refl 0 s d, rfl, .nil, .nil⟩
  | cons cg l ih =>
    rw [List.mapM_cons]
    have hl := (List.getElem?_eq_some_iff.1 hx).1
    refine Outcome.bind hl (processCovergroup_out hx cg) ?_
    rintro _ v s1 k i f1 ⟨rfl, rfl, hn, hb⟩
    obtain ⟨x1, hx1, _⟩ := f1.keeps hx
    have hrec := ih hx1
    unfold Outcome at hrec ⊢
    cases hr : l.mapM processCg' with
    | error er => rw [hr] at hrec; exact hrec
    | ok vs =>
      rw [hr] at hrec
      obtain ⟨_, s2, k2, i2, hrun, f2, rfl, hk2, hb2⟩ := hrec
      exact ⟨(), s2, k2, [], hrun, f2, rfl, .cons (hn.frame f2 hl) (news_mono f1.len hk2),
        .cons (hb.frame f2 hl) (forall2_imp hb2 (fun _ _ _ h => h.mono f1.len))⟩

/-! ## The database -/

theorem mapM_processCg (l : List YCg) : l.mapM processCg = (l.mapM processCg').map (·.map (·.1)) := by
  induction l with
  | nil => rfl
  | cons a t ih =>
    rw [List.mapM_cons, List.mapM_cons, ih]
    unfold processCg
    cases processCg' a with
    | error e => rfl
    | ok v =>
      show ((t.mapM processCg').map (·.map (·.1)) >>= _) = (t.mapM processCg' >>= _).map _
      cases t.mapM processCg' <;> rfl

/-- The crosses of the database `o` refer to coverpoints as the value model says. -/
def _root_.Verif.Spec.DbBinds (s : Heap) (o : Nat) (cgs : List YCg) : Prop :=
  ∃ x du i y, s.objs[o]? = some x ∧ x.children = [du, i] ∧ s.objs[i]? = some y ∧
    List.Forall₂ (fun g cg => ∃ v b, processCg' cg = .ok (v, b) ∧ GroupBinds s g b) y.children cgs

theorem forall2_mapM {l : List YCg} {vs : List (Scope × List (List (List Nat)))} (h : l.mapM processCg' = .ok vs) :
    List.Forall₂ (fun cg v => processCg' cg = .ok v) l vs := by
  induction l generalizing vs with
  | nil => cases h; exact .nil
  | cons a t ih =>
    rw [List.mapM_cons] at h
    cases ha : processCg' a with
    | error e => rw [ha] at h; cases h
    | ok v =>
      rw [ha] at h
      cases ht : t.mapM processCg' with
      | error e => rw [ht] at h; cases h
      | ok ws => rw [ht] at h; cases h; exact .cons ha (ih ht)

theorem forall2_zip {α β γ δ : Type} {R : α → δ → Prop} {S : β → γ → Prop} {f : γ → δ} {k : List α} {l : List β} {vs : List γ} (h : List.Forall₂ R k (vs.map f))
    (h' : List.Forall₂ S l vs) : List.Forall₂ (fun a b => ∃ c, S b c ∧ R a (f c)) k l := by
  induction h' generalizing k with
  | nil => cases h; exact .nil
  | cons hab _ ih =>
    cases h with
    | cons h1 h2 => exact .cons ⟨_, hab, h1⟩ (ih h2)

theorem yamlDoc_sim (sk : Int → String) (doc : YDoc) (s : Heap) :
    Sim (YamlReader.loadDoc doc) s (loadDoc doc)
      (fun o d s' => o = s.objs.length ∧ ShowsDb sk s' o d ∧ AllKept s s' ∧ (∃ cs, s' = run s cs) ∧ ∀ cgs, doc.coverage = some cgs → DbBinds s' o (cgs.getD []))
      (fun s' => AllKept s s' ∧ ∃ cs, s' = run s cs) := by
  have hnew : newDb s = (.ok s.objs.length, mkPre s [] [] [] []) := by
    simp [newDb, allocObj, mkPre, memUcis, memScope]
  have hcall : mkPre s [] [] [] [] = run s [.newDb] := by
    show _ = ((newDb >>= fun a => pure (Ret.scope a)) s).2
    rw [bind_eq_of_ok hnew]; rfl
  have hD := mkPre_obj s [] [] [] []
  have hlen : (mkPre s [] [] [] []).objs.length = s.objs.length + 1 := by simp [mkPre]
  have hkept : ∀ {s' : Heap} {k i : List Nat}, Frame 0 (mkPre s [] [] [] []) s' s.objs.length k i → AllKept s s' := fun f => frame_kept f
  generalize mkPre s [] [] [] [] = s0 at hnew hcall hD hlen hkept
  have hl0 := (List.getElem?_eq_some_iff.1 hD).1
  -- the design unit
  have hcr : createScope s.objs.length "du" none 1 srcOTHER ST.DU_MODULE DbMerger.duFlags s0 = (.ok s0.objs.length, s0.withChild s.objs.length (duObj s.objs.length "du")) := by
    rw [createScope_eq hD]
    have : ST.duAny ST.DU_MODULE = true := by decide
    simp [this, duObj, memUcis, memScope]
  have f1 : Frame 0 s0 _ s.objs.length [s0.objs.length] [] := frame_attach (y := duObj s.objs.length "du") hD fresh_scope
    (by simp [duObj, memScope]) (by simp [duObj, memScope]) (by simp [duObj, memScope])
    ⟨.createScope s.objs.length "du" none 1 srcOTHER ST.DU_MODULE DbMerger.duFlags, exec_scope rfl hcr⟩
  have hdu := withChild_new (y := duObj s.objs.length "du") hD
  have hl1 := withChild_len (s := s0) (d := s.objs.length) (y := duObj s.objs.length "du")
  have hD1 := f1.old _ _ hD
  rw [if_pos rfl] at hD1
  generalize s0.withChild s.objs.length (duObj s.objs.length "du") = s1 at hcr f1 hdu hl1 hD1
  -- the instance
  have hci : createInstance s.objs.length "cg_inst" none 1 srcOTHER ST.INSTANCE (some s0.objs.length) DbMerger.instFlags s1 =
      (.ok s1.objs.length, s1.withChild s.objs.length (instScope s.objs.length "cg_inst" s0.objs.length [])) := bind_eq_of_ok (obj_some hD1)
  have f2 : Frame 0 s1 _ s.objs.length [s1.objs.length] [] := frame_attach (y := instScope s.objs.length "cg_inst" s0.objs.length []) hD1
    (show Fresh s.objs.length "cg_inst" (memInstance s.objs.length "cg_inst" none 1 srcOTHER ST.INSTANCE (some s0.objs.length) DbMerger.instFlags) from fresh_instance)
    (by simp [instScope, memInstance, memScope]) (by simp [instScope, memInstance, memScope])
    (by
      intro u hu
      simp only [instScope, memInstance, memScope, Option.some.injEq] at hu
      subst hu
      exact ⟨Nat.zero_le _, rfl, _, hdu, rfl⟩)
    ⟨.createInstance s.objs.length "cg_inst" none 1 srcOTHER ST.INSTANCE (some s0.objs.length) DbMerger.instFlags, exec_scope rfl hci⟩
  have hin := withChild_new (y := instScope s.objs.length "cg_inst" s0.objs.length []) hD1
  have hdu2 := f2.old _ _ hdu
  rw [if_neg (by omega)] at hdu2
  have hD2 := f2.old _ _ hD1
  rw [if_pos rfl] at hD2
  generalize s1.withChild s.objs.length (instScope s.objs.length "cg_inst" s0.objs.length []) = s2 at hci f2 hin hdu2 hD2
  have f12 := f1.trans f2 hl0
  have hcalls : ∀ {s' : Heap} {k i : List Nat}, Frame 0 s0 s' s.objs.length k i → ∃ cs, s' = run s cs := by
    intro s' k i f
    obtain ⟨cs, h⟩ := f.calls
    exact ⟨[.newDb] ++ cs, by rw [run_append, ← hcall, h]⟩
  unfold YamlReader.loadDoc loadDoc
  refine Sim.step hnew (Sim.step hcr (Sim.step hci ?_))
  cases hcov : doc.coverage with
  | none => exact ⟨s2, rfl, hkept f12, hcalls f12⟩
  | some cgs =>
    have h := covergroups_out (cgs.getD []) hin
    simp only
    rw [mapM_processCg]
    unfold Outcome at h
    cases hm : (cgs.getD []).mapM processCg' with
    | error er =>
      rw [hm] at h
      obtain ⟨s3, k, i, h1, f3⟩ := h
      have f := f12.deep f3 (by omega)
      exact ⟨s3, bind_eq_of_error h1, hkept f, hcalls f⟩
    | ok vs =>
      rw [hm] at h
      obtain ⟨_, s3, k, i, h1, f3, rfl, n3, b3⟩ := h
      have f := f12.deep f3 (by omega)
      have hD3 := f.old _ _ hD
      rw [if_pos rfl] at hD3
      have hin3 := f3.old _ _ hin
      rw [if_pos rfl] at hin3
      have hdu3 := f3.old _ _ hdu2
      rw [if_neg (by omega)] at hdu3
      refine ⟨s.objs.length, s3, (bind_eq_of_ok h1).trans rfl, rfl, ⟨?_, _, hD3, rfl, .nil, rfl⟩, hkept f, hcalls f, ?_⟩
      · have hshow : ∃ n, ShowsIn (fun _ => True) s3 n s1.objs.length (defaultInst (vs.map (·.1))) := by
          obtain ⟨n, hn⟩ := showsIn_list (P := fun _ => True) (forall2_imp n3 (fun _ _ _ hab => by
            obtain ⟨n, hn⟩ := hab
            exact ⟨n, showsIn_mono (fun _ _ => trivial) (Nat.le_refl _) hn⟩))
          exact ⟨n + 1, trivial, _, hin3, rfl, rfl, rfl, rfl, ⟨.inl rfl, _, hdu3, rfl⟩, by simp [ShowsCps, instScope, memInstance, memScope, grow, defaultInst, mkInstance],
            hn, .nil⟩
        have hshow2 : ∃ n, ShowsIn (fun _ => True) s3 n s0.objs.length defaultDu :=
          ⟨1, trivial, _, hdu3, rfl, rfl, rfl, rfl, by simp [ShowsDu, duObj, memScope, defaultDu, mkDu], by simp [ShowsCps, duObj, memScope, defaultDu, mkDu], .nil, .nil⟩
        obtain ⟨n, hn⟩ := showsIn_list (.cons hshow2 (.cons hshow .nil))
        exact ⟨n + 1, trivial, _, hD3, rfl, rfl, rfl, rfl, by simp [ShowsDu, grow, memUcis, memScope, emptyDb], by simp [ShowsCps, grow, memUcis, memScope, emptyDb], hn, .nil⟩
      · intro cgs' he
        cases he
        refine ⟨_, s0.objs.length, s1.objs.length, _, hD3, rfl, hin3, ?_⟩
        refine forall2_imp (forall2_zip b3 (forall2_mapM hm)) ?_
        rintro g _ cg ⟨v, h2, h3⟩
        exact ⟨v.1, v.2, h2, h3.binds⟩

end Store
end Verif
