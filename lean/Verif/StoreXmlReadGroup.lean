import Verif.StoreXmlReadCr
/-!
# Covergroups read from XML on objects
-/

namespace Verif
namespace Store
open Spec
open Xml (Elem iter Slot)
open XmlReader (CpM CrM)

/-! ## Filling the type-level objects -/

/-- A run of frames that only add bins, at objects with `P`. -/
inductive Fills (N : Nat) (P : Nat → Prop) : Heap → Heap → Prop where
  | refl (s : Heap) : Fills N P s s
  | step {s s1 s2 : Heap} {d : Nat} {i : List Nat} : P d → Frame N s s1 d [] i → Fills N P s1 s2 → Fills N P s s2

namespace Fills

theorem mono {N : Nat} {P Q : Nat → Prop} {s s' : Heap} (h : Fills N P s s') (hpq : ∀ o, P o → Q o) : Fills N Q s s' := by
  induction h with
  | refl => exact .refl _
  | step hp f _ ih => exact .step (hpq _ hp) f ih

theorem frame {N : Nat} {P : Nat → Prop} {s s' : Heap} (h : Fills N P s s') {s0 : Heap} {d : Nat} {k i : List Nat} (f : Frame N s0 s d k i)
    (hp : ∀ o, P o → s0.objs.length ≤ o) : Frame N s0 s' d k i := by
  induction h with
  | refl => exact f
  | step hd g _ ih => exact ih (f.deep g (hp _ hd))

theorem closed {N : Nat} {P K : Nat → Prop} {s s' : Heap} (h : Fills N P s s') {c : Nat} {v : Scope} (hc : Closed K s c v)
    (hp : ∀ o, P o → K o) : Closed K s' c v := by
  induction h with
  | refl => exact hc
  | step hd g _ ih => exact ih (hc.frame g (.inl (hp _ hd)) (fun _ _ h => h))

theorem isCp {N : Nat} {P : Nat → Prop} {s s' : Heap} (h : Fills N P s s') {d : Nat} {n : String} {q : Nat} (hq : IsCp s d n q) : IsCp s' d n q := by
  induction h with
  | refl => exact hq
  | step _ g _ ih => exact ih (hq.frame g)

theorem showsItem {N : Nat} {P : Nat → Prop} {s s' : Heap} (h : Fills N P s s') {b : Nat} {it : Item} (hq : ShowsItem s b it) : ShowsItem s' b it := by
  induction h with
  | refl => exact hq
  | step _ g _ ih => exact ih (g.showsItem hq)

theorem other {N : Nat} {P : Nat → Prop} {s s' : Heap} (h : Fills N P s s') {o : Nat} {x : Obj} (hx : s.objs[o]? = some x) (ho : ¬ P o) :
    s'.objs[o]? = some x := by
  induction h with
  | refl => exact hx
  | step hd g _ ih =>
    have := g.old _ _ hx
    rw [if_neg (by rintro rfl; exact ho hd)] at this
    exact ih this

end Fills

theorem jobs_out {N : Nat} {α : Type} {go : α → M Unit} {id : α → Nat} {its : α → List Item}
    (hgo : ∀ a s x, s.objs[id a]? = some x → (x.cls = .coverpoint ∨ x.cls = .cross) →
      ∃ s' i, go a s = (.ok (), s') ∧ Frame N s s' (id a) [] i ∧ List.Forall₂ (ShowsItem s') i (its a))
    (l : List α) {s : Heap} (hnd : (l.map id).Nodup) (hobj : ∀ a ∈ l, ∃ x, s.objs[id a]? = some x ∧ (x.cls = .coverpoint ∨ x.cls = .cross)) :
    ∃ s', each go l s = (.ok (), s') ∧ Fills N (fun o => ∃ a ∈ l, id a = o) s s' ∧
      ∀ a ∈ l, ∀ x, s.objs[id a]? = some x → ∃ i, s'.objs[id a]? = some (grow [] i x) ∧ List.Forall₂ (ShowsItem s') i (its a) := by
  induction l generalizing s with
  | nil => exact ⟨s, rfl, .refl s, by simp⟩
  | cons a t ih =>
    rw [List.map_cons, List.nodup_cons] at hnd
    obtain ⟨x, hx, hc⟩ := hobj a (by simp)
    obtain ⟨s1, i, h1, f1, hi⟩ := hgo a s x hx hc
    obtain ⟨s2, h2, f2, h3⟩ := ih (s := s1) hnd.2 (by
      intro b hb
      obtain ⟨y, hy, hcy⟩ := hobj b (by simp [hb])
      obtain ⟨y', hy', _, _, _, h4, _⟩ := f1.keeps hy
      exact ⟨y', hy', h4 ▸ hcy⟩)
    refine ⟨s2, (bind_eq_of_ok h1).trans h2, .step ⟨a, by simp, rfl⟩ f1 (f2.mono (fun o ⟨b, hb, h⟩ => ⟨b, by simp [hb], h⟩)), ?_⟩
    intro b hb y hy
    rcases List.mem_cons.1 hb with rfl | hb
    · have h5 := f1.old _ _ hy
      rw [if_pos rfl] at h5
      refine ⟨i, f2.other h5 ?_, forall2_imp hi (fun _ _ _ h => f2.showsItem h)⟩
      rintro ⟨c, hc, he⟩
      exact hnd.1 (he ▸ List.mem_map_of_mem hc)
    · have h5 := f1.old _ _ hy
      rw [if_neg] at h5
      · exact h3 b hb y h5
      · intro he
        exact hnd.1 (he ▸ List.mem_map_of_mem hb)

theorem nodup_ids {α : Type} {m : Dict (Nat × α)} {s : Heap} (hnd : m.keys.Nodup)
    (h : ∀ n a, m.get? n = some a → ∃ x, s.objs[a.1]? = some x ∧ x.name = n) : (m.map (fun p => p.2.1)).Nodup := by
  have h1 : ∀ p ∈ m, ∃ x, s.objs[p.2.1]? = some x ∧ x.name = p.1 := fun p hp => h _ _ (Dict.get?_of_mem hnd hp)
  have h2 : (m.map (·.1)).Nodup := hnd
  unfold List.Nodup at h2 ⊢
  rw [List.pairwise_map] at h2 ⊢
  refine h2.imp_of_mem ?_
  intro p q hp hq hne he
  obtain ⟨x, hx, hxn⟩ := h1 p hp
  obtain ⟨y, hy, hyn⟩ := h1 q hq
  rw [he, hy] at hx
  cases hx
  exact hne (hxn.symm.trans hyn)

theorem new_leaf {m : Nat} {s : Heap} {c : Nat} {y : Obj} {v : Scope} (hy : s.objs[c]? = some y) (hm : m ≤ c)
    (h1 : v.stype = y.stype) (h2 : v.name = y.name) (h3 : v.src = y.src) (h4 : v.weight = y.weight) (h5 : ShowsDu s y v.du) (h6 : ShowsCps s y v.cps)
    (h7 : y.children = []) (h7' : v.children = []) (h8 : List.Forall₂ (ShowsItem s) y.items v.items) : New m s c v :=
  ⟨1, hm, y, hy, h1, h2, h3, h4, h5, h6, by rw [h7, h7']; exact .nil, h8⟩

theorem populateCp_go {N : Nat} (a : String × Nat × Dict (Nat × Int)) (s : Heap) (x : Obj) (hx : s.objs[a.2.1]? = some x) (hc : x.cls = .coverpoint ∨ x.cls = .cross) :
    ∃ s' i, XmlReader.populateCoverpointType a.2.1 a.2.2 s = (.ok (), s') ∧ Frame N s s' a.2.1 [] i ∧
      List.Forall₂ (ShowsItem s') i (a.2.2.map (fun b => mkBin b.1 b.2.1 1 b.2.2)) :=
  populate_out (w := fun b : String × Nat × Int => mkBin b.1 b.2.1 1 b.2.2) (fun _ => rfl) (fun _ => rfl) a.2.2 hx hc

theorem populateCr_go {N : Nat} (a : String × Nat × Dict Int) (s : Heap) (x : Obj) (hx : s.objs[a.2.1]? = some x) (hc : x.cls = .coverpoint ∨ x.cls = .cross) :
    ∃ s' i, XmlReader.populateCrossType a.2.1 a.2.2 s = (.ok (), s') ∧ Frame N s s' a.2.1 [] i ∧
      List.Forall₂ (ShowsItem s') i (a.2.2.map (fun b => mkBin b.1 CT.CVGBIN 1 b.2)) :=
  populate_out (w := fun b : String × Int => mkBin b.1 CT.CVGBIN 1 b.2) (fun _ => rfl) (fun _ => rfl) a.2.2 hx hc

theorem dict_mem {α : Type} {m : Dict α} {n : String} {a : α} (h : m.get? n = some a) : (n, a) ∈ m := by
  induction m with
  | nil => simp [Dict.get?] at h
  | cons e t ih =>
    obtain ⟨k, v⟩ := e
    by_cases hk : k = n
    · subst hk
      simp [Dict.get?] at h
      simp [h]
    · simp only [Dict.get?, hk, if_false] at h
      exact List.mem_cons_of_mem _ (ih h)

theorem tail_out {N cg : Nat} {s0 s : Heap} {m : CpM} {r : CrM} {st : Xml.GState} (h : GInv N cg s0 s m r st) :
    ∃ s' ch, (do each (fun p => XmlReader.populateCoverpointType p.2.1 p.2.2) m; each (fun p => XmlReader.populateCrossType p.2.1 p.2.2) r : M Unit) s = (.ok (), s') ∧
      Frame N s0 s' cg ch [] ∧ List.Forall₂ (New s0.objs.length s') ch (st.slots.map (Slot.scope st.cpM st.crM)) := by
  obtain ⟨ch, f0, hsl⟩ := h.frame
  have ht := h.types
  obtain ⟨s1, h1, f1, g1⟩ := jobs_out (N := N) (id := fun p : String × Nat × Dict (Nat × Int) => p.2.1) populateCp_go m (s := s)
    (nodup_ids ht.cpNodup (fun n a ha => ⟨_, (ht.cpObj n a ha).2, rfl⟩))
    (fun p hp => ⟨_, (ht.cpObj p.1 p.2 (Dict.get?_of_mem ht.cpNodup hp)).2, .inl rfl⟩)
  have hcp1 : ∀ o, (∃ p ∈ m, p.2.1 = o) → ∃ x, s.objs[o]? = some x ∧ x.cls = .coverpoint := by
    rintro o ⟨p, hp, rfl⟩
    exact ⟨_, (ht.cpObj p.1 p.2 (Dict.get?_of_mem ht.cpNodup hp)).2, rfl⟩
  have hcrObj : ∀ n a, r.get? n = some a → ∃ qs, s1.objs[a.1]? = some (memCross cg n none 1 srcOTHER qs) := by
    intro n a ha
    obtain ⟨_, qs, hq⟩ := ht.crObj n a ha
    refine ⟨qs, f1.other hq ?_⟩
    intro hin
    obtain ⟨x, hx, hcx⟩ := hcp1 _ hin
    rw [hq] at hx; cases hx; cases hcx
  obtain ⟨s2, h2, f2, g2⟩ := jobs_out (N := N) (id := fun p : String × Nat × Dict Int => p.2.1) populateCr_go r (s := s1)
    (nodup_ids ht.crNodup (fun n a ha => by obtain ⟨qs, hq⟩ := hcrObj n a ha; exact ⟨_, hq, rfl⟩))
    (fun p hp => by obtain ⟨qs, hq⟩ := hcrObj p.1 p.2 (Dict.get?_of_mem ht.crNodup hp); exact ⟨_, hq, .inr rfl⟩)
  have ho1 : ∀ o, (∃ p ∈ m, p.2.1 = o) → Open s0.objs.length m r o := by
    rintro o ⟨p, hp, rfl⟩
    exact .inr (.inl ⟨p.1, p.2, Dict.get?_of_mem ht.cpNodup hp, rfl⟩)
  have ho2 : ∀ o, (∃ p ∈ r, p.2.1 = o) → Open s0.objs.length m r o := by
    rintro o ⟨p, hp, rfl⟩
    exact .inr (.inr ⟨p.1, p.2, Dict.get?_of_mem ht.crNodup hp, rfl⟩)
  have hb1 : ∀ o, (∃ p ∈ m, p.2.1 = o) → s0.objs.length ≤ o := by
    rintro o ⟨p, hp, rfl⟩
    exact (ht.cpObj p.1 p.2 (Dict.get?_of_mem ht.cpNodup hp)).1
  have hb2 : ∀ o, (∃ p ∈ r, p.2.1 = o) → s0.objs.length ≤ o := by
    rintro o ⟨p, hp, rfl⟩
    exact (ht.crObj p.1 p.2 (Dict.get?_of_mem ht.crNodup hp)).1
  refine ⟨s2, ch, (bind_eq_of_ok h1).trans h2, f2.frame (f1.frame f0 hb1) hb2, ?_⟩
  rw [List.forall₂_map_right_iff]
  refine forall2_imp hsl ?_
  rintro c _ sl hs
  cases sl with
  | inst v => exact (f2.closed (f1.closed hs ho1) ho2).new (fun o ho => .inl ho)
  | cp n =>
    obtain ⟨a, ha, rfl⟩ := hs
    obtain ⟨hlow, hobj⟩ := ht.cpObj n a ha
    obtain ⟨i, hi, his⟩ := g1 (n, a) (dict_mem ha) _ hobj
    have hi2 : s2.objs[a.1]? = _ := f2.other hi (by
      rintro ⟨p, hp, he⟩
      obtain ⟨qs, hq⟩ := hcrObj p.1 p.2 (Dict.get?_of_mem ht.crNodup hp)
      have he' : p.2.1 = a.1 := he
      rw [he'] at hq
      have h3 : s1.objs[a.1]? = some (grow [] i (memCoverpoint cg n none 1 srcOTHER)) := hi
      rw [hq] at h3
      have := congrArg (fun x => x.map Obj.cls) h3
      simp [grow, memCross, memCoverpoint, memCvg, memScope] at this)
    have hget : st.cpM.get? n = some a.2 := by
      have hrel := drel_get ht.cp n
      rw [ha] at hrel
      cases hg : st.cpM.get? n with
      | none => rw [hg] at hrel; cases hrel
      | some d => rw [hg] at hrel; cases hrel; congr 1; exact Eq.symm (by assumption)
    show New _ _ _ (Xml.typeCp st.cpM n)
    unfold Xml.typeCp
    rw [hget]
    refine new_leaf hi2 hlow rfl rfl rfl rfl (by simp [ShowsDu, grow, memCoverpoint, memCvg, memScope, mkCoverpoint])
      (by simp [ShowsCps, grow, memCoverpoint, memCvg, memScope, mkCoverpoint]) rfl rfl ?_
    exact forall2_imp his (fun _ _ _ h => f2.showsItem h)
  | cross n l =>
    obtain ⟨a, qs, ha, rfl, hobj, hqs⟩ := hs
    obtain ⟨hlow, _⟩ := ht.crObj n a ha
    have hobj1 : s1.objs[a.1]? = some (memCross cg n none 1 srcOTHER qs) := f1.other hobj (by
      intro hin
      obtain ⟨x, hx, hcx⟩ := hcp1 _ hin
      rw [hobj] at hx; cases hx; cases hcx)
    obtain ⟨i, hi, his⟩ := g2 (n, a) (dict_mem ha) _ hobj1
    have hget : st.crM.get? n = some a.2 := by
      have hrel := drel_get ht.cr n
      rw [ha] at hrel
      cases hg : st.crM.get? n with
      | none => rw [hg] at hrel; cases hrel
      | some d => rw [hg] at hrel; cases hrel; congr 1; exact Eq.symm (by assumption)
    show New _ _ _ (Xml.typeCr st.crM n l)
    unfold Xml.typeCr
    rw [hget]
    refine new_leaf hi hlow rfl rfl rfl rfl (by simp [ShowsDu, grow, memCross, memCvg, memScope, mkCross]) ?_ rfl rfl his
    exact ⟨l, rfl, isCp_names (forall2_imp hqs (fun _ _ _ h => f2.isCp (f1.isCp h)))⟩

/-! ## One covergroup -/

theorem Sim.map_value {α β γ : Type} {act : M α} {s : Heap} {r : Except Err β} {Q : α → β → Heap → Prop} {F : Heap → Prop} (w : β → γ)
    (h : Sim act s r Q F) : Sim act s (r >>= fun v => Pure.pure (w v)) (fun a v s' => ∃ u, v = w u ∧ Q a u s') F := by
  cases r with
  | error e => exact h
  | ok v => obtain ⟨a, s', h1, h2⟩ := h; exact ⟨a, s', h1, v, rfl, h2⟩

theorem readCovergroup_out {N cg : Nat} {s0 : Heap} {x0 : Obj} (h0 : s0.objs[cg]? = some x0) (hc0 : x0.cls = .covergroup) (l : List Elem) :
    Outcome N (XmlReader.readCovergroup cg l) s0 cg (do
        let st ← l.foldlM Xml.readCgInst { slots := [], cpM := [], crM := [] }
        pure (st.slots.map (Slot.scope st.cpM st.crM)))
      (fun _ ws s' k i => i = [] ∧ List.Forall₂ (New s0.objs.length s') k ws) := by
  refine Outcome.of_sim ?_
  have hstart : GInv N cg s0 s0 [] [] { slots := [], cpM := [], crM := [] } := {
    types := {
      cp := .nil
      cr := .nil
      cpNodup := List.nodup_nil
      crNodup := List.nodup_nil
      cpObj := by intro n a ha; simp [Dict.get?] at ha
      crObj := by intro n a ha; simp [Dict.get?] at ha }
    frame := ⟨[], Frame.refl N s0 cg, .nil⟩ }
  unfold XmlReader.readCovergroup
  refine Sim.bind (Sim.mono (Sim.foldlM (Q := fun p st s => GInv N cg s0 s p.1 p.2 st) (F := GFrame N cg s0)
    (fun a v s e ha => readCgInst_out h0 hc0 ha e) l hstart) (fun _ _ _ h => h) (fun s' ⟨ch, f⟩ => ⟨ch, [], f⟩)) ?_
  rintro ⟨m, r⟩ st s1 h1
  obtain ⟨s', ch, h2, f, h3⟩ := tail_out h1
  exact ⟨(), s', h2, ch, [], f, rfl, h3⟩

theorem createCovergroup_eq {s : Heap} {d : Nat} {x : Obj} (hx : s.objs[d]? = some x) (n : String) (src : Option SrcInfo)
    (w so : Int) : createCovergroup d n src w so s = (.ok s.objs.length, s.withChild d (memCovergroup d n src w so)) :=
  bind_eq_of_ok (obj_some hx)

/-- A loop of outcomes below the same instance. -/
theorem each_out {N d : Nat} {α β : Type} {f : α → M Unit} {g : α → Except Err β} (out : β → List Scope)
    (hfg : ∀ (s : Heap) (x : Obj) a, s.objs[d]? = some x → x.cls = .inst →
      Outcome N (f a) s d (g a) (fun _ v s' k i => i = [] ∧ List.Forall₂ (New s.objs.length s') k (out v)))
    (l : List α) {s : Heap} {x : Obj} (hx : s.objs[d]? = some x) (hc : x.cls = .inst) :
    Outcome N (each f l) s d (l.mapM g) (fun _ vs s' k i => i = [] ∧ List.Forall₂ (New s.objs.length s') k (vs.flatMap out)) := by
  induction l generalizing s x with
  | nil => exact ⟨(), s, [], [], rfl, Frame.refl N s d, rfl, .nil⟩
  | cons a t ih =>
    rw [List.mapM_cons]
    have hl := (List.getElem?_eq_some_iff.1 hx).1
    refine Outcome.bind hl (hfg s x a hx hc) ?_
    rintro _ v s1 k i f1 ⟨rfl, hnew⟩
    obtain ⟨x1, hx1, _, _, _, hcls, _⟩ := f1.keeps hx
    have hrec := ih (s := s1) (x := x1) hx1 (hcls.trans hc)
    unfold Outcome at hrec ⊢
    cases hr : t.mapM g with
    | error er => rw [hr] at hrec; exact hrec
    | ok vs =>
      rw [hr] at hrec
      obtain ⟨_, s2, k2, i2, hrun, f2, rfl, hk2⟩ := hrec
      exact ⟨_, s2, k2, [], hrun, f2, rfl, by
        rw [List.flatMap_cons]
        exact List.rel_append (news_frame hnew f2 hl) (news_mono f1.len hk2)⟩

theorem groupOne_out {N : Nat} {s : Heap} {d : Nat} {x : Obj} (hx : s.objs[d]? = some x) (hc : x.cls = .inst) (p : String × List Elem) :
    Outcome N (do let c ← createCovergroup d p.1 none 1 srcOTHER; XmlReader.readCovergroup c p.2) s d (Xml.readCovergroup p.1 p.2)
      (fun _ v s' k i => i = [] ∧ List.Forall₂ (New s.objs.length s') k [v]) := by
  have hcr := createCovergroup_eq hx p.1 none 1 srcOTHER
  have hfr : Frame N s _ d [s.objs.length] [] := frame_attach (y := memCovergroup d p.1 none 1 srcOTHER) hx fresh_covergroup
    (by simp [memCovergroup, memCvg, memScope]) (by simp [memCovergroup, memCvg, memScope]) (by simp [memCovergroup, memCvg, memScope])
    ⟨.createCovergroup d p.1 none 1 srcOTHER, exec_scope rfl hcr⟩
  have hnew := withChild_new (y := memCovergroup d p.1 none 1 srcOTHER) hx
  have hbody := readCovergroup_out (N := N) hnew rfl p.2
  have hv : Xml.readCovergroup p.1 p.2 = (do
        let st ← p.2.foldlM Xml.readCgInst { slots := [], cpM := [], crM := [] }
        pure (st.slots.map (Slot.scope st.cpM st.crM)) : Except Err (List Scope)) >>= fun ws => Pure.pure (mkCovergroup p.1 SrcInfo.none 1 ws) := by
    unfold Xml.readCovergroup
    cases p.2.foldlM Xml.readCgInst { slots := [], cpM := [], crM := [] } <;> rfl
  rw [hv]
  refine Outcome.create (w := fun ws => mkCovergroup p.1 SrcInfo.none 1 ws) hcr hfr (Nat.le_refl _) (fun _ => rfl) hbody ?_
  rintro _ ws s2 k i f2 ⟨rfl, hk⟩
  refine ⟨rfl, .cons ?_ .nil⟩
  exact new_filled hnew f2 (Nat.le_refl _) (by rw [withChild_len]; omega) rfl rfl rfl rfl rfl rfl
    (by simp [ShowsDu, memCovergroup, memCvg, memScope, mkCovergroup]) (by simp [ShowsCps, memCovergroup, memCvg, memScope, mkCovergroup]) hk .nil

theorem readCovergroups_out {N : Nat} {s : Heap} {d : Nat} {x : Obj} (hx : s.objs[d]? = some x) (hc : x.cls = .inst) (e : Elem) :
    Outcome N (XmlReader.readCovergroups d e) s d (Xml.readCovergroups e)
      (fun _ vs s' k i => i = [] ∧ List.Forall₂ (New s.objs.length s') k vs) := by
  have := each_out (N := N) (d := d) (fun v => [v]) (fun s x p hx hc => groupOne_out hx hc p) (Xml.groupTypes (iter "cgInstance" e)) hx hc
  simp only [List.flatMap_singleton'] at this
  exact this

theorem coverages_out {N : Nat} {s : Heap} {d : Nat} {x : Obj} (hx : s.objs[d]? = some x) (hc : x.cls = .inst) (l : List Elem) :
    Outcome N (each (XmlReader.readCovergroups d) l) s d (l.mapM Xml.readCovergroups)
      (fun _ vs s' k i => i = [] ∧ List.Forall₂ (New s.objs.length s') k vs.flatten) := by
  have := each_out (N := N) (d := d) _root_.id (fun s x e hx hc => readCovergroups_out hx hc e) l hx hc
  simp only [List.flatMap_id] at this
  exact this

end Store
end Verif
