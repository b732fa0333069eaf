import Verif.StoreXmlReadCg
/-!
# Crosses and cgInstances read from XML on objects
-/

namespace Verif
namespace Store
open Spec
open Xml (Elem iter Slot)
open XmlReader (CpM CrM)

/-! ## Cross elements -/

theorem isCp_all {s : Heap} {d : Nat} {qs : List Nat} {l : List String} (h : List.Forall₂ (fun q n => IsCp s d n q) qs l) :
    ∀ p ∈ qs, ∃ z, s.objs[p]? = some z ∧ z.parent = some d ∧ z.cls = .coverpoint := by
  intro p hp
  obtain ⟨n, _, z, hz, h1, h2, _⟩ := forall2_mem h hp
  exact ⟨z, hz, h1, h2⟩

theorem isCp_names {s : Heap} {d : Nat} {qs : List Nat} {l : List String} (h : List.Forall₂ (fun q n => IsCp s d n q) qs l) :
    List.Forall₂ (ShowsName s) qs l := by
  refine forall2_imp h ?_
  rintro q _ n ⟨z, hz, _, _, h3⟩
  exact ⟨z, hz, h3⟩

theorem frame_cross {N : Nat} {s : Heap} {d : Nat} {x : Obj} (hx : s.objs[d]? = some x) (hc : x.cls = .covergroup) (n : String) {qs : List Nat} {l : List String}
    (h : List.Forall₂ (fun q n => IsCp s d n q) qs l) :
    Frame N s (s.withChild d (memCross d n none 1 srcOTHER qs)) d [s.objs.length] [] :=
  frame_attach (y := memCross d n none 1 srcOTHER qs) hx fresh_cross (fun _ => isCp_all h) (fun _ => hc) (by simp [memCross, memCvg, memScope])
    ⟨.createCross d n none 1 srcOTHER qs, exec_scope rfl (createCross_eq hx hc n none 1 srcOTHER qs)⟩

theorem newCr_out {N cg cgi : Nat} {nm : String} {s0 : Heap} {slots0 : List Slot} {s : Heap} {m : CpM} {r : CrM} {known : Dict Nat} {st : Xml.IState}
    {x0 : Obj} (h0 : s0.objs[cg]? = some x0) (hc0 : x0.cls = .covergroup) (h : IInv N cg cgi nm s0 slots0 s m r known st) {n : String} (hn : r.get? n = none) (e : Elem) :
    Sim (do let l ← XmlReader.resolve (fun k => (m.get? k).map (·.1)) e
            let c ← createCross cg n none 1 srcOTHER l
            pure (c, ([] : Dict Int))) s (do let l ← Xml.resolve st.cpM.keys e; pure (([] : Dict Int), [Slot.cross n l]))
      (fun a p s1 => a.2 = [] ∧ p.1 = [] ∧ (r.set n a).get? n = some a ∧
        IInv N cg cgi nm s0 slots0 s1 m (r.set n a) known { st with slots := st.slots ++ p.2, crM := st.crM.set n [] })
      (GFrame N cg s0) := by
  obtain ⟨ch0, ch1, f0, _, _⟩ := h.frame
  obtain ⟨x, hx, _, _, _, hcx, _⟩ := f0.keeps h0
  have hc : x.cls = .covergroup := hcx.trans hc0
  have hres := xmlResolve_out (s := s) (d := cg) (look := fun k => (m.get? k).map (·.1)) (known := st.cpM.keys) (by
      intro k q hq
      cases hg : m.get? k with
      | none => rw [hg] at hq; cases hq
      | some a =>
        rw [hg] at hq; cases hq
        exact ⟨_, (h.types.cpObj k a hg).2, rfl, rfl, rfl⟩) (by
      intro k
      rw [← drel_keys h.types.cp, Option.isSome_map, ← Dict.contains_iff]
      unfold Dict.contains
      rfl) e
  cases hr : Xml.resolve st.cpM.keys e with
  | error er =>
    rw [hr] at hres
    exact ⟨s, bind_eq_of_error hres, _, f0⟩
  | ok l =>
    rw [hr] at hres
    obtain ⟨qs, h1, h2⟩ := hres
    have hcr := createCross_eq hx hc n none 1 srcOTHER qs
    have hfr := frame_cross (N := N) hx hc n h2
    have hnew := withChild_new (y := memCross cg n none 1 srcOTHER qs) hx
    refine ⟨(s.objs.length, []), _, (bind_eq_of_ok h1).trans ((bind_eq_of_ok hcr).trans rfl), rfl, rfl, by rw [Dict.get?_set, if_pos rfl], ?_⟩
    refine h.grow h0 hc0 hfr ((h.types.frame hfr hx hc).putCr f0.len ⟨qs, hnew⟩ []) (Ext.refl _) (Ext.new hn _) ?_ ?_
    · intro o ho h3
      rcases open_putCr h3 with h4 | h4
      · exact h4
      · omega
    · exact ⟨(s.objs.length, []), qs, by rw [Dict.get?_set, if_pos rfl], rfl, hnew, forall2_imp h2 (fun _ _ _ hab => hab.frame hfr)⟩

theorem readCrossInst_out {N : Nat} {s : Heap} {d : Nat} {x : Obj} (hx : s.objs[d]? = some x) (hc : x.cls = .covergroup) {known : Dict Nat} {names : List String}
    (hk : CpMap s d known names) (e : Elem) (t : Dict Int) :
    Outcome N (XmlReader.readCrossInst d e t known) s d (do let l ← Xml.resolve names e; let bins ← (iter "crossBin" e).mapM Xml.readCrossBin; pure (l, bins))
      (fun t' p s' k i => i = [] ∧ t' = p.2.foldl Xml.addCrossBin t ∧
        ∃ q, k = [q] ∧ New s.objs.length s' q (mkCross (e.getD "name" "<unknown>") SrcInfo.none 1 p.1 p.2)) := by
  have hres := xmlResolve_out (s := s) (d := d) (look := known.get?) (known := names) hk.cp (by
      intro k
      rw [← hk.keys, ← Dict.contains_iff]
      unfold Dict.contains
      rfl) e
  unfold XmlReader.readCrossInst
  cases hr : Xml.resolve names e with
  | error er =>
    rw [hr] at hres
    exact Outcome.raise hres
  | ok l =>
    rw [hr] at hres
    obtain ⟨qs, h1, h2⟩ := hres
    have hcr := createCross_eq hx hc (e.getD "name" "<unknown>") none 1 srcOTHER qs
    have hfr := frame_cross (N := N) hx hc (e.getD "name" "<unknown>") h2
    have hnew := withChild_new (y := memCross d (e.getD "name" "<unknown>") none 1 srcOTHER qs) hx
    have hbins := binLoop_out (N := N) (f := XmlReader.readCrossBin s.objs.length) (rb := Xml.readCrossBin) (ab := Xml.addCrossBin) (fun _ => CT.CVGBIN)
      (fun _ _ => rfl) (fun _ _ h => by have := readCrossBin_mk h; rw [← this.2]; exact this.1) (iter "crossBin" e) t hnew (.inr rfl)
    refine Outcome.skip h1 ?_
    show Outcome N _ s d ((iter "crossBin" e).mapM Xml.readCrossBin >>= fun bins => Pure.pure (l, bins)) _
    refine Outcome.create (w := fun b => (l, b)) hcr hfr (Nat.le_refl _) (fun _ => rfl) hbins ?_
    rintro t' its s2 k i f2 ⟨rfl, rfl, hits⟩
    refine ⟨rfl, rfl, _, rfl, ?_⟩
    exact new_filled hnew f2 (Nat.le_refl _) (by rw [withChild_len]; omega) rfl rfl rfl rfl rfl rfl (by simp [ShowsDu, memCross, memCvg, memScope, mkCross])
      ⟨l, rfl, forall2_imp (isCp_names h2) (fun _ _ _ hab => hfr.showsName hab)⟩ .nil hits

theorem readCr_tail {N cg cgi : Nat} {nm : String} {s0 : Heap} {slots0 : List Slot} {s : Heap} {m : CpM} {r : CrM} {known : Dict Nat} {st : Xml.IState}
    (h : IInv N cg cgi nm s0 slots0 s m r known st) (e : Elem) {a : Nat × Dict Int} (ha : r.get? (e.getD "name" "<unknown>") = some a) :
    Sim (XmlReader.readCrossInst cgi e a.2 known) s (do let l ← Xml.resolve st.known e; let bins ← (iter "crossBin" e).mapM Xml.readCrossBin; pure (l, bins))
      (fun t p s' => IInv N cg cgi nm s0 slots0 s' m (r.set (e.getD "name" "<unknown>") (a.1, t)) known
        { st with crM := st.crM.set (e.getD "name" "<unknown>") (p.2.foldl Xml.addCrossBin a.2)
                  kids := st.kids ++ [mkCross (e.getD "name" "<unknown>") SrcInfo.none 1 p.1 p.2] })
      (GFrame N cg s0) := by
  obtain ⟨ch0, ch1, f0, _, _⟩ := h.frame
  obtain ⟨kids, hi, _⟩ := h.inst
  refine (readCrossInst_out (N := N) hi rfl h.known e a.2).sim.mono ?_ ?_
  · rintro t p s' ⟨k, i, f, rfl, rfl, q, rfl, hn⟩
    exact (h.kid f hn).putCr ha _
  · rintro s' ⟨k, i, f⟩
    exact ⟨_, f0.deep f h.low⟩

theorem readCr_out {N cg cgi : Nat} {nm : String} {s0 : Heap} {slots0 : List Slot} {s : Heap} {m : CpM} {r : CrM} {known : Dict Nat} {st : Xml.IState}
    {x0 : Obj} (h0 : s0.objs[cg]? = some x0) (hc0 : x0.cls = .covergroup) (h : IInv N cg cgi nm s0 slots0 s m r known st) (e : Elem) :
    Sim (XmlReader.readCr cg cgi m known r e) s (Xml.readCr st e)
      (fun r' st' s' => IInv N cg cgi nm s0 slots0 s' m r' known st') (GFrame N cg s0) := by
  have hrel := drel_get h.types.cr (e.getD "name" "<unknown>")
  unfold XmlReader.readCr Xml.readCr
  simp only
  cases hm : r.get? (e.getD "name" "<unknown>") with
  | none =>
    rw [hm] at hrel
    have hv : st.crM.get? (e.getD "name" "<unknown>") = none := by
      cases hg : st.crM.get? (e.getD "name" "<unknown>") with
      | none => rfl
      | some d => rw [hg] at hrel; cases hrel
    rw [hv]
    refine Sim.bind (newCr_out h0 hc0 h hm e) ?_
    rintro ⟨c, t0⟩ ⟨old, new⟩ s1 ⟨rfl, rfl, ha, h2⟩
    have h3 := readCr_tail h2 e ha
    have h4 := Sim.bind (g := fun p : List String × List Item => (Pure.pure { st with
        slots := st.slots ++ new
        crM := Dict.set st.crM (e.getD "name" "<unknown>") (p.2.foldl Xml.addCrossBin [])
        kids := st.kids ++ [mkCross (e.getD "name" "<unknown>") SrcInfo.none 1 p.1 p.2] } : Except Err Xml.IState))
        (f := fun t => (Pure.pure (r.set (e.getD "name" "<unknown>") (c, t)) : M CrM))
        (Q' := fun r' st' s' => IInv N cg cgi nm s0 slots0 s' m r' known st') h3 (by
      intro t p s2 h5
      refine Sim.pure ?_
      rw [Dict.set_set] at h5
      simpa only [Dict.set_set] using h5)
    simpa only [bind_assoc, pure_bind] using h4
  | some a =>
    rw [hm] at hrel
    obtain ⟨d, hd, hda⟩ : ∃ d, st.crM.get? (e.getD "name" "<unknown>") = some d ∧ a.2 = d := by
      cases hg : st.crM.get? (e.getD "name" "<unknown>") with
      | none => rw [hg] at hrel; cases hrel
      | some d => rw [hg] at hrel; cases hrel; exact ⟨_, rfl, by assumption⟩
    rw [hd]
    refine Sim.step (s1 := s) rfl ?_
    have h3 := readCr_tail h e hm
    have h4 := Sim.bind (g := fun p : List String × List Item => (Pure.pure { st with
        slots := st.slots ++ []
        crM := Dict.set st.crM (e.getD "name" "<unknown>") (p.2.foldl Xml.addCrossBin d)
        kids := st.kids ++ [mkCross (e.getD "name" "<unknown>") SrcInfo.none 1 p.1 p.2] } : Except Err Xml.IState))
        (f := fun t => (Pure.pure (r.set (e.getD "name" "<unknown>") (a.1, t)) : M CrM))
        (Q' := fun r' st' s' => IInv N cg cgi nm s0 slots0 s' m r' known st') h3 (by
      intro t p s2 h5
      refine Sim.pure ?_
      rw [List.append_nil, ← hda]
      exact h5)
    simpa only [bind_assoc, pure_bind] using h4

/-! ## One cgInstance -/

/-- State between cgInstances. -/
structure GInv (N cg : Nat) (s0 s : Heap) (m : CpM) (r : CrM) (st : Xml.GState) : Prop where
  types : Types cg s0.objs.length s m r st.cpM st.crM
  frame : ∃ ch, Frame N s0 s cg ch [] ∧ List.Forall₂ (SlotOk (Open s0.objs.length m r) s cg m r) ch st.slots

theorem IInv.done {N cg cgi : Nat} {nm : String} {s0 : Heap} {slots0 : List Slot} {s : Heap} {m : CpM} {r : CrM} {known : Dict Nat} {st : Xml.IState}
    (h : IInv N cg cgi nm s0 slots0 s m r known st) :
    GInv N cg s0 s m r { slots := slots0 ++ Slot.inst (mkCoverInst nm SrcInfo.none 1 st.kids) :: st.slots, cpM := st.cpM, crM := st.crM } := by
  obtain ⟨ch0, ch1, f0, h1, h2⟩ := h.frame
  obtain ⟨kids, hi, hk⟩ := h.inst
  have hK : ∀ o, o < s.objs.length → Open s0.objs.length m r o → Open s0.objs.length m r o ∨ o = cgi := fun _ _ => .inl
  have hno : ¬ Open s0.objs.length m r cgi := by
    intro ho
    have hlow := h.low
    rcases h.types.open_lt ho with h3 | ⟨x, hx, hne⟩
    · omega
    · rw [hi] at hx; cases hx; exact hne rfl
  refine ⟨h.types, _, f0, List.rel_append (forall2_imp h1 (fun _ _ _ hab => hab.mono hK (Ext.refl _) (Ext.refl _)))
    (.cons ?_ (forall2_imp h2 (fun _ _ _ hab => hab.mono hK (Ext.refl _) (Ext.refl _))))⟩
  exact closed_node hi hno rfl rfl rfl rfl (by simp [ShowsDu, instObj, memCovergroup, memCvg, memScope, mkCoverInst])
    (by simp [ShowsCps, instObj, memCovergroup, memCvg, memScope, mkCoverInst]) (forall2_imp hk (fun _ _ _ hab => hab.mono hK)) .nil

theorem readCgInst_out {N cg : Nat} {s0 s : Heap} {m : CpM} {r : CrM} {st : Xml.GState} {x0 : Obj} (h0 : s0.objs[cg]? = some x0) (hc0 : x0.cls = .covergroup)
    (h : GInv N cg s0 s m r st) (e : Elem) :
    Sim (XmlReader.readCgInst cg (m, r) e) s (Xml.readCgInst st e) (fun p st' s' => GInv N cg s0 s' p.1 p.2 st') (GFrame N cg s0) := by
  obtain ⟨ch, f0, hsl⟩ := h.frame
  obtain ⟨x, hx, _, _, _, hcx, _⟩ := f0.keeps h0
  have hc : x.cls = .covergroup := hcx.trans hc0
  have hl0 := (List.getElem?_eq_some_iff.1 h0).1
  have hcr := createCoverInstance_eq hx hc (e.getD "name" "<unknown>") none 1 srcOTHER
  have hfr : Frame N s _ cg [s.objs.length] [] := frame_attach (y := { memCovergroup cg (e.getD "name" "<unknown>") none 1 srcOTHER with stype := ST.COVERINSTANCE }) hx fresh_coverinst
    (by simp [memCovergroup, memCvg, memScope]) (by simp [memCovergroup, memCvg, memScope]) (by simp [memCovergroup, memCvg, memScope])
    ⟨.createCoverInstance cg (e.getD "name" "<unknown>") none 1 srcOTHER, exec_scope rfl hcr⟩
  have hnew := withChild_new (y := { memCovergroup cg (e.getD "name" "<unknown>") none 1 srcOTHER with stype := ST.COVERINSTANCE }) hx
  have hcg : Open s0.objs.length m r cg := .inl hl0
  have hstart : IInv N cg s.objs.length (e.getD "name" "<unknown>") s0 st.slots _ m r [] { slots := [], cpM := st.cpM, crM := st.crM, kids := [], known := [] } := {
    types := h.types.frame hfr hx hc
    low := f0.len
    frame := by
      refine ⟨ch, [], f0.trans hfr hl0, forall2_imp hsl (fun _ _ _ hab => hab.frame hfr hx hc hcg ?_ (Ext.refl _) (Ext.refl _)), .nil⟩
      rintro o ho (h1 | rfl)
      · exact h1
      · omega
    inst := ⟨[], hnew, .nil⟩
    known := ⟨fun n q hq => by simp [Dict.get?] at hq, fun n => by simp [Dict.keys]⟩ }
  unfold XmlReader.readCgInst Xml.readCgInst
  refine Sim.step hcr ?_
  refine Sim.bind (Sim.foldlM (Q := fun p st' s' => IInv N cg s.objs.length (e.getD "name" "<unknown>") s0 st.slots s' p.1 r p.2 st')
    (fun a v s1 el ha => readCp_out h0 hc0 ha el) (iter "coverpoint" e) hstart) ?_
  intro p v s1 h1
  refine Sim.bind (Sim.foldlM (Q := fun r' st' s' => IInv N cg s.objs.length (e.getD "name" "<unknown>") s0 st.slots s' p.1 r' p.2 st')
    (fun a v s1 el ha => readCr_out h0 hc0 ha el) (iter "cross" e) ?_) ?_
  · exact h1
  intro r' v s2 h2
  exact Sim.pure h2.done

end Store
end Verif
