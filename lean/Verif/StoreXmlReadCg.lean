import Verif.StoreXmlReadOut
/-!
# Reading one covergroup from XML on objects
-/

namespace Verif

theorem Dict.set_set {α : Type} (d : Dict α) (k : String) (a b : α) : (d.set k a).set k b = d.set k b := by
  induction d with
  | nil => simp [Dict.set]
  | cons e t ih =>
    obtain ⟨n, v⟩ := e
    by_cases h : n = k
    · simp [Dict.set, h]
    · simp [Dict.set, h, ih]

theorem Dict.nodup_set {α : Type} {d : Dict α} (h : d.keys.Nodup) (k : String) (a : α) : (d.set k a).keys.Nodup := by
  rw [Dict.keys_set]
  split
  · exact h
  · rename_i hk
    rw [List.nodup_append]
    refine ⟨h, by simp, ?_⟩
    intro x hx y hy
    simp only [List.mem_singleton] at hy
    rintro rfl
    exact hk (hy ▸ hx)

theorem Dict.get?_of_mem {α : Type} {d : Dict α} (h : d.keys.Nodup) {e : String × α} (he : e ∈ d) : d.get? e.1 = some e.2 := by
  induction d with
  | nil => cases he
  | cons x t ih =>
    obtain ⟨n, v⟩ := x
    rw [Dict.keys_cons, List.nodup_cons] at h
    rcases List.mem_cons.1 he with rfl | he'
    · simp [Dict.get?]
    · have hne : n ≠ e.1 := by
        rintro rfl
        apply h.1
        show e.1 ∈ t.map (·.1)
        exact List.mem_map_of_mem he'
      simp only [Dict.get?, hne, if_false]
      exact ih h.2 he'

namespace Store
open Spec
open Xml (Elem iter Slot)
open XmlReader (CpM CrM)

/-! ## Type-level coverpoints and crosses -/

/-- The dictionaries of the reader and those of the model agree; the type-level objects exist and are still empty. -/
structure Types (cg b : Nat) (s : Heap) (m : CpM) (r : CrM) (cpM : Dict (Dict (Nat × Int))) (crM : Dict (Dict Int)) : Prop where
  cp : DRel (fun a t => a.2 = t) m cpM
  cr : DRel (fun a t => a.2 = t) r crM
  cpNodup : m.keys.Nodup
  crNodup : r.keys.Nodup
  cpObj : ∀ n a, m.get? n = some a → b ≤ a.1 ∧ s.objs[a.1]? = some (memCoverpoint cg n none 1 srcOTHER)
  crObj : ∀ n a, r.get? n = some a → b ≤ a.1 ∧ ∃ qs, s.objs[a.1]? = some (memCross cg n none 1 srcOTHER qs)

/-- The objects that may still grow: the old ones and the type-level ones. -/
def Open (b : Nat) (m : CpM) (r : CrM) (o : Nat) : Prop :=
  o < b ∨ (∃ n a, m.get? n = some a ∧ a.1 = o) ∨ (∃ n a, r.get? n = some a ∧ a.1 = o)

/-- Entries are kept. -/
def Ext {α : Type} (m m' : Dict (Nat × α)) : Prop := ∀ n a, m.get? n = some a → ∃ a', m'.get? n = some a' ∧ a'.1 = a.1

theorem Ext.refl {α : Type} (m : Dict (Nat × α)) : Ext m m := fun _ a h => ⟨a, h, rfl⟩

theorem Ext.new {α : Type} {m : Dict (Nat × α)} {n : String} (h : m.get? n = none) (a : Nat × α) : Ext m (m.set n a) := by
  intro k b hb
  refine ⟨b, ?_, rfl⟩
  rw [Dict.get?_set, if_neg]
  · exact hb
  · rintro rfl
    rw [h] at hb; cases hb

theorem Ext.put {α : Type} {m : Dict (Nat × α)} {n : String} {a : Nat × α} (h : m.get? n = some a) (t : α) : Ext m (m.set n (a.1, t)) := by
  intro k b hb
  rw [Dict.get?_set]
  by_cases hk : n = k
  · subst hk
    rw [h] at hb; cases hb
    exact ⟨(a.1, t), if_pos rfl, rfl⟩
  · exact ⟨b, by rw [if_neg hk]; exact hb, rfl⟩

theorem Types.frame {N cg b : Nat} {s s' : Heap} {m : CpM} {r : CrM} {cpM : Dict (Dict (Nat × Int))} {crM : Dict (Dict Int)}
    (h : Types cg b s m r cpM crM) {d : Nat} {k i : List Nat} (f : Frame N s s' d k i) {x : Obj} (hx : s.objs[d]? = some x) (hc : x.cls = .covergroup) :
    Types cg b s' m r cpM crM :=
  { h with
    cpObj := by
      intro n a ha
      obtain ⟨h1, h2⟩ := h.cpObj n a ha
      have h3 := f.old _ _ h2
      rw [if_neg] at h3
      · exact ⟨h1, h3⟩
      · rintro rfl
        rw [h2] at hx; cases hx; cases hc
    crObj := by
      intro n a ha
      obtain ⟨h1, qs, h2⟩ := h.crObj n a ha
      have h3 := f.old _ _ h2
      rw [if_neg] at h3
      · exact ⟨h1, qs, h3⟩
      · rintro rfl
        rw [h2] at hx; cases hx; cases hc }

theorem Types.putCp {cg b : Nat} {s : Heap} {m : CpM} {r : CrM} {cpM : Dict (Dict (Nat × Int))} {crM : Dict (Dict Int)}
    (h : Types cg b s m r cpM crM) {n : String} {c : Nat} (hb : b ≤ c) (hc : s.objs[c]? = some (memCoverpoint cg n none 1 srcOTHER)) (t : Dict (Nat × Int)) :
    Types cg b s (m.set n (c, t)) r (cpM.set n t) crM :=
  { h with
    cp := drel_set h.cp n rfl
    cpNodup := Dict.nodup_set h.cpNodup ..
    cpObj := by
      intro k a ha
      rw [Dict.get?_set] at ha
      split at ha
      · rename_i hk
        cases ha; subst hk
        exact ⟨hb, hc⟩
      · exact h.cpObj k a ha }

theorem Types.putCr {cg b : Nat} {s : Heap} {m : CpM} {r : CrM} {cpM : Dict (Dict (Nat × Int))} {crM : Dict (Dict Int)}
    (h : Types cg b s m r cpM crM) {n : String} {c : Nat} (hb : b ≤ c) (hc : ∃ qs, s.objs[c]? = some (memCross cg n none 1 srcOTHER qs)) (t : Dict Int) :
    Types cg b s m (r.set n (c, t)) cpM (crM.set n t) :=
  { h with
    cr := drel_set h.cr n rfl
    crNodup := Dict.nodup_set h.crNodup ..
    crObj := by
      intro k a ha
      rw [Dict.get?_set] at ha
      split at ha
      · rename_i hk
        cases ha; subst hk
        exact ⟨hb, hc⟩
      · exact h.crObj k a ha }

theorem open_putCp {b : Nat} {m : CpM} {r : CrM} {n : String} {c : Nat} {t : Dict (Nat × Int)} {o : Nat}
    (h : Open b (m.set n (c, t)) r o) : Open b m r o ∨ o = c := by
  rcases h with h | ⟨k, a, h, ho⟩ | h
  · exact .inl (.inl h)
  · rw [Dict.get?_set] at h
    split at h
    · cases h; exact .inr ho.symm
    · exact .inl (.inr (.inl ⟨k, a, h, ho⟩))
  · exact .inl (.inr (.inr h))

theorem open_putCr {b : Nat} {m : CpM} {r : CrM} {n : String} {c : Nat} {t : Dict Int} {o : Nat}
    (h : Open b m (r.set n (c, t)) o) : Open b m r o ∨ o = c := by
  rcases h with h | h | ⟨k, a, h, ho⟩
  · exact .inl (.inl h)
  · exact .inl (.inr (.inl h))
  · rw [Dict.get?_set] at h
    split at h
    · cases h; exact .inr ho.symm
    · exact .inl (.inr (.inr ⟨k, a, h, ho⟩))

/-- A type-level object is not a covergroup, and it exists. -/
theorem Types.open_lt {cg b : Nat} {s : Heap} {m : CpM} {r : CrM} {cpM : Dict (Dict (Nat × Int))} {crM : Dict (Dict Int)}
    (h : Types cg b s m r cpM crM) {o : Nat} (ho : Open b m r o) : o < b ∨ ∃ x, s.objs[o]? = some x ∧ x.cls ≠ .covergroup := by
  rcases ho with ho | ⟨n, a, ha, rfl⟩ | ⟨n, a, ha, rfl⟩
  · exact .inl ho
  · exact .inr ⟨_, (h.cpObj n a ha).2, by simp [memCoverpoint, memCvg, memScope]⟩
  · obtain ⟨_, qs, h2⟩ := h.crObj n a ha
    exact .inr ⟨_, h2, by simp [memCross, memCvg, memScope]⟩

/-! ## Children of the type covergroup -/

/-- The child `c` of the covergroup is what the slot says. -/
def SlotOk (K : Nat → Prop) (s : Heap) (cg : Nat) (m : CpM) (r : CrM) (c : Nat) : Slot → Prop
  | .inst v => Closed K s c v
  | .cp n => ∃ a, m.get? n = some a ∧ a.1 = c
  | .cross n l => ∃ a qs, r.get? n = some a ∧ a.1 = c ∧ s.objs[c]? = some (memCross cg n none 1 srcOTHER qs) ∧
      List.Forall₂ (fun q n => IsCp s cg n q) qs l

theorem SlotOk.frame {N cg : Nat} {K K' : Nat → Prop} {s s' : Heap} {m m' : CpM} {r r' : CrM} {c d : Nat} {k i : List Nat} {sl : Slot}
    (h : SlotOk K s cg m r c sl) (f : Frame N s s' d k i) {x : Obj} (hx : s.objs[d]? = some x) (hc : x.cls = .covergroup) (hd : K d)
    (hK : ∀ o, o < s.objs.length → K' o → K o) (hm : Ext m m') (hr : Ext r r') : SlotOk K' s' cg m' r' c sl := by
  cases sl with
  | inst v => exact Closed.frame h f (.inl hd) hK
  | cp n =>
    obtain ⟨a, h1, h2⟩ := h
    obtain ⟨a', h3, h4⟩ := hm n a h1
    exact ⟨a', h3, h4.trans h2⟩
  | cross n l =>
    obtain ⟨a, qs, h1, h2, h5, h6⟩ := h
    obtain ⟨a', h3, h4⟩ := hr n a h1
    have h7 := f.old _ _ h5
    rw [if_neg] at h7
    · exact ⟨a', qs, h3, h4.trans h2, h7, forall2_imp h6 (fun _ _ _ hab => hab.frame f)⟩
    · rintro rfl
      rw [h5] at hx; cases hx; cases hc

theorem SlotOk.mono {cg : Nat} {K K' : Nat → Prop} {s : Heap} {m m' : CpM} {r r' : CrM} {c : Nat} {sl : Slot}
    (h : SlotOk K s cg m r c sl) (hK : ∀ o, o < s.objs.length → K' o → K o) (hm : Ext m m') (hr : Ext r r') : SlotOk K' s cg m' r' c sl := by
  cases sl with
  | inst v => exact Closed.mono h hK
  | cp n =>
    obtain ⟨a, h1, h2⟩ := h
    obtain ⟨a', h3, h4⟩ := hm n a h1
    exact ⟨a', h3, h4.trans h2⟩
  | cross n l =>
    obtain ⟨a, qs, h1, h2, h5, h6⟩ := h
    obtain ⟨a', h3, h4⟩ := hr n a h1
    exact ⟨a', qs, h3, h4.trans h2, h5, h6⟩

/-! ## Inside one cgInstance -/

/-- The cover-instance being read. -/
def instObj (cg : Nat) (nm : String) (kids : List Nat) : Obj :=
  { memCovergroup cg nm none 1 srcOTHER with stype := ST.COVERINSTANCE, children := kids }

/-- State within one cgInstance; `s0` is the store in which the type covergroup was empty. -/
structure IInv (N cg cgi : Nat) (nm : String) (s0 : Heap) (slots0 : List Slot) (s : Heap) (m : CpM) (r : CrM) (known : Dict Nat) (st : Xml.IState) : Prop where
  types : Types cg s0.objs.length s m r st.cpM st.crM
  low : s0.objs.length ≤ cgi
  frame : ∃ ch0 ch1, Frame N s0 s cg (ch0 ++ cgi :: ch1) [] ∧
    List.Forall₂ (SlotOk (fun o => Open s0.objs.length m r o ∨ o = cgi) s cg m r) ch0 slots0 ∧
    List.Forall₂ (SlotOk (fun o => Open s0.objs.length m r o ∨ o = cgi) s cg m r) ch1 st.slots
  inst : ∃ kids, s.objs[cgi]? = some (instObj cg nm kids) ∧
    List.Forall₂ (Closed (fun o => Open s0.objs.length m r o ∨ o = cgi) s) kids st.kids
  known : CpMap s cgi known st.known

theorem CpMap.frame {N : Nat} {s s' : Heap} {d e : Nat} {k i : List Nat} {cps : Dict Nat} {names : List String} (h : CpMap s d cps names)
    (f : Frame N s s' e k i) : CpMap s' d cps names := ⟨fun n q hg => (h.cp n q hg).frame f, h.keys⟩

theorem grow_grow (k k' : List Nat) (x : Obj) : grow k' [] (grow k [] x) = grow (k ++ k') [] x := by simp [grow]

/-- A new type-level child. -/
theorem IInv.grow {N cg cgi : Nat} {nm : String} {s0 : Heap} {slots0 : List Slot} {s s1 : Heap} {m m1 : CpM} {r r1 : CrM} {known : Dict Nat} {st : Xml.IState}
    {x0 : Obj} (h0 : s0.objs[cg]? = some x0) (hc0 : x0.cls = .covergroup) (h : IInv N cg cgi nm s0 slots0 s m r known st) {q : Nat} (f : Frame N s s1 cg [q] [])
    {cpM1 : Dict (Dict (Nat × Int))} {crM1 : Dict (Dict Int)} (ht : Types cg s0.objs.length s1 m1 r1 cpM1 crM1) (hm : Ext m m1) (hr : Ext r r1)
    (hK : ∀ o, o < s.objs.length → Open s0.objs.length m1 r1 o → Open s0.objs.length m r o) {sl : Slot}
    (hs : SlotOk (fun o => Open s0.objs.length m1 r1 o ∨ o = cgi) s1 cg m1 r1 q sl) :
    IInv N cg cgi nm s0 slots0 s1 m1 r1 known { st with slots := st.slots ++ [sl], cpM := cpM1, crM := crM1 } := by
  obtain ⟨ch0, ch1, f0, h1, h2⟩ := h.frame
  obtain ⟨kids, hi, hk⟩ := h.inst
  obtain ⟨x, hx, _, _, _, hcx, _⟩ := f0.keeps h0
  have hc : x.cls = .covergroup := hcx.trans hc0
  have hl0 := (List.getElem?_eq_some_iff.1 h0).1
  have hK' : ∀ o, o < s.objs.length → (Open s0.objs.length m1 r1 o ∨ o = cgi) → (Open s0.objs.length m r o ∨ o = cgi) :=
    fun o ho hk => hk.imp (hK o ho) id
  have hcg : Open s0.objs.length m r cg ∨ cg = cgi := .inl (.inl hl0)
  exact {
    types := ht
    low := h.low
    frame := by
      refine ⟨ch0, ch1 ++ [q], ?_, forall2_imp h1 (fun _ _ _ hab => hab.frame f hx hc hcg hK' hm hr),
        List.rel_append (forall2_imp h2 (fun _ _ _ hab => hab.frame f hx hc hcg hK' hm hr)) (.cons hs .nil)⟩
      have := f0.trans f hl0
      simpa using this
    inst := by
      have h3 := f.old _ _ hi
      have hlow := h.low
      rw [if_neg (by omega)] at h3
      exact ⟨kids, h3, forall2_imp hk (fun _ _ _ hab => hab.frame f (.inl hcg) hK')⟩
    known := h.known.frame f }

/-- A new child of the cover-instance. -/
theorem IInv.kid {N cg cgi : Nat} {nm : String} {s0 : Heap} {slots0 : List Slot} {s s1 : Heap} {m : CpM} {r : CrM} {known : Dict Nat} {st : Xml.IState}
    (h : IInv N cg cgi nm s0 slots0 s m r known st) {q : Nat} (f : Frame N s s1 cgi [q] []) {v : Scope} (hn : New s.objs.length s1 q v) :
    IInv N cg cgi nm s0 slots0 s1 m r known { st with kids := st.kids ++ [v] } := by
  obtain ⟨ch0, ch1, f0, h1, h2⟩ := h.frame
  obtain ⟨kids, hi, hk⟩ := h.inst
  have hlt := (List.getElem?_eq_some_iff.1 hi).1
  have hcg : Open s0.objs.length m r cgi ∨ cgi = cgi := .inr rfl
  exact {
    types := h.types.frame f hi rfl
    low := h.low
    frame := ⟨ch0, ch1, f0.deep f h.low, forall2_imp h1 (fun _ _ _ hab => hab.frame f hi rfl hcg (fun _ _ h => h) (Ext.refl _) (Ext.refl _)),
      forall2_imp h2 (fun _ _ _ hab => hab.frame f hi rfl hcg (fun _ _ h => h) (Ext.refl _) (Ext.refl _))⟩
    inst := by
      have h3 := f.old _ _ hi
      rw [if_pos rfl] at h3
      refine ⟨kids ++ [q], ?_, List.rel_append (forall2_imp hk (fun _ _ _ hab => hab.frame f (.inl hcg) (fun _ _ h => h))) (.cons ?_ .nil)⟩
      · rw [h3]; simp [Store.grow, instObj, memCovergroup, memCvg, memScope]
      · refine hn.closed ?_
        rintro o ho _ (h4 | rfl)
        · have hl := f0.len
          rcases h.types.open_lt h4 with h5 | ⟨x, hx, _⟩
          · omega
          · have := (List.getElem?_eq_some_iff.1 hx).1; omega
        · omega
    known := h.known.frame f }

/-- The table of a type-level coverpoint is replaced. -/
theorem IInv.putCp {N cg cgi : Nat} {nm : String} {s0 : Heap} {slots0 : List Slot} {s : Heap} {m : CpM} {r : CrM} {known : Dict Nat} {st : Xml.IState}
    (h : IInv N cg cgi nm s0 slots0 s m r known st) {n : String} {a : Nat × Dict (Nat × Int)} (ha : m.get? n = some a) (t : Dict (Nat × Int)) :
    IInv N cg cgi nm s0 slots0 s (m.set n (a.1, t)) r known { st with cpM := st.cpM.set n t } := by
  obtain ⟨ch0, ch1, f0, h1, h2⟩ := h.frame
  obtain ⟨kids, hi, hk⟩ := h.inst
  have hK : ∀ o, o < s.objs.length → (Open s0.objs.length (m.set n (a.1, t)) r o ∨ o = cgi) → (Open s0.objs.length m r o ∨ o = cgi) := by
    rintro o _ (h3 | h3)
    · rcases open_putCp h3 with h4 | h4
      · exact .inl h4
      · exact .inl (.inr (.inl ⟨n, a, ha, h4.symm⟩))
    · exact .inr h3
  exact {
    types := h.types.putCp (h.types.cpObj n a ha).1 (h.types.cpObj n a ha).2 t
    low := h.low
    frame := ⟨ch0, ch1, f0, forall2_imp h1 (fun _ _ _ hab => hab.mono hK (Ext.put ha t) (Ext.refl _)),
      forall2_imp h2 (fun _ _ _ hab => hab.mono hK (Ext.put ha t) (Ext.refl _))⟩
    inst := ⟨kids, hi, forall2_imp hk (fun _ _ _ hab => hab.mono hK)⟩
    known := h.known }

/-- The table of a type-level cross is replaced. -/
theorem IInv.putCr {N cg cgi : Nat} {nm : String} {s0 : Heap} {slots0 : List Slot} {s : Heap} {m : CpM} {r : CrM} {known : Dict Nat} {st : Xml.IState}
    (h : IInv N cg cgi nm s0 slots0 s m r known st) {n : String} {a : Nat × Dict Int} (ha : r.get? n = some a) (t : Dict Int) :
    IInv N cg cgi nm s0 slots0 s m (r.set n (a.1, t)) known { st with crM := st.crM.set n t } := by
  obtain ⟨ch0, ch1, f0, h1, h2⟩ := h.frame
  obtain ⟨kids, hi, hk⟩ := h.inst
  have hK : ∀ o, o < s.objs.length → (Open s0.objs.length m (r.set n (a.1, t)) o ∨ o = cgi) → (Open s0.objs.length m r o ∨ o = cgi) := by
    rintro o _ (h3 | h3)
    · rcases open_putCr h3 with h4 | h4
      · exact .inl h4
      · exact .inl (.inr (.inr ⟨n, a, ha, h4.symm⟩))
    · exact .inr h3
  exact {
    types := h.types.putCr (h.types.crObj n a ha).1 (h.types.crObj n a ha).2 t
    low := h.low
    frame := ⟨ch0, ch1, f0, forall2_imp h1 (fun _ _ _ hab => hab.mono hK (Ext.refl _) (Ext.put ha t)),
      forall2_imp h2 (fun _ _ _ hab => hab.mono hK (Ext.refl _) (Ext.put ha t))⟩
    inst := ⟨kids, hi, forall2_imp hk (fun _ _ _ hab => hab.mono hK)⟩
    known := h.known }

/-! ## Coverpoint elements -/

theorem newCp_out {N cg cgi : Nat} {nm : String} {s0 : Heap} {slots0 : List Slot} {s : Heap} {m : CpM} {r : CrM} {known : Dict Nat} {st : Xml.IState}
    {x0 : Obj} (h0 : s0.objs[cg]? = some x0) (hc0 : x0.cls = .covergroup) (h : IInv N cg cgi nm s0 slots0 s m r known st) {n : String} (hn : m.get? n = none) :
    ∃ s1, createCoverpoint cg n none 1 srcOTHER s = (.ok s.objs.length, s1) ∧
      IInv N cg cgi nm s0 slots0 s1 (m.set n (s.objs.length, [])) r known { st with slots := st.slots ++ [.cp n], cpM := st.cpM.set n [] } := by
  obtain ⟨ch0, ch1, f0, _, _⟩ := h.frame
  obtain ⟨x, hx, _, _, _, hcx, _⟩ := f0.keeps h0
  have hc : x.cls = .covergroup := hcx.trans hc0
  have hcr := createCoverpoint_eq hx hc n none 1 srcOTHER
  have hfr : Frame N s _ cg [s.objs.length] [] := frame_attach (y := memCoverpoint cg n none 1 srcOTHER) hx fresh_coverpoint
    (by simp [memCoverpoint, memCvg, memScope]) (by simp [memCoverpoint, memCvg, memScope]) (by simp [memCoverpoint, memCvg, memScope])
    ⟨.createCoverpoint cg n none 1 srcOTHER, exec_scope rfl hcr⟩
  have hnew := withChild_new (y := memCoverpoint cg n none 1 srcOTHER) hx
  refine ⟨_, hcr, h.grow h0 hc0 hfr ((h.types.frame hfr hx hc).putCp f0.len hnew []) (Ext.new hn _) (Ext.refl _) ?_ ?_⟩
  · intro o ho h3
    rcases open_putCp h3 with h4 | h4
    · exact h4
    · omega
  · exact ⟨(s.objs.length, []), by rw [Dict.get?_set, if_pos rfl], rfl⟩

theorem readCoverpointInst_out {N : Nat} {s : Heap} {d : Nat} {x : Obj} (hx : s.objs[d]? = some x) (hc : x.cls = .covergroup) (e : Elem) (t : Dict (Nat × Int)) :
    Outcome N (XmlReader.readCoverpointInst d e t) s d ((iter "coverpointBin" e).mapM Xml.readBin)
      (fun p its s' k i => i = [] ∧ k = [p.1] ∧ p.2 = its.foldl Xml.addBin t ∧
        New s.objs.length s' p.1 (mkCoverpoint (e.getD "name" "<unknown>") SrcInfo.none 1 its) ∧ IsCp s' d (e.getD "name" "<unknown>") p.1) := by
  have hcr := createCoverpoint_eq hx hc (e.getD "name" "<unknown>") none 1 srcOTHER
  have hfr : Frame N s _ d [s.objs.length] [] := frame_attach (y := memCoverpoint d (e.getD "name" "<unknown>") none 1 srcOTHER) hx fresh_coverpoint
    (by simp [memCoverpoint, memCvg, memScope]) (by simp [memCoverpoint, memCvg, memScope]) (by simp [memCoverpoint, memCvg, memScope])
    ⟨.createCoverpoint d (e.getD "name" "<unknown>") none 1 srcOTHER, exec_scope rfl hcr⟩
  have hnew := withChild_new (y := memCoverpoint d (e.getD "name" "<unknown>") none 1 srcOTHER) hx
  have hbins := binLoop_out (N := N) (f := XmlReader.readCoverpointBin s.objs.length) (rb := Xml.readBin) (ab := Xml.addBin) (·.kind)
    (fun _ _ => rfl) (fun _ _ h => readBin_mk h) (iter "coverpointBin" e) t hnew (.inl rfl)
  have hval : (iter "coverpointBin" e).mapM Xml.readBin = (iter "coverpointBin" e).mapM Xml.readBin >>= fun a => Pure.pure a := (bind_pure _).symm
  rw [hval]
  refine Outcome.create (w := id) hcr hfr (Nat.le_refl _) (fun _ => rfl) (Outcome.map (g := fun t => (s.objs.length, t)) hbins) ?_
  rintro p its s2 k i f2 ⟨t', rfl, rfl, rfl, hits⟩
  refine ⟨rfl, rfl, rfl, ?_, IsCp.frame ⟨_, hnew, rfl, rfl, rfl⟩ f2⟩
  exact new_filled hnew f2 (Nat.le_refl _) (by rw [withChild_len]; omega) rfl rfl rfl rfl rfl rfl (by simp [ShowsDu, memCoverpoint, memCvg, memScope, mkCoverpoint])
    (by simp [ShowsCps, memCoverpoint, memCvg, memScope, mkCoverpoint]) .nil hits

theorem CpMap.set {s : Heap} {d : Nat} {cps : Dict Nat} {names : List String} (h : CpMap s d cps names) {n : String} {q : Nat} (hq : IsCp s d n q) :
    CpMap s d (cps.set n q) (n :: names) where
  cp k p hg := by
    rw [Dict.get?_set] at hg
    split at hg
    · rename_i hk
      cases hg; subst hk
      exact hq
    · exact h.cp k p hg
  keys k := by
    rw [Dict.keys_set]
    split
    · rename_i hk
      rw [h.keys, List.mem_cons]
      exact ⟨.inr, fun h1 => h1.elim (fun e => e ▸ (h.keys n).1 hk) id⟩
    · simp only [List.mem_append, h.keys, List.mem_cons, List.not_mem_nil, or_false]
      exact or_comm

/-- The covergroup is the only old object that grew. -/
def GFrame (N cg : Nat) (s0 s : Heap) : Prop := ∃ ch, Frame N s0 s cg ch []

theorem Frame.noItems {N : Nat} {s s' : Heap} {d : Nat} {k i : List Nat} (f : Frame N s s' d k i) {x : Obj} (hx : s.objs[d]? = some x)
    (hc : x.cls ≠ .coverpoint ∧ x.cls ≠ .cross) : i = [] := by
  by_contra hne
  obtain ⟨y, hy, h⟩ := f.itemsAt hne
  rw [hx] at hy; cases hy
  exact h.elim hc.1 hc.2

theorem readCp_tail {N cg cgi : Nat} {nm : String} {s0 : Heap} {slots0 : List Slot} {s : Heap} {m : CpM} {r : CrM} {known : Dict Nat} {st : Xml.IState}
    (h : IInv N cg cgi nm s0 slots0 s m r known st) (e : Elem) {a : Nat × Dict (Nat × Int)} (ha : m.get? (e.getD "name" "<unknown>") = some a) :
    Sim (XmlReader.readCoverpointInst cgi e a.2) s ((iter "coverpointBin" e).mapM Xml.readBin)
      (fun p its s' => IInv N cg cgi nm s0 slots0 s' (m.set (e.getD "name" "<unknown>") (a.1, p.2)) r (known.set (e.getD "name" "<unknown>") p.1)
        { st with cpM := st.cpM.set (e.getD "name" "<unknown>") (its.foldl Xml.addBin a.2)
                  kids := st.kids ++ [mkCoverpoint (e.getD "name" "<unknown>") SrcInfo.none 1 its]
                  known := e.getD "name" "<unknown>" :: st.known })
      (GFrame N cg s0) := by
  obtain ⟨ch0, ch1, f0, _, _⟩ := h.frame
  obtain ⟨kids, hi, _⟩ := h.inst
  refine (readCoverpointInst_out (N := N) hi rfl e a.2).sim.mono ?_ ?_
  · rintro p its s' ⟨k, i, f, rfl, rfl, hp, hn, hcp⟩
    rw [hp]
    have h1 := (h.kid f hn).putCp ha (its.foldl Xml.addBin a.2)
    exact { types := h1.types, low := h1.low, frame := h1.frame, inst := h1.inst, known := h1.known.set hcp }
  · rintro s' ⟨k, i, f⟩
    exact ⟨_, f0.deep f h.low⟩

theorem readCp_out {N cg cgi : Nat} {nm : String} {s0 : Heap} {slots0 : List Slot} {s : Heap} {m : CpM} {r : CrM} {known : Dict Nat} {st : Xml.IState}
    {x0 : Obj} (h0 : s0.objs[cg]? = some x0) (hc0 : x0.cls = .covergroup) (h : IInv N cg cgi nm s0 slots0 s m r known st) (e : Elem) :
    Sim (XmlReader.readCp cg cgi (m, known) e) s (Xml.readCp st e)
      (fun p st' s' => IInv N cg cgi nm s0 slots0 s' p.1 r p.2 st') (GFrame N cg s0) := by
  have hrel := drel_get h.types.cp (e.getD "name" "<unknown>")
  unfold XmlReader.readCp Xml.readCp
  simp only
  cases hm : m.get? (e.getD "name" "<unknown>") with
  | none =>
    rw [hm] at hrel
    have hv : st.cpM.get? (e.getD "name" "<unknown>") = none := by
      cases hg : st.cpM.get? (e.getD "name" "<unknown>") with
      | none => rfl
      | some d => rw [hg] at hrel; cases hrel
    obtain ⟨s1, h1, h2⟩ := newCp_out h0 hc0 h hm
    have e1 : (createCoverpoint cg (e.getD "name" "<unknown>") none 1 srcOTHER >>= fun c => (Pure.pure (c, []) : M (Nat × Dict (Nat × Int)))) s =
        (.ok (s.objs.length, []), s1) := by rw [bind_eq_of_ok h1]; rfl
    rw [hv]
    refine Sim.step e1 ?_
    refine Sim.bind (readCp_tail h2 e (a := (s.objs.length, [])) (by rw [Dict.get?_set, if_pos rfl])) ?_
    intro p its s2 h3
    refine Sim.pure ?_
    rw [Dict.set_set] at h3
    simpa only [Dict.set_set] using h3
  | some a =>
    rw [hm] at hrel
    obtain ⟨d, hd, hda⟩ : ∃ d, st.cpM.get? (e.getD "name" "<unknown>") = some d ∧ a.2 = d := by
      cases hg : st.cpM.get? (e.getD "name" "<unknown>") with
      | none => rw [hg] at hrel; cases hrel
      | some d => rw [hg] at hrel; cases hrel; exact ⟨_, rfl, by assumption⟩
    rw [hd]
    refine Sim.step (s1 := s) rfl ?_
    refine Sim.bind (readCp_tail h e hm) ?_
    intro p its s2 h3
    refine Sim.pure ?_
    simp only [List.append_nil]
    rw [← hda]
    exact h3

end Store
end Verif
