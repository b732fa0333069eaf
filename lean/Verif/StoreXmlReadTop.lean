import Verif.StoreXmlReadGroup
/-!
# Instances read from XML on objects
-/

namespace Verif
namespace Store
open Spec
open Xml (Elem iter)

/-- A design unit made by the reader. -/
def duObj (D : Nat) (n : String) : Obj := memScope .unit (some D) n none 1 srcOTHER ST.DU_MODULE DbMerger.duFlags

/-- An instance made by the reader. -/
def instScope (D : Nat) (n : String) (du : Nat) (kids : List Nat) : Obj :=
  { memInstance D n none 1 srcOTHER ST.INSTANCE (some du) DbMerger.instFlags with children := kids }

/-- Objects that may still grow. -/
def TOpen (b : Nat) (M I : Dict Nat) (o : Nat) : Prop := o < b ∨ (∃ n, M.get? n = some o) ∨ (∃ n, I.get? n = some o)

/-- A child of the database being read. -/
def TopOk (D b : Nat) (s : Heap) (M I : Dict Nat) (c : Nat) (v : Scope) : Prop :=
  (∃ n, s.objs[c]? = some (duObj D n) ∧ v = mkDu n SrcInfo.none 1) ∨
  (∃ n du mn kids cgs, I.get? n = some c ∧ s.objs[c]? = some (instScope D n du kids) ∧ s.objs[du]? = some (duObj D mn) ∧
    List.Forall₂ (Closed (TOpen b M I) s) kids cgs ∧ v = mkInstance n SrcInfo.none 1 (some ⟨mn, SrcInfo.none, 1⟩) cgs)

/-- State between instances. -/
structure TInv (N D : Nat) (s0 s : Heap) (M I : Dict Nat) (tops : List Scope) : Prop where
  frame : ∃ ch, Frame N s0 s D ch [] ∧ List.Forall₂ (TopOk D s0.objs.length s M I) ch tops
  modObj : ∀ n c, M.get? n = some c → s0.objs.length ≤ c ∧ s.objs[c]? = some (duObj D n)
  instObj : ∀ n c, I.get? n = some c → s0.objs.length ≤ c ∧ ∃ du kids, s.objs[c]? = some (instScope D n du kids)
  modKeys : ∀ n, (M.get? n).isSome = tops.any (fun v => v.stype == ST.DU_MODULE && v.name == n)
  instKeys : ∀ n, (I.get? n).isSome = tops.any (fun v => v.stype == ST.INSTANCE && v.name == n)

theorem TInv.open_lt {N D : Nat} {s0 s : Heap} {M I : Dict Nat} {tops : List Scope} (h : TInv N D s0 s M I tops) {o : Nat}
    (ho : TOpen s0.objs.length M I o) : o < s.objs.length := by
  obtain ⟨ch, f, _⟩ := h.frame
  rcases ho with ho | ⟨n, hn⟩ | ⟨n, hn⟩
  · exact Nat.lt_of_lt_of_le ho f.len
  · exact (List.getElem?_eq_some_iff.1 (h.modObj n o hn).2).1
  · obtain ⟨_, du, kids, hx⟩ := h.instObj n o hn
    exact (List.getElem?_eq_some_iff.1 hx).1

/-- The database grows. -/
theorem TopOk.frame {N D b : Nat} {s s1 : Heap} {M I M' I' : Dict Nat} {c : Nat} {v : Scope} (h : TopOk D b s M I c v) {k i : List Nat}
    (f : Frame N s s1 D k i) (hD : D < b) {x : Obj} (hx : s.objs[D]? = some x) (hc : x.cls = .db)
    (hI : ∀ n c, I.get? n = some c → I'.get? n = some c) (hK : ∀ o, o < s.objs.length → TOpen b M' I' o → TOpen b M I o) : TopOk D b s1 M' I' c v := by
  have keep : ∀ (o : Nat) (y : Obj), s.objs[o]? = some y → y.cls ≠ .db → s1.objs[o]? = some y := by
    intro o y hy hne
    have := f.old _ _ hy
    rw [if_neg] at this
    · exact this
    · rintro rfl
      rw [hx] at hy; cases hy; exact hne hc
  rcases h with ⟨n, h1, h2⟩ | ⟨n, du, mn, kids, cgs, h1, h2, h3, h4, h5⟩
  · exact .inl ⟨n, keep _ _ h1 (by simp [duObj, memScope]), h2⟩
  · exact .inr ⟨n, du, mn, kids, cgs, hI _ _ h1, keep _ _ h2 (by simp [instScope, memInstance, memScope]), keep _ _ h3 (by simp [duObj, memScope]),
      forall2_imp h4 (fun _ _ _ hab => hab.frame f (.inl (.inl hD)) hK), h5⟩

theorem get_set_old {M : Dict Nat} {n : String} (hn : M.get? n = none) (c : Nat) {k : String} {q : Nat} (h : M.get? k = some q) :
    (M.set n c).get? k = some q := by
  rw [Dict.get?_set, if_neg]
  · exact h
  · rintro rfl
    rw [hn] at h; cases h

theorem get_set_inv {M : Dict Nat} {n : String} {c : Nat} {k : String} {q : Nat} (h : (M.set n c).get? k = some q) :
    (n = k ∧ q = c) ∨ M.get? k = some q := by
  rw [Dict.get?_set] at h
  split at h
  · rename_i hk
    cases h
    exact .inl ⟨hk, rfl⟩
  · exact .inr h

theorem getScope_out {N D : Nat} {s0 s : Heap} {M I : Dict Nat} {tops : List Scope} {x0 : Obj} (h0 : s0.objs[D]? = some x0) (hc0 : x0.cls = .db)
    (h : TInv N D s0 s M I tops) (m : String) :
    ∃ c M' s1, XmlReader.getScope D m M s = (.ok (c, M'), s1) ∧ M'.get? m = some c ∧ TInv N D s0 s1 M' I (Xml.addModule m tops) := by
  have hk := h.modKeys m
  unfold XmlReader.getScope Xml.addModule
  cases hg : M.get? m with
  | some c =>
    rw [hg] at hk
    rw [if_pos (by rw [← hk]; rfl)]
    exact ⟨c, M, s, rfl, hg, h⟩
  | none =>
    rw [hg] at hk
    rw [if_neg (by rw [← hk]; simp)]
    obtain ⟨ch, f0, ht⟩ := h.frame
    obtain ⟨x, hx, _, _, _, hcx, _⟩ := f0.keeps h0
    have hc : x.cls = .db := hcx.trans hc0
    have hl0 := (List.getElem?_eq_some_iff.1 h0).1
    have hcr : createScope D m none 1 srcOTHER ST.DU_MODULE DbMerger.duFlags s = (.ok s.objs.length, s.withChild D (duObj D m)) := by
      rw [createScope_eq hx, hc]
      have : ST.duAny ST.DU_MODULE = true := by decide
      simp [this, duObj]
    have hfr : Frame N s _ D [s.objs.length] [] := frame_attach (y := duObj D m) hx fresh_scope
      (by simp [duObj, memScope]) (by simp [duObj, memScope]) (by simp [duObj, memScope])
      ⟨.createScope D m none 1 srcOTHER ST.DU_MODULE DbMerger.duFlags, exec_scope rfl hcr⟩
    have hnew := withChild_new (y := duObj D m) hx
    have hK : ∀ o, o < s.objs.length → TOpen s0.objs.length (M.set m s.objs.length) I o → TOpen s0.objs.length M I o := by
      rintro o ho (h1 | ⟨n, hn⟩ | h1)
      · exact .inl h1
      · rcases get_set_inv hn with ⟨_, rfl⟩ | h2
        · omega
        · exact .inr (.inl ⟨n, h2⟩)
      · exact .inr (.inr h1)
    refine ⟨_, _, _, (bind_eq_of_ok hcr).trans rfl, by rw [Dict.get?_set, if_pos rfl], ?_⟩
    exact {
      frame := ⟨ch ++ [s.objs.length], f0.trans hfr hl0,
        List.rel_append (forall2_imp ht (fun _ _ _ hab => hab.frame hfr hl0 hx hc (fun _ _ h => h) hK)) (.cons (.inl ⟨m, hnew, rfl⟩) .nil)⟩
      modObj := by
        intro n c hn
        rcases get_set_inv hn with ⟨rfl, rfl⟩ | h2
        · exact ⟨f0.len, hnew⟩
        · obtain ⟨h3, h4⟩ := h.modObj n c h2
          have h5 := hfr.old _ _ h4
          rw [if_neg (by omega)] at h5
          exact ⟨h3, h5⟩
      instObj := by
        intro n c hn
        obtain ⟨h3, du, kids, h4⟩ := h.instObj n c hn
        have h5 := hfr.old _ _ h4
        rw [if_neg (by omega)] at h5
        exact ⟨h3, du, kids, h5⟩
      modKeys := by
        intro n
        rw [Dict.get?_set, List.any_append, ← h.modKeys]
        by_cases hn : m = n
        · simp [hn, mkDu]
        · simp [hn, mkDu]
      instKeys := by
        intro n
        rw [List.any_append, ← h.instKeys]
        have : (ST.DU_MODULE == ST.INSTANCE) = false := by decide
        simp [mkDu, this] }

theorem addInst_nil {n m : String} {tops : List Scope} (h : tops.any (fun s => s.stype == ST.INSTANCE && s.name == n)) : Xml.addInst n m [] tops = tops := by
  unfold Xml.addInst
  rw [if_pos h]
  conv_rhs => rw [← List.map_id tops]
  refine List.map_congr_left ?_
  intro s _
  split
  · cases s; simp
  · rfl

theorem getInstScope_out {N D : Nat} {s0 s : Heap} {M I : Dict Nat} {tops : List Scope} {x0 : Obj} (h0 : s0.objs[D]? = some x0) (hc0 : x0.cls = .db)
    (hN : N ≤ s0.objs.length) (h : TInv N D s0 s M I tops) (n : String) {m : String} {du : Nat} (hdu : M.get? m = some du) :
    ∃ c I' s1, XmlReader.getInstScope D n du I s = (.ok (c, I'), s1) ∧ I'.get? n = some c ∧ TInv N D s0 s1 M I' (Xml.addInst n m [] tops) := by
  have hk := h.instKeys n
  unfold XmlReader.getInstScope
  cases hg : I.get? n with
  | some c =>
    rw [hg] at hk
    rw [addInst_nil hk.symm]
    exact ⟨c, I, s, rfl, hg, h⟩
  | none =>
    rw [hg] at hk
    unfold Xml.addInst
    rw [if_neg (by rw [← hk]; simp)]
    obtain ⟨ch, f0, ht⟩ := h.frame
    obtain ⟨x, hx, _, _, _, hcx, _⟩ := f0.keeps h0
    have hc : x.cls = .db := hcx.trans hc0
    have hl0 := (List.getElem?_eq_some_iff.1 h0).1
    obtain ⟨hdl, hdo⟩ := h.modObj m du hdu
    have hcr : createInstance D n none 1 srcOTHER ST.INSTANCE (some du) DbMerger.instFlags s = (.ok s.objs.length, s.withChild D (instScope D n du [])) :=
      bind_eq_of_ok (obj_some hx)
    have hfr : Frame N s _ D [s.objs.length] [] := frame_attach (y := instScope D n du []) hx
      (show Fresh D n (memInstance D n none 1 srcOTHER ST.INSTANCE (some du) DbMerger.instFlags) from fresh_instance)
      (by simp [instScope, memInstance, memScope]) (by simp [instScope, memInstance, memScope])
      (by
        intro u hu
        simp only [instScope, memInstance, memScope, Option.some.injEq] at hu
        subst hu
        exact ⟨by omega, rfl, _, hdo, rfl⟩)
      ⟨.createInstance D n none 1 srcOTHER ST.INSTANCE (some du) DbMerger.instFlags, exec_scope rfl hcr⟩
    have hnew := withChild_new (y := instScope D n du []) hx
    have hK : ∀ o, o < s.objs.length → TOpen s0.objs.length M (I.set n s.objs.length) o → TOpen s0.objs.length M I o := by
      rintro o ho (h1 | h1 | ⟨k, hn⟩)
      · exact .inl h1
      · exact .inr (.inl h1)
      · rcases get_set_inv hn with ⟨_, rfl⟩ | h2
        · omega
        · exact .inr (.inr ⟨k, h2⟩)
    have hdo1 := hfr.old _ _ hdo
    rw [if_neg (by omega)] at hdo1
    refine ⟨_, _, _, (bind_eq_of_ok hcr).trans rfl, by rw [Dict.get?_set, if_pos rfl], ?_⟩
    exact {
      frame := ⟨ch ++ [s.objs.length], f0.trans hfr hl0,
        List.rel_append (forall2_imp ht (fun _ _ _ hab => hab.frame hfr hl0 hx hc (fun _ _ h => get_set_old hg _ h) hK))
          (.cons (.inr ⟨n, du, m, [], [], by rw [Dict.get?_set, if_pos rfl], hnew, hdo1, .nil, rfl⟩) .nil)⟩
      modObj := by
        intro k c hn
        obtain ⟨h3, h4⟩ := h.modObj k c hn
        have h5 := hfr.old _ _ h4
        rw [if_neg (by omega)] at h5
        exact ⟨h3, h5⟩
      instObj := by
        intro k c hn
        rcases get_set_inv hn with ⟨rfl, rfl⟩ | h2
        · exact ⟨f0.len, du, [], hnew⟩
        · obtain ⟨h3, du, kids, h4⟩ := h.instObj k c h2
          have h5 := hfr.old _ _ h4
          rw [if_neg (by omega)] at h5
          exact ⟨h3, du, kids, h5⟩
      modKeys := by
        intro k
        rw [List.any_append, ← h.modKeys]
        have : (ST.INSTANCE == ST.DU_MODULE) = false := by decide
        simp [mkInstance, this]
      instKeys := by
        intro k
        rw [Dict.get?_set, List.any_append, ← h.instKeys]
        by_cases hn : n = k
        · simp [hn, mkInstance]
        · simp [hn, mkInstance] }

/-- Covergroups added to one instance. -/
def growInst (n : String) (cgs : List Scope) (v : Scope) : Scope :=
  if v.stype == ST.INSTANCE && v.name == n then { v with children := v.children ++ cgs } else v

theorem addInst_grow (n m : String) (cgs tops : List Scope) : Xml.addInst n m cgs tops = (Xml.addInst n m [] tops).map (growInst n cgs) := by
  by_cases h : tops.any (fun s => s.stype == ST.INSTANCE && s.name == n) = true
  · rw [addInst_nil h]
    unfold Xml.addInst
    rw [if_pos h]
    rfl
  · unfold Xml.addInst
    rw [if_neg h, if_neg h, List.map_append]
    congr 1
    · conv_lhs => rw [← List.map_id tops]
      refine List.map_congr_left ?_
      intro v hv
      unfold growInst
      rw [if_neg]
      · rfl
      · intro h1
        exact h (List.any_eq_true.2 ⟨v, hv, h1⟩)
    · simp [growInst, mkInstance]

theorem any_growInst (n : String) (cgs : List Scope) (t : Nat) (k : String) (tops : List Scope) :
    (tops.map (growInst n cgs)).any (fun v => v.stype == t && v.name == k) = tops.any (fun v => v.stype == t && v.name == k) := by
  rw [List.any_map]
  congr 1
  funext v
  simp only [Function.comp_apply, growInst]
  split <;> rfl

theorem growTop_out {N D : Nat} {s0 s s1 : Heap} {M I : Dict Nat} {tops : List Scope} (h : TInv N D s0 s M I tops) {n : String} {c : Nat} (hc : I.get? n = some c)
    {k : List Nat} (f : Frame N s s1 c k []) {cgs : List Scope} (hk : List.Forall₂ (New s.objs.length s1) k cgs) :
    TInv N D s0 s1 M I (tops.map (growInst n cgs)) := by
  obtain ⟨ch, f0, ht⟩ := h.frame
  obtain ⟨hlow, du0, kids0, hobj⟩ := h.instObj n c hc
  have hKc : TOpen s0.objs.length M I c := .inr (.inr ⟨n, hc⟩)
  have keepDu : ∀ (o : Nat) (m : String), s.objs[o]? = some (duObj D m) → s1.objs[o]? = some (duObj D m) := by
    intro o m ho
    have h1 := f.old _ _ ho
    rw [if_neg] at h1
    · exact h1
    · rintro rfl
      rw [hobj] at ho
      have := congrArg (fun x => x.map Obj.cls) ho
      simp [duObj, instScope, memInstance, memScope] at this
  exact {
    frame := by
      refine ⟨ch, f0.deep f hlow, ?_⟩
      rw [List.forall₂_map_right_iff]
      refine forall2_imp ht ?_
      rintro o _ v (⟨m, h1, rfl⟩ | ⟨k', du, mn, kids, cg, h1, h2, h3, h4, rfl⟩)
      · refine .inl ⟨m, keepDu _ _ h1, ?_⟩
        have : (ST.DU_MODULE == ST.INSTANCE) = false := by decide
        simp [growInst, mkDu, this]
      · have h4' := forall2_imp h4 (fun _ _ _ hab => hab.frame f (.inl hKc) (fun _ _ h => h))
        have h5 := f.old _ _ h2
        by_cases hn : k' = n
        · subst hn
          rw [hc] at h1
          cases h1
          rw [if_pos rfl] at h5
          refine .inr ⟨k', du, mn, kids ++ k, cg ++ cgs, hc, ?_, keepDu _ _ h3, List.rel_append h4' ?_, ?_⟩
          · rw [h5]; simp [Store.grow, instScope, memInstance, memScope]
          · refine forall2_imp hk (fun _ _ _ hab => hab.closed ?_)
            intro o ho _ hop
            have := h.open_lt hop
            omega
          · simp [growInst, mkInstance]
        · rw [if_neg] at h5
          · refine .inr ⟨k', du, mn, kids, cg, h1, h5, keepDu _ _ h3, h4', ?_⟩
            simp [growInst, mkInstance, hn]
          · rintro rfl
            rw [hobj] at h2
            have := congrArg (fun x => x.map Obj.name) h2
            simp [instScope, memInstance, memScope] at this
            exact hn this.symm
    modObj := fun m o hm => ⟨(h.modObj m o hm).1, keepDu _ _ (h.modObj m o hm).2⟩
    instObj := by
      intro m o hm
      obtain ⟨h1, du, kids, h2⟩ := h.instObj m o hm
      have h3 := f.old _ _ h2
      refine ⟨h1, du, ?_⟩
      split at h3
      · exact ⟨kids ++ k, by rw [h3]; simp [Store.grow, instScope, memInstance, memScope]⟩
      · exact ⟨kids, h3⟩
    modKeys := fun m => (h.modKeys m).trans (any_growInst ..).symm
    instKeys := fun m => (h.instKeys m).trans (any_growInst ..).symm }

theorem readInstance_out {N D : Nat} {s0 s : Heap} {M I : Dict Nat} {tops : List Scope} {x0 : Obj} (h0 : s0.objs[D]? = some x0) (hc0 : x0.cls = .db)
    (hN : N ≤ s0.objs.length) (h : TInv N D s0 s M I tops) (ids : List Int) (e : Elem) :
    Sim (XmlReader.readInstance D ids (M, I) e) s (Xml.readInstance ids tops e) (fun p tops' s' => TInv N D s0 s' p.1 p.2 tops') (GFrame N D s0) := by
  have hf0 : GFrame N D s0 s := by obtain ⟨ch, f, _⟩ := h.frame; exact ⟨ch, f⟩
  unfold XmlReader.readInstance Xml.readInstance
  cases hn : e.getE "name" with
  | error er => exact ⟨s, rfl, hf0⟩
  | ok n =>
    cases hi : (iter "id" e).mapM (Xml.readStatementId ids) with
    | error er => exact ⟨s, rfl, hf0⟩
    | ok us =>
      obtain ⟨du, M', s1, h1, hdu, t1⟩ := getScope_out h0 hc0 h (e.getD "moduleName" "default")
      obtain ⟨c, I', s2, h2, hc, t2⟩ := getInstScope_out h0 hc0 hN t1 n hdu
      obtain ⟨hlow, du0, kids0, hobj⟩ := t2.instObj n c hc
      have hcov := (coverages_out (N := N) hobj rfl (iter "covergroupCoverage" e)).sim
      obtain ⟨ch2, f2, _⟩ := t2.frame
      refine Sim.step (s1 := s) (a := n) rfl (Sim.step (s1 := s) (a := us) rfl (Sim.step h1 (Sim.step h2 ?_)))
      show Sim (each (XmlReader.readCovergroups c) (iter "covergroupCoverage" e) >>= fun _ => Pure.pure (M', I')) s2
        ((iter "covergroupCoverage" e).mapM Xml.readCovergroups >>= fun cgs =>
          Pure.pure (Xml.addInst n (e.getD "moduleName" "default") cgs.flatten (Xml.addModule (e.getD "moduleName" "default") tops))) _ _
      refine Sim.bind (hcov.mono (fun _ _ _ h => h) ?_) ?_
      · rintro s' ⟨k, i, f⟩
        exact ⟨ch2, f2.deep f hlow⟩
      · rintro _ cgs s3 ⟨k, i, f, rfl, hk⟩
        refine Sim.pure ?_
        rw [addInst_grow]
        exact growTop_out t2 hc f hk

/-- The result is a database showing the scopes read. -/
theorem TInv.shows {N D : Nat} {s0 s : Heap} {M I : Dict Nat} {tops : List Scope} (h : TInv N D s0 s M I tops) {F : Dict Nat} {H : List Nat}
    (h0 : s0.objs[D]? = some { memUcis with files := F, hist := H }) : Shows s D { emptyDb with children := tops } := by
  obtain ⟨ch, f, ht⟩ := h.frame
  have hD := f.old _ _ h0
  rw [if_pos rfl] at hD
  have hkids : List.Forall₂ (fun o v => ∃ n, ShowsIn (fun _ => True) s n o v) ch tops := by
    refine forall2_imp ht ?_
    rintro o _ v (⟨m, h1, rfl⟩ | ⟨n, du, mn, kids, cg, _, h2, h3, h4, rfl⟩)
    · exact ⟨1, trivial, _, h1, rfl, rfl, rfl, rfl, by simp [ShowsDu, duObj, memScope, mkDu], by simp [ShowsCps, duObj, memScope, mkDu], .nil, .nil⟩
    · obtain ⟨d, hd⟩ := showsIn_list h4
      exact ⟨d + 1, trivial, _, h2, rfl, rfl, rfl, rfl, ⟨.inl rfl, _, h3, rfl⟩, by simp [ShowsCps, instScope, memInstance, memScope, mkInstance],
        forall2_imp hd (fun _ _ _ hab => showsIn_mono (fun _ _ => trivial) (Nat.le_refl _) hab), .nil⟩
  obtain ⟨d, hd⟩ := showsIn_list hkids
  exact ⟨d + 1, trivial, _, hD, rfl, rfl, rfl, rfl, by simp [ShowsDu, grow, memUcis, memScope, emptyDb], by simp [ShowsCps, grow, memUcis, memScope, emptyDb], hd, .nil⟩

end Store
end Verif
