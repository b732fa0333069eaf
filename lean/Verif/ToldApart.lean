import Verif.Weights
/-!
# Which databases give the same XML file (C144)

No new code: the closed form of the writer (`XmlWriteClosed.lean`).
-/

namespace Verif
namespace Spec

/-- Everything about a written group: its coverpoints with names and bins, and its crosses with names, crossed coverpoints and bins. -/
def groupContent (g : Scope) := (cpView g, crossView g)

end Spec

namespace Xml
open Spec PyNum

theorem map_iff {α β γ : Type} {f : α → β} {g : α → γ} : ∀ {l m : List α}, (∀ x ∈ l, ∀ y ∈ m, f x = f y ↔ g x = g y) →
    (l.map f = m.map f ↔ l.map g = m.map g)
  | [], [], _ => by simp
  | [], _ :: _, _ => by simp
  | _ :: _, [], _ => by simp
  | a :: l, b :: m, h => by
    simp only [List.map_cons, List.cons.injEq]
    rw [h a (by simp) b (by simp), map_iff (fun x hx y hy => h x (by simp [hx]) y (by simp [hy]))]

theorem append_iff {α : Type} (p : α → Bool) {l l' m m' : List α} (h1 : ∀ x ∈ l, p x = true) (h2 : ∀ x ∈ l', p x = true)
    (h3 : ∀ x ∈ m, p x = false) (h4 : ∀ x ∈ m', p x = false) : l ++ m = l' ++ m' ↔ l = l' ∧ m = m' := by
  refine ⟨fun h => ?_, fun h => by rw [h.1, h.2]⟩
  have a : ∀ {u v : List α}, (∀ x ∈ u, p x = true) → (∀ x ∈ v, p x = false) → (u ++ v).filter p = u := by
    intro u v hu hv
    rw [List.filter_append, List.filter_eq_self.2 hu, List.filter_eq_nil_iff.2 (fun x hx => by simp [hv x hx]), List.append_nil]
  have e : l = l' := by rw [← a h1 h3, h, a h2 h4]
  subst e
  exact ⟨rfl, List.append_cancel_left h⟩

theorem kindText_inj {a b : Nat} (ha : IsKind a) (hb : IsKind b) : kindText a = kindText b ↔ a = b := by
  refine ⟨fun h => ?_, fun h => by rw [h]⟩
  rcases ha with rfl | rfl | rfl <;> rcases hb with rfl | rfl | rfl <;> first | rfl | (revert h; decide)

theorem strInt_iff {a b : Int} : strInt a = strInt b ↔ a = b := ⟨strInt_injective, fun h => by rw [h]⟩

theorem eBin_iff {i j : Item} (hi : IsKind i.kind) (hj : IsKind j.kind) :
    eBin i = eBin j ↔ (i.name, i.kind, i.count) = (j.name, j.kind, j.count) := by
  simp [eBin, eContents, kindText_inj hi hj, strInt_iff, and_assoc]

theorem eCp_iff {c d : Scope} (hc : WritableCp c) (hd : WritableCp d) : eCp c = eCp d ↔ (c.name, binTriples c) = (d.name, binTriples d) := by
  have := map_iff (f := eBin) (g := fun i : Item => (i.name, i.kind, i.count)) (l := covBins c) (m := covBins d)
    (fun x hx y hy => eBin_iff (hc.2 x hx).2 (hd.2 y hy).2)
  simp [eCp, this, binTriples]

theorem eCross_iff {c d : Scope} (hc : WritableCross c) (hd : WritableCross d) :
    eCross some c = eCross some d ↔ (c.name, c.cps, crossBinView c) = (d.name, d.cps, crossBinView d) := by
  obtain ⟨_, ⟨l, hl, _⟩, _⟩ := hc
  obtain ⟨_, ⟨m, hm, _⟩, _⟩ := hd
  have h1 := map_iff (f := eCrossBin) (g := fun i : Item => (i.name, i.count)) (l := covBins c) (m := covBins d)
    (fun x _ y _ => by simp [eCrossBin, eContents, strInt_iff])
  have h2 := map_iff (f := eExpr some) (g := id) (l := l) (m := m) (fun x _ y _ => by simp [eExpr])
  have h3 := append_iff (fun e : Elem => e.tag == "crossExpr") (l := l.map (eExpr some)) (l' := m.map (eExpr some))
    (m := (covBins c).map eCrossBin) (m' := (covBins d).map eCrossBin)
    (by simp [eExpr]) (by simp [eExpr]) (by simp [eCrossBin]) (by simp [eCrossBin])
  simp only [List.map_id] at h2
  simp [eCross, hl, hm, h3, h1, h2, crossBinView]

theorem eGroup_iff {n n' : String} {g g' : Scope} (hg : WritableGroup g) (hg' : WritableGroup g') :
    eGroup some n g = eGroup some n' g' ↔ n = n' ∧ (g.name, groupContent g) = (g'.name, groupContent g') := by
  have h1 := map_iff (f := eCp) (g := fun c => (c.name, binTriples c)) (fun x hx y hy => eCp_iff (hg.2.1 x hx) (hg'.2.1 y hy))
  have h2 := map_iff (f := eCross some) (g := fun c => (c.name, c.cps, crossBinView c)) (fun x hx y hy => eCross_iff (hg.2.2 x hx) (hg'.2.2 y hy))
  have h3 := append_iff (fun e : Elem => e.tag == "coverpoint") (l := (kids ST.COVERPOINT g).map eCp) (l' := (kids ST.COVERPOINT g').map eCp)
    (m := (kids ST.CROSS g).map (eCross some)) (m' := (kids ST.CROSS g').map (eCross some))
    (by simp [eCp]) (by simp [eCp]) (by simp [eCross]) (by simp [eCross])
  simp only [eGroup, eCgId, Elem.mk.injEq, List.cons.injEq, h3, h1, h2, groupContent, cpView, crossView, Prod.mk.injEq]
  tauto

theorem eCg_iff {g g' : Scope} (hg : WritableCg g) (hg' : WritableCg g') : eCg some g = eCg some g' ↔
    (g.name, (writtenGroups g).map (fun c => (c.name, groupContent c))) = (g'.name, (writtenGroups g').map (fun c => (c.name, groupContent c))) := by
  have ne : ∀ g : Scope, writtenGroups g ≠ [] := by
    intro g
    unfold writtenGroups
    split
    · simp
    · assumption
  constructor
  · intro h
    have h : (writtenGroups g).map (eGroup some g.name) = (writtenGroups g').map (eGroup some g'.name) := congrArg Elem.children h
    have hn : g.name = g'.name := by
      cases h1 : writtenGroups g with
      | nil => exact absurd h1 (ne g)
      | cons a t =>
        cases h2 : writtenGroups g' with
        | nil => exact absurd h2 (ne g')
        | cons b u =>
          rw [h1, h2, List.map_cons, List.map_cons, List.cons.injEq] at h
          exact ((eGroup_iff (hg.2 a (by simp [h1])) (hg'.2 b (by simp [h2]))).1 h.1).1
    rw [hn] at h
    rw [hn, (map_iff (fun x hx y hy => (eGroup_iff (hg.2 x hx) (hg'.2 y hy)).trans (by simp))).1 h]
  · intro h
    obtain ⟨hn, h⟩ := Prod.mk.inj h
    unfold eCg
    rw [hn, (map_iff (fun x hx y hy => (eGroup_iff (hg.2 x hx) (hg'.2 y hy)).trans (by simp))).2 h]

theorem eInst_iff {i j : Scope} (hi : WritableInst i) (hj : WritableInst j) : eInst some i = eInst some j ↔
    (i.name, (kids ST.COVERGROUP i).map (fun g => (g.name, (writtenGroups g).map (fun c => (c.name, groupContent c))))) =
    (j.name, (kids ST.COVERGROUP j).map (fun g => (g.name, (writtenGroups g).map (fun c => (c.name, groupContent c))))) := by
  have := map_iff (f := eCg some) (g := fun g => (g.name, (writtenGroups g).map (fun c => (c.name, groupContent c))))
    (fun x hx y hy => eCg_iff (hi.2 x hx) (hj.2 y hy))
  simp [eInst, this]

/-- **C144** Two databases with the same source files and test records that can be written give the same XML file exactly if they have the same instances, covergroups
and cover-instances by name and in the same order, and in these the same coverpoints (names, and names, kinds and counts of bins) and crosses (names, crossed
coverpoints, and names and counts of bins). -/
theorem C144_told_apart {env : Env} (he : EnvOk env) {a b : Database} {da db : Elem} (pa : PlainTypes a.root) (pb : PlainTypes b.root)
    (hf : fileNames a.root = fileNames b.root) (hh : a.hist = b.hist) (ha : write env a = .ok da) (hb : write env b = .ok db) :
    da = db ↔ dbView groupContent a.root = dbView groupContent b.root := by
  obtain ⟨⟨_, _, wa⟩, rfl⟩ := (write_ok he a da).1 ha
  obtain ⟨⟨_, _, wb⟩, rfl⟩ := (write_ok he b db).1 hb
  have ht : fileTable a.root = fileTable b.root := by
    unfold fileTable
    rw [findFilesL_eq _ _ pa, findFilesL_eq _ _ pb]
    exact congrArg _ hf
  have := map_iff (f := eInst some) (fun x hx y hy => eInst_iff (wa x hx) (wb y hy))
  simp only [eDoc, ht, hh, Elem.mk.injEq, true_and, List.append_cancel_left_eq]
  exact this

/-- **C144** The file determines this content, whatever source files and test records there are. -/
theorem C144_determined {env : Env} (he : EnvOk env) {a b : Database} {doc : Elem} (ha : write env a = .ok doc) (hb : write env b = .ok doc) :
    dbView groupContent a.root = dbView groupContent b.root := by
  obtain ⟨⟨_, _, wa⟩, rfl⟩ := (write_ok he a doc).1 ha
  obtain ⟨⟨_, _, wb⟩, h⟩ := (write_ok he b _).1 hb
  have h := congrArg (iter "instanceCoverages") h
  rw [iter_eDoc_insts, iter_eDoc_insts] at h
  exact (map_iff (f := eInst some) (fun x hx y hy => eInst_iff (wa x hx) (wb y hy))).1 h

mutual
/-- The tree with one more hit in every bin. -/
def exOneMore : Scope → Scope
  | ⟨ty, n, src, w, du, cps, ch, it⟩ => ⟨ty, n, src, w, du, cps, exOneMoreL ch, it.map (fun i => { i with count := i.count + 1 })⟩
termination_by structural s => s
def exOneMoreL : List Scope → List Scope
  | [] => []
  | s :: t => exOneMore s :: exOneMoreL t
termination_by structural l => l
end

def exMoreDb : Database := { Tools.exPlainDb with root := exOneMore Tools.exPlainDb.root }

/-- The hypotheses of `C144_told_apart` and `C144_determined` are met by databases that give the same file though they differ (weights), and by databases that give
different files (counts). -/
example : EnvOk exEnv ∧ (PlainTypes exHeavyDb.root ∧ PlainTypes exMoreDb.root ∧ PlainTypes Tools.exPlainDb.root) ∧
    (fileNames exHeavyDb.root = fileNames Tools.exPlainDb.root ∧ fileNames exMoreDb.root = fileNames Tools.exPlainDb.root) ∧
    (exHeavyDb.hist = Tools.exPlainDb.hist ∧ exMoreDb.hist = Tools.exPlainDb.hist) ∧
    (∃ doc, write exEnv Tools.exPlainDb = .ok doc ∧ write exEnv exHeavyDb = .ok doc) ∧
    ∃ d e, write exEnv Tools.exPlainDb = .ok d ∧ write exEnv exMoreDb = .ok e ∧ d ≠ e := by
  have p1 : PlainTypes exHeavyDb.root := by unfold PlainTypes; decide +kernel
  have p2 : PlainTypes exMoreDb.root := by unfold PlainTypes; decide +kernel
  have p3 : PlainTypes Tools.exPlainDb.root := by unfold PlainTypes; decide +kernel
  have f2 : fileNames exMoreDb.root = fileNames Tools.exPlainDb.root := by decide +kernel
  obtain ⟨d, _, hd, _⟩ := Tools.exPlainDb_written exEnv_good
  have he : ∃ e, write exEnv exMoreDb = .ok e := by
    rw [C68_writer_accepts exEnv_good exMoreDb p2]
    exact ⟨by decide +kernel, by simp [exMoreDb, Tools.exPlainDb], by decide +kernel⟩
  obtain ⟨e, he⟩ := he
  refine ⟨exEnv_good.envOk, ⟨p1, p2, p3⟩, ⟨by decide +kernel, f2⟩, ⟨rfl, rfl⟩, ⟨d, hd, ?_⟩, d, e, hd, he, fun h => ?_⟩
  · exact (C143_file_partial exEnv (a := exHeavyDb) (b := Tools.exPlainDb) (by rfl) rfl).trans hd
  · have := (C144_told_apart exEnv_good.envOk p3 p2 f2.symm rfl hd he).1 h
    exact absurd this (by decide +kernel)

end Xml
end Verif
