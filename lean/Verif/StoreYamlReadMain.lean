import Verif.StoreYamlReadThms
import Verif.YamlThms3
/-!
# Reading YAML into objects (C100)
-/

namespace Verif
namespace Store
open Spec Yaml

theorem forall2_imp' {α β : Type} {R S : α → β → Prop} {l : List α} {m : List β} (h : List.Forall₂ R l m)
    (hi : ∀ a b, b ∈ m → R a b → S a b) : List.Forall₂ S l m := by
  induction h with
  | nil => exact .nil
  | cons hab _ ih => exact .cons (hi _ _ (by simp) hab) (ih (fun a b hb => hi a b (by simp [hb])))

theorem _root_.Verif.Spec.AllKept.refl (s : Heap) : AllKept s s := ⟨List.prefix_rfl, List.prefix_rfl, List.prefix_rfl, List.prefix_rfl, List.prefix_rfl⟩

theorem yaml_sim (sk : Int → String) (j : Json) (s : Heap) :
    Sim (YamlReader.load j) s (load j)
      (fun o d s' => o = s.objs.length ∧ ShowsDb sk s' o d ∧ AllKept s s' ∧ (∃ cs, s' = run s cs) ∧ DbBinds s' o (docGroups (decDoc j)))
      (fun s' => AllKept s s' ∧ ∃ cs, s' = run s cs) := by
  unfold YamlReader.load load
  by_cases hj : validJ sDoc j = true
  · rw [if_pos hj, if_pos hj]
    have h := yamlDoc_sim sk (decDoc j) s
    unfold Sim at h ⊢
    cases hd : loadDoc (decDoc j) with
    | error e => rw [hd] at h; exact h
    | ok d =>
      rw [hd] at h
      obtain ⟨o, s', h1, h2, h3, h4, h5, h6⟩ := h
      refine ⟨o, s', h1, h2, h3, h4, h5, ?_⟩
      cases hc : (decDoc j).coverage with
      | none => unfold loadDoc at hd; rw [hc] at hd; cases hd
      | some cgs =>
        have := h6 cgs hc
        unfold docGroups
        rw [hc]
        exact this
  · rw [if_neg hj, if_neg hj]
    exact ⟨s, rfl, AllKept.refl s, [], rfl⟩

/-- **C100.** Loading a document into objects: the objects that exist stay as they are, whether loading succeeds or raises, and the new ones come
about by API calls.  The call raises what the value model raises. -/
theorem C100_load_kept (cs : List Call) (j : Json) {r : Except Err Nat} {s' : Heap} (h : YamlReader.load j (run Heap.empty cs) = (r, s')) :
    AllKept (run Heap.empty cs) s' ∧ (∃ cs', s' = run Heap.empty (cs ++ cs')) ∧ ∀ e, r = .error e ↔ load j = .error e := by
  have hs := yaml_sim (fun _ => "") j (run Heap.empty cs)
  unfold Sim at hs
  cases hv : load j with
  | error e =>
    rw [hv] at hs
    obtain ⟨s1, h1, h2, cs', h3⟩ := hs
    rw [h] at h1
    cases h1
    exact ⟨h2, ⟨cs', by rw [run_append, h3]⟩, fun e' => ⟨fun h => (by cases h; rfl), fun h => (by cases h; rfl)⟩⟩
  | ok d =>
    rw [hv] at hs
    obtain ⟨o, s1, h1, _, _, h2, ⟨cs', h3⟩, _⟩ := hs
    rw [h] at h1
    cases h1
    exact ⟨h2, ⟨cs', by rw [run_append, h3]⟩, fun e' => ⟨fun h => (by cases h), fun h => (by cases h)⟩⟩

/-- **C100.** The database loaded is a new one and shows what the value model loads. -/
theorem C100_load_refines (cs : List Call) (sk : Int → String) {j : Json} {d : Database} (hv : load j = .ok d) :
    ∃ cs', YamlReader.load j (run Heap.empty cs) = (.ok (run Heap.empty cs).objs.length, run Heap.empty (cs ++ cs')) ∧
      ShowsDb sk (run Heap.empty (cs ++ cs')) (run Heap.empty cs).objs.length d := by
  have hs := yaml_sim sk j (run Heap.empty cs)
  rw [hv] at hs
  obtain ⟨o, s1, h1, rfl, h2, _, ⟨cs', h3⟩, _⟩ := hs
  refine ⟨cs', ?_, ?_⟩
  · rw [run_append, ← h3]; exact h1
  · rw [run_append, ← h3]; exact h2

/-! ## The coverpoints that crosses refer to -/

/-- Instance `m` is the last one up to instance `k` that has a coverpoint `n`. -/
def _root_.Verif.Spec.LastWith (is : List YInst) (k : Nat) (n : String) (m : Nat) : Prop :=
  m ≤ k ∧ (∃ i, is[m]? = some i ∧ ∃ c ∈ YInst.cps i, c.name = n) ∧
    ∀ m' i, m < m' → m' ≤ k → is[m']? = some i → ∀ c ∈ YInst.cps i, c.name ≠ n

/-- The children of the object `w` are coverpoints and then one cross for every cross of `i`; the coverpoints that a cross refers to are, in order, one
for every crossed name, and its parent is one of the objects `insts`, the one whose number `own` gives for the name. -/
def _root_.Verif.Spec.InstRefers (s : Heap) (insts : List Nat) (own : String → Nat → Prop) (w : Nat) (i : YInst) : Prop :=
  ∃ y pre qs, s.objs[w]? = some y ∧ y.children = pre ++ qs ∧ (∀ p ∈ pre, ∃ z, s.objs[p]? = some z ∧ z.cls = .coverpoint) ∧
    List.Forall₂ (fun q c => ∃ z, s.objs[q]? = some z ∧ z.cls = .cross ∧
      List.Forall₂ (fun p n => ∃ u m v, s.objs[p]? = some u ∧ u.cls = .coverpoint ∧ own n m ∧ insts[m]? = some v ∧ u.parent = some v) z.cps c.coverpoints)
      qs (YInst.crs i)

/-- The children of the covergroup `g` are coverpoints and crosses and then one instance for every instance of `cg`, as `InstRefers` says. -/
def _root_.Verif.Spec.GroupRefers (s : Heap) (own : List YInst → Nat → String → Nat → Prop) (g : Nat) (cg : YCg) : Prop :=
  ∃ x pre insts, s.objs[g]? = some x ∧ x.children = pre ++ insts ∧ (∀ p ∈ pre, ∃ z, s.objs[p]? = some z ∧ (z.cls = .coverpoint ∨ z.cls = .cross)) ∧
    insts.length = (cg.instances.getD []).length ∧
    ∀ (k w : Nat) (i : YInst), insts[k]? = some w → (cg.instances.getD [])[k]? = some i → InstRefers s insts (own (cg.instances.getD []) k) w i

/-- The database `o` has a design unit and an instance, below it the covergroups of the document. -/
def _root_.Verif.Spec.DbRefers (s : Heap) (own : List YInst → Nat → String → Nat → Prop) (o : Nat) (doc : YDoc) : Prop :=
  ∃ x du top y, s.objs[o]? = some x ∧ x.children = [du, top] ∧ s.objs[top]? = some y ∧ List.Forall₂ (GroupRefers s own) y.children (docGroups doc)

theorem forall2_get {α β : Type} {R : α → β → Prop} {k : Nat} {l : List α} {l' : List β} (h : List.Forall₂ R l l') {a : α} (ha : l[k]? = some a) :
    ∃ b, l'[k]? = some b ∧ R a b := by
  induction h generalizing k with
  | nil => simp at ha
  | cons hab _ ih =>
    cases k with
    | zero =>
      simp only [List.getElem?_cons_zero, Option.some.injEq] at ha ⊢
      exact ⟨_, rfl, ha ▸ hab⟩
    | succ k => simpa using ih (by simpa using ha)

theorem groupRefers_of_binds {s : Heap} {g : Nat} {cg : YCg} {v : Scope} {b : List (List (List Nat))} (hv : processCg' cg = .ok (v, b)) (h : GroupBinds s g b) :
    GroupRefers s LastWith g cg := by
  obtain ⟨x, pre, insts, hx, h1, h2, h3⟩ := h
  have hlen : insts.length = (cg.instances.getD []).length := by
    obtain ⟨is, h4, _, _, e⟩ := (processCg'_ok cg _).1 hv
    have hb : b = (rInsts (cg.weight.getD 1) 1 [] is).map (·.bound) := by cases e; rfl
    have : ∀ (l : List YInst) (n : Nat) (kn : Dict Nat), (rInsts (cg.weight.getD 1) n kn l).length = l.length := by
      intro l
      induction l with
      | nil => intro n kn; rfl
      | cons a t ih => intro n kn; simp [rInsts, ih]
    rw [h3.length_eq, hb, List.length_map, this, h4, Option.getD_some]
  refine ⟨x, pre, insts, hx, h1, h2, hlen, ?_⟩
  intro k w i hw hi
  obtain ⟨f, hf, hl⟩ := C45_bindings hv hi
  obtain ⟨bk, hbk, y, pre', qs, hy, h4, h5, h6⟩ := forall2_get h3 hw
  rw [hf] at hbk
  cases hbk
  refine ⟨y, pre', qs, hy, h4, h5, ?_⟩
  rw [List.forall₂_map_right_iff] at h6
  refine forall2_imp' h6 ?_
  rintro q c hc ⟨z, hz, hcls, h7⟩
  refine ⟨z, hz, hcls, ?_⟩
  rw [List.forall₂_map_right_iff] at h7
  refine forall2_imp' h7 ?_
  rintro p n hn ⟨u, hu, h8, h9, h10⟩
  obtain ⟨m, i', hm, hmk, h11, h12, h13⟩ := hl c hc n hn
  rw [hm, List.getElem?_cons_succ] at h10
  rw [h10] at h9
  obtain ⟨v, hv⟩ := Option.isSome_iff_exists.1 h9
  refine ⟨u, m, v, hu, h8, ⟨hmk, ⟨i', h11, by simpa using h12⟩, ?_⟩, hv, h10.trans hv⟩
  intro m' i'' hlt hle hm' c' hc' he
  exact h13 m' i'' hlt hle hm' (List.mem_map.2 ⟨c', hc', he⟩)

/-- **C100.** A cross of an instance refers to coverpoint objects; the one for a crossed name belongs to the last instance, up to the own one, that
has a coverpoint of that name. -/
theorem C100_load_refers (cs : List Call) {j : Json} {doc : YDoc} (hj : Says j doc) {o : Nat} {s' : Heap}
    (h : YamlReader.load j (run Heap.empty cs) = (.ok o, s')) : DbRefers s' LastWith o doc := by
  have hs := yaml_sim (fun _ => "") j (run Heap.empty cs)
  unfold Sim at hs
  cases hv : load j with
  | error e =>
    rw [hv] at hs
    obtain ⟨s1, h1, _⟩ := hs
    rw [h] at h1
    cases h1
  | ok d =>
    rw [hv] at hs
    obtain ⟨o, s1, h1, _, _, _, _, hb⟩ := hs
    rw [h] at h1
    cases h1
    rw [dec_says hj] at hb
    obtain ⟨x, du, top, y, h2, h3, h4, h5⟩ := hb
    refine ⟨x, du, top, y, h2, h3, h4, forall2_imp h5 ?_⟩
    rintro g _ cg ⟨v, b, h6, h7⟩
    exact groupRefers_of_binds h6 h7

/-- When every crossed name is the name of a coverpoint of the own instance, the crosses refer to these. -/
theorem C100_own_instance_partial (cs : List Call) {j : Json} {doc : YDoc} (hj : Says j doc) {o : Nat} {s' : Heap}
    (h : YamlReader.load j (run Heap.empty cs) = (.ok o, s'))
    (hown : ∀ cg ∈ docGroups doc, ∀ i ∈ cg.instances.getD [], ∀ c ∈ YInst.crs i, ∀ n ∈ c.coverpoints, ∃ p ∈ YInst.cps i, p.name = n) :
    DbRefers s' (fun _ k _ m => m = k) o doc := by
  obtain ⟨x, du, top, y, h1, h2, h3, h4⟩ := C100_load_refers cs hj h
  refine ⟨x, du, top, y, h1, h2, h3, forall2_imp' h4 ?_⟩
  rintro g cg hcg ⟨x, pre, insts, h5, h6, h7, h8, h9⟩
  refine ⟨x, pre, insts, h5, h6, h7, h8, ?_⟩
  intro k w i hw hi
  obtain ⟨y, pre', qs, h10, h11, h12, h13⟩ := h9 k w i hw hi
  refine ⟨y, pre', qs, h10, h11, h12, forall2_imp' h13 ?_⟩
  rintro q c hc ⟨z, h14, h15, h16⟩
  refine ⟨z, h14, h15, forall2_imp' h16 ?_⟩
  rintro p n hn ⟨u, m, v, h17, h18, ⟨hmk, _, hlast⟩, h19, h20⟩
  refine ⟨u, m, v, h17, h18, ?_, h19, h20⟩
  by_contra hne
  obtain ⟨p', hp', he⟩ := hown cg hcg i (List.mem_of_getElem? hi) c hc n hn
  exact hlast k i (by omega) (Nat.le_refl k) hi p' hp' he

/-! ## Examples -/

/-- In general not: loading the document of `C45_own_instance_refuted` gives a cross one of whose coverpoints is not a child of its parent. -/
theorem C100_own_instance_refuted : ∃ (o q : Nat) (x : Obj) (p : Nat) (z : Obj) (s' : Heap), YamlReader.load (encDoc exDoc) Heap.empty = (.ok o, s') ∧
    s'.objs[q]? = some x ∧ x.cls = .cross ∧ p ∈ x.cps ∧ s'.objs[p]? = some z ∧ z.parent ≠ x.parent := by
  have hl : YamlReader.load (encDoc exDoc) Heap.empty = YamlReader.loadDoc exDoc Heap.empty := by
    unfold YamlReader.load
    rw [if_pos ((valid_iff_says _).2 ⟨_, says_encode _⟩), dec_says (says_encode _)]
  rw [hl]
  have hex : (match YamlReader.loadDoc exDoc Heap.empty with
      | (.ok _, s') => (List.range s'.objs.length).any (fun q => match s'.objs[q]? with
        | some x => decide (x.cls = .cross) && x.cps.any (fun p => match s'.objs[p]? with
          | some z => !decide (z.parent = x.parent)
          | none => false)
        | none => false)
      | _ => false) = true := by decide +kernel
  cases hr : YamlReader.loadDoc exDoc Heap.empty with
  | mk r s' =>
    rw [hr] at hex
    cases r with
    | error e => cases hex
    | ok o =>
      simp only [List.any_eq_true] at hex
      obtain ⟨q, _, hq⟩ := hex
      cases hx : s'.objs[q]? with
      | none => rw [hx] at hq; cases hq
      | some x =>
        rw [hx] at hq
        simp only [Bool.and_eq_true, decide_eq_true_eq, List.any_eq_true] at hq
        obtain ⟨hc, p, hp, hz⟩ := hq
        cases hz' : s'.objs[p]? with
        | none => rw [hz'] at hz; cases hz
        | some z =>
          rw [hz'] at hz
          exact ⟨o, q, x, p, z, s', rfl, hx, hc, hp, hz', by simpa using hz⟩

/-- **C100** applies, with two databases already in the store. -/
example : ∃ o s', YamlReader.load (encDoc exDoc) (run Heap.empty twoDbs) = (.ok o, s') ∧ Says (encDoc exDoc) exDoc ∧ 0 < (run Heap.empty twoDbs).objs.length := by
  obtain ⟨d, hd⟩ := exDoc_loads
  obtain ⟨cs', h, _⟩ := C100_load_refines twoDbs (fun _ => "") hd
  exact ⟨_, _, h, says_encode _, by decide⟩

/-- A document whose first covergroup is complete and whose second one has no instances. -/
def yamlHalf : YDoc := ⟨some (some [⟨"cg", none, some [⟨"i1", some [⟨"a", none, [⟨"x", 1⟩], none, none⟩], some [⟨"aa", none, ["a"], some [⟨"q", 2⟩]⟩]⟩]⟩, ⟨"cg2", none, none⟩])⟩

/-- **C100** in the failing branch: loading raises after it made objects for the first covergroup. -/
example : load (encDoc yamlHalf) = .error .typeError ∧
    (match YamlReader.loadDoc yamlHalf Heap.empty with
      | (.error e, s) => some (e, s.objs.length)
      | _ => none) = some (Err.typeError, 10) := by
  constructor
  · exact (load_encode _).trans rfl
  · decide +kernel

/-- A document whose cross names a coverpoint of its own instance. -/
def yamlOwn : YDoc := ⟨some (some [⟨"cg", none, some [⟨"i1", some [⟨"a", none, [⟨"x", 1⟩], none, none⟩], some [⟨"aa", none, ["a"], some [⟨"q", 2⟩]⟩]⟩]⟩])⟩

/-- The hypotheses of `C100_own_instance_partial` are met by a document with a cross. -/
example : (∃ o s', YamlReader.load (encDoc yamlOwn) (run Heap.empty twoDbs) = (.ok o, s')) ∧ Says (encDoc yamlOwn) yamlOwn ∧
    ∀ cg ∈ docGroups yamlOwn, ∀ i ∈ cg.instances.getD [], ∀ c ∈ YInst.crs i, ∀ n ∈ c.coverpoints, ∃ p ∈ YInst.cps i, p.name = n := by
  refine ⟨?_, says_encode _, by simp [docGroups, yamlOwn, YInst.crs, YInst.cps]⟩
  obtain ⟨cs', h, _⟩ := C100_load_refines twoDbs (fun _ => "") (d := _) ((load_encode yamlOwn).trans rfl)
  exact ⟨_, _, h⟩

end Store
end Verif
