import Verif.StoreXmlReadThms
import Verif.XmlThms3
/-!
# Selecting history records after a trip through XML (C130)

No new code: `XmlWriter.write`, `XmlReader.read` and `getHistoryNodes` on the store.
-/

namespace Verif

namespace Spec

/-- Two history records agree: same names, and both or neither have a parent. -/
def SameRecord (s : Store.Heap) (n m : Nat) : Prop :=
  ∃ a b, s.nodes[n]? = some a ∧ s.nodes[m]? = some b ∧ b.data.logicalName = a.data.logicalName ∧ b.data.physicalName = a.data.physicalName ∧
    (b.parent = none ↔ a.parent = none)

/-- Two history records name the same run. -/
def SameNames (s : Store.Heap) (n m : Nat) : Prop :=
  ∃ a b, s.nodes[n]? = some a ∧ s.nodes[m]? = some b ∧ b.data.logicalName = a.data.logicalName ∧ b.data.physicalName = a.data.physicalName ∧
    b.data.seed = a.data.seed ∧ b.data.userName = a.data.userName ∧ b.data.toolCategory = a.data.toolCategory

/-- For every kind, the same records are listed for both databases. -/
def SameHistory (s : Store.Heap) (o o' : Nat) : Prop :=
  ∀ kind, ∃ l l', Store.getHistoryNodes o kind s = (.ok l, s) ∧ Store.getHistoryNodes o' kind s = (.ok l', s) ∧ List.Forall₂ (SameRecord s) l l'

end Spec

namespace Store
open Spec
open Xml (Elem)

/-- Writing a database and reading the text back. -/
def saveLoad (env : Xml.Env) (sk : Int → String) (fuel : Nat) (now : Int) (o : Nat) : M Nat := do
  let doc ← XmlWriter.write env sk fuel o
  XmlReader.read env.flt now (Xml.reparse doc)

theorem getHistoryNodes_eq {s : Heap} {o : Nat} {x : Obj} (h : s.objs[o]? = some x) (hc : x.cls = .db) (kind : Int) :
    getHistoryNodes o kind s = (.ok (x.hist.filter (nodeHit s kind)), s) := by
  have e : getHistoryNodes o kind s = _ := bind_eq_of_ok (obj_some h)
  rw [e, hc]
  simp only [drain_all]; rfl

theorem written_named {env : Xml.Env} (he : Xml.EnvOk env) {d : Database} {doc : Elem} (hw : Xml.write env d = .ok doc) : FilesNamed (Xml.reparse doc) := by
  obtain ⟨_, rfl⟩ := (Xml.write_ok he d doc).1 hw
  rw [Xml.reparse_eDoc]
  intro e hm
  rw [Xml.iter_eDoc_files] at hm
  obtain ⟨f, _, rfl⟩ := List.mem_map.1 hm
  rfl

theorem forall2_at {α β : Type} {R : α → β → Prop} {l : List α} {m : List β} (h : List.Forall₂ R l m) {i : Nat} {a : α} (ha : l[i]? = some a) :
    ∃ b, m[i]? = some b ∧ R a b := by
  induction h generalizing i with
  | nil => simp at ha
  | cons h _ ih =>
    cases i with
    | zero => simp only [List.getElem?_cons_zero, Option.some.injEq] at ha; subst ha; exact ⟨_, rfl, h⟩
    | succ i => exact ih (by simpa using ha)

theorem forall2_join {α β γ : Type} {R : α → γ → Prop} {Q : β → γ → Prop} {P : α → β → Prop} {l : List α} {m : List β} {k : List γ}
    (h : List.Forall₂ R l k) (h' : List.Forall₂ Q m k) (hp : ∀ a b c, R a c → Q b c → P a b) : List.Forall₂ P l m := by
  induction h generalizing m with
  | nil => cases h'; exact .nil
  | cons h _ ih =>
    cases h' with
    | cons h1 h2 => exact .cons (hp _ _ _ h h1) (ih h2)

theorem forall2_strong {α β : Type} {R P : α → β → Prop} {l : List α} {m : List β} (h : List.Forall₂ R l m)
    (hp : ∀ a b, a ∈ l → b ∈ m → R a b → P a b) : List.Forall₂ P l m := by
  induction h with
  | nil => exact .nil
  | cons h _ ih => exact .cons (hp _ _ (by simp) (by simp) h) (ih (fun a b ha hb => hp a b (by simp [ha]) (by simp [hb])))

theorem filter_all (s : Heap) (l : List Nat) : l.filter (nodeHit s kindALL) = l := by
  rw [List.filter_eq_self]
  intro n _
  simp [nodeHit]

/-- No record that was read has one of the kinds of the interface, and none has a parent. -/
theorem read_kinds {cs : List Call} {flt : Xml.FloatText} {now : Int} {doc : Elem} (hd : FilesNamed doc) {o : Nat} {s' : Heap}
    (h : XmlReader.read flt now doc (run Heap.empty cs) = (.ok o, s')) :
    ∃ y d, Xml.read flt doc = .ok d ∧ s'.objs[o]? = some y ∧ y.cls = .db ∧ (∀ sk, List.Forall₂ (ShowsHist sk s') y.hist d.hist) ∧
      (∀ n ∈ y.hist, ∃ b, s'.nodes[n]? = some b ∧ b.parent = none ∧ ∀ k, b.kind ≠ .num k) ∧ AllKept (run Heap.empty cs) s' := by
  cases hv : Xml.read flt doc with
  | error e =>
    have hs := read_sim (fun _ => "") flt now doc hd (run Heap.empty cs)
    unfold Sim at hs
    rw [hv] at hs
    obtain ⟨s1, h1, _⟩ := hs
    rw [h] at h1; cases h1
  | ok d =>
    have key : ∀ sk, ShowsDb sk s' o d ∧ o = (run Heap.empty cs).objs.length ∧
        (∀ x, s'.objs[o]? = some x → ∀ n ∈ x.hist, ∃ y, s'.nodes[n]? = some y ∧ y.parent = none) ∧ AllKept (run Heap.empty cs) s' := by
      intro sk
      have hs := read_sim_nodes sk flt now doc hd (run Heap.empty cs)
      unfold Sim at hs
      rw [hv] at hs
      obtain ⟨o1, s1, h1, h2, h3, h4, h5, _⟩ := hs
      rw [h] at h1
      cases h1
      exact ⟨h3, h2, h4, h5⟩
    obtain ⟨⟨_, y, hy, hc, _, _⟩, ho, hpar, hkept⟩ := key (fun _ => "")
    have hall : ∀ sk, List.Forall₂ (ShowsHist sk s') y.hist d.hist := by
      intro sk
      obtain ⟨⟨_, y', hy', _, h2, _⟩, _⟩ := key sk
      rw [hy] at hy'
      cases hy'
      exact h2
    refine ⟨y, d, rfl, hy, hc, hall, ?_, hkept⟩
    intro n hn
    obtain ⟨b, hb, hp⟩ := hpar y hy n hn
    refine ⟨b, hb, hp, ?_⟩
    intro k hk
    obtain ⟨i, hi⟩ := List.getElem?_of_mem hn
    have h1 : ∀ sk : Int → String, ∃ h, d.hist[i]? = some h ∧ h.kind = some (sk k) := by
      intro sk
      obtain ⟨h, hh, b', hb', e⟩ := forall2_at (hall sk) hi
      rw [hb] at hb'
      cases hb'
      exact ⟨h, hh, by rw [e, hk]; rfl⟩
    obtain ⟨h, hh, e1⟩ := h1 (fun _ => "")
    obtain ⟨h', hh', e2⟩ := h1 (fun _ => "x")
    rw [hh] at hh'
    cases hh'
    rw [e1] at e2
    simp at e2

/-- What is on the store after a database was written and read back. -/
theorem saveLoad_out {cs : List Call} (hr : RealCalls Heap.empty cs) {o : Nat} {x : Obj} (hx : (run Heap.empty cs).objs[o]? = some x) (hc : x.cls = .db)
    {env : Xml.Env} (he : GoodEnv env) {sk : Int → String} {fuel : Nat} (hf : (run Heap.empty cs).objs.length ≤ fuel) {now : Int} {o' : Nat} {s' : Heap}
    (h : saveLoad env sk fuel now o (run Heap.empty cs) = (.ok o', s')) :
    ∃ y, s'.objs[o']? = some y ∧ y.cls = .db ∧ AllKept (run Heap.empty cs) s' ∧
      (∀ n ∈ y.hist, ∃ b, s'.nodes[n]? = some b ∧ b.parent = none ∧ ∀ k, b.kind ≠ .num k) ∧
      (x.hist = [] → ∃ n b, y.hist = [n] ∧ s'.nodes[n]? = some b ∧ b.data.logicalName = some "dummy") ∧
      (x.hist ≠ [] → List.Forall₂ (SameNames s') x.hist y.hist) := by
  obtain ⟨d, hd⟩ := showsDb_exists hr hx hc sk
  have hw := C98_write_reads hd env hf
  cases hv : Xml.write env d with
  | error e =>
    rw [hv] at hw
    have : saveLoad env sk fuel now o (run Heap.empty cs) = _ := bind_eq_of_error hw
    rw [h] at this; cases this
  | ok doc =>
    rw [hv] at hw
    have e : saveLoad env sk fuel now o (run Heap.empty cs) = XmlReader.read env.flt now (Xml.reparse doc) (run Heap.empty cs) := bind_eq_of_ok hw
    rw [h] at e
    obtain ⟨y, d', hrd, hy, hyc, hall, hk, hkept⟩ := read_kinds (written_named he.envOk hv) e.symm
    obtain ⟨_, hd'⟩ := (Xml.read_written he.envOk he.floatOk he.now hv d').1 hrd
    have hh : d'.hist = Xml.rHistory env d.hist := by rw [hd']; rfl
    obtain ⟨_, x', hx', _, hxh, _⟩ := hd
    rw [hx] at hx'
    cases hx'
    have hyh := hall sk
    rw [hh] at hyh
    refine ⟨y, hy, hyc, hkept, hk, ?_, ?_⟩
    · intro h0
      rw [h0] at hxh
      cases hxh' : d.hist with
      | cons a t => rw [hxh'] at hxh; cases hxh
      | nil =>
        rw [hxh'] at hyh
        have hyh' : List.Forall₂ (ShowsHist sk s') y.hist [Xml.rDummy (Xml.nowText env)] := hyh
        cases hyl : y.hist with
        | nil => rw [hyl] at hyh'; cases hyh'
        | cons n t =>
          rw [hyl] at hyh'
          cases hyh' with
          | cons h1 h2 =>
            cases h2
            obtain ⟨b, hb, eb⟩ := h1
            refine ⟨n, b, rfl, hb, ?_⟩
            have := congrArg Hist.logicalName eb
            exact this.symm
    · intro h0
      have hmap : Xml.rHistory env d.hist = d.hist.map Xml.rHist := by
        cases hdh : d.hist with
        | nil => rw [hdh] at hxh; cases hxl : x.hist with
          | nil => exact absurd hxl h0
          | cons a t => rw [hxl] at hxh; cases hxh
        | cons a t => rfl
      rw [hmap, List.forall₂_map_right_iff] at hyh
      refine forall2_join hxh hyh ?_
      rintro n m b ⟨p, hp, e1⟩ ⟨q, hq, e2⟩
      refine ⟨p, q, getElem?_prefix hkept.nodes hp, hq, ?_⟩
      have e3 : ∀ {γ : Type} (g : Hist → γ), g (Xml.rHist b) = g { q.data with kind := kindText sk q.kind } := fun g => congrArg g e2
      rw [e1] at e3
      exact ⟨(e3 Hist.logicalName).symm, (e3 Hist.physicalName).symm, (e3 Hist.seed).symm, (e3 Hist.userName).symm, (e3 Hist.toolCategory).symm⟩

/-- **C130.** Listing all records after the trip: the same records in the same order; a database without records gets one. -/
theorem C130_all_partial {cs : List Call} (hr : RealCalls Heap.empty cs) {o : Nat} {x : Obj} (hx : (run Heap.empty cs).objs[o]? = some x) (hc : x.cls = .db)
    {env : Xml.Env} (he : GoodEnv env) {sk : Int → String} {fuel : Nat} (hf : (run Heap.empty cs).objs.length ≤ fuel) {now : Int} {o' : Nat} {s' : Heap}
    (h : saveLoad env sk fuel now o (run Heap.empty cs) = (.ok o', s')) :
    ∃ l l', getHistoryNodes o kindALL s' = (.ok l, s') ∧ getHistoryNodes o' kindALL s' = (.ok l', s') ∧
      (l ≠ [] → List.Forall₂ (SameNames s') l l') ∧
      (l = [] → ∃ n b, l' = [n] ∧ s'.nodes[n]? = some b ∧ b.data.logicalName = some "dummy") := by
  obtain ⟨y, hy, hyc, hkept, _, h0, h1⟩ := saveLoad_out hr hx hc he hf h
  refine ⟨x.hist, y.hist, ?_, ?_, h1, h0⟩
  · rw [getHistoryNodes_eq (getElem?_prefix hkept.objs hx) hc, filter_all]
  · rw [getHistoryNodes_eq hy hyc, filter_all]

/-- **C130, refuted part.** After the trip no record is listed under any of the kinds. -/
theorem C130_kind {cs : List Call} (hr : RealCalls Heap.empty cs) {o : Nat} {x : Obj} (hx : (run Heap.empty cs).objs[o]? = some x) (hc : x.cls = .db)
    {env : Xml.Env} (he : GoodEnv env) {sk : Int → String} {fuel : Nat} (hf : (run Heap.empty cs).objs.length ≤ fuel) {now : Int} {o' : Nat} {s' : Heap}
    (h : saveLoad env sk fuel now o (run Heap.empty cs) = (.ok o', s')) {kind : Int} (hk : kind ≠ kindALL) :
    getHistoryNodes o' kind s' = (.ok [], s') := by
  obtain ⟨y, hy, hyc, _, hn, _⟩ := saveLoad_out hr hx hc he hf h
  rw [getHistoryNodes_eq hy hyc, List.filter_eq_nil_iff.2]
  intro n hm
  obtain ⟨b, hb, _, hb'⟩ := hn n hm
  simp [nodeHit, hb, hk, hb' kind]

/-- **C130.** Exactly when the history can be selected after the trip as before: there is a record, no record has a kind of the interface and
none has a parent. -/
theorem C130_exact {cs : List Call} (hr : RealCalls Heap.empty cs) {o : Nat} {x : Obj} (hx : (run Heap.empty cs).objs[o]? = some x) (hc : x.cls = .db)
    {env : Xml.Env} (he : GoodEnv env) {sk : Int → String} {fuel : Nat} (hf : (run Heap.empty cs).objs.length ≤ fuel) {now : Int} {o' : Nat} {s' : Heap}
    (h : saveLoad env sk fuel now o (run Heap.empty cs) = (.ok o', s')) :
    SameHistory s' o o' ↔ x.hist ≠ [] ∧ ∀ n ∈ x.hist, ∃ a, (run Heap.empty cs).nodes[n]? = some a ∧ a.parent = none ∧ ∀ k, a.kind = .num k → k = kindALL := by
  obtain ⟨y, hy, hyc, hkept, hn, h0, h1⟩ := saveLoad_out hr hx hc he hf h
  have hx' := getElem?_prefix hkept.objs hx
  have hold : ∀ n ∈ x.hist, ∃ a, (run Heap.empty cs).nodes[n]? = some a := fun n hm => ⟨_, List.getElem?_eq_getElem ((run_side cs o x hx).histBound n hm)⟩
  have hempty : ∀ kind, kind ≠ kindALL → getHistoryNodes o' kind s' = (.ok [], s') := fun _ hk => C130_kind hr hx hc he hf h hk
  constructor
  · intro hs
    obtain ⟨l, l', e1, e2, hf2⟩ := hs kindALL
    rw [getHistoryNodes_eq hx' hc, filter_all] at e1
    rw [getHistoryNodes_eq hy hyc, filter_all] at e2
    cases e1; cases e2
    refine ⟨?_, ?_⟩
    · intro hnil
      obtain ⟨n, b, hyl, _⟩ := h0 hnil
      rw [hnil, hyl] at hf2
      cases hf2
    · intro n hm
      obtain ⟨a, ha⟩ := hold n hm
      have ha' := getElem?_prefix hkept.nodes ha
      refine ⟨a, ha, ?_, ?_⟩
      · obtain ⟨i, hi⟩ := List.getElem?_of_mem hm
        obtain ⟨m, hm', a', b, hA, hB, _, _, hp⟩ := forall2_at hf2 hi
        rw [ha'] at hA
        cases hA
        obtain ⟨b', hb', hpn, _⟩ := hn m (List.mem_of_getElem? hm')
        rw [hB] at hb'
        cases hb'
        exact hp.1 hpn
      · intro k hk
        by_contra hne
        obtain ⟨l, l', e1, e2, hf3⟩ := hs k
        rw [hempty k hne] at e2
        rw [getHistoryNodes_eq hx' hc] at e1
        cases e1; cases e2
        have hm2 : n ∈ x.hist.filter (nodeHit s' k) := List.mem_filter.2 ⟨hm, by simp [nodeHit, ha', hk]⟩
        cases hl : x.hist.filter (nodeHit s' k) with
        | nil => rw [hl] at hm2; cases hm2
        | cons a t => rw [hl] at hf3; cases hf3
  · rintro ⟨hne, hcond⟩ kind
    by_cases hk : kind = kindALL
    · subst hk
      refine ⟨x.hist, y.hist, ?_, ?_, ?_⟩
      · rw [getHistoryNodes_eq hx' hc, filter_all]
      · rw [getHistoryNodes_eq hy hyc, filter_all]
      · refine forall2_strong (h1 hne) ?_
        rintro n m hmx hmy ⟨a, b, hA, hB, e1, e2, _⟩
        refine ⟨a, b, hA, hB, e1, e2, ?_⟩
        obtain ⟨a', ha', hpa, _⟩ := hcond n hmx
        rw [getElem?_prefix hkept.nodes ha'] at hA
        cases hA
        obtain ⟨b', hb', hpb, _⟩ := hn m hmy
        rw [hB] at hb'
        cases hb'
        simp [hpa, hpb]
    · refine ⟨[], [], ?_, hempty kind hk, .nil⟩
      rw [getHistoryNodes_eq hx' hc, List.filter_eq_nil_iff.2]
      intro n hm
      obtain ⟨a, ha, _, hka⟩ := hcond n hm
      simp only [nodeHit, getElem?_prefix hkept.nodes ha, Bool.or_eq_true, beq_iff_eq, not_or]
      exact ⟨hk, fun e => hk (hka kind e)⟩

/-- The full claim: after every successful trip the history can be selected as before. -/
def C130_claim : Prop :=
  ∀ (cs : List Call) (o : Nat) (x : Obj) (env : Xml.Env) (sk : Int → String) (fuel : Nat) (now : Int) (o' : Nat) (s' : Heap),
    RealCalls Heap.empty cs → (run Heap.empty cs).objs[o]? = some x → x.cls = .db → GoodEnv env → (run Heap.empty cs).objs.length ≤ fuel →
    saveLoad env sk fuel now o (run Heap.empty cs) = (.ok o', s') → SameHistory s' o o'

/-- What a test bench records about a run, `test_data.py:27-54`. -/
def someRun : TestData :=
  { teststatus := 1, toolcategory := "UCIS:Simulator", date := .text "20260101000000", simtime := 0, timeunit := none, runcwd := none, cputime := 0,
    seed := some "7", cmd := none, args := none, compulsory := none, user := some "me", cost := 0 }

/-- A database with one record of the kind. -/
def oneRecord (k : KindVal) : List Call := [.newDb, .createHistoryNode 0 0 none (some "t") none k, .setTestData 0 someRun]

/-- A database with a record and one below it, neither with a kind of the interface. -/
def twoRecords : List Call := oneRecord (.text "x") ++ [.createHistoryNode 0 0 (some 0) (some "u") none (.text "x"), .setTestData 1 someRun]

theorem saveLoad_isOk {cs : List Call} {o : Nat} (h : (saveLoad Xml.exEnv (fun _ => "TEST") 1 0 o (run Heap.empty cs)).1.isOk = true) :
    ∃ o' s', saveLoad Xml.exEnv (fun _ => "TEST") 1 0 o (run Heap.empty cs) = (.ok o', s') := by
  rcases hh : saveLoad Xml.exEnv (fun _ => "TEST") 1 0 o (run Heap.empty cs) with ⟨r, s'⟩
  rw [hh] at h
  cases r with
  | ok o' => exact ⟨o', s', rfl⟩
  | error e => cases h

/-- **C130 is violated** in three ways: by the kind of a record, by its parent, by the absence of records. -/
theorem C130_refuted : ¬ C130_claim ∧
    (∃ o' s', saveLoad Xml.exEnv (fun _ => "TEST") 1 0 0 (run Heap.empty (oneRecord (.num 1))) = (.ok o', s') ∧ ¬ SameHistory s' 0 o') ∧
    (∃ o' s', saveLoad Xml.exEnv (fun _ => "TEST") 1 0 0 (run Heap.empty twoRecords) = (.ok o', s') ∧ ¬ SameHistory s' 0 o') ∧
    (∃ o' s', saveLoad Xml.exEnv (fun _ => "TEST") 1 0 0 (run Heap.empty [.newDb]) = (.ok o', s') ∧ ¬ SameHistory s' 0 o') := by
  have h1 : ∃ o' s', saveLoad Xml.exEnv (fun _ => "TEST") 1 0 0 (run Heap.empty (oneRecord (.num 1))) = (.ok o', s') ∧ ¬ SameHistory s' 0 o' := by
    obtain ⟨o', s', h⟩ := saveLoad_isOk (cs := oneRecord (.num 1)) (o := 0) (by decide +kernel)
    refine ⟨o', s', h, ?_⟩
    rw [C130_exact (cs := oneRecord (.num 1)) ⟨trivial, trivial, trivial, trivial⟩ rfl rfl Xml.exEnv_good (Nat.le_refl 1) h]
    rintro ⟨_, h2⟩
    obtain ⟨a, ha, _, h3⟩ := h2 0 (by decide)
    cases ha
    exact absurd (h3 1 rfl) (by decide)
  refine ⟨?_, h1, ?_, ?_⟩
  · intro hc
    obtain ⟨o', s', h, hn⟩ := h1
    exact hn (hc (oneRecord (.num 1)) 0 _ _ _ 1 0 o' s' ⟨trivial, trivial, trivial, trivial⟩ rfl rfl Xml.exEnv_good (Nat.le_refl 1) h)
  · obtain ⟨o', s', h⟩ := saveLoad_isOk (cs := twoRecords) (o := 0) (by decide +kernel)
    refine ⟨o', s', h, ?_⟩
    rw [C130_exact (cs := twoRecords) ⟨trivial, trivial, trivial, trivial, trivial, trivial⟩ rfl rfl Xml.exEnv_good (Nat.le_refl 1) h]
    rintro ⟨_, h2⟩
    obtain ⟨a, ha, h3, _⟩ := h2 1 (by decide)
    cases ha
    cases h3
  · obtain ⟨o', s', h⟩ := saveLoad_isOk (cs := [.newDb]) (o := 0) (by decide +kernel)
    refine ⟨o', s', h, ?_⟩
    rw [C130_exact (cs := [.newDb]) ⟨trivial, trivial⟩ rfl rfl Xml.exEnv_good (Nat.le_refl 1) h]
    rintro ⟨h2, _⟩
    exact h2 rfl

/-- `C130_all_partial` and `C130_exact` apply, with the positive answer: one record with a text as kind and no parent. -/
example : ∃ o' s', saveLoad Xml.exEnv (fun _ => "TEST") 1 0 0 (run Heap.empty (oneRecord (.text "x"))) = (.ok o', s') ∧ SameHistory s' 0 o' := by
  obtain ⟨o', s', h⟩ := saveLoad_isOk (cs := oneRecord (.text "x")) (o := 0) (by decide +kernel)
  refine ⟨o', s', h, ?_⟩
  rw [C130_exact (cs := oneRecord (.text "x")) ⟨trivial, trivial, trivial, trivial⟩ rfl rfl Xml.exEnv_good (Nat.le_refl 1) h]
  refine ⟨by decide, ?_⟩
  intro n hn
  have : n = 0 := List.mem_singleton.1 (show n ∈ [0] from hn)
  subst this
  exact ⟨_, rfl, rfl, fun k hk => by cases hk⟩

/-- `C130_kind`: the test record is listed under its kind before the trip and not after it. -/
example : (getHistoryNodes 0 1 (run Heap.empty (oneRecord (.num 1)))).1 = .ok [0] ∧
    (saveLoad Xml.exEnv (fun _ => "TEST") 1 0 0 (run Heap.empty (oneRecord (.num 1)))).1.isOk = true ∧ (1 : Int) ≠ kindALL :=
  ⟨by rw [getHistoryNodes_eq rfl rfl]; decide, by decide +kernel, by decide⟩

end Store
end Verif
