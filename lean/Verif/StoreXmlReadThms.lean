import Verif.StoreXmlReadTop
/-!
# Reading XML into objects (C99)
-/

namespace Verif

/-- Every file of the document has a name (the schema demands it). -/
def Spec.FilesNamed (doc : Xml.Elem) : Prop := ∀ e ∈ Xml.iter "sourceFiles" doc, (e.get "fileName").isSome

/-- Nothing that existed was changed: the objects, bins, counts, file handles and history nodes of `s` are those of `s'`. -/
structure Spec.AllKept (s s' : Store.Heap) : Prop where
  objs : s.objs <+: s'.objs
  bins : s.bins <+: s'.bins
  datas : s.datas <+: s'.datas
  handles : s.handles <+: s'.handles
  nodes : s.nodes <+: s'.nodes

namespace Store
open Spec
open Xml (Elem iter FloatText)

/-! ## Files and history nodes -/

/-- The store with the new database, before any scope was made. -/
def mkPre (s : Heap) (T : Dict Nat) (H : List Nat) (hs : List String) (ns : List Node) : Heap :=
  { s with objs := s.objs ++ [{ memUcis with files := T, hist := H }], handles := s.handles ++ hs, nodes := s.nodes ++ ns }

theorem mkPre_obj (s : Heap) (T : Dict Nat) (H : List Nat) (hs : List String) (ns : List Node) :
    (mkPre s T H hs ns).objs[s.objs.length]? = some { memUcis with files := T, hist := H } := by
  simp [mkPre]

theorem mkPre_modify (s : Heap) (x : Obj) (f : Obj → Obj) : (s.objs ++ [x]).modify s.objs.length f = s.objs ++ [f x] := by
  induction s.objs with
  | nil => rfl
  | cons a t ih => simp [ih]

theorem nodes_modify (l : List Node) (x : Node) (f : Node → Node) : (l ++ [x]).modify l.length f = l ++ [f x] := by
  induction l with
  | nil => rfl
  | cons a t ih => simp [ih]

theorem readSourceFile_out (s : Heap) (T : Dict Nat) (hs : List String) {e : Elem} (he : (e.get "fileName").isSome) :
    match Xml.readFile e with
    | .error er => XmlReader.readSourceFile s.objs.length e (mkPre s T [] hs []) = (.error er, mkPre s T [] hs [])
    | .ok p => ∃ T' hs', XmlReader.readSourceFile s.objs.length e (mkPre s T [] hs []) = (.ok p.1, mkPre s T' [] hs' []) ∧
        T'.keys.map some = Xml.intern (T.keys.map some) p.2 ∧ ∃ cs, mkPre s T' [] hs' [] = run (mkPre s T [] hs []) cs := by
  unfold XmlReader.readSourceFile
  cases hr : Xml.readFile e with
  | error er => rfl
  | ok p =>
    obtain ⟨f, hf⟩ := Option.isSome_iff_exists.1 he
    have hp : p.2 = some f := by
      unfold Xml.readFile at hr
      cases hid : e.get "id" with
      | none => rw [hid] at hr; cases hr
      | some t =>
        rw [hid] at hr
        cases hz : PyNum.parseInt t with
        | error er => simp only [bind, Except.bind, hz] at hr; cases hr
        | ok z => simp only [bind, Except.bind, hz] at hr; cases hr; exact hf
    obtain ⟨z, q⟩ := p
    simp only at hp
    subst hp
    have hobj := mkPre_obj s T [] hs []
    have hrun : createFileHandle s.objs.length f (mkPre s T [] hs []) = (match T.get? f with
      | some h => (.ok h, mkPre s T [] hs [])
      | none => (.ok (s.handles ++ hs).length, mkPre s (T.set f (s.handles ++ hs).length) [] (hs ++ [f]) [])) := by
      have h1 : createFileHandle s.objs.length f (mkPre s T [] hs []) = _ := bind_eq_of_ok (obj_some hobj)
      rw [h1]
      show (match T.get? f with
        | some h => pure h
        | none => fun s' => (.ok s'.handles.length, { s' with
            handles := s'.handles ++ [f]
            objs := s'.objs.modify s.objs.length (fun x => { x with files := x.files.set f s'.handles.length }) }) : M Nat) (mkPre s T [] hs []) = _
      cases T.get? f with
      | some h => rfl
      | none => simp [mkPre, mkPre_modify]
    have hkey : (some f ∈ T.keys.map some) ↔ f ∈ T.keys := by simp
    cases hg : T.get? f with
    | some h =>
      rw [hg] at hrun
      refine ⟨T, hs, ?_, ?_, [], rfl⟩
      · show (createFileHandle s.objs.length f >>= fun _ => (pure z : M Int)) _ = _
        rw [bind_eq_of_ok hrun]; rfl
      · unfold Xml.intern
        rw [if_pos]
        rw [hkey, ← Dict.contains_iff]
        unfold Dict.contains
        rw [hg]; rfl
    | none =>
      rw [hg] at hrun
      refine ⟨T.set f (s.handles ++ hs).length, hs ++ [f], ?_, ?_, [.createFileHandle s.objs.length f], ?_⟩
      · show (createFileHandle s.objs.length f >>= fun _ => (pure z : M Int)) _ = _
        rw [bind_eq_of_ok hrun]; rfl
      · have hno : f ∉ T.keys := by
          rw [← Dict.contains_iff]
          unfold Dict.contains
          rw [hg]; simp
        unfold Xml.intern
        rw [if_neg (by rw [hkey]; exact hno), Dict.keys_set, if_neg hno, List.map_append]
        rfl
      · show _ = ((createFileHandle s.objs.length f >>= fun a => pure (Ret.handle a)) (mkPre s T [] hs [])).2
        rw [bind_eq_of_ok hrun]; rfl

theorem files_out (s : Heap) (l : List Elem) (T : Dict Nat) (hs : List String) (hl : ∀ e ∈ l, (e.get "fileName").isSome) :
    Sim (l.mapM (XmlReader.readSourceFile s.objs.length)) (mkPre s T [] hs []) (l.mapM Xml.readFile)
      (fun ids fs s' => ids = fs.map (·.1) ∧ ∃ T' hs', s' = mkPre s T' [] hs' [] ∧ T'.keys.map some = (fs.map (·.2)).foldl Xml.intern (T.keys.map some) ∧
        ∃ cs, s' = run (mkPre s T [] hs []) cs)
      (fun s' => ∃ T' hs', s' = mkPre s T' [] hs' [] ∧ ∃ cs, s' = run (mkPre s T [] hs []) cs) := by
  induction l generalizing T hs with
  | nil => exact ⟨[], _, rfl, rfl, T, hs, rfl, rfl, [], rfl⟩
  | cons e t ih =>
    rw [List.mapM_cons, List.mapM_cons]
    have h1 := readSourceFile_out s T hs (hl e (by simp))
    cases hr : Xml.readFile e with
    | error er =>
      rw [hr] at h1
      exact ⟨_, bind_eq_of_error h1, T, hs, rfl, [], rfl⟩
    | ok p =>
      rw [hr] at h1
      obtain ⟨T1, hs1, h2, h3, cs, h4⟩ := h1
      refine Sim.step h2 ?_
      show Sim _ _ (t.mapM Xml.readFile >>= fun ps => Pure.pure (p :: ps)) _ _
      refine Sim.bind ((ih T1 hs1 (fun e he => hl e (by simp [he]))).mono (fun _ _ _ h => h) ?_) ?_
      · rintro s' ⟨T', hs', rfl, cs', h5⟩
        exact ⟨T', hs', rfl, cs ++ cs', by rw [run_append, ← h4, h5]⟩
      · rintro ids fs s' ⟨rfl, T', hs', rfl, h5, cs', h6⟩
        refine Sim.pure ⟨rfl, T', hs', rfl, ?_, cs ++ cs', by rw [run_append, ← h4, h6]⟩
        rw [h5, h3]
        rfl

/-! ### One history node -/

/-- Filling the node `x` of the family of stores `st`. -/
def NStep (st : Node → Heap) (act : M Unit) (x : Node) (kd : Option String) (r : Except Err Hist) : Prop :=
  Sim act (st x) r (fun _ h s' => ∃ y, s' = st y ∧ (y.kind, y.parent) = (x.kind, x.parent) ∧ h = { y.data with kind := kd } ∧ ∃ cs, s' = run (st x) cs)
    (fun s' => ∃ y, s' = st y ∧ ∃ cs, s' = run (st x) cs)

/-- Setters act on the node `n`. -/
def Assigns (st : Node → Heap) (n : Nat) : Prop := ∀ x a, assignNode n a (st x) = (.ok (), st { x with data := Hist.assign a x.data })

theorem Assigns.calls {st : Node → Heap} {n : Nat} (h : Assigns st n) (x : Node) (a : NodeAttr) :
    ∃ cs, st { x with data := Hist.assign a x.data } = run (st x) cs := by
  refine ⟨[.assignNode n a], ?_⟩
  show _ = ((assignNode n a >>= fun _ => pure Ret.none) (st x)).2
  rw [bind_eq_of_ok (h x a)]; rfl

theorem NStep.assign {st : Node → Heap} {n : Nat} (hst : Assigns st n) {act : M Unit} {x : Node} {kd : Option String} {r : Except Err Hist} {a : NodeAttr}
    (h : NStep st act { x with data := Hist.assign a x.data } kd r) : NStep st (assignNode n a >>= fun _ => act) x kd r := by
  refine Sim.step (hst x a) ?_
  obtain ⟨cs, hcs⟩ := hst.calls x a
  refine Sim.mono h ?_ ?_
  · rintro _ hv s' ⟨y, rfl, h1, h2, cs', h3⟩
    exact ⟨y, rfl, h1, h2, cs ++ cs', by rw [run_append, ← hcs, h3]⟩
  · rintro s' ⟨y, rfl, cs', h3⟩
    exact ⟨y, rfl, cs ++ cs', by rw [run_append, ← hcs, h3]⟩

theorem NStep.lift {st : Node → Heap} {α : Type} {e : Except Err α} {f : α → M Unit} {x : Node} {kd : Option String} {g : α → Except Err Hist}
    (h : ∀ v, NStep st (f v) x kd (g v)) : NStep st (Store.lift e >>= f) x kd (e >>= g) := by
  cases e with
  | error er => exact ⟨st x, rfl, x, rfl, [], rfl⟩
  | ok v => exact h v

theorem setIfEx_run {st : Node → Heap} {n : Nat} (hst : Assigns st n) {x : Node} {e : Elem} {a : String → NodeAttr} {nm : String} (upd : Hist → Option String → Hist)
    (hn : upd x.data none = x.data) (hs : ∀ h v, upd h (some v) = Hist.assign (a v) h) :
    XmlReader.setIfEx n e a nm (st x) = (.ok (), st { x with data := upd x.data (e.get nm) }) ∧
      ∃ cs, st { x with data := upd x.data (e.get nm) } = run (st x) cs := by
  unfold XmlReader.setIfEx
  cases e.get nm with
  | none => rw [hn]; exact ⟨rfl, [], rfl⟩
  | some v => rw [hs]; exact ⟨hst x _, hst.calls x _⟩

theorem NStep.setIf {st : Node → Heap} {n : Nat} (hst : Assigns st n) {x : Node} {e : Elem} {a : String → NodeAttr} {nm : String} (upd : Hist → Option String → Hist)
    {act : M Unit} {kd : Option String} {r : Except Err Hist}
    (hn : upd x.data none = x.data) (hs : ∀ h v, upd h (some v) = Hist.assign (a v) h) (h : NStep st act { x with data := upd x.data (e.get nm) } kd r) :
    NStep st (XmlReader.setIfEx n e a nm >>= fun _ => act) x kd r := by
  obtain ⟨h1, cs, hcs⟩ := setIfEx_run hst (e := e) (nm := nm) upd hn hs
  refine Sim.step h1 ?_
  refine Sim.mono h ?_ ?_
  · rintro _ hv s' ⟨y, rfl, h1, h2, cs', h3⟩
    exact ⟨y, rfl, h1, h2, cs ++ cs', by rw [run_append, ← hcs, h3]⟩
  · rintro s' ⟨y, rfl, cs', h3⟩
    exact ⟨y, rfl, cs ++ cs', by rw [run_append, ← hcs, h3]⟩

theorem NStep.last {st : Node → Heap} {n : Nat} (hst : Assigns st n) {x : Node} {e : Elem} {a : String → NodeAttr} {nm : String} (upd : Hist → Option String → Hist)
    {kd : Option String} {h : Hist}
    (hn : upd x.data none = x.data) (hs : ∀ h v, upd h (some v) = Hist.assign (a v) h) (hh : h = { upd x.data (e.get nm) with kind := kd }) :
    NStep st (XmlReader.setIfEx n e a nm) x kd (Pure.pure h) := by
  obtain ⟨h1, cs, hcs⟩ := setIfEx_run hst (e := e) (nm := nm) upd hn hs
  exact ⟨(), _, h1, _, rfl, rfl, hh, cs, hcs⟩

theorem NStep.setFloat {st : Node → Heap} {n : Nat} (hst : Assigns st n) {flt : FloatText} {x : Node} {e : Elem} {a : Rat → NodeAttr} {nm : String} {d : Rat}
    {act : M Unit} {kd : Option String} {g : Rat → Except Err Hist} (hd : Hist.assign (a d) x.data = x.data)
    (h : ∀ v, NStep st act { x with data := Hist.assign (a v) x.data } kd (g v)) :
    NStep st (XmlReader.setFloatIfEx flt n e a nm >>= fun _ => act) x kd (Xml.floatIf flt e nm d >>= g) := by
  unfold XmlReader.setFloatIfEx Xml.floatIf
  cases e.get nm with
  | none =>
    have := h d
    rw [hd] at this
    exact this
  | some t =>
    cases hf : flt.read t with
    | none => simp only [hf]; exact ⟨st x, rfl, x, rfl, [], rfl⟩
    | some v => simp only [hf]; exact NStep.assign hst (h v)

theorem NStep.setInt {st : Node → Heap} {n : Nat} (hst : Assigns st n) {x : Node} {e : Elem} {a : Int → NodeAttr} {nm : String} {d : Int}
    {act : M Unit} {kd : Option String} {g : Int → Except Err Hist} (hd : Hist.assign (a d) x.data = x.data)
    (h : ∀ v, NStep st act { x with data := Hist.assign (a v) x.data } kd (g v)) :
    NStep st (XmlReader.setIntIfEx n e a nm >>= fun _ => act) x kd (Xml.intIf e nm d >>= g) := by
  unfold XmlReader.setIntIfEx Xml.intIf
  cases e.get nm with
  | none =>
    have := h d
    rw [hd] at this
    exact this
  | some t =>
    cases hf : PyNum.parseInt t with
    | error er => simp only [hf]; exact ⟨st x, rfl, x, rfl, [], rfl⟩
    | ok v => simp only [hf]; exact NStep.assign hst (h v)

/-- The kind stored. -/
def kindOf (e : Elem) : KindVal := match e.get "kind" with
  | none => .none
  | some k => .text k

theorem kindText_kindOf (sk : Int → String) (e : Elem) : kindText sk (kindOf e) = e.get "kind" := by
  unfold kindOf
  cases e.get "kind" <;> rfl

/-- What follows the creation of the node. -/
def fillNode (flt : FloatText) (n : Nat) (e : Elem) : M Unit := do
  let ts ← lift (e.getE "testStatus")
  assignNode n (.status (if ts = "true" then 1 else 0))
  XmlReader.setFloatIfEx flt n e .simTime "simtime"
  XmlReader.setIfEx n e .timeUnit "timeunit"
  XmlReader.setIfEx n e .runCwd "runCwd"
  XmlReader.setFloatIfEx flt n e .cpuTime "cpuTime"
  XmlReader.setIfEx n e .seed "seed"
  XmlReader.setIfEx n e .cmd "cmd"
  XmlReader.setIfEx n e .args "args"
  XmlReader.setIfEx n e .compulsory "compulsory"
  let d ← lift (Xml.dateOf e "date")
  assignNode n (.date (.text d))
  XmlReader.setIfEx n e .userName "userName"
  XmlReader.setFloatIfEx flt n e .cost "cost"
  let tc ← lift (e.getE "toolCategory")
  assignNode n (.toolCategory tc)
  let vi ← lift (e.getE "vendorId")
  assignNode n (.vendorId vi)
  let vt ← lift (e.getE "vendorTool")
  assignNode n (.vendorTool vt)
  let vv ← lift (e.getE "vendorToolVersion")
  assignNode n (.vendorToolVersion vv)
  XmlReader.setIntIfEx n e .sameTests "sameTests"
  XmlReader.setIfEx n e .comment "comment"

theorem fillNode_out {st : Node → Heap} {n : Nat} (hst : Assigns st n) (flt : FloatText) (now : Int) (e : Elem) :
    NStep st (fillNode flt n e) ⟨none, kindOf e, Hist.create now (e.get "logicalName") (e.get "physicalName") none⟩ (e.get "kind") (Xml.readHist flt e) := by
  unfold fillNode Xml.readHist
  refine NStep.lift fun ts => NStep.assign hst ?_
  refine NStep.setFloat hst rfl fun simTime => ?_
  refine NStep.setIf hst (fun h o => { h with timeUnit := o }) rfl (fun _ _ => rfl) ?_
  refine NStep.setIf hst (fun h o => { h with runCwd := o }) rfl (fun _ _ => rfl) ?_
  refine NStep.setFloat hst rfl fun cpuTime => ?_
  refine NStep.setIf hst (fun h o => { h with seed := o }) rfl (fun _ _ => rfl) ?_
  refine NStep.setIf hst (fun h o => { h with cmd := o }) rfl (fun _ _ => rfl) ?_
  refine NStep.setIf hst (fun h o => { h with args := o }) rfl (fun _ _ => rfl) ?_
  refine NStep.setIf hst (fun h o => { h with compulsory := o }) rfl (fun _ _ => rfl) ?_
  refine NStep.lift fun d => NStep.assign hst ?_
  refine NStep.setIf hst (fun h o => { h with userName := o }) rfl (fun _ _ => rfl) ?_
  refine NStep.setFloat hst rfl fun cost => ?_
  refine NStep.lift fun tc => NStep.assign hst ?_
  refine NStep.lift fun vi => NStep.assign hst ?_
  refine NStep.lift fun vt => NStep.assign hst ?_
  refine NStep.lift fun vv => NStep.assign hst ?_
  refine NStep.setInt hst rfl fun same => ?_
  exact NStep.last hst (fun h o => { h with comment := o }) rfl (fun _ _ => rfl) rfl

theorem mkPre_assigns (s : Heap) (T : Dict Nat) (H : List Nat) (hs : List String) (ns : List Node) :
    Assigns (fun x => mkPre s T H hs (ns ++ [x])) (s.nodes.length + ns.length) := by
  intro x a
  have hn : (mkPre s T H hs (ns ++ [x])).nodes[s.nodes.length + ns.length]? = some x := by simp [mkPre]
  unfold assignNode
  rw [bind_eq_of_ok (node_some hn)]
  have := nodes_modify (s.nodes ++ ns) x (fun x => { x with data := Hist.assign a x.data })
  simp only [List.length_append] at this
  unfold modNode
  simp only [mkPre, ← List.append_assoc]
  rw [this]

theorem readHistoryNode_out (sk : Int → String) (flt : FloatText) (now : Int) (s : Heap) (T : Dict Nat) (H : List Nat) (hs : List String) (ns : List Node) (e : Elem) :
    Sim (XmlReader.readHistoryNode flt now s.objs.length e) (mkPre s T H hs ns) (Xml.readHist flt e)
      (fun _ h s' => ∃ y, s' = mkPre s T (H ++ [s.nodes.length + ns.length]) hs (ns ++ [y]) ∧ (h = { y.data with kind := kindText sk y.kind } ∧ y.parent = none) ∧
        ∃ cs, s' = run (mkPre s T H hs ns) cs)
      (fun s' => ∃ H' ns', s' = mkPre s T H' hs ns' ∧ ∃ cs, s' = run (mkPre s T H hs ns) cs) := by
  have hobj := mkPre_obj s T H hs ns
  have hcr : createHistoryNode s.objs.length now none (e.get "logicalName") (e.get "physicalName") (kindOf e) (mkPre s T H hs ns) =
      (.ok (s.nodes.length + ns.length), mkPre s T (H ++ [s.nodes.length + ns.length]) hs
        (ns ++ [⟨none, kindOf e, Hist.create now (e.get "logicalName") (e.get "physicalName") none⟩])) := by
    have h1 : createHistoryNode s.objs.length now none (e.get "logicalName") (e.get "physicalName") (kindOf e) (mkPre s T H hs ns) = _ := bind_eq_of_ok (obj_some hobj)
    rw [h1]
    simp [mkPre, mkPre_modify, memUcis, memScope]
  have hcall : ∃ cs, mkPre s T (H ++ [s.nodes.length + ns.length]) hs
        (ns ++ [⟨none, kindOf e, Hist.create now (e.get "logicalName") (e.get "physicalName") none⟩]) = run (mkPre s T H hs ns) cs := by
    refine ⟨[.createHistoryNode s.objs.length now none (e.get "logicalName") (e.get "physicalName") (kindOf e)], ?_⟩
    show _ = ((createHistoryNode s.objs.length now none (e.get "logicalName") (e.get "physicalName") (kindOf e) >>= fun a => pure (Ret.node a)) (mkPre s T H hs ns)).2
    rw [bind_eq_of_ok hcr]; rfl
  obtain ⟨cs, hcs⟩ := hcall
  have hfill := fillNode_out (mkPre_assigns s T (H ++ [s.nodes.length + ns.length]) hs ns) flt now e
  have heq : XmlReader.readHistoryNode flt now s.objs.length e =
      (createHistoryNode s.objs.length now none (e.get "logicalName") (e.get "physicalName") (kindOf e) >>= fun n => fillNode flt n e) := rfl
  rw [heq]
  refine Sim.step hcr (Sim.mono hfill ?_ ?_)
  · rintro _ h s' ⟨y, rfl, h1, h2, cs', h3⟩
    rw [Prod.mk.injEq] at h1
    refine ⟨y, rfl, ⟨?_, h1.2⟩, cs ++ cs', by rw [run_append, ← hcs, h3]⟩
    rw [h1.1, kindText_kindOf]
    exact h2
  · rintro s' ⟨y, rfl, cs', h3⟩
    exact ⟨_, _, rfl, cs ++ cs', by rw [run_append, ← hcs, h3]⟩

theorem hist_out (sk : Int → String) (flt : FloatText) (now : Int) (s : Heap) (T : Dict Nat) (hs : List String) (l : List Elem) (H : List Nat) (ns : List Node) :
    Sim (each (XmlReader.readHistoryNode flt now s.objs.length) l) (mkPre s T H hs ns) (l.mapM (Xml.readHist flt))
      (fun _ hv s' => ∃ ns', s' = mkPre s T (H ++ List.range' (s.nodes.length + ns.length) ns'.length) hs (ns ++ ns') ∧
        List.Forall₂ (fun (y : Node) h => h = { y.data with kind := kindText sk y.kind } ∧ y.parent = none) ns' hv ∧ ∃ cs, s' = run (mkPre s T H hs ns) cs)
      (fun s' => ∃ H' ns', s' = mkPre s T H' hs ns' ∧ ∃ cs, s' = run (mkPre s T H hs ns) cs) := by
  induction l generalizing H ns with
  | nil => exact ⟨(), _, rfl, [], by simp, .nil, [], rfl⟩
  | cons e t ih =>
    rw [List.mapM_cons]
    show Sim (XmlReader.readHistoryNode flt now s.objs.length e >>= fun _ => each (XmlReader.readHistoryNode flt now s.objs.length) t) _ _ _ _
    refine Sim.bind (readHistoryNode_out sk flt now s T H hs ns e) ?_
    rintro _ h s1 ⟨y, rfl, h1, cs, h2⟩
    have hrec := ih (H ++ [s.nodes.length + ns.length]) (ns ++ [y])
    unfold Sim at hrec ⊢
    cases hr : t.mapM (Xml.readHist flt) with
    | error er =>
      rw [hr] at hrec
      obtain ⟨s', h3, H', ns', h4, cs', h5⟩ := hrec
      exact ⟨s', h3, H', ns', h4, cs ++ cs', by rw [run_append, ← h2, h5]⟩
    | ok hv =>
      rw [hr] at hrec
      obtain ⟨u, s', h3, ns', h4, h6, cs', h5⟩ := hrec
      refine ⟨u, s', h3, y :: ns', ?_, .cons h1 h6, cs ++ cs', by rw [run_append, ← h2, h5]⟩
      rw [h4]
      simp only [List.append_assoc, List.singleton_append, List.length_append, List.length_cons, List.length_nil, List.range'_succ, Nat.add_assoc, Nat.zero_add]

/-! ## The whole reader -/

theorem mkPre_kept (s : Heap) (T : Dict Nat) (H : List Nat) (hs : List String) (ns : List Node) : AllKept s (mkPre s T H hs ns) :=
  ⟨List.prefix_append _ _, List.prefix_rfl, List.prefix_rfl, List.prefix_append _ _, List.prefix_append _ _⟩

theorem prefix_of_get {α : Type} {l m : List α} (h : ∀ (i : Nat) (x : α), l[i]? = some x → m[i]? = some x) : l <+: m := by
  rw [List.prefix_iff_getElem?]
  intro i hi
  exact h i _ (List.getElem?_eq_getElem hi)

theorem frame_kept {N : Nat} {s : Heap} {T : Dict Nat} {H : List Nat} {hs : List String} {ns : List Node} {s' : Heap} {k i : List Nat}
    (f : Frame N (mkPre s T H hs ns) s' s.objs.length k i) : AllKept s s' := by
  have h0 := mkPre_kept s T H hs ns
  refine ⟨prefix_of_get ?_, h0.bins.trans f.bins, h0.datas.trans f.datas, by rw [f.handles]; exact h0.handles, by rw [f.nodes]; exact h0.nodes⟩
  intro o x hx
  have hl := (List.getElem?_eq_some_iff.1 hx).1
  have h1 := f.old o x (getElem?_prefix h0.objs hx)
  rw [if_neg (by omega)] at h1
  exact h1

theorem showsHist_range {sk : Int → String} {s : Heap} {ns : List Node} {hv : List Hist} {a : Nat}
    (h : List.Forall₂ (fun (y : Node) h => h = { y.data with kind := kindText sk y.kind } ∧ y.parent = none) ns hv)
    (hn : ∀ (i : Nat) (y : Node), ns[i]? = some y → s.nodes[a + i]? = some y) : List.Forall₂ (ShowsHist sk s) (List.range' a ns.length) hv := by
  induction h generalizing a with
  | nil => exact .nil
  | cons hab _ ih =>
    rw [List.length_cons, List.range'_succ]
    refine .cons ⟨_, by simpa using hn 0 _ rfl, hab.1⟩ (ih (a := a + 1) ?_)
    intro i y hy
    have := hn (i + 1) y (by simpa using hy)
    rw [← this]
    congr 1
    omega

theorem parents_none {sk : Int → String} {ns : List Node} {hv : List Hist}
    (h : List.Forall₂ (fun (y : Node) h => h = { y.data with kind := kindText sk y.kind } ∧ y.parent = none) ns hv) {i : Nat} {y : Node}
    (hy : ns[i]? = some y) : y.parent = none := by
  induction h generalizing i with
  | nil => simp at hy
  | cons h _ ih =>
    cases i with
    | zero => simp only [List.getElem?_cons_zero, Option.some.injEq] at hy; subst hy; exact h.2
    | succ i => exact ih (by simpa using hy)

theorem read_sim_nodes (sk : Int → String) (flt : FloatText) (now : Int) (doc : Elem) (hd : FilesNamed doc) (s : Heap) :
    Sim (XmlReader.read flt now doc) s (Xml.read flt doc)
      (fun o d s' => o = s.objs.length ∧ ShowsDb sk s' o d ∧ (∀ x, s'.objs[o]? = some x → ∀ n ∈ x.hist, ∃ y, s'.nodes[n]? = some y ∧ y.parent = none) ∧
        AllKept s s' ∧ ∃ cs, s' = run s cs)
      (fun s' => AllKept s s' ∧ ∃ cs, s' = run s cs) := by
  have hnew : newDb s = (.ok s.objs.length, mkPre s [] [] [] []) := by
    simp [newDb, allocObj, mkPre, memUcis, memScope]
  have hcall : mkPre s [] [] [] [] = run s [.newDb] := by
    show _ = ((newDb >>= fun a => pure (Ret.scope a)) s).2
    rw [bind_eq_of_ok hnew]; rfl
  unfold XmlReader.read Xml.read
  refine Sim.step hnew ?_
  refine Sim.bind ((files_out s (iter "sourceFiles" doc) [] [] hd).mono (fun _ _ _ h => h) ?_) ?_
  · rintro s' ⟨T, hs, rfl, cs, h1⟩
    exact ⟨mkPre_kept .., [.newDb] ++ cs, by rw [run_append, ← hcall, h1]⟩
  rintro ids fs s1 ⟨rfl, T, hs, rfl, hT, cs1, h1⟩
  refine Sim.bind ((hist_out sk flt now s T hs (iter "historyNodes" doc) [] []).mono (fun _ _ _ h => h) ?_) ?_
  · rintro s' ⟨H, ns, rfl, cs, h2⟩
    exact ⟨mkPre_kept .., [.newDb] ++ cs1 ++ cs, by rw [run_append, run_append, ← hcall, ← h1, h2]⟩
  rintro _ hv s2 ⟨ns, h2, hns, cs2, h3⟩
  simp only [List.nil_append, List.length_nil, Nat.add_zero] at h2
  have hobj := mkPre_obj s T (List.range' s.nodes.length ns.length) hs ns
  have hrun : s2 = run s ([.newDb] ++ cs1 ++ cs2) := by rw [run_append, run_append, ← hcall, ← h1, h3]
  subst h2
  have hstart : TInv 0 s.objs.length (mkPre s T (List.range' s.nodes.length ns.length) hs ns) (mkPre s T (List.range' s.nodes.length ns.length) hs ns) [] [] [] := {
    frame := ⟨[], Frame.refl _ _ _, .nil⟩
    modObj := by intro n c h; simp [Dict.get?] at h
    instObj := by intro n c h; simp [Dict.get?] at h
    modKeys := by intro n; simp [Dict.get?]
    instKeys := by intro n; simp [Dict.get?] }
  refine Sim.bind ((Sim.foldlM (Q := fun p tops s' => TInv 0 s.objs.length (mkPre s T (List.range' s.nodes.length ns.length) hs ns) s' p.1 p.2 tops)
    (fun a v s e ha => readInstance_out hobj rfl (Nat.zero_le _) ha _ e) (iter "instanceCoverages" doc) hstart).mono (fun _ _ _ h => h) ?_) ?_
  · rintro s' ⟨ch, f⟩
    obtain ⟨cs, h4⟩ := f.calls
    exact ⟨frame_kept f, [.newDb] ++ cs1 ++ cs2 ++ cs, by rw [run_append, ← hrun, h4]⟩
  rintro ⟨M, I⟩ tops s' ht
  obtain ⟨ch, f, _⟩ := ht.frame
  obtain ⟨cs, h4⟩ := f.calls
  have hD := f.old _ _ hobj
  rw [if_pos rfl] at hD
  refine Sim.pure ⟨rfl, ⟨ht.shows hobj, _, hD, rfl, ?_, ?_⟩, ?_, frame_kept f, [.newDb] ++ cs1 ++ cs2 ++ cs, by rw [run_append, ← hrun, h4]⟩
  · show List.Forall₂ _ (List.range' s.nodes.length ns.length) hv
    refine showsHist_range hns ?_
    intro i y hy
    rw [f.nodes]
    simp only [mkPre]
    rw [List.getElem?_append_right (by omega), Nat.add_sub_cancel_left]
    exact hy
  · exact hT.symm
  · intro x hx n hn
    rw [hD] at hx
    cases hx
    obtain ⟨h5, h6⟩ := List.mem_range'_1.1 (show n ∈ List.range' s.nodes.length ns.length from hn)
    obtain ⟨y, hy⟩ : ∃ y, ns[n - s.nodes.length]? = some y := ⟨_, List.getElem?_eq_getElem (by omega)⟩
    refine ⟨y, ?_, parents_none hns hy⟩
    rw [f.nodes]
    simp only [mkPre]
    rw [List.getElem?_append_right h5]
    exact hy

theorem read_sim (sk : Int → String) (flt : FloatText) (now : Int) (doc : Elem) (hd : FilesNamed doc) (s : Heap) :
    Sim (XmlReader.read flt now doc) s (Xml.read flt doc)
      (fun o d s' => o = s.objs.length ∧ ShowsDb sk s' o d ∧ AllKept s s' ∧ ∃ cs, s' = run s cs)
      (fun s' => AllKept s s' ∧ ∃ cs, s' = run s cs) :=
  (read_sim_nodes sk flt now doc hd s).mono (fun _ _ _ ⟨h1, h2, _, h3, h4⟩ => ⟨h1, h2, h3, h4⟩) (fun _ h => h)

/-- **C99.** Reading a document into objects: the objects that exist stay as they are, whether the read succeeds or raises, and the new ones come about
through API calls; the exception, if any, is that of the value model. -/
theorem C99_read_kept (cs : List Call) (flt : FloatText) (now : Int) {doc : Elem} (hd : FilesNamed doc) {r : Except Err Nat} {s' : Heap}
    (h : XmlReader.read flt now doc (run Heap.empty cs) = (r, s')) :
    AllKept (run Heap.empty cs) s' ∧ (∃ cs', s' = run Heap.empty (cs ++ cs')) ∧ ∀ e, r = .error e ↔ Xml.read flt doc = .error e := by
  have hs := read_sim (fun _ => "") flt now doc hd (run Heap.empty cs)
  unfold Sim at hs
  cases hv : Xml.read flt doc with
  | error e =>
    rw [hv] at hs
    obtain ⟨s1, h1, h2, cs', h3⟩ := hs
    rw [h] at h1
    cases h1
    exact ⟨h2, ⟨cs', by rw [run_append, h3]⟩, fun e' => ⟨fun h => (by cases h; rfl), fun h => (by cases h; rfl)⟩⟩
  | ok d =>
    rw [hv] at hs
    obtain ⟨o, s1, h1, _, _, h2, cs', h3⟩ := hs
    rw [h] at h1
    cases h1
    exact ⟨h2, ⟨cs', by rw [run_append, h3]⟩, fun e' => ⟨fun h => (by cases h), fun h => (by cases h)⟩⟩

/-- **C99.** The database read is a new one and shows what the value model reads. -/
theorem C99_read_refines (cs : List Call) (flt : FloatText) (now : Int) {doc : Elem} (hd : FilesNamed doc) (sk : Int → String) {d : Database}
    (hv : Xml.read flt doc = .ok d) :
    ∃ cs', XmlReader.read flt now doc (run Heap.empty cs) = (.ok (run Heap.empty cs).objs.length, run Heap.empty (cs ++ cs')) ∧
      ShowsDb sk (run Heap.empty (cs ++ cs')) (run Heap.empty cs).objs.length d := by
  have hs := read_sim sk flt now doc hd (run Heap.empty cs)
  rw [hv] at hs
  obtain ⟨o, s1, h1, rfl, h2, _, cs', h3⟩ := hs
  refine ⟨cs', ?_, ?_⟩
  · rw [run_append, ← h3]; exact h1
  · rw [run_append, ← h3]; exact h2

/-! ## Reading several documents, merging, writing -/

theorem _root_.Verif.Spec.AllKept.trans {a b c : Heap} (h : AllKept a b) (h' : AllKept b c) : AllKept a c :=
  ⟨h.objs.trans h'.objs, h.bins.trans h'.bins, h.datas.trans h'.datas, h.handles.trans h'.handles, h.nodes.trans h'.nodes⟩

theorem _root_.Verif.Spec.AllKept.showsIn {s s' : Heap} (h : AllKept s s') {P : Nat → Prop} {n o : Nat} {v : Scope} (hv : ShowsIn P s n o v) : ShowsIn P s' n o v := by
  induction n generalizing o v with
  | zero => exact hv
  | succ n ih =>
    obtain ⟨hp, x, hx, h1, h2, h3, h4, h5, h6, h7, h8⟩ := hv
    refine ⟨hp, x, getElem?_prefix h.objs hx, h1, h2, h3, h4, ?_, ?_, forall2_imp h7 (fun _ _ _ hab => ih hab), forall2_imp h8 ?_⟩
    · unfold ShowsDu at h5 ⊢
      cases hd : x.du with
      | none => rw [hd] at h5; exact h5
      | some d =>
        rw [hd] at h5
        obtain ⟨h9, y, hy, h10⟩ := h5
        exact ⟨h9, y, getElem?_prefix h.objs hy, h10⟩
    · unfold ShowsCps at h6 ⊢
      split at h6
      · rename_i hc
        rw [if_pos hc]
        obtain ⟨l, h9, h10⟩ := h6
        refine ⟨l, h9, forall2_imp h10 ?_⟩
        rintro a _ b ⟨y, hy, h11⟩
        exact ⟨y, getElem?_prefix h.objs hy, h11⟩
      · rename_i hc
        rw [if_neg hc]
        exact h6
    · rintro a _ b ⟨y, c, hy, hc, h11⟩
      exact ⟨y, c, getElem?_prefix h.bins hy, getElem?_prefix h.datas hc, h11⟩

theorem _root_.Verif.Spec.AllKept.shows {s s' : Heap} (h : AllKept s s') {o : Nat} {v : Scope} (hv : Shows s o v) : Shows s' o v := by
  obtain ⟨n, hn⟩ := hv
  exact ⟨n, h.showsIn hn⟩

/-- **C99.** What a database shows stays the same while another document is read. -/
theorem _root_.Verif.Spec.AllKept.showsDb {s s' : Heap} (h : AllKept s s') {sk : Int → String} {o : Nat} {d : Database} (hv : ShowsDb sk s o d) : ShowsDb sk s' o d := by
  obtain ⟨h1, x, hx, hc, h2, h3⟩ := hv
  refine ⟨h.shows h1, x, getElem?_prefix h.objs hx, hc, forall2_imp h2 ?_, h3⟩
  rintro n _ b ⟨y, hy, h4⟩
  exact ⟨y, getElem?_prefix h.nodes hy, h4⟩

theorem readAll_sim (sk : Int → String) (flt : FloatText) (now : Int) (docs : List Elem) (hd : ∀ doc ∈ docs, FilesNamed doc) (s : Heap) :
    Sim (docs.mapM (XmlReader.read flt now)) s (docs.mapM (Xml.read flt))
      (fun os ds s' => List.Forall₂ (ShowsDb sk s') os ds ∧ AllKept s s' ∧ ∃ cs, s' = run s cs)
      (fun s' => AllKept s s' ∧ ∃ cs, s' = run s cs) := by
  induction docs generalizing s with
  | nil => exact ⟨[], s, rfl, .nil, ⟨List.prefix_rfl, List.prefix_rfl, List.prefix_rfl, List.prefix_rfl, List.prefix_rfl⟩, [], rfl⟩
  | cons doc t ih =>
    rw [List.mapM_cons, List.mapM_cons]
    refine Sim.bind (read_sim sk flt now doc (hd doc (by simp)) s) ?_
    rintro o d s1 ⟨_, h1, k1, cs, rfl⟩
    refine Sim.bind ((ih (fun d h => hd d (by simp [h])) (run s cs)).mono (fun _ _ _ h => h) ?_) ?_
    · rintro s' ⟨k2, cs', rfl⟩
      exact ⟨k1.trans k2, cs ++ cs', (run_append ..).symm⟩
    · rintro os ds s2 ⟨h2, k2, cs', rfl⟩
      exact Sim.pure ⟨.cons (k2.showsDb h1) h2, k1.trans k2, cs ++ cs', (run_append ..).symm⟩

/-- Writing a database object, `xml_writer.py:44-72` as called from `cmd_merge.py:49`; `fuel` bounds the depth of the walk by the number of objects. -/
def writeDb (env : Xml.Env) (sk : Int → String) (fuel : Heap → Nat) (dst : Nat) : M Elem :=
  fun s => XmlWriter.write env sk (fuel s) dst s

/-- The merge command on objects, `cmd_merge.py:28-49`, once the input files are element trees: read all inputs (28-38), make a
database (40-41), merge (43-47), write (49). Simplification: the command wraps exceptions of the first three steps in an exception
with a message; here they pass through. -/
def mergeProgram (flt : FloatText) (now : Int) (env : Xml.Env) (sk : Int → String) (fuel : Heap → Nat) (docs : List Elem) : M Elem := do
  let srcs ← docs.mapM (XmlReader.read flt now)
  let dst ← newDb
  DbMerger.merge dst srcs
  writeDb env sk fuel dst

/-- **C99.** Reading documents into objects, merging the objects and writing the result is the same on values: same document or same exception. -/
theorem C99_merge_program (cs : List Call) (flt : FloatText) (now : Int) (env : Xml.Env) (sk : Int → String) {fuel : Heap → Nat} (hf : ∀ s, s.objs.length ≤ fuel s)
    {docs : List Elem} (hd : ∀ doc ∈ docs, FilesNamed doc) :
    (mergeProgram flt now env sk fuel docs (run Heap.empty cs)).1 = (do
      let ds ← docs.mapM (Xml.read flt)
      let w ← Merge.merge emptyDb (ds.map (·.root))
      Xml.write env { root := w, hist := [], files := [] }) := by
  have h := readAll_sim sk flt now docs hd (run Heap.empty cs)
  unfold mergeProgram
  cases hv : docs.mapM (Xml.read flt) with
  | error e =>
    rw [hv] at h
    obtain ⟨s', h1, _⟩ := h
    rw [bind_eq_of_error h1]
    rfl
  | ok ds =>
    rw [hv] at h
    obtain ⟨os, s1, h1, h2, _, cs1, h3⟩ := h
    rw [bind_eq_of_ok h1]
    have hnew : newDb s1 = (.ok s1.objs.length, mkPre s1 [] [] [] []) := by
      simp [newDb, allocObj, mkPre, memUcis, memScope]
    have hrun : mkPre s1 [] [] [] [] = run Heap.empty (cs ++ cs1 ++ [.newDb]) := by
      rw [run_append, run_append, ← h3]
      show _ = ((newDb >>= fun a => pure (Ret.scope a)) s1).2
      rw [bind_eq_of_ok hnew]; rfl
    rw [bind_eq_of_ok hnew]
    have hobj := mkPre_obj s1 [] [] [] []
    have hdb : ShowsDb sk (mkPre s1 [] [] [] []) s1.objs.length { root := emptyDb, hist := [], files := [] } :=
      ⟨⟨1, trivial, _, hobj, rfl, rfl, rfl, rfl, by simp [ShowsDu, memUcis, memScope, emptyDb], by simp [ShowsCps, memUcis, memScope, emptyDb], .nil, .nil⟩,
        _, hobj, rfl, .nil, rfl⟩
    have hsrc : List.Forall₂ (Shows (mkPre s1 [] [] [] [])) os (ds.map (·.root)) := by
      rw [List.forall₂_map_right_iff]
      exact forall2_imp h2 (fun _ _ _ hab => (mkPre_kept s1 [] [] [] []).shows hab.1)
    rw [hrun] at hdb hsrc ⊢
    cases hm : Merge.merge emptyDb (ds.map (·.root)) with
    | error e =>
      obtain ⟨hv', x, hx, hc, _⟩ := hdb
      rw [bind_eq_of_error (s' := (DbMerger.merge s1.objs.length os (run Heap.empty (cs ++ cs1 ++ [.newDb]))).2) (e := e)]
      · show _ = (Merge.merge emptyDb (ds.map (·.root)) >>= fun w => Xml.write env { root := w, hist := [], files := [] })
        rw [hm]; rfl
      · exact Prod.ext ((C84_refines hx hc hv' hsrc (Prod.mk.eta).symm).1 e hm) rfl
    | ok w =>
      obtain ⟨cs', hm', hd'⟩ := merge_showsDb hdb hsrc hm
      rw [bind_eq_of_ok hm']
      show (XmlWriter.write env sk _ s1.objs.length _).1 = (Merge.merge emptyDb (ds.map (·.root)) >>= fun w => Xml.write env { root := w, hist := [], files := [] })
      rw [C98_write_reads hd' env (hf _), hm]
      rfl

/-! ## Examples -/

/-- A document with a file, a record of a test run and two covergroup instances of one type; `c` is the count of the last bin. -/
def readDoc (c : String) : Elem :=
  let bin (t : String) (n : String) : Elem :=
    ⟨"coverpointBin", [("name", "x"), ("type", t)], none, [⟨"range", [], none, [⟨"contents", [("coverageCount", n)], none, []⟩]⟩]⟩
  let inst (n t c : String) : Elem :=
    ⟨"cgInstance", [("name", n)], none,
      [⟨"cgId", [("cgName", "cg")], none, []⟩, ⟨"coverpoint", [("name", "a")], none, [bin t c]⟩]⟩
  ⟨"UCIS", [], none,
    [⟨"sourceFiles", [("id", "1"), ("fileName", "f.sv")], none, []⟩,
     ⟨"historyNodes", [("logicalName", "t"), ("kind", "TEST"), ("testStatus", "true"), ("date", "2026-01-01T00:00:00"), ("toolCategory", "c"),
        ("vendorId", "v"), ("vendorTool", "w"), ("vendorToolVersion", "1")], none, []⟩,
     ⟨"instanceCoverages", [("name", "top")], none,
      [⟨"id", [("file", "1"), ("line", "1"), ("inlineCount", "1")], none, []⟩,
       ⟨"covergroupCoverage", [], none, [inst "i1" "bins" "3", inst "i2" "bins" c]⟩]⟩]⟩

/-- The file has a name. -/
theorem readDoc_named (c : String) : FilesNamed (readDoc c) := by
  intro e he
  have : iter "sourceFiles" (readDoc c) = [⟨"sourceFiles", [("id", "1"), ("fileName", "f.sv")], none, []⟩] := rfl
  rw [this, List.mem_singleton] at he
  subst he
  rfl

/-- **C99** applies, with two databases already in the store: the new database has one record and one file, and the bin at type level, which
is made last, counts what the two instances count. -/
example : (Xml.read ⟨fun _ => "0", fun _ => none⟩ (readDoc "4")).isOk = true ∧
    (match XmlReader.read ⟨fun _ => "0", fun _ => none⟩ 0 (readDoc "4") (run Heap.empty twoDbs) with
      | (.ok o, s) => decide (o = (run Heap.empty twoDbs).objs.length) &&
          decide ((s.objs[o]?).map (fun x => (x.hist.length, x.files.map (·.1), x.children.length)) = some (1, ["f.sv"], 2)) &&
          decide (s.datas.getLast?.map (·.count) = some 7) && decide (s.nodes.getLast?.map (fun n => n.data.logicalName) = some (some "t"))
      | _ => false) = true := by
  constructor
  · decide +kernel
  · decide +kernel

/-- **C99** in the failing branch: the last count is not a number.  The read raises after it made objects. -/
example : (match Xml.read ⟨fun _ => "0", fun _ => none⟩ (readDoc "x") with | .error e => some e | .ok _ => none) = some Err.valueError ∧
    (match XmlReader.read ⟨fun _ => "0", fun _ => none⟩ 0 (readDoc "x") (run Heap.empty twoDbs) with
      | (.error e, s) => some (e, decide ((run Heap.empty twoDbs).objs.length < s.objs.length))
      | _ => none) = some (Err.valueError, true) := by
  constructor
  · decide +kernel
  · decide +kernel

/-- `C99_merge_program` applies to two documents; the program writes a document. -/
example : (∀ doc ∈ [readDoc "4", readDoc "5"], FilesNamed doc) ∧
    (match (mergeProgram ⟨fun _ => "0", fun _ => none⟩ 0 ⟨"u", "d", "n", ⟨fun _ => "0", fun _ => none⟩⟩ (fun _ => "TEST") (fun s => s.objs.length) [readDoc "4", readDoc "5"] Heap.empty).1 with
      | .ok e => some (e.children.map (·.tag))
      | .error _ => none) = some ["sourceFiles", "historyNodes", "instanceCoverages"] := by
  constructor
  · intro doc h
    simp only [List.mem_cons, List.not_mem_nil, or_false] at h
    rcases h with rfl | rfl <;> exact readDoc_named _
  · decide +kernel

end Store
end Verif
