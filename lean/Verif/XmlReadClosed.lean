import Verif.XmlRead
import Verif.ExceptLemmas
/-!
# Closed form of the XML reader

The reader's loops are split into parsing (which may fail, independently of the state) and building.
-/

namespace Verif
namespace Xml
open PyNum

/-! ## Iteration -/

theorem iterL_append (t : String) (l m : List Elem) : iterL t (l ++ m) = iterL t l ++ iterL t m := by
  induction l with
  | nil => simp [iterL]
  | cons a r ih => simp [iterL, ih]

theorem iterL_map {α : Type} (t : String) (f : α → Elem) (l : List α) : iterL t (l.map f) = l.flatMap (fun x => iter t (f x)) := by
  induction l with
  | nil => simp [iterL]
  | cons a r ih => simp [iterL, ih]

theorem iterL_eq (t : String) (l : List Elem) : iterL t l = l.flatMap (iter t) := by
  simpa using iterL_map t id l

/-! ## Parsing a cgInstance -/

/-- A parsed coverpoint. -/
structure PCp where
  name : String
  bins : List Item

/-- A parsed cross. -/
structure PCr where
  name : String
  exprs : List String
  bins : List Item

/-- A parsed cgInstance. -/
structure PInst where
  name : String
  cps : List PCp
  crs : List PCr

def parseCp (e : Elem) : Except Err PCp := do
  let bins ← (iter "coverpointBin" e).mapM readBin
  pure ⟨e.getD "name" "<unknown>", bins⟩

def parseCr (known : List String) (e : Elem) : Except Err PCr := do
  let cps ← resolve known e
  let bins ← (iter "crossBin" e).mapM readCrossBin
  pure ⟨e.getD "name" "<unknown>", cps, bins⟩

def parseInst (e : Elem) : Except Err PInst := do
  let cps ← (iter "coverpoint" e).mapM parseCp
  let crs ← (iter "cross" e).mapM (parseCr (cps.map (·.name)))
  pure ⟨e.getD "name" "<unknown>", cps, crs⟩

/-! ## Building -/

def stepCp (st : IState) (p : PCp) : IState :=
  { st with
    slots := st.slots ++ (match Dict.get? st.cpM p.name with
      | none => [Slot.cp p.name]
      | some _ => [])
    cpM := Dict.set st.cpM p.name (p.bins.foldl addBin ((Dict.get? st.cpM p.name).getD []))
    kids := st.kids ++ [mkCoverpoint p.name SrcInfo.none 1 p.bins]
    known := p.name :: st.known }

def stepCr (st : IState) (p : PCr) : IState :=
  { st with
    slots := st.slots ++ (match Dict.get? st.crM p.name with
      | none => [Slot.cross p.name p.exprs]
      | some _ => [])
    crM := Dict.set st.crM p.name (p.bins.foldl addCrossBin ((Dict.get? st.crM p.name).getD []))
    kids := st.kids ++ [mkCross p.name SrcInfo.none 1 p.exprs p.bins] }

/-- State after the coverpoints and crosses of one cgInstance. -/
def buildInst (st : GState) (p : PInst) : IState :=
  p.crs.foldl stepCr (p.cps.foldl stepCp { slots := [], cpM := st.cpM, crM := st.crM, kids := [], known := [] })

def stepInst (st : GState) (p : PInst) : GState :=
  { slots := st.slots ++ Slot.inst (mkCoverInst p.name SrcInfo.none 1 (buildInst st p).kids) :: (buildInst st p).slots
    cpM := (buildInst st p).cpM
    crM := (buildInst st p).crM }

theorem readCp_ok (st : IState) (e : Elem) (st' : IState) :
    readCp st e = .ok st' ↔ ∃ p, parseCp e = .ok p ∧ st' = stepCp st p := by
  unfold readCp parseCp
  simp only [Ex.bind_ok, Ex.pure_ok]
  constructor
  · rintro ⟨bins, hb, rfl⟩
    refine ⟨_, ⟨bins, hb, rfl⟩, ?_⟩
    unfold stepCp
    cases h : Dict.get? st.cpM (e.getD "name" "<unknown>") <;> simp
  · rintro ⟨p, ⟨bins, hb, rfl⟩, rfl⟩
    refine ⟨bins, hb, ?_⟩
    unfold stepCp
    cases h : Dict.get? st.cpM (e.getD "name" "<unknown>") <;> simp

theorem resolve_mono {K K' : List String} (h : ∀ n ∈ K, n ∈ K') {e : Elem} {l : List String} (hr : resolve K e = .ok l) :
    resolve K' e = .ok l := by
  unfold resolve at *
  apply Ex.forall_mapM
  refine (Ex.mapM_forall hr).imp ?_
  intro x y hxy
  simp only [Ex.bind_ok] at hxy ⊢
  obtain ⟨n, hn, hxy⟩ := hxy
  refine ⟨n, hn, ?_⟩
  split at hxy
  · rename_i hk; rw [if_pos (h n hk)]; exact hxy
  · cases hxy

theorem resolve_congr {K K' : List String} (h : ∀ n, n ∈ K ↔ n ∈ K') (e : Elem) : resolve K e = resolve K' e := by
  unfold resolve
  congr 1
  funext x
  congr 1
  funext n
  simp only [h n]

theorem readCr_ok (K : List String) (st : IState) (e : Elem) (st' : IState)
    (hinv : (∀ n, n ∈ st.known ↔ n ∈ K) ∧ ∀ n ∈ K, n ∈ Dict.keys st.cpM) :
    readCr st e = .ok st' ↔ ∃ p, parseCr K e = .ok p ∧ st' = stepCr st p := by
  unfold readCr parseCr
  simp only [Ex.bind_ok, Ex.pure_ok]
  rw [resolve_congr hinv.1]
  constructor
  · rintro ⟨on, hon, cps, hc, bins, hb, rfl⟩
    refine ⟨_, ⟨cps, hc, bins, hb, rfl⟩, ?_⟩
    unfold stepCr
    cases h : Dict.get? st.crM (e.getD "name" "<unknown>") with
    | none =>
      rw [h] at hon
      simp only [Ex.bind_ok, Ex.pure_ok] at hon
      obtain ⟨l, hl, rfl⟩ := hon
      rw [resolve_mono hinv.2 hc] at hl
      cases hl
      simp [h]
    | some d =>
      rw [h] at hon
      simp only [Ex.pure_ok] at hon
      subst hon
      simp [h]
  · rintro ⟨p, ⟨cps, hc, bins, hb, rfl⟩, rfl⟩
    unfold stepCr
    cases h : Dict.get? st.crM (e.getD "name" "<unknown>") with
    | none =>
      refine ⟨([], [Slot.cross (e.getD "name" "<unknown>") cps]), ?_, cps, hc, bins, hb, ?_⟩
      · simp only [Ex.bind_ok, Ex.pure_ok]
        exact ⟨cps, resolve_mono hinv.2 hc, rfl⟩
      · simp [h]
    | some d =>
      refine ⟨(d, []), ?_, cps, hc, bins, hb, ?_⟩
      · rfl
      · simp [h]

theorem foldl_stepCp_known (l : List PCp) (st : IState) :
    (∀ n, n ∈ (l.foldl stepCp st).known ↔ n ∈ st.known ∨ n ∈ l.map (·.name)) ∧
    (∀ n, n ∈ Dict.keys (l.foldl stepCp st).cpM ↔ n ∈ Dict.keys st.cpM ∨ n ∈ l.map (·.name)) := by
  induction l generalizing st with
  | nil => simp
  | cons a t ih =>
    simp only [List.foldl_cons]
    constructor
    · intro n
      rw [(ih _).1]
      simp only [stepCp, List.mem_cons, List.map_cons]
      tauto
    · intro n
      rw [(ih _).2]
      simp only [stepCp, List.mem_cons, List.map_cons]
      rw [Dict.keys_set]
      split
      · rename_i h
        constructor
        · rintro (h1 | h1)
          · exact .inl h1
          · exact .inr (.inr h1)
        · rintro (h1 | h1 | h1)
          · exact .inl h1
          · exact .inl (h1 ▸ h)
          · exact .inr h1
      · rw [List.mem_append, List.mem_singleton]
        tauto

theorem stepCr_inv (K : List String) (st : IState) (p : PCr)
    (hinv : (∀ n, n ∈ st.known ↔ n ∈ K) ∧ ∀ n ∈ K, n ∈ Dict.keys st.cpM) :
    (∀ n, n ∈ (stepCr st p).known ↔ n ∈ K) ∧ ∀ n ∈ K, n ∈ Dict.keys (stepCr st p).cpM := hinv

theorem readCgInst_ok (st : GState) (e : Elem) (st' : GState) :
    readCgInst st e = .ok st' ↔ ∃ p, parseInst e = .ok p ∧ st' = stepInst st p := by
  unfold readCgInst parseInst
  simp only [Ex.bind_ok, Ex.pure_ok]
  have hcp := fun s s' => Ex.foldlM_iff (f := readCp) (P := parseCp) (g := stepCp) (fun _ => True)
    (fun s x s' _ => readCp_ok s x s') (fun _ _ _ => trivial) (l := iter "coverpoint" e) (s := s) trivial s'
  have hcr := fun (cps : List PCp) s' => Ex.foldlM_iff (f := readCr) (P := parseCr (cps.map (·.name))) (g := stepCr)
    (fun s => (∀ n, n ∈ s.known ↔ n ∈ cps.map (·.name)) ∧ ∀ n ∈ cps.map (·.name), n ∈ Dict.keys s.cpM)
    (fun s x s' h => readCr_ok _ s x s' h) (fun s y h => stepCr_inv _ s y h) (l := iter "cross" e)
    (s := cps.foldl stepCp { slots := [], cpM := st.cpM, crM := st.crM, kids := [], known := [] })
    (by
      have := foldl_stepCp_known cps { slots := [], cpM := st.cpM, crM := st.crM, kids := [], known := [] }
      refine ⟨fun n => by rw [this.1 n]; simp, fun n hn => (this.2 n).2 (.inr hn)⟩) s'
  constructor
  · rintro ⟨s1, h1, s2, h2, rfl⟩
    obtain ⟨cps, hcps, rfl⟩ := (hcp _ _).1 h1
    obtain ⟨crs, hcrs, rfl⟩ := (hcr cps _).1 h2
    exact ⟨_, ⟨cps, hcps, crs, hcrs, rfl⟩, rfl⟩
  · rintro ⟨p, ⟨cps, hcps, crs, hcrs, rfl⟩, rfl⟩
    exact ⟨_, (hcp _ _).2 ⟨cps, hcps, rfl⟩, _, (hcr cps _).2 ⟨crs, hcrs, rfl⟩, rfl⟩

/-- The covergroup built from parsed cgInstances. -/
def buildGroup (name : String) (ps : List PInst) : Scope :=
  let st := ps.foldl stepInst { slots := [], cpM := [], crM := [] }
  mkCovergroup name SrcInfo.none 1 (st.slots.map (Slot.scope st.cpM st.crM))

theorem readCovergroup_ok (name : String) (l : List Elem) (g : Scope) :
    readCovergroup name l = .ok g ↔ ∃ ps, l.mapM parseInst = .ok ps ∧ g = buildGroup name ps := by
  unfold readCovergroup
  simp only [Ex.bind_ok, Ex.pure_ok]
  have h := fun s s' => Ex.foldlM_iff (f := readCgInst) (P := parseInst) (g := stepInst) (fun _ => True)
    (fun s x s' _ => readCgInst_ok s x s') (fun _ _ _ => trivial) (l := l) (s := s) trivial s'
  constructor
  · rintro ⟨st, hst, rfl⟩
    obtain ⟨ps, hps, rfl⟩ := (h _ _).1 hst
    exact ⟨ps, hps, rfl⟩
  · rintro ⟨ps, hps, rfl⟩
    exact ⟨_, (h _ _).2 ⟨ps, hps, rfl⟩, rfl⟩

/-! ## Closed form of the built covergroup -/

/-- Scope of a parsed cgInstance. -/
def PInst.scope (p : PInst) : Scope :=
  mkCoverInst p.name SrcInfo.none 1
    (p.cps.map (fun c => mkCoverpoint c.name SrcInfo.none 1 c.bins)
      ++ p.crs.map (fun c => mkCross c.name SrcInfo.none 1 c.exprs c.bins))

def cpAgg (o : Option (Dict (Nat × Int))) (p : PCp) : Dict (Nat × Int) := p.bins.foldl addBin (o.getD [])
def crAgg (o : Option (Dict Int)) (p : PCr) : Dict Int := p.bins.foldl addCrossBin (o.getD [])
def exprAgg (o : Option (List String)) (p : PCr) : List String := o.getD p.exprs

def Slot.inst? : Slot → Option Scope
  | .inst s => some s
  | _ => none
def Slot.cp? : Slot → Option String
  | .cp n => some n
  | _ => none
def Slot.cross? : Slot → Option (String × List String)
  | .cross n l => some (n, l)
  | _ => none

theorem foldl_stepCp_closed (l : List PCp) (st : IState) :
    (l.foldl stepCp st).cpM = Dict.aggregate (·.name) cpAgg st.cpM l ∧
    (l.foldl stepCp st).crM = st.crM ∧
    (l.foldl stepCp st).kids = st.kids ++ l.map (fun c => mkCoverpoint c.name SrcInfo.none 1 c.bins) ∧
    (l.foldl stepCp st).slots.filterMap Slot.inst? = st.slots.filterMap Slot.inst? ∧
    (l.foldl stepCp st).slots.filterMap Slot.cross? = st.slots.filterMap Slot.cross? ∧
    ∀ K, Dict.keys st.cpM = K ++ st.slots.filterMap Slot.cp? →
      Dict.keys (l.foldl stepCp st).cpM = K ++ (l.foldl stepCp st).slots.filterMap Slot.cp? := by
  induction l generalizing st with
  | nil => simp [Dict.aggregate]
  | cons a t ih =>
    obtain ⟨i1, i2, i3, i4, i5, i6⟩ := ih (stepCp st a)
    simp only [List.foldl_cons]
    refine ⟨i1, i2, ?_, ?_, ?_, ?_⟩
    · rw [i3]; simp [stepCp]
    · rw [i4]; simp only [stepCp, List.filterMap_append]; split <;> simp [Slot.inst?]
    · rw [i5]; simp only [stepCp, List.filterMap_append]; split <;> simp [Slot.cross?]
    · intro K hK
      apply i6
      simp only [stepCp, List.filterMap_append]
      rw [Dict.keys_set]
      cases h : Dict.get? st.cpM a.name with
      | none =>
        rw [if_neg (Dict.get?_eq_none.1 h), hK]
        simp [Slot.cp?]
      | some d =>
        have : a.name ∈ Dict.keys st.cpM := by
          by_contra hc
          rw [Dict.get?_eq_none.2 hc] at h; cases h
        rw [if_pos this, hK]; simp

theorem set_get {α : Type} {d : Dict α} {k : String} {v : α} (h : Dict.get? d k = some v) : Dict.set d k v = d := by
  induction d with
  | nil => cases h
  | cons e t ih =>
    obtain ⟨k', v'⟩ := e
    unfold Dict.get? at h
    unfold Dict.set
    split
    · rename_i hk
      rw [if_pos hk] at h
      cases h; rw [hk]
    · rename_i hk
      rw [if_neg hk] at h
      rw [ih h]

theorem set_new {α : Type} {d : Dict α} {k : String} {v : α} (h : Dict.get? d k = none) : Dict.set d k v = d ++ [(k, v)] := by
  induction d with
  | nil => rfl
  | cons e t ih =>
    obtain ⟨k', v'⟩ := e
    unfold Dict.get? at h
    unfold Dict.set
    split
    · rename_i hk; rw [if_pos hk] at h; cases h
    · rename_i hk
      rw [if_neg hk] at h
      rw [ih h]; rfl

theorem foldl_stepCr_closed (l : List PCr) (st : IState) :
    (l.foldl stepCr st).crM = Dict.aggregate (·.name) crAgg st.crM l ∧
    (l.foldl stepCr st).cpM = st.cpM ∧
    (l.foldl stepCr st).kids = st.kids ++ l.map (fun c => mkCross c.name SrcInfo.none 1 c.exprs c.bins) ∧
    (l.foldl stepCr st).slots.filterMap Slot.inst? = st.slots.filterMap Slot.inst? ∧
    (l.foldl stepCr st).slots.filterMap Slot.cp? = st.slots.filterMap Slot.cp? ∧
    ∀ K : Dict (List String), Dict.keys st.crM = Dict.keys (K ++ st.slots.filterMap Slot.cross?) →
      K ++ (l.foldl stepCr st).slots.filterMap Slot.cross?
        = Dict.aggregate (·.name) exprAgg (K ++ st.slots.filterMap Slot.cross?) l ∧
      Dict.keys (l.foldl stepCr st).crM = Dict.keys (K ++ (l.foldl stepCr st).slots.filterMap Slot.cross?) := by
  induction l generalizing st with
  | nil => simp [Dict.aggregate]
  | cons a t ih =>
    obtain ⟨i1, i2, i3, i4, i5, i6⟩ := ih (stepCr st a)
    simp only [List.foldl_cons]
    refine ⟨i1, i2, ?_, ?_, ?_, ?_⟩
    · rw [i3]; simp [stepCr]
    · rw [i4]; simp only [stepCr, List.filterMap_append]; split <;> simp [Slot.inst?]
    · rw [i5]; simp only [stepCr, List.filterMap_append]; split <;> simp [Slot.cp?]
    · intro K hK
      have hstep : K ++ (stepCr st a).slots.filterMap Slot.cross?
          = Dict.set (K ++ st.slots.filterMap Slot.cross?) a.name (exprAgg (Dict.get? (K ++ st.slots.filterMap Slot.cross?) a.name) a) := by
        simp only [stepCr, List.filterMap_append]
        cases h : Dict.get? st.crM a.name with
        | none =>
          have hn : Dict.get? (K ++ st.slots.filterMap Slot.cross?) a.name = none := by
            apply Dict.get?_eq_none.2
            rw [← hK]; exact Dict.get?_eq_none.1 h
          rw [set_new hn, hn]
          simp [Slot.cross?, exprAgg]
        | some d =>
          have hm : a.name ∈ Dict.keys st.crM := by
            by_contra hc
            rw [Dict.get?_eq_none.2 hc] at h; cases h
          rw [hK] at hm
          cases hg : Dict.get? (K ++ st.slots.filterMap Slot.cross?) a.name with
          | none => exact absurd hm (Dict.get?_eq_none.1 hg)
          | some v =>
            simp only [exprAgg, Option.getD_some]
            rw [set_get hg]; simp
      have hkeys : Dict.keys (stepCr st a).crM = Dict.keys (K ++ (stepCr st a).slots.filterMap Slot.cross?) := by
        rw [hstep, Dict.keys_set, ← hK]
        simp only [stepCr]
        rw [Dict.keys_set]
      obtain ⟨j1, j2⟩ := i6 K hkeys
      refine ⟨?_, j2⟩
      rw [j1, hstep]
      rfl

theorem aggregate_append {α β : Type} (key : β → String) (step : Option α → β → α) (d : Dict α) (xs ys : List β) :
    Dict.aggregate key step d (xs ++ ys) = Dict.aggregate key step (Dict.aggregate key step d xs) ys := by
  simp [Dict.aggregate, List.foldl_append]

theorem aggregate_nil {α β : Type} (key : β → String) (step : Option α → β → α) (d : Dict α) :
    Dict.aggregate key step d [] = d := rfl

theorem foldl_stepInst_closed (ps : List PInst) :
    let st := ps.foldl stepInst { slots := [], cpM := [], crM := [] }
    st.cpM = Dict.aggregate (·.name) cpAgg [] (ps.flatMap (·.cps)) ∧
    st.crM = Dict.aggregate (·.name) crAgg [] (ps.flatMap (·.crs)) ∧
    st.slots.filterMap Slot.inst? = ps.map PInst.scope ∧
    st.slots.filterMap Slot.cp? = Dict.keys st.cpM ∧
    st.slots.filterMap Slot.cross? = Dict.aggregate (·.name) exprAgg [] (ps.flatMap (·.crs)) ∧
    Dict.keys st.crM = Dict.keys (st.slots.filterMap Slot.cross?) := by
  induction ps using List.reverseRecOn with
  | nil => simp [Dict.aggregate]
  | append_singleton t p ih =>
    simp only [List.foldl_append, List.foldl_cons, List.foldl_nil] at ih ⊢
    generalize t.foldl stepInst { slots := [], cpM := [], crM := [] } = st at ih
    obtain ⟨h1, h2, h3, h4, h5, h6⟩ := ih
    obtain ⟨a1, a2, a3, a4, a5, a6⟩ := foldl_stepCp_closed p.cps { slots := [], cpM := st.cpM, crM := st.crM, kids := [], known := [] }
    generalize hs : p.cps.foldl stepCp { slots := [], cpM := st.cpM, crM := st.crM, kids := [], known := [] } = s1 at a1 a2 a3 a4 a5 a6
    obtain ⟨b1, b2, b3, b4, b5, b6⟩ := foldl_stepCr_closed p.crs s1
    have hb : buildInst st p = p.crs.foldl stepCr s1 := by unfold buildInst; rw [hs]
    unfold stepInst
    rw [hb]
    generalize p.crs.foldl stepCr s1 = s2 at b1 b2 b3 b4 b5 b6
    have e1 : s2.cpM = Dict.aggregate (·.name) cpAgg [] ((t ++ [p]).flatMap (·.cps)) := by
      rw [b2, a1, h1, List.flatMap_append, List.flatMap_singleton, aggregate_append]
    have e2 : s2.crM = Dict.aggregate (·.name) crAgg [] ((t ++ [p]).flatMap (·.crs)) := by
      rw [b1, a2, h2, List.flatMap_append, List.flatMap_singleton, aggregate_append]
    have hk : Dict.keys s1.crM = Dict.keys (st.slots.filterMap Slot.cross? ++ s1.slots.filterMap Slot.cross?) := by
      rw [a2, a5]; simpa using h6
    obtain ⟨b7, b8⟩ := b6 (st.slots.filterMap Slot.cross?) hk
    refine ⟨e1, e2, ?_, ?_, ?_, ?_⟩
    · rw [List.filterMap_append, List.filterMap_cons_some (by rfl : Slot.inst? (Slot.inst _) = some _), h3, b4, a4, b3, a3]
      simp [PInst.scope]
    · rw [List.filterMap_append, List.filterMap_cons_none (by rfl : Slot.cp? (Slot.inst _) = none), h4, b5, b2]
      have := a6 (Dict.keys st.cpM) (by simp)
      exact this.symm
    · rw [List.filterMap_append, List.filterMap_cons_none (by rfl : Slot.cross? (Slot.inst _) = none), b7, a5, h5]
      rw [List.flatMap_append, List.flatMap_singleton, aggregate_append]
      simp
    · rw [List.filterMap_append, List.filterMap_cons_none (by rfl : Slot.cross? (Slot.inst _) = none), b8]

/-! ### Children of the built covergroup by type -/

theorem filter_slots_cp (cpM : Dict (Dict (Nat × Int))) (crM : Dict (Dict Int)) (l : List Slot)
    (h : ∀ s, Slot.inst s ∈ l → s.stype = ST.COVERINSTANCE) :
    (l.map (Slot.scope cpM crM)).filter (fun c => maskHit c.stype ST.COVERPOINT) = (l.filterMap Slot.cp?).map (typeCp cpM) := by
  induction l with
  | nil => rfl
  | cons a t ih =>
    have ih := ih (fun s hs => h s (by simp [hs]))
    cases a with
    | inst s =>
      have := h s (by simp)
      simp only [List.map_cons, Slot.scope, List.filter_cons, this]
      rw [if_neg (by decide), ih]; rfl
    | cp n =>
      simp only [List.map_cons, Slot.scope, List.filter_cons, typeCp, mkCoverpoint]
      rw [if_pos (by decide), ih]; rfl
    | cross n l =>
      simp only [List.map_cons, Slot.scope, List.filter_cons, typeCr, mkCross]
      rw [if_neg (by decide), ih]; rfl

theorem filter_slots_cross (cpM : Dict (Dict (Nat × Int))) (crM : Dict (Dict Int)) (l : List Slot)
    (h : ∀ s, Slot.inst s ∈ l → s.stype = ST.COVERINSTANCE) :
    (l.map (Slot.scope cpM crM)).filter (fun c => maskHit c.stype ST.CROSS)
      = (l.filterMap Slot.cross?).map (fun p => typeCr crM p.1 p.2) := by
  induction l with
  | nil => rfl
  | cons a t ih =>
    have ih := ih (fun s hs => h s (by simp [hs]))
    cases a with
    | inst s =>
      have := h s (by simp)
      simp only [List.map_cons, Slot.scope, List.filter_cons, this]
      rw [if_neg (by decide), ih]; rfl
    | cp n =>
      simp only [List.map_cons, Slot.scope, List.filter_cons, typeCp, mkCoverpoint]
      rw [if_neg (by decide), ih]; rfl
    | cross n l =>
      simp only [List.map_cons, Slot.scope, List.filter_cons, typeCr, mkCross]
      rw [if_pos (by decide), ih]; rfl

theorem filter_slots_inst (cpM : Dict (Dict (Nat × Int))) (crM : Dict (Dict Int)) (l : List Slot)
    (h : ∀ s, Slot.inst s ∈ l → s.stype = ST.COVERINSTANCE) :
    (l.map (Slot.scope cpM crM)).filter (fun c => maskHit c.stype ST.COVERINSTANCE) = l.filterMap Slot.inst? := by
  induction l with
  | nil => rfl
  | cons a t ih =>
    have ih := ih (fun s hs => h s (by simp [hs]))
    cases a with
    | inst s =>
      have := h s (by simp)
      simp only [List.map_cons, Slot.scope, List.filter_cons, this]
      rw [if_pos (by decide), ih]; rfl
    | cp n =>
      simp only [List.map_cons, Slot.scope, List.filter_cons, typeCp, mkCoverpoint]
      rw [if_neg (by decide), ih]; rfl
    | cross n l =>
      simp only [List.map_cons, Slot.scope, List.filter_cons, typeCr, mkCross]
      rw [if_neg (by decide), ih]; rfl

/-- Value of the type table of one coverpoint: the bins met under that name, in order. -/
def cpBins (ps : List PInst) (n : String) : List Item :=
  ((ps.flatMap (·.cps)).filter (fun c => c.name = n)).flatMap (·.bins)

def crBins (ps : List PInst) (n : String) : List Item :=
  ((ps.flatMap (·.crs)).filter (fun c => c.name = n)).flatMap (·.bins)

def crExprs (ps : List PInst) (n : String) : List String :=
  (((ps.flatMap (·.crs)).find? (fun c => c.name = n)).map (·.exprs)).getD []

theorem aggVal_cpAgg (l : List PCp) (d : Dict (Nat × Int)) :
    Dict.aggVal cpAgg (some d) l = some ((l.flatMap (·.bins)).foldl addBin d) := by
  induction l generalizing d with
  | nil => rfl
  | cons a t ih =>
    show Dict.aggVal cpAgg (some (a.bins.foldl addBin d)) t = _
    rw [ih, List.flatMap_cons, List.foldl_append]

theorem aggVal_crAgg (l : List PCr) (d : Dict Int) :
    Dict.aggVal crAgg (some d) l = some ((l.flatMap (·.bins)).foldl addCrossBin d) := by
  induction l generalizing d with
  | nil => rfl
  | cons a t ih =>
    show Dict.aggVal crAgg (some (a.bins.foldl addCrossBin d)) t = _
    rw [ih, List.flatMap_cons, List.foldl_append]

theorem aggVal_exprAgg (l : List PCr) (d : List String) : Dict.aggVal exprAgg (some d) l = some d := by
  induction l with
  | nil => rfl
  | cons a t ih => exact ih

theorem cpM_closed (ps : List PInst) :
    Dict.aggregate (·.name) cpAgg [] (ps.flatMap (·.cps))
      = (firstSeen ((ps.flatMap (·.cps)).map (·.name))).map (fun n => (n, (cpBins ps n).foldl addBin [])) := by
  apply Dict.aggregate_closed
  intro k hk
  unfold cpBins
  cases h : (ps.flatMap (·.cps)).filter (fun c => c.name = k) with
  | nil =>
    obtain ⟨c, hc, rfl⟩ := List.mem_map.1 hk
    rw [List.filter_eq_nil_iff] at h
    exact absurd (decide_eq_true rfl) (h c hc)
  | cons a t =>
    show Dict.aggVal cpAgg (some (a.bins.foldl addBin [])) t = _
    rw [aggVal_cpAgg, List.flatMap_cons, List.foldl_append]

theorem crM_closed (ps : List PInst) :
    Dict.aggregate (·.name) crAgg [] (ps.flatMap (·.crs))
      = (firstSeen ((ps.flatMap (·.crs)).map (·.name))).map (fun n => (n, (crBins ps n).foldl addCrossBin [])) := by
  apply Dict.aggregate_closed
  intro k hk
  unfold crBins
  cases h : (ps.flatMap (·.crs)).filter (fun c => c.name = k) with
  | nil =>
    obtain ⟨c, hc, rfl⟩ := List.mem_map.1 hk
    rw [List.filter_eq_nil_iff] at h
    exact absurd (decide_eq_true rfl) (h c hc)
  | cons a t =>
    show Dict.aggVal crAgg (some (a.bins.foldl addCrossBin [])) t = _
    rw [aggVal_crAgg, List.flatMap_cons, List.foldl_append]

theorem exprs_closed (ps : List PInst) :
    Dict.aggregate (·.name) exprAgg [] (ps.flatMap (·.crs))
      = (firstSeen ((ps.flatMap (·.crs)).map (·.name))).map (fun n => (n, crExprs ps n)) := by
  apply Dict.aggregate_closed
  intro k hk
  unfold crExprs
  rw [← List.head?_filter]
  cases h : (ps.flatMap (·.crs)).filter (fun c => c.name = k) with
  | nil =>
    obtain ⟨c, hc, rfl⟩ := List.mem_map.1 hk
    rw [List.filter_eq_nil_iff] at h
    exact absurd (decide_eq_true rfl) (h c hc)
  | cons a t =>
    show Dict.aggVal exprAgg (some a.exprs) t = _
    rw [aggVal_exprAgg]; rfl

/-- Bins of a type coverpoint in closed form. -/
def typeBins (l : List Item) : List Item :=
  (firstSeen (l.map (·.name))).map (fun b =>
    mkBin b (((l.filter (fun i => i.name = b)).head?.map (·.kind)).getD 0) 1 (((l.filter (fun i => i.name = b)).map (·.count)).sum))

def typeCrossBins (l : List Item) : List Item :=
  (firstSeen (l.map (·.name))).map (fun b => mkBin b CT.CVGBIN 1 (((l.filter (fun i => i.name = b)).map (·.count)).sum))

theorem addBin_fold (l : List Item) :
    l.foldl addBin [] = (firstSeen (l.map (·.name))).map (fun b =>
      (b, ((l.filter (fun i => i.name = b)).head?.map (·.kind)).getD 0, ((l.filter (fun i => i.name = b)).map (·.count)).sum)) := by
  have h : l.foldl addBin [] = Dict.aggregate (·.name)
      (fun (o : Option (Nat × Int)) (b : Item) => match o with | none => (b.kind, b.count) | some e => (e.1, e.2 + b.count)) [] l := by
    unfold Dict.aggregate
    congr 1
    funext m b
    unfold addBin
    cases Dict.get? m b.name <;> rfl
  rw [h]
  apply Dict.aggregate_closed
  intro k hk
  cases hf : l.filter (fun i => i.name = k) with
  | nil =>
    obtain ⟨c, hc, rfl⟩ := List.mem_map.1 hk
    rw [List.filter_eq_nil_iff] at hf
    exact absurd (decide_eq_true rfl) (hf c hc)
  | cons a t =>
    have : ∀ (t : List Item) (k : Nat) (c : Int), Dict.aggVal (fun (o : Option (Nat × Int)) (b : Item) =>
        match o with | none => (b.kind, b.count) | some e => (e.1, e.2 + b.count)) (some (k, c)) t
        = some (k, c + (t.map (·.count)).sum) := by
      intro t
      induction t with
      | nil => intro k c; simp [Dict.aggVal]
      | cons b s ih =>
        intro k c
        refine (ih k (c + b.count)).trans ?_
        simp; omega
    refine (this t a.kind a.count).trans ?_
    simp

theorem addCrossBin_fold (l : List Item) :
    l.foldl addCrossBin [] = (firstSeen (l.map (·.name))).map (fun b => (b, ((l.filter (fun i => i.name = b)).map (·.count)).sum)) := by
  have h : l.foldl addCrossBin [] = Dict.aggregate (·.name)
      (fun (o : Option Int) (b : Item) => match o with | none => b.count | some e => e + b.count) [] l := by
    unfold Dict.aggregate
    congr 1
    funext m b
    unfold addCrossBin
    cases Dict.get? m b.name <;> rfl
  rw [h]
  apply Dict.aggregate_closed
  intro k hk
  cases hf : l.filter (fun i => i.name = k) with
  | nil =>
    obtain ⟨c, hc, rfl⟩ := List.mem_map.1 hk
    rw [List.filter_eq_nil_iff] at hf
    exact absurd (decide_eq_true rfl) (hf c hc)
  | cons a t =>
    have : ∀ (t : List Item) (c : Int), Dict.aggVal (fun (o : Option Int) (b : Item) =>
        match o with | none => b.count | some e => e + b.count) (some c) t = some (c + (t.map (·.count)).sum) := by
      intro t
      induction t with
      | nil => intro c; simp [Dict.aggVal]
      | cons b s ih =>
        intro c
        refine (ih (c + b.count)).trans ?_
        simp; omega
    refine (this t a.count).trans ?_
    simp

theorem buildGroup_insts (name : String) (ps : List PInst) :
    (buildGroup name ps).children.filter (fun c => maskHit c.stype ST.COVERINSTANCE) = ps.map PInst.scope := by
  obtain ⟨h1, h2, h3, h4, h5, h6⟩ := foldl_stepInst_closed ps
  unfold buildGroup mkCovergroup
  simp only
  rw [filter_slots_inst, h3]
  intro s hs
  have : s ∈ (ps.foldl stepInst { slots := [], cpM := [], crM := [] }).slots.filterMap Slot.inst? :=
    List.mem_filterMap.2 ⟨_, hs, rfl⟩
  rw [h3] at this
  obtain ⟨p, _, rfl⟩ := List.mem_map.1 this
  rfl

theorem slots_inst_type (ps : List PInst) (s : Scope)
    (hs : Slot.inst s ∈ (ps.foldl stepInst { slots := [], cpM := [], crM := [] }).slots) : s.stype = ST.COVERINSTANCE := by
  obtain ⟨h1, h2, h3, h4, h5, h6⟩ := foldl_stepInst_closed ps
  have : s ∈ (ps.foldl stepInst { slots := [], cpM := [], crM := [] }).slots.filterMap Slot.inst? :=
    List.mem_filterMap.2 ⟨_, hs, rfl⟩
  rw [h3] at this
  obtain ⟨p, _, rfl⟩ := List.mem_map.1 this
  rfl

theorem buildGroup_cps (name : String) (ps : List PInst) :
    (buildGroup name ps).children.filter (fun c => maskHit c.stype ST.COVERPOINT)
      = (firstSeen ((ps.flatMap (·.cps)).map (·.name))).map (fun n => mkCoverpoint n SrcInfo.none 1 (typeBins (cpBins ps n))) := by
  obtain ⟨h1, h2, h3, h4, h5, h6⟩ := foldl_stepInst_closed ps
  unfold buildGroup mkCovergroup
  simp only
  rw [filter_slots_cp _ _ _ (slots_inst_type ps), h4, h1, cpM_closed, Dict.keys_map_pair]
  apply List.map_congr_left
  intro n hn
  unfold typeCp
  rw [Dict.get?_map_pair, if_pos hn, Option.getD_some, addBin_fold, List.map_map]
  rfl

theorem buildGroup_crosses (name : String) (ps : List PInst) :
    (buildGroup name ps).children.filter (fun c => maskHit c.stype ST.CROSS)
      = (firstSeen ((ps.flatMap (·.crs)).map (·.name))).map
          (fun n => mkCross n SrcInfo.none 1 (crExprs ps n) (typeCrossBins (crBins ps n))) := by
  obtain ⟨h1, h2, h3, h4, h5, h6⟩ := foldl_stepInst_closed ps
  unfold buildGroup mkCovergroup
  simp only
  rw [filter_slots_cross _ _ _ (slots_inst_type ps), h5, exprs_closed, List.map_map]
  apply List.map_congr_left
  intro n hn
  simp only [Function.comp]
  unfold typeCr
  rw [h2, crM_closed, Dict.get?_map_pair, if_pos hn, Option.getD_some, addCrossBin_fold, List.map_map]
  rfl

/-! ## Grouping by type name -/

theorem groupTypes_closed (l : List Elem) :
    groupTypes l = (firstSeen (l.map typeName)).map (fun n => (n, l.filter (fun e => typeName e = n))) := by
  unfold groupTypes
  apply Dict.aggregate_closed
  intro k hk
  cases hf : l.filter (fun e => typeName e = k) with
  | nil =>
    obtain ⟨c, hc, rfl⟩ := List.mem_map.1 hk
    rw [List.filter_eq_nil_iff] at hf
    exact absurd (decide_eq_true rfl) (hf c hc)
  | cons a t =>
    have : ∀ (t s : List Elem), Dict.aggVal (fun (o : Option (List Elem)) e => match o with
        | none => [e]
        | some l => l ++ [e]) (some s) t = some (s ++ t) := by
      intro t
      induction t with
      | nil => intro s; simp [Dict.aggVal]
      | cons b r ih =>
        intro s
        refine (ih (s ++ [b])).trans ?_
        simp
    exact this t [a]

end Xml
end Verif
