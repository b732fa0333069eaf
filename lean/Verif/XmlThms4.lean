import Verif.XmlDocSpec
import Verif.XmlThms3
/-!
# C33, C34, C37, C69: what is read from a document
-/

namespace Verif
namespace Xml
open PyNum Spec

mutual
theorem iter_within (t : String) : ∀ e : Elem, iter t e = within t e
  | ⟨tag, as, tx, ch⟩ => by
    rw [iter, within, preorder, iterL_within t ch]
    by_cases h : tag = t
    · rw [if_pos h, List.filter_cons_of_pos (by simpa using h)]
    · rw [if_neg h, List.filter_cons_of_neg (by simpa using h)]
termination_by structural e => e
theorem iterL_within (t : String) : ∀ l : List Elem, iterL t l = (preorderL l).filter (fun x => x.tag = t)
  | [] => by rw [iterL, preorderL]; rfl
  | e :: r => by
    rw [iterL, preorderL, List.filter_append, iter_within t e, iterL_within t r]
    rfl
termination_by structural l => l
end

theorem get_attr (e : Elem) (n : String) : e.get n = attr e n := by
  unfold Elem.get attr
  generalize e.attrs = l
  induction l with
  | nil => rfl
  | cons p t ih =>
    obtain ⟨k, v⟩ := p
    rw [Dict.get?]
    by_cases h : k = n
    · simp [h]
    · simp [h, ih]

theorem getD_attr (e : Elem) (n d : String) : e.getD n d = (attr e n).getD d := by
  unfold Elem.getD; rw [get_attr]

theorem getE_attr (e : Elem) (n v : String) : e.getE n = .ok v ↔ attr e n = some v := by
  rw [← get_attr]
  unfold Elem.getE Elem.get Dict.getE
  cases Dict.get? e.attrs n <;> simp

theorem distinct_eq (l : List String) : distinct l = firstSeen l := by
  induction l with
  | nil => rfl
  | cons a t ih => rw [distinct, firstSeen, ih]

theorem getInt_iff (e : Elem) (n : String) (z : Int) : e.getInt n = .ok z ↔ IntAttr e n ∧ z = intAttr e n := by
  unfold Elem.getInt IntAttr intAttr
  simp only [Ex.bind_ok, getE_attr]
  constructor
  · rintro ⟨v, h1, h2⟩
    refine ⟨⟨v, z, h1, h2⟩, ?_⟩
    rw [h1]; simp [h2]
  · rintro ⟨⟨v, y, h1, h2⟩, rfl⟩
    refine ⟨v, h1, ?_⟩
    rw [h1]; simp [h2]

theorem nextE_iff (e : Elem) (t : String) (c : Elem) : nextE e t = .ok c ↔ (within t e).head? = some c := by
  unfold nextE
  rw [iter_within]
  cases within t e <;> simp

/-- Item for a view triple. -/
def itemOf (v : String × Nat × Int) : Item := mkBin v.1 v.2.1 1 v.2.2

theorem readKind_iff (a : String) (k : Nat) :
    readKind a = .ok k ↔ a ∈ ["bins", "default", "ignore", "illegal"] ∧ k = ((kindOf.find? (fun p => p.1 = a)).map (·.2)).getD 0 := by
  unfold readKind
  by_cases h1 : a = "bins"
  · subst h1; simp [kindOf, eq_comm]
  by_cases h2 : a = "default"
  · subst h2; simp [kindOf, eq_comm]
  by_cases h3 : a = "ignore"
  · subst h3; simp [kindOf, eq_comm]
  by_cases h4 : a = "illegal"
  · subst h4; simp [kindOf, eq_comm]
  simp [h1, h2, h3, h4]

theorem readBin_iff (e : Elem) (i : Item) : readBin e = .ok i ↔ GoodBin e ∧ i = itemOf (binOf e) := by
  unfold readBin GoodBin
  simp only [Ex.bind_ok, Ex.pure_ok, readKind_iff, getInt_iff, getD_attr]
  have hc : ∀ c, contentsE e = .ok c ↔ binContents e = some c := by
    intro c
    unfold contentsE binContents next?
    rw [iter_within, iter_within]
    cases (within "sequence" e).head? with
    | some s => simp [nextE_iff]
    | none =>
      cases (within "range" e).head? with
      | some s => simp [nextE_iff]
      | none => simp
  simp only [hc]
  constructor
  · rintro ⟨c, h1, k, ⟨h2, rfl⟩, z, ⟨h3, rfl⟩, rfl⟩
    refine ⟨⟨h2, c, h1, h3⟩, ?_⟩
    simp [itemOf, binOf, h1]
  · rintro ⟨⟨h2, c, h1, h3⟩, rfl⟩
    refine ⟨c, h1, _, ⟨h2, rfl⟩, _, ⟨h3, rfl⟩, ?_⟩
    simp [itemOf, binOf, h1]

theorem readCrossBin_iff (e : Elem) (i : Item) : readCrossBin e = .ok i ↔ GoodCrossBin e ∧ i = itemOf (crossBinOf e) := by
  unfold readCrossBin GoodCrossBin
  simp only [Ex.bind_ok, Ex.pure_ok, getInt_iff, getD_attr, nextE_iff]
  constructor
  · rintro ⟨c, h1, z, ⟨h3, rfl⟩, rfl⟩
    refine ⟨⟨c, h1, h3⟩, ?_⟩
    simp [itemOf, crossBinOf, h1]
  · rintro ⟨⟨c, h1, h3⟩, rfl⟩
    refine ⟨c, h1, _, ⟨h3, rfl⟩, ?_⟩
    simp [itemOf, crossBinOf, h1]

theorem resolve_iff (K : List String) (e : Elem) (l : List String) :
    resolve K e = .ok l ↔ (∀ x ∈ within "crossExpr" e, x.text ≠ none ∧ crossed x ∈ K) ∧ l = (within "crossExpr" e).map crossed := by
  unfold resolve
  rw [iter_within]
  apply Ex.mapM_iff (p := fun x => x.text ≠ none ∧ crossed x ∈ K)
  intro x _ y
  simp only [Ex.bind_ok]
  unfold exprName crossed
  cases h : x.text with
  | none => simp
  | some t =>
    simp only [Except.ok.injEq, exists_eq_left', Option.getD_some, ne_eq, reduceCtorEq, not_false_eq_true, true_and]
    by_cases hk : String.ofList (stripL t.toList) ∈ K
    · rw [if_pos hk, Ex.pure_ok]; simp [hk, eq_comm]
    · rw [if_neg hk]; simp [hk]

def dCp (e : Elem) : PCp := ⟨cpName e, (within "coverpointBin" e).map (fun b => itemOf (binOf b))⟩
def dCr (e : Elem) : PCr :=
  ⟨cpName e, (within "crossExpr" e).map crossed, (within "crossBin" e).map (fun b => itemOf (crossBinOf b))⟩
def dInst (e : Elem) : PInst := ⟨cpName e, (within "coverpoint" e).map dCp, (within "cross" e).map dCr⟩

theorem parseInst_iff (e : Elem) (p : PInst) : parseInst e = .ok p ↔ GoodGroup e ∧ p = dInst e := by
  unfold parseInst
  have h1 : ∀ x y, parseCp x = .ok y ↔ (∀ b ∈ within "coverpointBin" x, GoodBin b) ∧ y = dCp x := by
    intro x y
    unfold parseCp
    simp only [Ex.bind_ok, Ex.pure_ok, iter_within, Ex.mapM_iff (fun b _ i => readBin_iff b i)]
    constructor
    · rintro ⟨bs, ⟨hb, rfl⟩, rfl⟩
      exact ⟨hb, by rw [dCp, getD_attr]; rfl⟩
    · rintro ⟨hb, rfl⟩
      exact ⟨_, ⟨hb, rfl⟩, by rw [dCp, getD_attr]; rfl⟩
  have h2 : ∀ K x y, parseCr K x = .ok y ↔ ((∀ e ∈ within "crossExpr" x, e.text ≠ none ∧ crossed e ∈ K) ∧
      ∀ b ∈ within "crossBin" x, GoodCrossBin b) ∧ y = dCr x := by
    intro K x y
    unfold parseCr
    simp only [Ex.bind_ok, Ex.pure_ok, resolve_iff, iter_within, Ex.mapM_iff (fun b _ i => readCrossBin_iff b i)]
    constructor
    · rintro ⟨l, ⟨hl, rfl⟩, bs, ⟨hb, rfl⟩, rfl⟩
      exact ⟨⟨hl, hb⟩, by rw [dCr, getD_attr]; rfl⟩
    · rintro ⟨⟨hl, hb⟩, rfl⟩
      exact ⟨_, ⟨hl, rfl⟩, _, ⟨hb, rfl⟩, by rw [dCr, getD_attr]; rfl⟩
  simp only [Ex.bind_ok, Ex.pure_ok, iter_within, Ex.mapM_iff (fun x _ y => h1 x y), Ex.mapM_iff (fun x _ y => h2 _ x y)]
  have hn : ((within "coverpoint" e).map dCp).map (·.name) = (within "coverpoint" e).map cpName := by
    rw [List.map_map]; rfl
  unfold GoodGroup
  constructor
  · rintro ⟨cps, ⟨ha, rfl⟩, crs, ⟨hb, rfl⟩, rfl⟩
    rw [hn] at hb
    exact ⟨⟨ha, hb⟩, by rw [dInst, getD_attr]; rfl⟩
  · rintro ⟨⟨ha, hb⟩, rfl⟩
    refine ⟨_, ⟨ha, rfl⟩, _, ⟨?_, rfl⟩, by rw [dInst, getD_attr]; rfl⟩
    rw [hn]; exact hb

theorem typeName_eq (e : Elem) : typeName e = typeOf e := by
  unfold typeName typeOf next?
  rw [iter_within]
  cases (within "cgId" e).head? with
  | none => rfl
  | some i => simp [getD_attr]

/-- Covergroups of a covergroupCoverage element. -/
def dCgs (c : Elem) : List Scope :=
  (distinct ((within "cgInstance" c).map typeOf)).map (fun t =>
    buildGroup t (((within "cgInstance" c).filter (fun g => typeOf g = t)).map dInst))

theorem readCovergroups_iff (c : Elem) (gs : List Scope) :
    readCovergroups c = .ok gs ↔ (∀ g ∈ within "cgInstance" c, GoodGroup g) ∧ gs = dCgs c := by
  unfold readCovergroups
  rw [iter_within, groupTypes_closed]
  have ht : typeName = typeOf := funext typeName_eq
  rw [ht, Ex.mapM_map', Ex.mapM_iff (p := fun t => ∀ g ∈ (within "cgInstance" c).filter (fun g => typeOf g = t), GoodGroup g)
    (g := fun t => buildGroup t (((within "cgInstance" c).filter (fun g => typeOf g = t)).map dInst))]
  · rw [dCgs, distinct_eq]
    constructor
    · rintro ⟨h, rfl⟩
      refine ⟨fun g hg => ?_, rfl⟩
      exact h (typeOf g) (mem_firstSeen.2 (List.mem_map_of_mem hg)) g (List.mem_filter.2 ⟨hg, by simp⟩)
    · rintro ⟨h, rfl⟩
      exact ⟨fun t _ g hg => h g (List.mem_filter.1 hg).1, rfl⟩
  · intro t _ g
    rw [readCovergroup_ok]
    simp only [Ex.mapM_iff (fun x _ y => parseInst_iff x y)]
    constructor
    · rintro ⟨ps, ⟨h, rfl⟩, rfl⟩
      exact ⟨h, rfl⟩
    · rintro ⟨h, rfl⟩
      exact ⟨_, ⟨h, rfl⟩, rfl⟩

/-- What the reader takes from an instance element. -/
structure DInst where
  name : String
  module : String
  cgs : List Scope

def dI (i : Elem) : DInst :=
  ⟨(attr i "name").getD "", (attr i "moduleName").getD "default", (within "covergroupCoverage" i).flatMap dCgs⟩

theorem readStatementId_iff (files : List Int) (e : Elem) (u : Unit) :
    readStatementId files e = .ok u ↔
      (IntAttr e "file" ∧ IntAttr e "line" ∧ IntAttr e "inlineCount" ∧ intAttr e "file" ∈ files) ∧ u = () := by
  unfold readStatementId
  simp only [Ex.bind_ok, getInt_iff]
  constructor
  · rintro ⟨f, ⟨h1, rfl⟩, _, ⟨h2, rfl⟩, _, ⟨h3, rfl⟩, h⟩
    split at h
    · rename_i hf; exact ⟨⟨h1, h2, h3, hf⟩, trivial⟩
    · cases h
  · rintro ⟨⟨h1, h2, h3, hf⟩, _⟩
    exact ⟨_, ⟨h1, rfl⟩, _, ⟨h2, rfl⟩, _, ⟨h3, rfl⟩, by rw [if_pos hf]; rfl⟩

def stepD (tops : List Scope) (d : DInst) : List Scope := addInst d.name d.module d.cgs (addModule d.module tops)

theorem readInstance_iff (files : List Int) (tops : List Scope) (e : Elem) (r : List Scope) :
    readInstance files tops e = .ok r ↔ GoodInst files e ∧ r = stepD tops (dI e) := by
  unfold readInstance GoodInst
  simp only [Ex.bind_ok, Ex.pure_ok, iter_within, getE_attr, Ex.mapM_iff (fun x _ y => readCovergroups_iff x y),
    Ex.mapM_iff (fun x _ y => readStatementId_iff files x y)]
  constructor
  · rintro ⟨n, hn, _, ⟨h1, rfl⟩, cgs, ⟨h2, rfl⟩, rfl⟩
    refine ⟨⟨by simp [hn], h1, h2⟩, ?_⟩
    simp [stepD, dI, hn, getD_attr, List.flatMap]
  · rintro ⟨⟨hn, h1, h2⟩, rfl⟩
    obtain ⟨n, hn⟩ := Option.ne_none_iff_exists'.1 hn
    refine ⟨n, hn, _, ⟨h1, rfl⟩, _, ⟨h2, rfl⟩, ?_⟩
    simp [stepD, dI, hn, getD_attr, List.flatMap]

theorem readInsts_iff (files : List Int) (l : List Elem) (r : List Scope) :
    l.foldlM (readInstance files) [] = .ok r ↔ (∀ i ∈ l, GoodInst files i) ∧ r = (l.map dI).foldl stepD [] := by
  have h : ∀ (l : List Elem) (s : List Scope), l.foldlM (readInstance files) s = .ok r ↔
      (∀ i ∈ l, GoodInst files i) ∧ r = (l.map dI).foldl stepD s := by
    intro l
    induction l with
    | nil =>
      intro s
      rw [List.foldlM_nil, Ex.pure_ok]
      simp [eq_comm]
    | cons a t ih =>
      intro s
      rw [List.foldlM_cons]
      simp only [Ex.bind_ok, readInstance_iff, ih, List.map_cons, List.foldl_cons, List.forall_mem_cons]
      constructor
      · rintro ⟨_, ⟨h1, rfl⟩, h2, rfl⟩
        exact ⟨⟨h1, h2⟩, rfl⟩
      · rintro ⟨⟨h1, h2⟩, rfl⟩
        exact ⟨_, ⟨h1, rfl⟩, h2, rfl⟩
  exact h l []

/-! ## History nodes and files -/

theorem readFile_iff (e : Elem) (p : Int × Option String) :
    readFile e = .ok p ↔ IntAttr e "id" ∧ p = (intAttr e "id", attr e "fileName") := by
  unfold readFile IntAttr intAttr
  rw [get_attr, get_attr]
  cases h : attr e "id" with
  | none => simp
  | some s =>
    simp only [Ex.bind_ok, Ex.pure_ok, Option.some.injEq, exists_and_left, exists_eq_left']
    constructor
    · rintro ⟨z, h1, rfl⟩
      exact ⟨⟨z, h1⟩, by rw [h1]⟩
    · rintro ⟨⟨z, h1⟩, rfl⟩
      exact ⟨z, h1, by rw [h1]⟩

theorem floatIf_iff (flt : FloatText) (e : Elem) (n : String) (d : Rat) :
    (∃ q, floatIf flt e n d = .ok q) ↔ FloatAttr flt e n := by
  unfold floatIf FloatAttr
  rw [get_attr]
  cases h : attr e n with
  | none => simp
  | some s => cases h2 : flt.read s <;> simp [h2]

theorem intIf_iff (e : Elem) (n : String) (d : Int) :
    (∃ q, intIf e n d = .ok q) ↔ ∀ v, attr e n = some v → IntAttr e n := by
  unfold intIf IntAttr
  rw [get_attr]
  cases h : attr e n with
  | none => simp
  | some s => simp

theorem dateOf_iff (e : Elem) (n : String) :
    (∃ q, dateOf e n = .ok q) ↔ ∃ s t, attr e n = some s ∧ DateTime.strptime DateTime.isoFmt s.toList = .ok t := by
  unfold dateOf DateTime.fromIso
  rw [get_attr]
  cases h : attr e n with
  | none => simp
  | some s =>
    cases h2 : DateTime.strptime DateTime.isoFmt s.toList with
    | error e => simp [h2, Functor.map, Except.map]
    | ok d => simp [h2, Functor.map, Except.map]

theorem readHist_iff (flt : FloatText) (e : Elem) : (∃ h, readHist flt e = .ok h) ↔ GoodHist flt e := by
  have hg : ∀ n, attr e n ≠ none ↔ ∃ v, e.getE n = .ok v := by
    intro n
    simp only [getE_attr]
    exact Option.ne_none_iff_exists'
  unfold GoodHist
  simp only [List.forall_mem_cons, List.not_mem_nil, false_implies, implies_true, and_true, ← floatIf_iff flt e _ (-1),
    ← intIf_iff e _ (-1), ← dateOf_iff, hg]
  unfold readHist
  simp only [Ex.bind_ok, Ex.pure_ok]
  constructor
  · rintro ⟨_, ts, h1, a, h2, b, h3, d, h4, c, h5, _, h6, _, h7, _, h8, _, h9, _, h10, _⟩
    exact ⟨⟨⟨_, h1⟩, ⟨_, h6⟩, ⟨_, h7⟩, ⟨_, h8⟩, ⟨_, h9⟩⟩, ⟨_, h4⟩, ⟨⟨_, h2⟩, ⟨_, h3⟩, ⟨_, h5⟩⟩, ⟨_, h10⟩⟩
  · rintro ⟨⟨⟨_, h1⟩, ⟨_, h6⟩, ⟨_, h7⟩, ⟨_, h8⟩, ⟨_, h9⟩⟩, ⟨_, h4⟩, ⟨⟨_, h2⟩, ⟨_, h3⟩, ⟨_, h5⟩⟩, ⟨_, h10⟩⟩
    exact ⟨_, _, h1, _, h2, _, h3, _, h4, _, h5, _, h6, _, h7, _, h8, _, h9, _, h10, rfl⟩

end Xml

open Xml Spec PyNum

/-- The reader's result in full. -/
theorem read_iff (flt : FloatText) (doc : Elem) :
    (∃ db, Xml.read flt doc = .ok db) ↔ Readable flt doc := by
  unfold Xml.read Readable
  simp only [Ex.bind_ok, Ex.pure_ok, iter_within, Ex.mapM_iff (fun x _ y => readFile_iff x y), readInsts_iff]
  constructor
  · rintro ⟨_, files, ⟨h1, rfl⟩, hs, h2, _, ⟨h3, rfl⟩, rfl⟩
    refine ⟨h1, ?_, ?_⟩
    · intro h hh
      obtain ⟨y, _, hy⟩ := Ex.mapM_mem h2 hh
      exact (readHist_iff flt h).1 ⟨y, hy⟩
    · rw [List.map_map] at h3
      exact h3
  · rintro ⟨h1, h2, h3⟩
    obtain ⟨hs, hhs⟩ := Ex.mapM_ok_iff.2 (fun x hx => (readHist_iff flt x).2 (h2 x hx))
    refine ⟨_, _, ⟨h1, rfl⟩, hs, hhs, _, ⟨?_, rfl⟩, rfl⟩
    rw [List.map_map]
    exact h3

/-- C37: reading succeeds exactly on the well-formed documents. -/
theorem C37_read_accepts (flt : FloatText) (doc : Elem) : (∃ db, Xml.read flt doc = .ok db) ↔ Readable flt doc := read_iff flt doc

theorem read_root {flt : FloatText} {doc : Elem} {db : Database} (h : Xml.read flt doc = .ok db) :
    db.root = { emptyDb with children := ((within "instanceCoverages" doc).map dI).foldl stepD [] } := by
  unfold Xml.read at h
  simp only [Ex.bind_ok, Ex.pure_ok, iter_within, Ex.mapM_iff (fun x _ y => readFile_iff x y), readInsts_iff] at h
  obtain ⟨files, ⟨h1, rfl⟩, hs, h2, _, ⟨h3, rfl⟩, rfl⟩ := h
  rfl

namespace Xml

def aggD (o : Option (List Scope)) (d : DInst) : List Scope := o.getD [] ++ d.cgs

theorem set_map {α : Type} {d : Dict α} (hn : (Dict.keys d).Nodup) {k : String} (hk : k ∈ Dict.keys d) (f : α → α) :
    ∃ v, Dict.get? d k = some v ∧ Dict.set d k (f v) = d.map (fun p => if p.1 = k then (p.1, f p.2) else p) := by
  induction d with
  | nil => cases hk
  | cons p t ih =>
    obtain ⟨k', v'⟩ := p
    have hn' : k' ∉ Dict.keys t ∧ (Dict.keys t).Nodup := by simpa [Dict.keys] using hn
    by_cases h : k' = k
    · subst h
      refine ⟨v', by simp [Dict.get?], ?_⟩
      have : t.map (fun p => if p.1 = k' then (p.1, f p.2) else p) = t := by
        conv_rhs => rw [← List.map_id t]
        apply List.map_congr_left
        intro p hp
        have : p.1 ≠ k' := by
          rintro rfl
          exact hn'.1 (List.mem_map_of_mem hp)
        simp [this]
      rw [List.map_cons, this]
      simp [Dict.set]
    · have hk' : k ∈ Dict.keys t := by
        have : k = k' ∨ k ∈ Dict.keys t := by simpa [Dict.keys] using hk
        exact this.resolve_left (fun e => h e.symm)
      obtain ⟨v, h1, h2⟩ := ih hn'.2 hk'
      refine ⟨v, by simp [Dict.get?, h, h1], ?_⟩
      rw [Dict.set, if_neg h, h2]
      simp [h]

/-- Instances of a list of top scopes. -/
def instsOf (tops : List Scope) : List Scope := tops.filter (fun s => maskHit s.stype ST.INSTANCE)

theorem foldl_stepD (l : List DInst) :
    (∀ s ∈ l.foldl stepD [], s.stype = ST.INSTANCE ∨ s.stype = ST.DU_MODULE) ∧
    (instsOf (l.foldl stepD [])).map (fun s => (s.name, s.children)) = Dict.aggregate (·.name) aggD [] l := by
  induction l using List.reverseRecOn with
  | nil => exact ⟨by simp, rfl⟩
  | append_singleton t a ih =>
    obtain ⟨i1, i2⟩ := ih
    rw [List.foldl_append, aggregate_append, ← i2]
    have hnd : (Dict.keys ((instsOf (t.foldl stepD [])).map (fun s => (s.name, s.children)))).Nodup := by
      rw [i2, Dict.keys_aggregate]; exact firstSeen_nodup _
    simp only [List.foldl_cons, List.foldl_nil, stepD]
    show _ ∧ _ = Dict.set _ _ _
    generalize t.foldl stepD [] = tops at i1 hnd
    have hm1 : ∀ s ∈ addModule a.module tops, s.stype = ST.INSTANCE ∨ s.stype = ST.DU_MODULE := by
      unfold addModule
      split
      · exact i1
      · intro s hs
        rcases List.mem_append.1 hs with hs | hs
        · exact i1 s hs
        · rw [List.mem_singleton.1 hs]; exact .inr rfl
    have hm2 : instsOf (addModule a.module tops) = instsOf tops := by
      unfold addModule instsOf
      split
      · rfl
      · rw [List.filter_append, List.filter_cons_of_neg (by show ¬ maskHit ST.DU_MODULE ST.INSTANCE = true; decide)]
        simp
    rw [← hm2] at hnd ⊢
    generalize addModule a.module tops = tops' at hm1 hnd
    have hkeys : Dict.keys ((instsOf tops').map (fun s => (s.name, s.children))) = (instsOf tops').map (·.name) := by
      simp [Dict.keys]
    have hin : ∀ s ∈ tops', (s.stype == ST.INSTANCE) = maskHit s.stype ST.INSTANCE := by
      intro s hs
      rcases hm1 s hs with h | h <;> rw [h] <;> decide
    have hany : tops'.any (fun s => s.stype == ST.INSTANCE && s.name == a.name) = true ↔
        a.name ∈ Dict.keys ((instsOf tops').map (fun s => (s.name, s.children))) := by
      rw [hkeys, List.any_eq_true]
      simp only [instsOf, List.mem_map, List.mem_filter, Bool.and_eq_true, beq_iff_eq]
      constructor
      · rintro ⟨s, hs, h1, h2⟩
        refine ⟨s, ⟨hs, ?_⟩, h2⟩
        rw [← hin s hs, h1]; simp
      · rintro ⟨s, ⟨hs, h1⟩, h2⟩
        refine ⟨s, hs, ?_, h2⟩
        rw [← hin s hs] at h1
        simpa using h1
    unfold addInst
    split
    · rename_i hex
      have hk := hany.1 hex
      constructor
      · intro s hs
        obtain ⟨x, hx, rfl⟩ := List.mem_map.1 hs
        split
        · exact hm1 x hx
        · exact hm1 x hx
      · obtain ⟨v, h1, h2⟩ := set_map hnd hk (fun v => v ++ a.cgs)
        rw [h1]
        show _ = Dict.set _ _ (v ++ a.cgs)
        rw [h2, List.map_map]
        unfold instsOf
        rw [List.filter_map]
        have hf : tops'.filter ((fun s => maskHit s.stype ST.INSTANCE) ∘ fun s =>
            if (s.stype == ST.INSTANCE && s.name == a.name) = true then { s with children := s.children ++ a.cgs } else s)
            = tops'.filter (fun s => maskHit s.stype ST.INSTANCE) := by
          apply List.filter_congr
          intro s _
          simp only [Function.comp]
          split <;> rfl
        rw [hf, List.map_map]
        apply List.map_congr_left
        intro s hs
        obtain ⟨hs1, hs2⟩ := List.mem_filter.1 hs
        rw [← hin s hs1] at hs2
        simp only [Function.comp, hs2, Bool.true_and, beq_iff_eq]
        split <;> rfl
    · rename_i hex
      have hk := fun h => hex (hany.2 h)
      constructor
      · intro s hs
        rcases List.mem_append.1 hs with hs | hs
        · exact hm1 s hs
        · rw [List.mem_singleton.1 hs]; exact .inl rfl
      · rw [Dict.get?_eq_none.2 hk, set_new (Dict.get?_eq_none.2 hk)]
        unfold instsOf
        rw [List.filter_append, List.filter_cons_of_pos (by show maskHit ST.INSTANCE ST.INSTANCE = true; decide)]
        simp [aggD, mkInstance]

theorem aggVal_aggD (l : List DInst) (d : List Scope) : Dict.aggVal aggD (some d) l = some (d ++ l.flatMap (·.cgs)) := by
  induction l generalizing d with
  | nil => simp [Dict.aggVal]
  | cons a t ih =>
    show Dict.aggVal aggD (some (d ++ a.cgs)) t = _
    rw [ih]; simp

theorem aggregate_aggD (l : List DInst) : Dict.aggregate (·.name) aggD [] l =
    (firstSeen (l.map (·.name))).map (fun n => (n, (l.filter (fun d => d.name = n)).flatMap (·.cgs))) := by
  apply Dict.aggregate_closed
  intro k hk
  cases hf : l.filter (fun d => d.name = k) with
  | nil =>
    obtain ⟨c, hc, rfl⟩ := List.mem_map.1 hk
    rw [List.filter_eq_nil_iff] at hf
    exact absurd (decide_eq_true rfl) (hf c hc)
  | cons a t =>
    show Dict.aggVal aggD (some ([] ++ a.cgs)) t = _
    rw [aggVal_aggD]; simp

/-- Names and children of the instances read. -/
theorem read_insts {flt : FloatText} {doc : Elem} {db : Database} (h : Xml.read flt doc = .ok db) :
    (kids ST.INSTANCE db.root).map (fun s => (s.name, s.children)) =
      (distinct ((within "instanceCoverages" doc).map (fun i => (attr i "name").getD ""))).map (fun n =>
        (n, ((within "instanceCoverages" doc).filter (fun i => (attr i "name").getD "" = n)).flatMap (fun i =>
          (within "covergroupCoverage" i).flatMap dCgs))) := by
  rw [read_root h]
  show (instsOf _).map _ = _
  rw [(foldl_stepD _).2, aggregate_aggD, distinct_eq, List.map_map]
  apply List.map_congr_left
  intro n _
  rw [List.filter_map, List.flatMap_map]
  rfl

theorem dCgs_type (c : Elem) : ∀ g ∈ dCgs c, maskHit g.stype ST.COVERGROUP = true := by
  intro g hg
  obtain ⟨t, _, rfl⟩ := List.mem_map.1 hg
  show maskHit ST.COVERGROUP ST.COVERGROUP = true
  decide

theorem covBins_items {l : List (String × Nat × Int)} (h : ∀ v ∈ l, IsKind v.2.1) {s : Scope} (hs : s.items = l.map itemOf) :
    binTriples s = l := by
  unfold binTriples covBins
  rw [hs]
  have : (l.map itemOf).filter (fun i => maskHit i.kind CT.CVGBIN || maskHit i.kind CT.IGNOREBIN || maskHit i.kind CT.ILLEGALBIN)
      = l.map itemOf := by
    rw [List.filter_eq_self]
    intro i hi
    obtain ⟨v, hv, rfl⟩ := List.mem_map.1 hi
    simp only [itemOf, mkBin]
    rcases h v hv with h | h | h <;> rw [h] <;> decide
  rw [this, List.map_map]
  conv_rhs => rw [← List.map_id l]
  apply List.map_congr_left
  intro v _
  rfl

theorem kind_binOf {b : Elem} (h : GoodBin b) : IsKind (binOf b).2.1 := by
  obtain ⟨h, _⟩ := h
  unfold binOf
  simp only
  generalize (attr b "type").getD "default" = a at h
  simp only [List.mem_cons, List.not_mem_nil, or_false] at h
  rcases h with rfl | rfl | rfl | rfl <;> unfold IsKind <;> decide

theorem kind_crossBinOf (b : Elem) : IsKind (crossBinOf b).2.1 := .inl rfl

theorem kids_inst_cp (p : PInst) :
    kids ST.COVERPOINT p.scope = p.cps.map (fun c => mkCoverpoint c.name SrcInfo.none 1 c.bins) := by
  unfold kids PInst.scope mkCoverInst
  simp only [List.filter_append]
  rw [filter_map_all (fun _ => by simp only [mkCoverpoint]; decide), filter_map_none (fun _ => by simp only [mkCross]; decide),
    List.append_nil]

theorem kids_inst_cross (p : PInst) :
    kids ST.CROSS p.scope = p.crs.map (fun c => mkCross c.name SrcInfo.none 1 c.exprs c.bins) := by
  unfold kids PInst.scope mkCoverInst
  simp only [List.filter_append]
  rw [filter_map_none (fun _ => by simp only [mkCoverpoint]; decide), filter_map_all (fun _ => by simp only [mkCross]; decide),
    List.nil_append]

theorem cpView_dInst {g : Elem} (h : GoodGroup g) : cpView (dInst g).scope = cpsOf g := by
  unfold cpView cpsOf
  rw [kids_inst_cp]
  simp only [dInst, List.map_map]
  apply List.map_congr_left
  intro p hp
  refine Prod.ext rfl ?_
  apply covBins_items
  · intro v hv
    obtain ⟨b, hb, rfl⟩ := List.mem_map.1 hv
    exact kind_binOf (h.1 p hp b hb)
  · simp [dCp, mkCoverpoint]

theorem crossView_dInst (g : Elem) : crossKindView (dInst g).scope = docCrosses g := by
  unfold crossKindView docCrosses
  rw [kids_inst_cross]
  simp only [dInst, List.map_map]
  apply List.map_congr_left
  intro p hp
  refine Prod.ext rfl (Prod.ext rfl ?_)
  apply covBins_items
  · intro v hv
    obtain ⟨b, hb, rfl⟩ := List.mem_map.1 hv
    exact kind_crossBinOf b
  · simp [dCr, mkCross]

theorem writtenGroups_build {t : String} {ps : List PInst} (h : ps ≠ []) : writtenGroups (buildGroup t ps) = ps.map PInst.scope := by
  have h1 : kids ST.COVERINSTANCE (buildGroup t ps) = ps.map PInst.scope := buildGroup_insts t ps
  unfold writtenGroups
  rw [if_neg (by rw [h1]; simpa using h), h1]

end Xml

/-- C69: what is read from a document is exactly what the document says. -/
theorem C69_reader_content {flt : FloatText} {doc : Elem} {db : Database} (h : Xml.read flt doc = .ok db) :
    dbView (fun c => (cpView c, crossKindView c)) db.root = docView doc := by
  have hgood := ((C37_read_accepts flt doc).1 ⟨db, h⟩).2.2
  have hi := read_insts h
  have h1 : dbView (fun c => (cpView c, crossKindView c)) db.root
      = ((kids ST.INSTANCE db.root).map (fun s => (s.name, s.children))).map (fun p =>
          (p.1, (p.2.filter (fun c => maskHit c.stype ST.COVERGROUP)).map (fun g =>
            (g.name, (writtenGroups g).map (fun c => (c.name, cpView c, crossKindView c)))))) := by
    rw [List.map_map]; rfl
  rw [h1, hi, List.map_map]
  unfold docView
  apply List.map_congr_left
  intro n _
  refine Prod.ext rfl ?_
  show ((List.flatMap _ _).filter _).map _ = _
  rw [List.filter_eq_self.2 ?_]
  · rw [List.map_flatMap]
    apply List.flatMap_congr
    intro i hi'
    have hgi := hgood i (List.mem_filter.1 hi').1
    rw [List.map_flatMap]
    apply List.flatMap_congr
    intro c hc
    unfold dCgs
    rw [List.map_map]
    apply List.map_congr_left
    intro t ht
    refine Prod.ext rfl ?_
    simp only [Function.comp]
    rw [writtenGroups_build, List.map_map, List.map_map]
    · apply List.map_congr_left
      intro g hg
      have hgg := hgi.2.2 c hc g (List.mem_filter.1 hg).1
      simp only [Function.comp]
      rw [cpView_dInst hgg, crossView_dInst]
      rfl
    · rw [distinct_eq, mem_firstSeen] at ht
      obtain ⟨g, hg, rfl⟩ := List.mem_map.1 ht
      intro hnil
      rw [List.map_eq_nil_iff, List.filter_eq_nil_iff] at hnil
      exact absurd (decide_eq_true rfl) (hnil g hg)
  · intro g hg
    obtain ⟨i, _, hg⟩ := List.mem_flatMap.1 hg
    obtain ⟨c, _, hg⟩ := List.mem_flatMap.1 hg
    exact dCgs_type c g hg

namespace Xml

/-- Every covergroup read was built from parsed cgInstances with bins of known kinds. -/
theorem read_group {flt : FloatText} {doc : Elem} {db : Database} (h : Xml.read flt doc = .ok db) {i g : Scope}
    (hi : i ∈ kids ST.INSTANCE db.root) (hg : g ∈ kids ST.COVERGROUP i) :
    ∃ t, ∃ es : List Elem, es ≠ [] ∧ (∀ e ∈ es, GoodGroup e ∧ typeOf e = t) ∧ g = buildGroup t (es.map dInst) := by
  have hgood := ((C37_read_accepts flt doc).1 ⟨db, h⟩).2.2
  have hm : (i.name, i.children) ∈ (kids ST.INSTANCE db.root).map (fun s => (s.name, s.children)) := List.mem_map_of_mem hi
  rw [read_insts h] at hm
  obtain ⟨n, _, hn⟩ := List.mem_map.1 hm
  have hch := (Prod.ext_iff.1 hn).2
  simp only at hch
  have hg1 : g ∈ i.children := (List.mem_filter.1 hg).1
  rw [← hch] at hg1
  obtain ⟨e, he, hg1⟩ := List.mem_flatMap.1 hg1
  obtain ⟨c, hc, hg1⟩ := List.mem_flatMap.1 hg1
  obtain ⟨t, ht, rfl⟩ := List.mem_map.1 hg1
  refine ⟨t, _, ?_, ?_, rfl⟩
  · rw [distinct_eq, mem_firstSeen] at ht
    obtain ⟨x, hx, rfl⟩ := List.mem_map.1 ht
    intro hnil
    rw [List.filter_eq_nil_iff] at hnil
    exact absurd (decide_eq_true rfl) (hnil x hx)
  · intro x hx
    obtain ⟨hx1, hx2⟩ := List.mem_filter.1 hx
    exact ⟨(hgood e (List.mem_filter.1 he).1).2.2 c hc x hx1, of_decide_eq_true hx2⟩

/-- All bins of a parsed instance have one of the three kinds. -/
def KindsOk (p : PInst) : Prop := (∀ c ∈ p.cps, ∀ b ∈ c.bins, IsKind b.kind) ∧ ∀ c ∈ p.crs, ∀ b ∈ c.bins, IsKind b.kind

theorem kindsOk_dInst {g : Elem} (h : GoodGroup g) : KindsOk (dInst g) := by
  constructor
  · intro c hc b hb
    obtain ⟨e, he, rfl⟩ := List.mem_map.1 hc
    obtain ⟨x, hx, rfl⟩ := List.mem_map.1 hb
    exact kind_binOf (h.1 e he x hx)
  · intro c hc b hb
    obtain ⟨e, he, rfl⟩ := List.mem_map.1 hc
    obtain ⟨x, hx, rfl⟩ := List.mem_map.1 hb
    exact kind_crossBinOf x

theorem covBins_all {s : Scope} (h : ∀ b ∈ s.items, IsKind b.kind) : covBins s = s.items := by
  unfold covBins
  rw [List.filter_eq_self]
  intro i hi
  rcases h i hi with h | h | h <;> rw [h] <;> decide

theorem instBins_cp {t : String} {ps : List PInst} (h : ∀ p ∈ ps, KindsOk p) (n : String) :
    instBins ST.COVERPOINT (buildGroup t ps) n = cpBins ps n := by
  unfold instBins cpBins
  have h1 : kids ST.COVERINSTANCE (buildGroup t ps) = ps.map PInst.scope := buildGroup_insts t ps
  rw [h1, List.flatMap_map]
  have h2 : ps.flatMap (fun a => kids ST.COVERPOINT a.scope)
      = (ps.flatMap (·.cps)).map (fun c => mkCoverpoint c.name SrcInfo.none 1 c.bins) := by
    rw [List.map_flatMap]
    exact List.flatMap_congr (fun p _ => kids_inst_cp p)
  rw [h2, List.filter_map, List.flatMap_map]
  apply List.flatMap_congr
  intro c hc
  obtain ⟨p, hp, hc⟩ := List.mem_flatMap.1 (List.mem_filter.1 hc).1
  exact covBins_all (s := mkCoverpoint c.name SrcInfo.none 1 c.bins) ((h p hp).1 c hc)

theorem instBins_cross {t : String} {ps : List PInst} (h : ∀ p ∈ ps, KindsOk p) (n : String) :
    instBins ST.CROSS (buildGroup t ps) n = crBins ps n := by
  unfold instBins crBins
  have h1 : kids ST.COVERINSTANCE (buildGroup t ps) = ps.map PInst.scope := buildGroup_insts t ps
  rw [h1, List.flatMap_map]
  have h2 : ps.flatMap (fun a => kids ST.CROSS a.scope)
      = (ps.flatMap (·.crs)).map (fun c => mkCross c.name SrcInfo.none 1 c.exprs c.bins) := by
    rw [List.map_flatMap]
    exact List.flatMap_congr (fun p _ => kids_inst_cross p)
  rw [h2, List.filter_map, List.flatMap_map]
  apply List.flatMap_congr
  intro c hc
  obtain ⟨p, hp, hc⟩ := List.mem_flatMap.1 (List.mem_filter.1 hc).1
  exact covBins_all (s := mkCross c.name SrcInfo.none 1 c.exprs c.bins) ((h p hp).2 c hc)

theorem typeSums_cp {t : String} {ps : List PInst} (h : ∀ p ∈ ps, KindsOk p) : TypeSums ST.COVERPOINT (buildGroup t ps) := by
  have hk : kids ST.COVERPOINT (buildGroup t ps) = _ := buildGroup_cps t ps
  have hi : kids ST.COVERINSTANCE (buildGroup t ps) = ps.map PInst.scope := buildGroup_insts t ps
  constructor
  · rw [hk, List.map_map]
    show (List.map id _).Nodup
    rw [List.map_id]; exact firstSeen_nodup _
  · intro n
    rw [hk, List.map_map, hi]
    show n ∈ List.map id _ ↔ _
    rw [List.map_id, mem_firstSeen, List.mem_map]
    simp only [List.mem_map, List.mem_flatMap]
    constructor
    · rintro ⟨c, ⟨p, hp, hc⟩, rfl⟩
      refine ⟨_, ⟨p, hp, rfl⟩, mkCoverpoint c.name SrcInfo.none 1 c.bins, ?_, rfl⟩
      rw [kids_inst_cp]; exact List.mem_map_of_mem hc
    · rintro ⟨_, ⟨p, hp, rfl⟩, x, hx, rfl⟩
      rw [kids_inst_cp] at hx
      obtain ⟨c, hc, rfl⟩ := List.mem_map.1 hx
      exact ⟨c, ⟨p, hp, hc⟩, rfl⟩
  all_goals
    rw [hk]
    intro c hc
    obtain ⟨n, hn, rfl⟩ := List.mem_map.1 hc
    simp only [mkCoverpoint, instBins_cp h, typeBins]
  · rw [List.map_map]
    show (List.map id _).Nodup
    rw [List.map_id]; exact firstSeen_nodup _
  · intro b
    rw [List.map_map]
    show b ∈ List.map id _ ↔ _
    rw [List.map_id, mem_firstSeen]
  · intro b hb
    obtain ⟨x, _, rfl⟩ := List.mem_map.1 hb
    rfl

theorem typeSums_cross {t : String} {ps : List PInst} (h : ∀ p ∈ ps, KindsOk p) : TypeSums ST.CROSS (buildGroup t ps) := by
  have hk : kids ST.CROSS (buildGroup t ps) = _ := buildGroup_crosses t ps
  have hi : kids ST.COVERINSTANCE (buildGroup t ps) = ps.map PInst.scope := buildGroup_insts t ps
  constructor
  · rw [hk, List.map_map]
    show (List.map id _).Nodup
    rw [List.map_id]; exact firstSeen_nodup _
  · intro n
    rw [hk, List.map_map, hi]
    show n ∈ List.map id _ ↔ _
    rw [List.map_id, mem_firstSeen, List.mem_map]
    simp only [List.mem_map, List.mem_flatMap]
    constructor
    · rintro ⟨c, ⟨p, hp, hc⟩, rfl⟩
      refine ⟨_, ⟨p, hp, rfl⟩, mkCross c.name SrcInfo.none 1 c.exprs c.bins, ?_, rfl⟩
      rw [kids_inst_cross]; exact List.mem_map_of_mem hc
    · rintro ⟨_, ⟨p, hp, rfl⟩, x, hx, rfl⟩
      rw [kids_inst_cross] at hx
      obtain ⟨c, hc, rfl⟩ := List.mem_map.1 hx
      exact ⟨c, ⟨p, hp, hc⟩, rfl⟩
  all_goals
    rw [hk]
    intro c hc
    obtain ⟨n, hn, rfl⟩ := List.mem_map.1 hc
    simp only [mkCross, instBins_cross h, typeCrossBins]
  · rw [List.map_map]
    show (List.map id _).Nodup
    rw [List.map_id]; exact firstSeen_nodup _
  · intro b
    rw [List.map_map]
    show b ∈ List.map id _ ↔ _
    rw [List.map_id, mem_firstSeen]
  · intro b hb
    obtain ⟨x, _, rfl⟩ := List.mem_map.1 hb
    rfl

theorem filter_map_mkBin {L : List String} (hL : L.Nodup) (K : String → Nat) (S : String → Int) (n : String) (k : Nat) :
    (L.map (fun b => mkBin b (K b) 1 (S b))).filter (fun b => decide (b.name = n ∧ b.kind = k))
      = if n ∈ L ∧ K n = k then [mkBin n k 1 (S n)] else [] := by
  induction L with
  | nil => simp
  | cons a t ih =>
    rw [List.nodup_cons] at hL
    rw [List.map_cons, List.filter_cons, ih hL.2]
    by_cases ha : a = n
    · subst ha
      by_cases hk : K a = k
      · subst hk; simp [mkBin, hL.1]
      · simp [mkBin, hk]
    · have : n ∈ a :: t ↔ n ∈ t := by simp [Ne.symm ha]
      simp [mkBin, ha, this]

end Xml

/-- C33: after reading any document, every covergroup carries at type level, for coverpoints and for
crosses, exactly one bin per name with the sum of the counts in its cover-instances. -/
theorem C33_type_sums {flt : FloatText} {doc : Elem} {db : Database} (h : Xml.read flt doc = .ok db) {i g : Scope}
    (hi : i ∈ kids ST.INSTANCE db.root) (hg : g ∈ kids ST.COVERGROUP i) :
    TypeSums ST.COVERPOINT g ∧ TypeSums ST.CROSS g := by
  obtain ⟨t, es, _, hgood, rfl⟩ := read_group h hi hg
  have : ∀ p ∈ es.map dInst, KindsOk p := by
    intro p hp
    obtain ⟨e, he, rfl⟩ := List.mem_map.1 hp
    exact kindsOk_dInst (hgood e he).1
  exact ⟨typeSums_cp this, typeSums_cross this⟩

/-- C34 when same-named bins of a coverpoint have the same kind in all cover-instances: the type-level
counts are right for each kind separately.  Missing: different kinds under one name, see
`C34_kinds_refuted`. -/
theorem C34_kinds_partial {flt : FloatText} {doc : Elem} {db : Database} (h : Xml.read flt doc = .ok db) {i g c : Scope}
    (hi : i ∈ kids ST.INSTANCE db.root) (hg : g ∈ kids ST.COVERGROUP i) (hc : c ∈ kids ST.COVERPOINT g)
    (hk : ∀ a ∈ instBins ST.COVERPOINT g c.name, ∀ b ∈ instBins ST.COVERPOINT g c.name, a.name = b.name → a.kind = b.kind)
    (n : String) (k : Nat) :
    ((c.items.filter (fun b => b.name = n ∧ b.kind = k)).map (·.count)).sum
      = (((instBins ST.COVERPOINT g c.name).filter (fun b => b.name = n ∧ b.kind = k)).map (·.count)).sum := by
  obtain ⟨t, es, _, hgood, rfl⟩ := read_group h hi hg
  have hps : ∀ p ∈ es.map dInst, KindsOk p := by
    intro p hp
    obtain ⟨e, he, rfl⟩ := List.mem_map.1 hp
    exact kindsOk_dInst (hgood e he).1
  have hkk : kids ST.COVERPOINT (buildGroup t (es.map dInst)) = _ := buildGroup_cps t _
  rw [hkk] at hc
  obtain ⟨m, hm, rfl⟩ := List.mem_map.1 hc
  rw [show (mkCoverpoint m SrcInfo.none 1 (typeBins (cpBins (es.map dInst) m))).name = m from rfl, instBins_cp hps] at hk ⊢
  generalize cpBins (es.map dInst) m = l at hk
  show (((typeBins l).filter _).map _).sum = _
  have hfilt : (typeBins l).filter (fun b => decide (b.name = n ∧ b.kind = k))
      = if n ∈ l.map (·.name) ∧ ((l.filter (fun i => i.name = n)).head?.map (·.kind)).getD 0 = k
        then [mkBin n k 1 (((l.filter (fun i => i.name = n)).map (·.count)).sum)] else [] := by
    unfold typeBins
    rw [filter_map_mkBin (firstSeen_nodup _) (fun b => ((l.filter (fun i => i.name = b)).head?.map (·.kind)).getD 0)
      (fun b => ((l.filter (fun i => i.name = b)).map (·.count)).sum)]
    simp only [mem_firstSeen]
  rw [hfilt]
  have hsame : ∀ a ∈ l, a.name = n → a.kind = ((l.filter (fun i => i.name = n)).head?.map (·.kind)).getD 0 := by
    intro a ha hn
    cases hl : l.filter (fun i => i.name = n) with
    | nil =>
      rw [List.filter_eq_nil_iff] at hl
      exact absurd (decide_eq_true hn) (hl a ha)
    | cons b t =>
      have hb : b ∈ l.filter (fun i => i.name = n) := by rw [hl]; simp
      obtain ⟨hb1, hb2⟩ := List.mem_filter.1 hb
      exact hk a ha b hb1 (hn.trans (of_decide_eq_true hb2).symm)
  by_cases hn : n ∈ l.map (·.name)
  · by_cases hkk : ((l.filter (fun i => i.name = n)).head?.map (·.kind)).getD 0 = k
    · rw [if_pos ⟨hn, hkk⟩]
      have : l.filter (fun b => decide (b.name = n ∧ b.kind = k)) = l.filter (fun b => decide (b.name = n)) := by
        apply List.filter_congr
        intro a ha
        by_cases hn' : a.name = n
        · simp [hn', (hsame a ha hn').trans hkk]
        · simp [hn']
      rw [this]
      simp [mkBin]
    · rw [if_neg (fun hh => hkk hh.2)]
      have : l.filter (fun b => decide (b.name = n ∧ b.kind = k)) = [] := by
        rw [List.filter_eq_nil_iff]
        intro a ha hh
        have hh := of_decide_eq_true hh
        exact hkk ((hsame a ha hh.1).symm.trans hh.2)
      rw [this]
  · rw [if_neg (fun hh => hn hh.1)]
    have : l.filter (fun b => decide (b.name = n ∧ b.kind = k)) = [] := by
      rw [List.filter_eq_nil_iff]
      intro a ha hh
      exact hn ((of_decide_eq_true hh).1 ▸ List.mem_map_of_mem ha)
    rw [this]

/-! ## Examples and refutation -/

/-- A document with two covergroup instances of one type whose bins `x` have different kinds. -/
def exMixedDoc : Elem :=
  let bin (t : String) (n : String) : Elem :=
    ⟨"coverpointBin", [("name", "x"), ("type", t)], none, [⟨"range", [], none, [⟨"contents", [("coverageCount", n)], none, []⟩]⟩]⟩
  let inst (n t c : String) : Elem :=
    ⟨"cgInstance", [("name", n)], none,
      [⟨"cgId", [("cgName", "cg")], none, []⟩, ⟨"coverpoint", [("name", "a")], none, [bin t c]⟩]⟩
  ⟨"UCIS", [], none,
    [⟨"instanceCoverages", [("name", "top")], none,
      [⟨"covergroupCoverage", [], none, [inst "i1" "bins" "3", inst "i2" "ignore" "4"]⟩]⟩]⟩

/-- C34 as stated is false: bin `x` is an ordinary bin with count 7 at type level, although only 3 of
the hits are in ordinary bins. -/
theorem C34_kinds_refuted :
    ¬ ∀ (flt : FloatText) (doc : Elem) (db : Database) (i g c : Scope), Xml.read flt doc = .ok db →
      i ∈ kids ST.INSTANCE db.root → g ∈ kids ST.COVERGROUP i → c ∈ kids ST.COVERPOINT g → ∀ n k,
      ((c.items.filter (fun b => b.name = n ∧ b.kind = k)).map (·.count)).sum
        = (((instBins ST.COVERPOINT g c.name).filter (fun b => b.name = n ∧ b.kind = k)).map (·.count)).sum := by
  intro h
  obtain ⟨db, hdb⟩ := exists_of_isOk (x := Xml.read fracText exMixedDoc) (by decide +kernel)
  have hall : ∀ i ∈ kids ST.INSTANCE db.root, ∀ g ∈ kids ST.COVERGROUP i, ∀ c ∈ kids ST.COVERPOINT g,
      ((c.items.filter (fun b => b.name = "x" ∧ b.kind = CT.CVGBIN)).map (·.count)).sum
        = (((instBins ST.COVERPOINT g c.name).filter (fun b => b.name = "x" ∧ b.kind = CT.CVGBIN)).map (·.count)).sum :=
    fun i hi g hg c hc => h fracText exMixedDoc db i g c hdb hi hg hc "x" CT.CVGBIN
  have hno : (Xml.read fracText exMixedDoc).map (fun (db : Database) => decide (∀ i ∈ kids ST.INSTANCE db.root, ∀ g ∈ kids ST.COVERGROUP i,
      ∀ c ∈ kids ST.COVERPOINT g, ((c.items.filter (fun b => b.name = "x" ∧ b.kind = CT.CVGBIN)).map (·.count)).sum
        = (((instBins ST.COVERPOINT g c.name).filter (fun b => b.name = "x" ∧ b.kind = CT.CVGBIN)).map (·.count)).sum)) = .ok false := by
    decide +kernel
  rw [hdb] at hno
  exact absurd hall (of_decide_eq_false (Except.ok.inj hno))

/-- The document is readable, and what it says. -/
example : (Xml.read fracText exMixedDoc).isOk = true ∧ docView exMixedDoc =
    [("top", [("cg", [("i1", [("a", [("x", CT.CVGBIN, 3)])], []), ("i2", [("a", [("x", CT.IGNOREBIN, 4)])], [])])])] := by
  constructor
  · decide +kernel
  · rfl

/-- A document that is not readable: a bin without contents. -/
example : ¬ Readable fracText ⟨"UCIS", [], none,
    [⟨"instanceCoverages", [("name", "top")], none, [⟨"covergroupCoverage", [], none,
      [⟨"cgInstance", [], none, [⟨"coverpoint", [], none, [⟨"coverpointBin", [], none, []⟩]⟩]⟩]⟩]⟩]⟩ := by
  rw [← C37_read_accepts]
  rintro ⟨db, h⟩
  have : (Xml.read fracText ⟨"UCIS", [], none,
    [⟨"instanceCoverages", [("name", "top")], none, [⟨"covergroupCoverage", [], none,
      [⟨"cgInstance", [], none, [⟨"coverpoint", [], none, [⟨"coverpointBin", [], none, []⟩]⟩]⟩]⟩]⟩]⟩).isOk = false := by
    decide +kernel
  rw [h] at this
  cases this

/-- Kinds agree in the document of the first example after writing. -/
example : ∃ db, roundTrip exEnv exXmlDb = .ok db ∧ ∃ i ∈ kids ST.INSTANCE db.root, ∃ g ∈ kids ST.COVERGROUP i,
    ∃ c ∈ kids ST.COVERPOINT g, (instBins ST.COVERPOINT g c.name).length = 3 ∧
      ∀ a ∈ instBins ST.COVERPOINT g c.name, ∀ b ∈ instBins ST.COVERPOINT g c.name, a.name = b.name → a.kind = b.kind := by
  obtain ⟨db, hdb⟩ := exists_of_isOk (x := roundTrip exEnv exXmlDb) (by decide +kernel)
  refine ⟨db, hdb, ?_⟩
  have : (roundTrip exEnv exXmlDb).map (fun (db : Database) => decide (∃ i ∈ kids ST.INSTANCE db.root, ∃ g ∈ kids ST.COVERGROUP i,
    ∃ c ∈ kids ST.COVERPOINT g, (instBins ST.COVERPOINT g c.name).length = 3 ∧
      ∀ a ∈ instBins ST.COVERPOINT g c.name, ∀ b ∈ instBins ST.COVERPOINT g c.name, a.name = b.name → a.kind = b.kind)) = .ok true := by
    decide +kernel
  rw [hdb] at this
  exact of_decide_eq_true (Except.ok.inj this)

end Verif
