import Verif.FirstError
import Verif.XsdThms2
/-!
# What can still be wrong with a schema-valid document (C121)

No new code: `C121_read` for documents that satisfy the schema.
-/

namespace Verif
namespace Spec
open Xml

/-- A history node with a number or date that the reader refuses. -/
def BadHist (flt : FloatText) (h : Elem) : Prop :=
  (∃ n ∈ ["simtime", "cpuTime", "cost"], ∃ v, attr h n = some v ∧ flt.read v = none) ∨
    ∃ s, attr h "date" = some s ∧ ∀ t, DateTime.strptime DateTime.isoFmt s.toList ≠ .ok t

/-- `x` is the reference of a cross of the covergroup instance `g` in the document. -/
def CrossRef (doc g x : Elem) : Prop :=
  ∃ i ∈ within "instanceCoverages" doc, ∃ c ∈ within "covergroupCoverage" i, g ∈ within "cgInstance" c ∧ ∃ r ∈ within "cross" g, x ∈ within "crossExpr" r

/-- The file of a statement id is not declared. -/
def Undeclared (doc : Elem) : Prop :=
  ∃ i ∈ within "instanceCoverages" doc, ∃ d ∈ within "id" i, intAttr d "file" ∉ (within "sourceFiles" doc).map (fun f => intAttr f "id")

end Spec

namespace FirstError
open Spec Xml

theorem intProblem_good {e : Elem} {n : String} {l : List Err} (h : IntAttr e n) : intProblem e n l = [] := by
  obtain ⟨v, z, h1, h2⟩ := h
  unfold intProblem
  rw [h1]
  simp [h2]

theorem keyProblem_good {e : Elem} {n : String} (h : attr e n ≠ none) : keyProblem e n = [] := by simp [keyProblem, h]

theorem binElem_good {b : Elem} (h : GoodBin b) : binElemProblems b = [] := by
  obtain ⟨h1, c, h2, h3⟩ := h
  unfold binElemProblems
  rw [h2]
  simp [h1, intProblem_good h3]

theorem crossBinElem_good {b : Elem} (h : GoodCrossBin b) : crossBinElemProblems b = [] := by
  obtain ⟨c, h2, h3⟩ := h
  unfold crossBinElemProblems
  rw [h2]
  simp [intProblem_good h3]

/-- What can be wrong in a cross with good bins: a reference. -/
def RefProblem (known : List String) (x : Elem) (e : Err) : Prop :=
  ∃ r ∈ within "crossExpr" x, (e = .attributeError ∧ r.text = none) ∨ (e = .userError ∧ r.text ≠ none ∧ crossed r ∉ known)

theorem exprProblems_mem {known : List String} {x : Elem} {e : Err} (h : e ∈ exprProblems known x) : RefProblem known x e := by
  obtain ⟨r, hr, h⟩ := List.mem_flatMap.1 h
  refine ⟨r, hr, ?_⟩
  by_cases h1 : r.text = none
  · rw [if_pos h1] at h
    exact .inl ⟨by simpa using h, h1⟩
  · rw [if_neg h1] at h
    by_cases h2 : crossed r ∈ known
    · rw [if_pos h2] at h; cases h
    · rw [if_neg h2] at h
      exact .inr ⟨by simpa using h, h1, h2⟩

theorem crossElem_mem {typeCps instCps seen : List String} {x : Elem} {e : Err} (hb : ∀ b ∈ within "crossBin" x, GoodCrossBin b)
    (hsub : ∀ n ∈ instCps, n ∈ typeCps) (h : e ∈ crossElemProblems typeCps instCps seen x) : RefProblem instCps x e := by
  unfold crossElemProblems at h
  rw [show (within "crossBin" x).flatMap crossBinElemProblems = [] from List.flatMap_eq_nil_iff.2 (fun b hb' => crossBinElem_good (hb b hb')), List.append_nil] at h
  rcases List.mem_append.1 h with h | h
  · split at h
    · cases h
    · obtain ⟨r, hr, h⟩ := exprProblems_mem h
      rcases h with h | ⟨h1, h2, h3⟩
      · exact ⟨r, hr, .inl h⟩
      · exact ⟨r, hr, .inr ⟨h1, h2, fun h4 => h3 (hsub _ h4)⟩⟩
  · exact exprProblems_mem h

theorem crossElems_mem {typeCps instCps : List String} (hsub : ∀ n ∈ instCps, n ∈ typeCps) {e : Err} :
    ∀ (l : List Elem) (seen : List String), (∀ x ∈ l, ∀ b ∈ within "crossBin" x, GoodCrossBin b) → e ∈ crossElemsProblems typeCps instCps seen l →
      ∃ x ∈ l, RefProblem instCps x e
  | [], _, _, h => by cases h
  | x :: t, seen, hb, h => by
    rcases List.mem_append.1 h with h | h
    · exact ⟨x, by simp, crossElem_mem (hb x (by simp)) hsub h⟩
    · obtain ⟨y, hy, h⟩ := crossElems_mem hsub t _ (fun x hx => hb x (by simp [hx])) h
      exact ⟨y, by simp [hy], h⟩

theorem groups_mem {e : Err} : ∀ (l : List Elem) (typeCps seen : List String),
    (∀ g ∈ l, (∀ p ∈ within "coverpoint" g, ∀ b ∈ within "coverpointBin" p, GoodBin b) ∧ ∀ x ∈ within "cross" g, ∀ b ∈ within "crossBin" x, GoodCrossBin b) →
    e ∈ groupsProblems typeCps seen l → ∃ g ∈ l, ∃ x ∈ within "cross" g, RefProblem ((within "coverpoint" g).map cpName) x e
  | [], _, _, _, h => by cases h
  | g :: t, tc, seen, hg, h => by
    unfold groupsProblems at h
    obtain ⟨h1, h2⟩ := hg g (by simp)
    rw [show (within "coverpoint" g).flatMap (fun p => (within "coverpointBin" p).flatMap binElemProblems) = [] from
      List.flatMap_eq_nil_iff.2 (fun p hp => List.flatMap_eq_nil_iff.2 (fun b hb => binElem_good (h1 p hp b hb))), List.nil_append] at h
    rcases List.mem_append.1 h with h | h
    · obtain ⟨x, hx, h⟩ := crossElems_mem (fun n hn => List.mem_append_right _ hn) _ _ h2 h
      exact ⟨g, by simp, x, hx, h⟩
    · obtain ⟨g', hg', h⟩ := groups_mem t _ _ (fun g hg' => hg g (by simp [hg'])) h
      exact ⟨g', by simp [hg'], h⟩

theorem floatProblem_mem {flt : FloatText} {h : Elem} {n : String} {e : Err} (he : e ∈ floatProblem flt h n) :
    e = .valueError ∧ ∃ v, attr h n = some v ∧ flt.read v = none := by
  unfold floatProblem at he
  cases ha : attr h n with
  | none => rw [ha] at he; cases he
  | some v =>
    rw [ha] at he
    simp only at he
    split at he
    · rename_i h1
      exact ⟨by simpa using he, v, rfl, h1⟩
    · cases he

/-- **C121** for documents that satisfy the schema: `ValueError` means a number or date of a history node that the reader refuses, `KeyError`
an undeclared file, `AttributeError` a cross with an empty reference, and the exception of the library a cross of a name that is no coverpoint
of its covergroup instance.  No other exception is possible. -/
theorem C121_valid {flt : FloatText} {doc : Elem} {e : Err} (hv : Xsd.valid Xsd.ucisXsd doc = true) (h : Xml.read flt doc = .error e) :
    (e = .valueError ∧ ∃ n ∈ within "historyNodes" doc, BadHist flt n) ∨ (e = .keyError ∧ Undeclared doc) ∨
    (e = .attributeError ∧ ∃ g x, CrossRef doc g x ∧ x.text = none) ∨
    (e = .userError ∧ ∃ g x, CrossRef doc g x ∧ x.text ≠ none ∧ crossed x ∉ (within "coverpoint" g).map cpName) := by
  have hm : e ∈ readProblems flt doc := List.mem_of_head? ((C121_read flt doc e).1 h)
  unfold Xsd.valid at hv
  rw [Bool.and_eq_true, beq_iff_eq] at hv
  obtain ⟨htag, hv⟩ := hv
  have htag : doc.tag = "UCIS" := htag
  have hinst : ∀ i ∈ within "instanceCoverages" doc, Xsd.validE Xsd.ucisXsd i "INSTANCE_COVERAGE" = true := fun i hi =>
    Xsd.typed_within hv (by rw [htag]; decide) (by decide +kernel) hi
  have hhist : ∀ i ∈ within "historyNodes" doc, Xsd.validE Xsd.ucisXsd i "HISTORY_NODE" = true := fun i hi =>
    Xsd.typed_within hv (by rw [htag]; decide) (by decide +kernel) hi
  have hfile : ∀ i ∈ within "sourceFiles" doc, Xsd.validE Xsd.ucisXsd i "SOURCE_FILE" = true := fun i hi =>
    Xsd.typed_within hv (by rw [htag]; decide) (by decide +kernel) hi
  unfold readProblems at hm
  rw [List.append_assoc] at hm
  rcases List.mem_append.1 hm with hm | hm
  · obtain ⟨f, hf, hm⟩ := List.mem_flatMap.1 hm
    have := (Xsd.valid_inv (ct := Xsd.tSourceFile) (by decide) rfl (hfile f hf)).1
    rw [intProblem_good (Xsd.intAttr_valid (t := .pos) this (.inr (.inr rfl)) (by decide) (by decide))] at hm
    cases hm
  rcases List.mem_append.1 hm with hm | hm
  · obtain ⟨n, hn, hm⟩ := List.mem_flatMap.1 hm
    have ha := (Xsd.valid_inv (ct := Xsd.tHistoryNode) (by decide) rfl (hhist n hn)).1
    have hk : ∀ k ∈ ["testStatus", "toolCategory", "vendorId", "vendorTool", "vendorToolVersion", "date"], attr n k ≠ none := by
      intro k hk
      apply Xsd.attr_required ha
      revert k
      decide
    have hs : intProblem n "sameTests" [] = [] := by
      unfold intProblem
      cases hv' : attr n "sameTests" with
      | none => rfl
      | some v =>
        obtain ⟨z, hz⟩ := Xsd.parseInt_of_valid (t := .nonNeg) (.inr (.inl rfl)) (Xsd.attr_valid ha (by decide) hv')
        simp [hz]
    unfold histElemProblems at hm
    rw [keyProblem_good (hk "testStatus" (by simp)), keyProblem_good (hk "toolCategory" (by simp)), keyProblem_good (hk "vendorId" (by simp)),
      keyProblem_good (hk "vendorTool" (by simp)), keyProblem_good (hk "vendorToolVersion" (by simp)), hs] at hm
    simp only [List.nil_append, List.append_nil, List.mem_append] at hm
    refine .inl ?_
    rcases hm with ((hm | hm) | hm) | hm
    · obtain ⟨h1, h2⟩ := floatProblem_mem hm
      exact ⟨h1, n, hn, .inl ⟨_, by simp, h2⟩⟩
    · obtain ⟨h1, h2⟩ := floatProblem_mem hm
      exact ⟨h1, n, hn, .inl ⟨_, by simp, h2⟩⟩
    · unfold isoProblem at hm
      cases hd : attr n "date" with
      | none => exact absurd hd (hk "date" (by simp))
      | some s =>
        rw [hd] at hm
        simp only at hm
        cases hp : DateTime.strptime DateTime.isoFmt s.toList with
        | ok t => rw [hp] at hm; cases hm
        | error _ =>
          rw [hp] at hm
          exact ⟨by simpa using hm, n, hn, .inr ⟨s, hd, fun t ht => by rw [hp] at ht; cases ht⟩⟩
    · obtain ⟨h1, h2⟩ := floatProblem_mem hm
      exact ⟨h1, n, hn, .inl ⟨_, by simp, h2⟩⟩
  · obtain ⟨i, hi, hm⟩ := List.mem_flatMap.1 hm
    have hvi := hinst i hi
    have hti := Xsd.tag_within hi
    have ha := (Xsd.valid_inv (ct := Xsd.tInstanceCoverage) (by decide) rfl hvi).1
    unfold instElemProblems at hm
    rw [keyProblem_good (Xsd.attr_required ha (by decide)), List.nil_append] at hm
    rcases List.mem_append.1 hm with hm | hm
    · obtain ⟨d, hd, hm⟩ := List.mem_flatMap.1 hm
      have hvd : Xsd.validE Xsd.ucisXsd d "STATEMENT_ID" = true := Xsd.typed_within hvi (by rw [hti]; decide) (by decide +kernel) hd
      have had := (Xsd.valid_inv (ct := Xsd.tStatementId) (by decide) rfl hvd).1
      unfold idProblems at hm
      rw [intProblem_good (Xsd.intAttr_valid (t := .pos) had (.inr (.inr rfl)) (by decide) (by decide)),
        intProblem_good (Xsd.intAttr_valid (t := .pos) had (.inr (.inr rfl)) (by decide) (by decide)),
        intProblem_good (Xsd.intAttr_valid (t := .pos) had (.inr (.inr rfl)) (by decide) (by decide))] at hm
      simp only [List.nil_append] at hm
      split at hm
      · cases hm
      · rename_i h1
        exact .inr (.inl ⟨by simpa using hm, i, hi, d, hd, h1⟩)
    · obtain ⟨c, hc, hm⟩ := List.mem_flatMap.1 hm
      obtain ⟨t, _, hm⟩ := List.mem_flatMap.1 hm
      have hvc : Xsd.validE Xsd.ucisXsd c "COVERGROUP_COVERAGE" = true := Xsd.typed_within hvi (by rw [hti]; decide) (by decide +kernel) hc
      obtain ⟨g, hg, x, hx, r, hr, hm⟩ := groups_mem _ _ _ (fun g hg => by
        have hg := (List.mem_filter.1 hg).1
        have hvg : Xsd.validE Xsd.ucisXsd g "CGINSTANCE" = true :=
          Xsd.typed_within hvc (by rw [Xsd.tag_within hc]; decide) (by decide +kernel) hg
        constructor
        · intro p hp b hb
          have hvp : Xsd.validE Xsd.ucisXsd p "COVERPOINT" = true :=
            Xsd.typed_within hvg (by rw [Xsd.tag_within hg]; decide) (by decide +kernel) hp
          have hvb : Xsd.validE Xsd.ucisXsd b "COVERPOINT_BIN" = true :=
            Xsd.typed_within hvp (by rw [Xsd.tag_within hp]; decide) (by decide +kernel) hb
          exact Xsd.bin_good (Xsd.tag_within hb) hvb
        · intro x hx b hb
          have hvx : Xsd.validE Xsd.ucisXsd x "CROSS" = true :=
            Xsd.typed_within hvg (by rw [Xsd.tag_within hg]; decide) (by decide +kernel) hx
          have hvb : Xsd.validE Xsd.ucisXsd b "CROSS_BIN" = true :=
            Xsd.typed_within hvx (by rw [Xsd.tag_within hx]; decide) (by decide +kernel) hb
          exact Xsd.contents_good (ct := Xsd.tCrossBin) (by decide) rfl (by simp [Xsd.tCrossBin]) (by rw [Xsd.tag_within hb]; decide) hvb) hm
      have hg := (List.mem_filter.1 hg).1
      rcases hm with ⟨h1, h2⟩ | ⟨h1, h2, h3⟩
      · exact .inr (.inr (.inl ⟨h1, g, r, ⟨i, hi, c, hc, hg, x, hx, hr⟩, h2⟩))
      · exact .inr (.inr (.inr ⟨h1, g, r, ⟨i, hi, c, hc, hg, x, hx, hr⟩, h2, h3⟩))

/-- `C121_valid` applies: a schema-valid document with a date in a time zone, as in `C71_refuted`. -/
example : ∃ doc, Xsd.valid Xsd.ucisXsd doc = true ∧ Xml.read decText doc = .error .valueError ∧ ∃ n ∈ within "historyNodes" doc, BadHist decText n := by
  obtain ⟨doc, h1, h2⟩ := C71_refuted
  refine ⟨doc, h1, h2, ?_⟩
  rcases C121_valid h1 h2 with ⟨_, h⟩ | ⟨h, _⟩ | ⟨h, _⟩ | ⟨h, _⟩
  · exact h
  all_goals cases h

end FirstError
end Verif
