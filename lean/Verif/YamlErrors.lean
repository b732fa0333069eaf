import Verif.YamlThms3

/-!
# Which exception the YAML loader raises (C121)

`C72_load_accepts` says which documents can be loaded.  Here: which exception a document that cannot be
loaded causes.
-/

namespace Verif
namespace Spec

/-- What is wrong with one covergroup, and the exception it causes: no list of instances is a
`TypeError`; otherwise a cross with bins whose first occurrence in the covergroup has no bin list is an
`AttributeError`; otherwise a crossed name that is no coverpoint of the same or an earlier instance is an
`Exception` of the reader. -/
inductive CgRefused (g : Yaml.YCg) : Err → Prop
  | noInstances : g.instances = none → CgRefused g .typeError
  | noBinList (is : List Yaml.YInst) (c f : Yaml.YCross) : g.instances = some is →
      c ∈ is.flatMap YInst.crs → c.bins.getD [] ≠ [] →
      (is.flatMap YInst.crs).find? (fun d => d.name = c.name) = some f → f.bins = none →
      CgRefused g .attributeError
  | unknownName (is pre post : List Yaml.YInst) (i : Yaml.YInst) (cr : Yaml.YCross) (n : String) : g.instances = some is →
      (∀ c ∈ is.flatMap YInst.crs, c.bins.getD [] ≠ [] →
        ∀ f, (is.flatMap YInst.crs).find? (fun d => d.name = c.name) = some f → f.bins ≠ none) →
      is = pre ++ i :: post → cr ∈ YInst.crs i → n ∈ cr.coverpoints →
      (∀ j ∈ pre ++ [i], n ∉ (YInst.cps j).map (·.name)) →
      CgRefused g .userError

/-- The exception a document causes: a document that is not valid is reported as such; a valid one without
coverage section is an `AttributeError`; otherwise the first covergroup that cannot be loaded decides. -/
inductive LoadRefused (j : Yaml.Json) : Err → Prop
  | notValid : (¬ ∃ d, Says j d) → LoadRefused j .userError
  | noCoverage (d : Yaml.YDoc) : Says j d → d.coverage = none → LoadRefused j .attributeError
  | group (d : Yaml.YDoc) (pre post : List Yaml.YCg) (g : Yaml.YCg) (e : Err) : Says j d → d.coverage ≠ none →
      docGroups d = pre ++ g :: post → (∀ x ∈ pre, ∃ is, LoadableCg x is) → CgRefused g e → LoadRefused j e

end Spec

namespace Yaml
open Spec

/-- A computation whose only exception is `e`. -/
def OnlyErr {α : Type} (e : Err) (x : Except Err α) : Prop := ∀ e', x = .error e' → e' = e

theorem onlyErr_bind {α β : Type} {e : Err} {x : Except Err α} {f : α → Except Err β} (hx : OnlyErr e x)
    (hf : ∀ a, OnlyErr e (f a)) : OnlyErr e (x >>= f) := by
  intro e' h
  cases x with
  | error a => cases h; exact hx _ rfl
  | ok a => exact hf a e' h

theorem onlyErr_ok {α : Type} {e : Err} (a : α) : OnlyErr e (.ok a : Except Err α) := fun _ h => nomatch h

theorem onlyErr_foldlM {α β : Type} {e : Err} {f : β → α → Except Err β} (hf : ∀ b a, OnlyErr e (f b a)) (xs : List α)
    (b : β) : OnlyErr e (xs.foldlM f b) := by
  induction xs generalizing b with
  | nil => exact onlyErr_ok b
  | cons x t ih => rw [List.foldlM_cons]; exact onlyErr_bind (hf b x) ih

theorem onlyErr_mapM {α β : Type} {e : Err} {f : α → Except Err β} (hf : ∀ a, OnlyErr e (f a)) (xs : List α) :
    OnlyErr e (xs.mapM f) := by
  induction xs with
  | nil => exact onlyErr_ok _
  | cons x t ih =>
    rw [List.mapM_cons]
    exact onlyErr_bind (hf x) (fun _ => onlyErr_bind ih (fun _ => onlyErr_ok _))

theorem onlyErr_typeInst (st : Dict (List YBin) × Dict TCross) (i : YInst) : OnlyErr .attributeError (typeInst st i) := by
  unfold typeInst
  refine onlyErr_bind (onlyErr_foldlM (fun m cr => ?_) _ _) (fun _ => onlyErr_ok _)
  unfold typeCross
  refine onlyErr_bind (onlyErr_foldlM (fun bins b => ?_) _ _) (fun _ => onlyErr_ok _)
  unfold addCrossBin
  intro e' h
  split at h
  · cases h
  · split at h <;> cases h
    rfl

theorem onlyErr_resolveCross (known : Dict Nat) (cr : YCross) : OnlyErr .userError (resolveCross known cr) := by
  unfold resolveCross lookupCps
  refine onlyErr_bind (onlyErr_mapM (fun n => ?_) _) (fun _ => onlyErr_ok _)
  intro e' h
  split at h <;> cases h
  rfl

theorem onlyErr_recordInsts (w : Int) (is : List YInst) (o : Nat) (known : Dict Nat) :
    OnlyErr .userError (recordInsts w o known is) := by
  induction is generalizing o known with
  | nil => exact onlyErr_ok _
  | cons i t ih =>
    rw [recordInsts]
    refine onlyErr_bind ?_ (fun _ => onlyErr_bind (ih _ _) (fun _ => onlyErr_ok _))
    unfold recordInst
    exact onlyErr_bind (onlyErr_mapM (onlyErr_resolveCross _) _) (fun _ => onlyErr_ok _)

/-- The exception of a covergroup, in terms of the two conditions. -/
theorem processCg'_error (g : YCg) (e : Err) :
    processCg' g = .error e ↔
      (g.instances = none ∧ e = .typeError) ∨
      ∃ is, g.instances = some is ∧
        ((¬ CrossOk [] (allCrs is) ∧ e = .attributeError) ∨
         (CrossOk [] (allCrs is) ∧ ¬ Resolved (fun _ => False) is ∧ e = .userError)) := by
  have hok := processCg'_ok g
  cases hi : g.instances with
  | none =>
    have : processCg' g = .error .typeError := by unfold processCg'; rw [hi]; rfl
    simp [this, eq_comm]
  | some is =>
    simp only [reduceCtorEq, false_and, Option.some.injEq, exists_eq_left', false_or]
    by_cases hc : CrossOk [] (allCrs is)
    · by_cases hr : Resolved (fun _ => False) is
      · rw [(hok _).2 ⟨is, hi, hc, hr, rfl⟩]
        simp [hc, hr]
      · simp only [hc, hr, not_true, not_false_iff, false_and, true_and, false_or]
        cases hp : processCg' g with
        | ok r =>
          obtain ⟨is', hi', _, hr', _⟩ := (hok r).1 hp
          rw [hi] at hi'
          cases hi'
          exact absurd hr' hr
        | error a =>
          suffices a = .userError by subst this; simp [eq_comm]
          have hfold : (g.instances.getD []).foldlM typeInst ([], []) = .ok (tCps is, tCrs is) := by
            rw [hi]
            exact (foldlM_typeInst _ _ _).2 ⟨rfl, (foldlM_typeCross _ _ _).2 ⟨hc, rfl⟩⟩
          unfold processCg' at hp
          simp only [hfold] at hp
          refine onlyErr_bind (onlyErr_mapM (onlyErr_resolveCross _) _) (fun crs => ?_) a hp
          simp only [hi]
          exact onlyErr_bind (onlyErr_recordInsts _ _ _ _) (fun _ => onlyErr_ok _)
    · simp only [hc, not_false_iff, true_and, false_and, or_false]
      cases hf : (g.instances.getD []).foldlM typeInst ([], []) with
      | ok st =>
        rw [hi] at hf
        obtain ⟨_, h4⟩ := (foldlM_typeInst _ _ _).1 hf
        exact absurd ((foldlM_typeCross _ _ _).1 h4).1 hc
      | error a =>
        have := onlyErr_foldlM onlyErr_typeInst _ _ a hf
        subst this
        have : processCg' g = .error .attributeError := by unfold processCg'; simp only [hf]; rfl
        simp [this, eq_comm]

theorem crossOk_nil_iff (is : List YInst) : CrossOk [] (allCrs is) ↔
    ∀ c ∈ is.flatMap Spec.YInst.crs, c.bins.getD [] ≠ [] →
      ∀ f, (is.flatMap Spec.YInst.crs).find? (fun d => d.name = c.name) = some f → f.bins ≠ none := Iff.rfl

theorem resolved_false_iff (is : List YInst) : Resolved (fun _ => False) is ↔
    ∀ pre i post, is = pre ++ i :: post → ∀ cr ∈ Spec.YInst.crs i, ∀ n ∈ cr.coverpoints,
      ∃ j ∈ pre ++ [i], n ∈ (Spec.YInst.cps j).map (·.name) := by
  rw [resolved_iff]
  simp only [false_or]
  exact Iff.rfl

theorem processCg_error (g : YCg) (e : Err) : processCg g = .error e ↔ CgRefused g e := by
  have : processCg g = .error e ↔ processCg' g = .error e := by
    unfold processCg
    cases processCg' g <;> simp [Except.map]
  rw [this, processCg'_error]
  constructor
  · rintro (⟨h, rfl⟩ | ⟨is, hi, ⟨h, rfl⟩ | ⟨hc, h, rfl⟩⟩)
    · exact .noInstances h
    · rw [crossOk_nil_iff] at h
      push Not at h
      obtain ⟨c, hc, hb, f, hf, hn⟩ := h
      exact .noBinList is c f hi hc hb hf hn
    · rw [resolved_false_iff] at h
      push Not at h
      obtain ⟨pre, i, post, hs, cr, hcr, n, hn, hno⟩ := h
      exact .unknownName is pre post i cr n hi ((crossOk_nil_iff is).1 hc) hs hcr hn hno
  · intro h
    cases h with
    | noInstances h => exact .inl ⟨h, rfl⟩
    | noBinList is c f hi hc hb hf hn =>
      exact .inr ⟨is, hi, .inl ⟨fun h => (crossOk_nil_iff is).1 h c hc hb f hf hn, rfl⟩⟩
    | unknownName is pre post i cr n hi hc hs hcr hn hno =>
      refine .inr ⟨is, hi, .inr ⟨(crossOk_nil_iff is).2 hc, fun h => ?_, rfl⟩⟩
      obtain ⟨j, hj, hm⟩ := (resolved_false_iff is).1 h pre i post hs cr hcr n hn
      exact hno j hj hm

/-- A list of covergroups is read one after another. -/
theorem mapM_error {α β : Type} {f : α → Except Err β} (xs : List α) (e : Err) :
    xs.mapM f = .error e ↔ ∃ pre x post, xs = pre ++ x :: post ∧ (∀ y ∈ pre, ∃ b, f y = .ok b) ∧ f x = .error e := by
  induction xs with
  | nil => simp [pure, Except.pure]
  | cons a t ih =>
    rw [List.mapM_cons]
    cases ha : f a with
    | error e' =>
      constructor
      · intro h; cases h; exact ⟨[], a, t, rfl, by simp, ha⟩
      · rintro ⟨pre, x, post, hs, hp, hx⟩
        cases pre with
        | nil => cases hs; rw [ha] at hx; cases hx; rfl
        | cons p pre =>
          cases hs
          obtain ⟨b, hb⟩ := hp _ List.mem_cons_self
          rw [ha] at hb
          cases hb
    | ok b =>
      have : (Except.ok b >>= fun r => do let l ← t.mapM f; pure (r :: l) : Except Err (List β)) = .error e ↔ t.mapM f = .error e := by
        cases t.mapM f <;> simp [bind, Except.bind, pure, Except.pure]
      rw [this, ih]
      constructor
      · rintro ⟨pre, x, post, rfl, hp, hx⟩
        exact ⟨a :: pre, x, post, rfl, List.forall_mem_cons.2 ⟨⟨b, ha⟩, hp⟩, hx⟩
      · rintro ⟨pre, x, post, hs, hp, hx⟩
        cases pre with
        | nil => cases hs; rw [ha] at hx; cases hx
        | cons p pre =>
          cases hs
          exact ⟨pre, x, post, rfl, fun y hy => hp y (List.mem_cons_of_mem _ hy), hx⟩

/-- **C121**, loading YAML: the exception of a refused document is that of the first covergroup that cannot
be loaded. -/
theorem C121_load (j : Json) (e : Err) : load j = .error e ↔ LoadRefused j e := by
  by_cases hv : ∃ d, Says j d
  · obtain ⟨d, hd⟩ := hv
    have huniq : ∀ d', Says j d' → d' = d := fun d' h' => (dec_says h').symm.trans (dec_says hd)
    have hl : load j = loadDoc d := by
      unfold load
      rw [if_pos ((valid_iff_says j).2 ⟨d, hd⟩), dec_says hd]
    rw [hl]
    have hok : ∀ x : YCg, (∃ b, processCg x = .ok b) ↔ ∃ is, LoadableCg x is := by
      intro x
      constructor
      · rintro ⟨b, hb⟩; exact ((processCg_ok x b).1 hb).1
      · intro h; exact ⟨_, (processCg_ok x _).2 ⟨h, rfl⟩⟩
    constructor
    · intro h
      unfold loadDoc at h
      cases hc : d.coverage with
      | none => rw [hc] at h; cases h; exact .noCoverage d hd hc
      | some c =>
        rw [hc] at h
        have h' : (c.getD []).mapM processCg = .error e := by
          simp only at h
          cases hm : (c.getD []).mapM processCg with
          | ok s => rw [hm] at h; cases h
          | error a => rw [hm] at h; cases h; rfl
        obtain ⟨pre, g, post, hs, hp, hg⟩ := (mapM_error _ _).1 h'
        refine .group d pre post g e hd (by simp [hc]) ?_ (fun x hx => (hok x).1 (hp x hx)) ((processCg_error g e).1 hg)
        simp [docGroups, hc, hs]
    · intro h
      cases h with
      | notValid h => exact absurd ⟨d, hd⟩ h
      | noCoverage d' h' hc =>
        obtain rfl := huniq d' h'
        unfold loadDoc
        rw [hc]
      | group d' pre post g e h' hc hs hp hg =>
        obtain rfl := huniq d' h'
        unfold loadDoc
        cases hcv : d'.coverage with
        | none => exact absurd hcv hc
        | some c =>
          have : (c.getD []).mapM processCg = .error e := by
            refine (mapM_error _ _).2 ⟨pre, g, post, ?_, fun x hx => (hok x).2 (hp x hx), (processCg_error g e).2 hg⟩
            simpa [docGroups, hcv] using hs
          simp only [this]
          rfl
  · have hl : load j = .error .userError := by
      unfold load
      rw [if_neg (fun h => hv ((valid_iff_says j).1 h))]
    rw [hl]
    constructor
    · intro h; cases h; exact .notValid hv
    · intro h
      cases h with
      | notValid _ => rfl
      | noCoverage d h _ => exact absurd ⟨d, h⟩ hv
      | group d _ _ _ _ h => exact absurd ⟨d, h⟩ hv

/-- A document with two faulty covergroups: in the first a cross gets bins although its first occurrence
has no bin list, the second has no instances. -/
def exFaulty : YDoc :=
  ⟨some (some [⟨"ok", none, some []⟩,
    ⟨"cg", none, some [⟨"i0", some [⟨"a", none, [], none, none⟩], some [⟨"x", none, ["a"], none⟩]⟩,
      ⟨"i1", none, some [⟨"x", none, ["zz"], some [⟨"b", 1⟩]⟩]⟩]⟩,
    ⟨"bad", none, none⟩])⟩

/-- The faults cause the `AttributeError` of the first one, although a name is unknown as well. -/
example : (match load (encDoc exFaulty) with | .error e => some e | .ok _ => none) = some .attributeError := by
  rw [load_encode]
  decide +kernel

/-- And the relation says so: the hypotheses of `LoadRefused.group` are met. -/
example : LoadRefused (encDoc exFaulty) .attributeError :=
  .group exFaulty [⟨"ok", none, some []⟩] [⟨"bad", none, none⟩] _ _ (says_encode _) (by simp [exFaulty]) rfl
    (by
      intro x hx
      simp only [List.mem_singleton] at hx
      subst hx
      exact ⟨[], rfl, by intro pre i post h; simp at h, by intro c hc; simp at hc⟩)
    (.noBinList _ ⟨"x", none, ["zz"], some [⟨"b", 1⟩]⟩ ⟨"x", none, ["a"], none⟩ rfl
      (by simp [Spec.YInst.crs]) (by simp) (by simp [Spec.YInst.crs]) rfl)

end Yaml
end Verif
