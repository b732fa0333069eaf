import Verif.MergeReach
/-!
# What a merge leaves in its destination when it raises

`DbMerger` creates each destination scope before it fills it, so an exception leaves everything created so far in place
(`merge/db_merger.py:24-250`; there is no cleaning up).  `Merge.lean` returns only the exception.  The functions of this file are
those of `Merge.lean` once more, returning both: the children and items created below the destination scope, in the order
of creation, and the result.  `StoreMergeLeft.lean` shows that this is what the calls on the objects do.
-/

namespace Verif
namespace Merge

/-- What a function of the merger adds below its destination, and its result or exception. -/
structure Left (α : Type) where
  kids : List Scope
  items : List Item
  res : Except Err α

namespace Left

/-- Sequencing: what the first step added stays, the second only takes place if the first did not raise. -/
def bind {α β : Type} (x : Left α) (f : α → Left β) : Left β :=
  match x.res with
  | .ok a => ⟨x.kids ++ (f a).kids, x.items ++ (f a).items, (f a).res⟩
  | .error e => ⟨x.kids, x.items, .error e⟩

instance : Monad Left where
  pure a := ⟨[], [], .ok a⟩
  bind := bind

/-- A step that adds nothing. -/
def lift {α : Type} (x : Except Err α) : Left α := ⟨[], [], x⟩

/-- Creating a child scope with the header of `h` and then filling it. -/
def under {α : Type} (h : Scope) (x : Left α) : Left α := ⟨[{ h with children := x.kids, items := x.items }], [], x.res⟩

/-- Creating items. -/
def add (l : List Item) : Left Unit := ⟨[], l, .ok ()⟩

/-- A loop. -/
def each {α : Type} (f : α → Left Unit) : List α → Left Unit
  | [] => pure ()
  | a :: t => bind (f a) (fun _ => each f t)

end Left

/-- Bins of one kind: all counts are summed before the first bin is created (`db_merger.py:172-191`, `:231-250`). -/
def leftBinsOfKind (srcs : List Scope) (kind : Nat) : Left Unit := do
  let m ← Left.lift ((srcs.flatMap (fun s => s.coverItems kind)).foldlM binStep [])
  Left.add (m.map (fun e => mkBin e.1 kind e.2.2 e.2.1))

/-- `_merge_coverpoint_bins`, `_merge_cross` (`db_merger.py:169-191`, `:228-250`). -/
def leftBins (srcs : List Scope) : Left Unit := do
  leftBinsOfKind srcs CT.CVGBIN
  leftBinsOfKind srcs CT.IGNOREBIN
  leftBinsOfKind srcs CT.ILLEGALBIN

/-- Body of the second loop of `_merge_coverpoints` (`db_merger.py:155-165`). -/
def leftCoverpoint (e : String × List (Option Scope)) : Left Unit := do
  let l := present e.2
  let c0 ← Left.lift (listGetE l 0)
  Left.under (mkCoverpoint c0.name c0.src c0.weight []) (leftBins l)

/-- `_merge_coverpoints` (`db_merger.py:140-167`).  The dictionary it returns has a key for each name grouped. -/
def leftCoverpoints (srcs : List Scope) : Left (List String) := do
  Left.each leftCoverpoint (collect ST.COVERPOINT srcs)
  pure ((collect ST.COVERPOINT srcs).map (·.1))

/-- Body of the second loop of `_merge_crosses` (`db_merger.py:206-226`): the crossed coverpoints are looked up before the
cross is created. -/
def leftCross (dstCps : List String) (e : String × List Scope) : Left Unit := do
  let c0 ← Left.lift (listGetE e.2 0)
  match c0.cps with
  | none => Left.lift (.error .attributeError)
  | some cpNames => do
    let cps ← Left.lift (cpNames.mapM (resolveCp dstCps))
    Left.under (mkCross e.1 c0.src c0.weight cps []) (leftBins e.2)

/-- `_merge_crosses` (`db_merger.py:193-226`). -/
def leftCrosses (dstCps : List String) (srcs : List Scope) : Left Unit :=
  Left.each (leftCross dstCps) (collectCross srcs)

/-- Body of the second loop of `_merge_coverinsts` (`db_merger.py:128-138`). -/
def leftCoverinst (e : String × List (Option Scope)) : Left Unit := do
  let l := present e.2
  let c0 ← Left.lift (listGetE l 0)
  Left.under (mkCoverInst e.1 c0.src c0.weight []) (do
    let names ← leftCoverpoints l
    leftCrosses names l)

/-- `_merge_coverinsts` (`db_merger.py:113-138`). -/
def leftCoverinsts (srcs : List Scope) : Left Unit := Left.each leftCoverinst (collect ST.COVERINSTANCE srcs)

/-- `_merge_covergroup` (`db_merger.py:105-111`). -/
def leftCovergroupBody (srcs : List Scope) : Left Unit := do
  let names ← leftCoverpoints srcs
  leftCrosses names srcs
  leftCoverinsts srcs

/-- Body of the second loop of `_merge_covergroups` (`db_merger.py:94-103`). -/
def leftCovergroup (e : String × List (Option Scope)) : Left Unit := do
  let l := present e.2
  let c0 ← Left.lift (listGetE l 0)
  Left.under (mkCovergroup c0.name c0.src c0.weight []) (leftCovergroupBody l)

/-- `_merge_covergroups` (`db_merger.py:79-103`). -/
def leftCovergroups (srcs : List Scope) : Left Unit := Left.each leftCovergroup (collect ST.COVERGROUP srcs)

/-- Body of the second loop of `merge` (`db_merger.py:47-77`): design unit, instance, content of the instance. -/
def leftInstance (e : String × List (Option Scope)) : Left Unit := do
  let l := present e.2
  let s0 ← Left.lift (listGetE l 0)
  match s0.du with
  | none => Left.lift (.error .attributeError)
  | some du => do
    Left.under (mkDu du.name du.src du.weight) (pure ())
    Left.under (mkInstance s0.name s0.src 1 (some du) []) (leftCovergroups l)

/-- `DbMerger.merge` (`db_merger.py:24-77`). -/
def leftMerge (srcs : List Scope) : Left Unit := Left.each leftInstance (collect ST.INSTANCE srcs)

/-! ## Agreement with `Merge.lean` -/

/-- Same exception, or results and additions related by `P`. -/
def Agree {α β : Type} (l : Left α) (x : Except Err β) (P : α → β → List Scope → List Item → Prop) : Prop :=
  match l.res, x with
  | .ok a, .ok b => P a b l.kids l.items
  | .error e, .error e' => e = e'
  | _, _ => False

theorem Agree.bind {α β γ δ : Type} {l : Left α} {x : Except Err β} {P : α → β → List Scope → List Item → Prop} {f : α → Left γ} {g : β → Except Err δ}
    {Q : γ → δ → List Scope → List Item → Prop} (h : Agree l x P)
    (hf : ∀ a b k i, P a b k i → Agree (f a) (g b) (fun c d k' i' => Q c d (k ++ k') (i ++ i'))) : Agree (l >>= f) (x >>= g) Q := by
  unfold Agree at h
  show Agree (Left.bind l f) (x >>= g) Q
  unfold Left.bind
  cases hl : l.res with
  | error e =>
    rw [hl] at h
    cases x with
    | error e' => cases h; exact rfl
    | ok b => exact h.elim
  | ok a =>
    rw [hl] at h
    cases x with
    | error e' => exact h.elim
    | ok b =>
      have := hf a b _ _ h
      unfold Agree at this ⊢
      show match (f a).res, g b with
        | .ok a, .ok b => _
        | .error e, .error e' => e = e'
        | _, _ => False
      exact this

theorem Agree.lift {α γ δ : Type} (x : Except Err α) {f : α → Left γ} {g : α → Except Err δ} {Q : γ → δ → List Scope → List Item → Prop}
    (hf : ∀ a, x = .ok a → Agree (f a) (g a) Q) : Agree (Left.lift x >>= f) (x >>= g) Q := by
  cases x with
  | error e => exact rfl
  | ok a =>
    have := hf a rfl
    unfold Agree at this ⊢
    exact this

theorem Agree.mono {α β : Type} {l : Left α} {x : Except Err β} {P Q : α → β → List Scope → List Item → Prop} (h : Agree l x P)
    (hq : ∀ a b k i, P a b k i → Q a b k i) : Agree l x Q := by
  unfold Agree at h ⊢
  split at h
  · exact hq _ _ _ _ h
  · exact h
  · exact h.elim

/-- Creating a scope and filling it. -/
theorem Agree.under {α β γ : Type} {h : Scope} {l : Left α} {x : Except Err β} {P : α → β → List Scope → List Item → Prop} {w : β → γ}
    {Q : α → γ → List Scope → List Item → Prop} (hl : Agree l x P)
    (hq : ∀ a b k i, P a b k i → Q a (w b) [{ h with children := k, items := i }] []) :
    Agree (Left.under h l) (x >>= fun b => pure (w b)) Q := by
  unfold Agree at hl
  cases hr : l.res with
  | error e =>
    rw [hr] at hl
    cases x with
    | error e' => cases hl; show Agree ⟨_, _, l.res⟩ _ _; rw [hr]; exact rfl
    | ok b => exact hl.elim
  | ok a =>
    rw [hr] at hl
    cases x with
    | error e' => exact hl.elim
    | ok b =>
      show Agree ⟨_, _, l.res⟩ _ _
      rw [hr]
      exact hq a b _ _ hl

theorem Agree.map {α β γ : Type} {l : Left α} {x : Except Err β} {P : α → β → List Scope → List Item → Prop} {w : β → γ}
    {Q : α → γ → List Scope → List Item → Prop} (hl : Agree l x P) (hq : ∀ a b k i, P a b k i → Q a (w b) k i) :
    Agree l (x >>= fun b => pure (w b)) Q := by
  unfold Agree at hl ⊢
  cases hr : l.res with
  | error e =>
    rw [hr] at hl
    cases x with
    | error e' => exact hl
    | ok b => exact hl.elim
  | ok a =>
    rw [hr] at hl
    cases x with
    | error e' => exact hl.elim
    | ok b => exact hq a b _ _ hl

theorem Agree.each {α β : Type} {f : α → Left Unit} {g : α → Except Err β} (out : β → List Scope) (l : List α)
    (h : ∀ a ∈ l, Agree (f a) (g a) (fun _ b k i => k = out b ∧ i = [])) :
    Agree (Left.each f l) (l.mapM g) (fun _ bs k i => k = bs.flatMap out ∧ i = []) := by
  induction l with
  | nil => exact ⟨rfl, rfl⟩
  | cons a t ih =>
    rw [List.mapM_cons]
    refine Agree.bind (f := fun _ => Left.each f t) (h a (by simp)) ?_
    rintro _ b k i ⟨rfl, rfl⟩
    refine Agree.map (ih (fun a ha => h a (by simp [ha]))) ?_
    rintro _ bs k i ⟨rfl, rfl⟩
    exact ⟨by simp, rfl⟩

theorem agree_binsOfKind (srcs : List Scope) (kind : Nat) :
    Agree (leftBinsOfKind srcs kind) (mergeBinsOfKind srcs kind) (fun _ its k i => k = [] ∧ i = its) :=
  Agree.lift _ (fun _ _ => ⟨rfl, rfl⟩)

theorem agree_bins (srcs : List Scope) : Agree (leftBins srcs) (mergeBins srcs) (fun _ its k i => k = [] ∧ i = its) := by
  refine Agree.bind (agree_binsOfKind _ _) ?_
  rintro _ a k i ⟨rfl, rfl⟩
  refine Agree.bind (agree_binsOfKind _ _) ?_
  rintro _ b k i' ⟨rfl, rfl⟩
  refine Agree.map (agree_binsOfKind _ _) ?_
  rintro _ c k i' ⟨rfl, rfl⟩
  exact ⟨rfl, by simp⟩

theorem agree_coverpoint (e : String × List (Option Scope)) :
    Agree (leftCoverpoint e) (mergeCoverpoint e) (fun _ v k i => k = [v] ∧ i = []) := by
  refine Agree.lift _ (fun c0 _ => Agree.under (agree_bins _) ?_)
  rintro _ its k i ⟨rfl, rfl⟩
  exact ⟨rfl, rfl⟩

theorem agree_coverpoints (srcs : List Scope) :
    Agree (leftCoverpoints srcs) (mergeCoverpoints srcs) (fun ns vs k i => ns = vs.map (·.name) ∧ k = vs ∧ i = []) := by
  have h := Agree.each (fun v => [v]) (collect ST.COVERPOINT srcs) (fun e _ => agree_coverpoint e)
  unfold leftCoverpoints
  have hn : ∀ vs, mergeCoverpoints srcs = .ok vs → (collect ST.COVERPOINT srcs).map (·.1) = vs.map (·.name) := by
    intro vs hvs
    rw [collect_closed]
    by_cases hok : cpsOk srcs
    · rw [(mergeCoverpoints_closed srcs).1 hok] at hvs
      cases hvs
      rw [names_pCoverpoints]
      simp [Function.comp_def]
    · rw [(mergeCoverpoints_closed srcs).2 hok] at hvs
      cases hvs
  show Agree (Left.bind _ _) _ _
  unfold mergeCoverpoints at hn ⊢
  unfold Agree at h ⊢
  unfold Left.bind
  cases hr : (Left.each leftCoverpoint (collect ST.COVERPOINT srcs)).res with
  | error e =>
    rw [hr] at h
    cases hm : (collect ST.COVERPOINT srcs).mapM mergeCoverpoint with
    | error e => rw [hm] at h; exact h
    | ok vs => rw [hm] at h; exact h.elim
  | ok u =>
    rw [hr] at h
    cases hm : (collect ST.COVERPOINT srcs).mapM mergeCoverpoint with
    | error e => rw [hm] at h; exact h.elim
    | ok vs =>
      rw [hm] at h
      obtain ⟨h1, h2⟩ := h
      refine ⟨hn vs hm, ?_, ?_⟩
      · show _ ++ [] = _
        rw [h1]; simp
      · show _ ++ [] = _
        rw [h2]; rfl

theorem agree_cross (ns : List String) (e : String × List Scope) :
    Agree (leftCross ns e) (mergeCross ns e) (fun _ v k i => k = [v] ∧ i = []) := by
  refine Agree.lift _ (fun c0 _ => ?_)
  cases c0.cps with
  | none => exact rfl
  | some l =>
    refine Agree.lift _ (fun cps _ => Agree.under (agree_bins _) ?_)
    rintro _ its k i ⟨rfl, rfl⟩
    exact ⟨rfl, rfl⟩

theorem agree_crosses (ns : List String) (srcs : List Scope) :
    Agree (leftCrosses ns srcs) (mergeCrosses ns srcs) (fun _ vs k i => k = vs ∧ i = []) :=
  (Agree.each (fun v => [v]) _ (fun e _ => agree_cross ns e)).mono (by rintro _ vs k i ⟨rfl, rfl⟩; exact ⟨by simp, rfl⟩)

theorem agree_coverinst (e : String × List (Option Scope)) :
    Agree (leftCoverinst e) (mergeCoverinst e) (fun _ v k i => k = [v] ∧ i = []) := by
  refine Agree.lift _ (fun c0 _ => ?_)
  have hbody : Agree (leftCoverpoints (present e.2) >>= fun ns => leftCrosses ns (present e.2))
      (mergeCoverpoints (present e.2) >>= fun cps => mergeCrosses (cps.map (·.name)) (present e.2) >>= fun crs =>
        (pure (cps ++ crs) : Except Err (List Scope))) (fun _ vs k i => k = vs ∧ i = []) := by
    refine Agree.bind (agree_coverpoints _) ?_
    rintro _ cps k i ⟨rfl, rfl, rfl⟩
    refine Agree.map (agree_crosses _ _) ?_
    rintro _ crs k i ⟨rfl, rfl⟩
    exact ⟨rfl, rfl⟩
  have := Agree.under (h := mkCoverInst e.1 c0.src c0.weight []) (w := fun ch => mkCoverInst e.1 c0.src c0.weight ch)
    (Q := fun _ v k i => k = [v] ∧ i = []) hbody (by rintro _ vs k i ⟨rfl, rfl⟩; exact ⟨rfl, rfl⟩)
  simp only [bind_assoc, pure_bind] at this
  exact this

theorem agree_coverinsts (srcs : List Scope) :
    Agree (leftCoverinsts srcs) (mergeCoverinsts srcs) (fun _ vs k i => k = vs ∧ i = []) :=
  (Agree.each (fun v => [v]) _ (fun e _ => agree_coverinst e)).mono (by rintro _ vs k i ⟨rfl, rfl⟩; exact ⟨by simp, rfl⟩)

theorem agree_covergroupBody (srcs : List Scope) :
    Agree (leftCovergroupBody srcs) (mergeCovergroupBody srcs) (fun _ vs k i => k = vs ∧ i = []) := by
  refine Agree.bind (agree_coverpoints _) ?_
  rintro _ cps k i ⟨rfl, rfl, rfl⟩
  refine Agree.bind (agree_crosses _ _) ?_
  rintro _ crs k i ⟨rfl, rfl⟩
  refine Agree.map (agree_coverinsts _) ?_
  rintro _ crs k i ⟨rfl, rfl⟩
  exact ⟨by simp, rfl⟩

theorem agree_covergroup (e : String × List (Option Scope)) :
    Agree (leftCovergroup e) (mergeCovergroup e) (fun _ v k i => k = [v] ∧ i = []) := by
  refine Agree.lift _ (fun c0 _ => Agree.under (agree_covergroupBody _) ?_)
  rintro _ its k i ⟨rfl, rfl⟩
  exact ⟨rfl, rfl⟩

theorem agree_covergroups (srcs : List Scope) :
    Agree (leftCovergroups srcs) (mergeCovergroups srcs) (fun _ vs k i => k = vs ∧ i = []) :=
  (Agree.each (fun v => [v]) _ (fun e _ => agree_covergroup e)).mono (by rintro _ vs k i ⟨rfl, rfl⟩; exact ⟨by simp, rfl⟩)

theorem agree_instance (e : String × List (Option Scope)) :
    Agree (leftInstance e) (mergeInstance e) (fun _ vs k i => k = vs ∧ i = []) := by
  refine Agree.lift _ (fun s0 _ => ?_)
  cases s0.du with
  | none => exact rfl
  | some du =>
    have := Agree.under (h := mkInstance s0.name s0.src 1 (some du) []) (w := fun cgs => [mkDu du.name du.src du.weight, mkInstance s0.name s0.src 1 (some du) cgs])
      (Q := fun _ vs k i => mkDu du.name du.src du.weight :: k = vs ∧ i = []) (agree_covergroups (present e.2)) (by rintro _ vs k i ⟨rfl, rfl⟩; exact ⟨rfl, rfl⟩)
    unfold Agree at this ⊢
    exact this

theorem agree_merge (srcs : List Scope) :
    Agree (leftMerge srcs) ((collect ST.INSTANCE srcs).mapM mergeInstance) (fun _ vs k i => k = vs.flatten ∧ i = []) :=
  (Agree.each id _ (fun e _ => agree_instance e)).mono (by rintro _ vs k i ⟨rfl, rfl⟩; exact ⟨by simp, rfl⟩)

/-- The merge succeeds exactly if this one does, and then with the same scopes. -/
theorem merge_left (dst : Scope) (srcs : List Scope) :
    merge dst srcs = (leftMerge srcs).res.map (fun _ => { dst with children := dst.children ++ (leftMerge srcs).kids }) := by
  have h := agree_merge srcs
  unfold Agree at h
  unfold merge
  cases hr : (leftMerge srcs).res with
  | error e =>
    rw [hr] at h
    cases hm : (collect ST.INSTANCE srcs).mapM mergeInstance with
    | error e' => rw [hm] at h; cases h; rfl
    | ok b => rw [hm] at h; exact h.elim
  | ok a =>
    rw [hr] at h
    cases hm : (collect ST.INSTANCE srcs).mapM mergeInstance with
    | error e' => rw [hm] at h; exact h.elim
    | ok b =>
      rw [hm] at h
      obtain ⟨h1, _⟩ := h
      rw [h1]
      rfl

end Merge

namespace Spec

/-- The first list of trees is a beginning of the second: complete trees, then possibly one tree that itself has only a beginning of the
children and items. -/
inductive CutL : List Scope → List Scope → Prop
  | none (l : List Scope) : CutL [] l
  | part {a b : Scope} {t : List Scope} (hh : { a with children := b.children, items := b.items } = b) (hi : a.items <+: b.items)
      (hc : CutL a.children b.children) : CutL [a] (b :: t)
  | cons (a : Scope) {t t' : List Scope} (h : CutL t t') : CutL (a :: t) (a :: t')

/-- A database with only the top-level scopes of one name. -/
def onlyNamed (i : String) (db : Scope) : Scope := { db with children := db.children.filter (fun c => decide (c.name = i)) }

end Spec

namespace Merge
open Spec

theorem cutL_refl (l : List Scope) : CutL l l := by
  induction l with
  | nil => exact .none _
  | cons a t ih => exact .cons a ih

theorem CutL.append_right {a b : List Scope} (h : CutL a b) (c : List Scope) : CutL a (b ++ c) := by
  induction h with
  | none l => exact .none _
  | part hh hi hc _ => exact .part hh hi hc
  | cons a _ ih => exact .cons a ih

theorem CutL.append_left (c : List Scope) {a b : List Scope} (h : CutL a b) : CutL (c ++ a) (c ++ b) := by
  induction c with
  | nil => exact h
  | cons x t ih => exact .cons x ih

/-- What is added is `ch` and `its`, or a beginning of them if an exception is raised. -/
def Fits {α : Type} (x : Left α) (ch : List Scope) (its : List Item) : Prop :=
  match x.res with
  | .ok _ => x.kids = ch ∧ x.items = its
  | .error _ => CutL x.kids ch ∧ x.items <+: its

theorem Fits.bind {α β : Type} {x : Left α} {f : α → Left β} {ch ch' : List Scope} {its its' : List Item} (hx : Fits x ch its)
    (hf : ∀ a, x.res = .ok a → Fits (f a) ch' its') : Fits (x >>= f) (ch ++ ch') (its ++ its') := by
  show Fits (Left.bind x f) _ _
  unfold Fits at hx
  unfold Left.bind
  cases hr : x.res with
  | error e =>
    rw [hr] at hx
    exact ⟨CutL.append_right hx.1 _, hx.2.trans (List.prefix_append _ _)⟩
  | ok a =>
    rw [hr] at hx
    obtain ⟨rfl, rfl⟩ := hx
    have := hf a hr
    unfold Fits at this ⊢
    show match (f a).res with
      | .ok _ => _
      | .error _ => _
    cases hr' : (f a).res with
    | error e => rw [hr'] at this; exact ⟨CutL.append_left _ this.1, (List.prefix_append_right_inj _).2 this.2⟩
    | ok b => rw [hr'] at this; exact ⟨by rw [← this.1], by rw [← this.2]⟩

theorem Fits.lift {α β : Type} {x : Except Err α} {f : α → Left β} {ch : List Scope} {its : List Item}
    (hf : ∀ a, x = .ok a → Fits (f a) ch its) : Fits (Left.lift x >>= f) ch its := by
  cases x with
  | error e => exact ⟨.none _, List.nil_prefix⟩
  | ok a => exact hf a rfl

theorem Fits.raise {α : Type} {e : Err} {ch : List Scope} {its : List Item} : Fits (Left.lift (.error e) : Left α) ch its :=
  ⟨.none _, List.nil_prefix⟩

theorem Fits.under {α : Type} {h : Scope} {x : Left α} {ch : List Scope} {its : List Item} (hx : Fits x ch its) :
    Fits (Left.under h x) [{ h with children := ch, items := its }] [] := by
  unfold Fits at hx ⊢
  show match x.res with
    | .ok _ => _
    | .error _ => _
  cases hr : x.res with
  | error e => rw [hr] at hx; exact ⟨.part rfl hx.2 hx.1, List.nil_prefix⟩
  | ok b => rw [hr] at hx; exact ⟨by rw [← hx.1, ← hx.2]; rfl, rfl⟩

theorem Fits.each {α : Type} {f : α → Left Unit} (g : α → List Scope) {l : List α} (h : ∀ a ∈ l, Fits (f a) (g a) []) :
    Fits (Left.each f l) (l.flatMap g) [] := by
  induction l with
  | nil => exact ⟨rfl, rfl⟩
  | cons a t ih =>
    exact Fits.bind (f := fun _ => Left.each f t) (h a (by simp)) (fun _ _ => ih (fun a ha => h a (by simp [ha])))

theorem fits_binsOfKind (srcs : List Scope) (kind : Nat) : Fits (leftBinsOfKind srcs kind) [] (pBinsOfKind (kindItems srcs kind) kind) := by
  refine Fits.lift (fun m hm => ?_)
  have h : mergeBinsOfKind srcs kind = .ok (m.map (fun e => mkBin e.1 kind e.2.2 e.2.1)) := by
    unfold mergeBinsOfKind
    rw [hm]
    rfl
  by_cases hok : binsOk (kindItems srcs kind)
  · rw [mergeBinsOfKind_ok hok] at h
    exact ⟨rfl, (Except.ok.inj h).symm⟩
  · rw [mergeBinsOfKind_err hok] at h
    cases h

theorem fits_bins (srcs : List Scope) : Fits (leftBins srcs) [] (pBins srcs) := by
  have := Fits.bind (fits_binsOfKind srcs CT.CVGBIN) (fun _ _ => Fits.bind (f := fun _ => leftBinsOfKind srcs CT.ILLEGALBIN)
    (fits_binsOfKind srcs CT.IGNOREBIN) (fun _ _ => fits_binsOfKind srcs CT.ILLEGALBIN))
  unfold pBins
  rw [List.append_assoc]
  exact this

theorem head_of_getE {l : List Scope} {c : Scope} (h : listGetE l 0 = .ok c) : l.head? = some c := by
  cases l with
  | nil => cases h
  | cons a t => cases h; rfl

/-- The loops over grouped scopes. -/
theorem fits_grouped {f : String × List (Option Scope) → Left Unit} {mask : Nat} {srcs : List Scope} (g : String → List Scope)
    (h : ∀ k c, c.name = k → (named mask srcs k).head? = some c → Fits (f (k, srcs.map (fun s => lastNamed k (s.scopes mask)))) (g k) []) :
    Fits (Left.each f (collect mask srcs)) ((childNames mask srcs).flatMap g) [] := by
  rw [collect_closed]
  have := Fits.each (f := f) (l := (childNames mask srcs).map (fun k => (k, srcs.map (fun s => lastNamed k (s.scopes mask))))) (fun e => g e.1)
    (by
      intro e he
      obtain ⟨k, hk, rfl⟩ := List.mem_map.1 he
      obtain ⟨c, hc, _⟩ := listGetE_zero (named_ne_nil hk)
      exact h k c (named_name (List.mem_of_mem_head? hc)) hc)
  rw [List.flatMap_map] at this
  exact this

/-- The same where the body creates one scope. -/
theorem fits_grouped_one {f : String × List (Option Scope) → Left Unit} {mask : Nat} {srcs : List Scope} (g : String → Scope)
    (h : ∀ k c, c.name = k → (named mask srcs k).head? = some c → Fits (f (k, srcs.map (fun s => lastNamed k (s.scopes mask)))) [g k] []) :
    Fits (Left.each f (collect mask srcs)) ((childNames mask srcs).map g) [] := by
  rw [List.map_eq_flatMap]
  exact fits_grouped _ h

theorem fits_coverpoints (srcs : List Scope) : Fits (leftCoverpoints srcs) (pCoverpoints srcs) [] := by
  have h1 : Fits (Left.each leftCoverpoint (collect ST.COVERPOINT srcs)) (pCoverpoints srcs) [] := by
    refine fits_grouped_one _ (fun k c hn hc => Fits.lift (fun c0 h0 => ?_))
    rw [present_slots] at h0 ⊢
    have := head_of_getE h0
    rw [hc] at this
    cases this
    have := Fits.under (h := mkCoverpoint c.name c.src c.weight []) (fits_bins (named ST.COVERPOINT srcs k))
    simp only [pCoverpoint, headSrc, headWeight, hc]
    rw [hn] at this ⊢
    exact this
  have := Fits.bind (f := fun _ => (pure ((collect ST.COVERPOINT srcs).map (·.1)) : Left (List String))) (ch' := []) (its' := []) h1 (fun _ _ => ⟨rfl, rfl⟩)
  rw [List.append_nil] at this
  exact this

theorem mapM_resolve {dst l r : List String} (h : l.mapM (resolveCp dst) = .ok r) : r = l := by
  induction l generalizing r with
  | nil => cases h; rfl
  | cons a t ih =>
    rw [List.mapM_cons] at h
    unfold resolveCp at h
    split at h
    · cases ht : t.mapM (resolveCp dst) with
      | error e =>
        rw [show (fun n => if n ∈ dst then (Except.ok n : Except Err String) else Except.error Err.attributeError) = resolveCp dst from rfl, ht] at h
        cases h
      | ok r' =>
        rw [show (fun n => if n ∈ dst then (Except.ok n : Except Err String) else Except.error Err.attributeError) = resolveCp dst from rfl, ht] at h
        cases h
        rw [ih ht]
    · cases h

theorem fits_crosses (dst : List String) (srcs : List Scope) : Fits (leftCrosses dst srcs) (pCrosses srcs) [] := by
  unfold leftCrosses pCrosses
  rw [collectCross_closed, List.map_eq_flatMap (f := pCross srcs)]
  have := Fits.each (f := leftCross dst) (l := (childNames ST.CROSS srcs).map (fun k => (k, crossesNamed srcs k))) (fun e => [pCross srcs e.1])
    (by
      intro e he
      obtain ⟨k, hk, rfl⟩ := List.mem_map.1 he
      refine Fits.lift (fun c0 h0 => ?_)
      have hc := head_of_getE h0
      cases hcps : c0.cps with
      | none => exact Fits.raise
      | some cps =>
        refine Fits.lift (fun r hr => ?_)
        rw [mapM_resolve hr]
        have := Fits.under (h := mkCross k c0.src c0.weight cps []) (fits_bins (crossesNamed srcs k))
        simp only [pCross, headSrc, headWeight, headCps, hc]
        simp only [Option.map_some, Option.bind_some, hcps, Option.getD_some]
        exact this)
  rw [List.flatMap_map] at this
  exact this

theorem fits_items (srcs : List Scope) :
    Fits (leftCoverpoints srcs >>= fun names => leftCrosses names srcs) (pCoverpoints srcs ++ pCrosses srcs) [] :=
  Fits.bind (fits_coverpoints srcs) (fun _ _ => fits_crosses _ srcs)

theorem fits_coverinsts (srcs : List Scope) : Fits (leftCoverinsts srcs) (pCoverinsts srcs) [] := by
  refine fits_grouped_one _ (fun k c hn hc => Fits.lift (fun c0 h0 => ?_))
  rw [present_slots] at h0 ⊢
  have := head_of_getE h0
  rw [hc] at this
  cases this
  have := Fits.under (h := mkCoverInst k c.src c.weight []) (fits_items (named ST.COVERINSTANCE srcs k))
  simp only [pCoverinst, headSrc, headWeight, hc]
  exact this

theorem fits_covergroupBody (srcs : List Scope) : Fits (leftCovergroupBody srcs) (pCovergroupBody srcs) [] := by
  have := Fits.bind (fits_coverpoints srcs) (fun names _ => Fits.bind (f := fun _ => leftCoverinsts srcs) (fits_crosses names srcs)
    (fun _ _ => fits_coverinsts srcs))
  unfold pCovergroupBody
  rw [List.append_assoc]
  exact this

theorem fits_covergroups (srcs : List Scope) : Fits (leftCovergroups srcs) (pCovergroups srcs) [] := by
  refine fits_grouped_one _ (fun k c hn hc => Fits.lift (fun c0 h0 => ?_))
  rw [present_slots] at h0 ⊢
  have := head_of_getE h0
  rw [hc] at this
  cases this
  have := Fits.under (h := mkCovergroup c.name c.src c.weight []) (fits_covergroupBody (named ST.COVERGROUP srcs k))
  simp only [pCovergroup, headSrc, headWeight, hc]
  rw [hn] at this ⊢
  exact this

theorem fits_instance {srcs : List Scope} (k : String) (c : Scope) (hn : c.name = k) (hc : (named ST.INSTANCE srcs k).head? = some c) :
    Fits (leftInstance (k, srcs.map (fun s => lastNamed k (s.scopes ST.INSTANCE)))) (pInstance srcs k) [] := by
  refine Fits.lift (fun c0 h0 => ?_)
  rw [present_slots] at h0 ⊢
  have := head_of_getE h0
  rw [hc] at this
  cases this
  cases hdu : c.du with
  | none => exact Fits.raise
  | some du =>
    have h2 := Fits.under (h := mkInstance c.name c.src 1 (some du) []) (fits_covergroups (named ST.INSTANCE srcs k))
    have h1 : Fits (Left.under (mkDu du.name du.src du.weight) (pure ())) [mkDu du.name du.src du.weight] [] := ⟨rfl, rfl⟩
    have := Fits.bind (f := fun _ => Left.under (mkInstance c.name c.src 1 (some du) []) (leftCovergroups (named ST.INSTANCE srcs k))) h1 (fun _ _ => h2)
    simp only [pInstance, headSrc, headDu, hc, Option.map_some, Option.bind_some, hdu, Option.getD_some]
    rw [hn] at this ⊢
    exact this

theorem fits_merge (srcs : List Scope) : Fits (leftMerge srcs) ((childNames ST.INSTANCE srcs).flatMap (pInstance srcs)) [] :=
  fits_grouped _ (fun k c hn hc => fits_instance k c hn hc)

/-! ## Bins of a beginning -/

theorem itemsOf_append (k : Nat) (n : String) (l m : List Scope) : itemsOf k n (l ++ m) = itemsOf k n l ++ itemsOf k n m := by
  simp [itemsOf]

/-- The bins an address leads to below a list of trees. -/
theorem cut_bins {a b : List Scope} (h : CutL a b) (st : Step) (p : Addr) (k : Nat) (n : String) :
    itemsOf k n ((a.filter (fun c => maskHit c.stype st.1 && decide (c.name = st.2))).flatMap (reach p)) <+:
      itemsOf k n ((b.filter (fun c => maskHit c.stype st.1 && decide (c.name = st.2))).flatMap (reach p)) := by
  induction p generalizing a b st with
  | nil =>
    induction h with
    | none l => exact List.nil_prefix
    | cons a _ ih =>
      simp only [List.filter_cons]
      split
      · simp only [List.flatMap_cons, itemsOf_append]
        exact (List.prefix_append_right_inj _).2 ih
      · exact ih
    | @part a b t hh hi hc _ =>
      have h1 : b.stype = a.stype := by rw [← hh]
      have h2 : b.name = a.name := by rw [← hh]
      simp only [List.filter_cons, h1, h2]
      split
      · simp only [List.flatMap_cons, itemsOf_append, List.filter_nil, List.flatMap_nil]
        refine List.IsPrefix.trans ?_ (List.prefix_append _ _)
        simp only [reach, itemsOf, List.flatMap_nil, List.append_nil, List.flatMap_cons]
        exact hi.filter _
      · exact List.nil_prefix
  | cons st' q ihp =>
    induction h with
    | none l => exact List.nil_prefix
    | cons a _ ih =>
      simp only [List.filter_cons]
      split
      · simp only [List.flatMap_cons, itemsOf_append]
        exact (List.prefix_append_right_inj _).2 ih
      · exact ih
    | @part a b t hh hi hc _ =>
      have h1 : b.stype = a.stype := by rw [← hh]
      have h2 : b.name = a.name := by rw [← hh]
      simp only [List.filter_cons, h1, h2]
      split
      · simp only [List.flatMap_cons, itemsOf_append, List.filter_nil, List.flatMap_nil]
        refine List.IsPrefix.trans ?_ (List.prefix_append _ _)
        rw [show itemsOf k n [] = [] from rfl, List.append_nil]
        exact ihp hc st'
      · exact List.nil_prefix

/-- The destination after a merge, whether it raised or not. -/
def leftIn (dst : Scope) (srcs : List Scope) : Scope := { dst with children := dst.children ++ (leftMerge srcs).kids }

theorem leftMerge_items (srcs : List Scope) : (leftMerge srcs).items = [] := by
  have h := fits_merge srcs
  unfold Fits at h
  split at h
  · exact h.2
  · exact List.prefix_nil.1 h.2

theorem leftIn_cut (dst : Scope) (srcs : List Scope) : CutL (leftIn dst srcs).children (pMerge dst srcs).children := by
  have h := fits_merge srcs
  unfold Fits at h
  refine CutL.append_left _ ?_
  split at h
  · rw [h.1]; exact cutL_refl _
  · exact h.1

/-- At a leaf address, the merge has added the bin with the complete sum, or nothing. -/
theorem binsAt_left {p : Addr} (hp : LeafAddr p) {k : Nat} (hk : IsKind k) (b : String) (dst : Scope) (srcs : List Scope) :
    binsAt p k b (leftIn dst srcs) = binsAt p k b dst ∨
    (itemsOf k b (contrib p srcs) ≠ [] ∧ binsAt p k b (leftIn dst srcs) = binsAt p k b dst ++
      [mkBin b k ((((itemsOf k b (contrib p srcs)).head?).bind (·.atLeast)).getD 0) (sumCounts (itemsOf k b (contrib p srcs)))]) := by
  obtain ⟨st, q, rfl⟩ : ∃ st q, p = st :: q := by
    cases hp with
    | cp hg n => cases hg <;> exact ⟨_, _, rfl⟩
    | cross hg n => cases hg <;> exact ⟨_, _, rfl⟩
  have h1 : binsAt (st :: q) k b (leftIn dst srcs) <+: binsAt (st :: q) k b (pMerge dst srcs) := cut_bins (leftIn_cut dst srcs) st q k b
  have h2 : binsAt (st :: q) k b dst <+: binsAt (st :: q) k b (leftIn dst srcs) := by
    unfold binsAt reach childrenAt leftIn
    rw [List.filter_append, List.flatMap_append, itemsOf_append]
    exact List.prefix_append _ _
  rw [binsAt_merge hp hk] at h1
  obtain ⟨t, ht⟩ := h2
  rw [← ht] at h1 ⊢
  rw [List.prefix_append_right_inj] at h1
  split at h1
  · rw [List.prefix_nil.1 h1]; exact .inl (by simp)
  · rename_i hne
    rcases t with _ | ⟨x, t⟩
    · exact .inl (by simp)
    · obtain ⟨u, hu⟩ := h1
      simp only [List.cons_append, List.cons.injEq, List.append_eq_nil_iff] at hu
      obtain ⟨rfl, rfl, _⟩ := hu
      exact .inr ⟨hne, rfl⟩

/-! ## Which instance failed -/

theorem each_error {α : Type} {f : α → Left Unit} {l : List α} {e : Err} (h : (Left.each f l).res = .error e) :
    ∃ l1 a l2, l = l1 ++ a :: l2 ∧ (∀ b ∈ l1, (f b).res = .ok ()) ∧ (f a).res = .error e ∧
      (Left.each f l).kids = l1.flatMap (fun b => (f b).kids) ++ (f a).kids := by
  induction l with
  | nil => cases h
  | cons a t ih =>
    unfold Left.each Left.bind at h ⊢
    cases hr : (f a).res with
    | error e' =>
      rw [hr] at h
      cases h
      exact ⟨[], a, t, rfl, by simp, hr, by simp⟩
    | ok u =>
      rw [hr] at h
      obtain ⟨l1, a', l2, rfl, h1, h2, h3⟩ := ih h
      refine ⟨a :: l1, a', l2, rfl, ?_, h2, ?_⟩
      · intro b hb
        rcases List.mem_cons.1 hb with rfl | hb
        · exact hr
        · exact h1 b hb
      · simp [h3]

theorem cut_filter {a b : List Scope} (h : CutL a b) {st : Step} (hb : b.filter (fun c => maskHit c.stype st.1 && decide (c.name = st.2)) = []) :
    a.filter (fun c => maskHit c.stype st.1 && decide (c.name = st.2)) = [] := by
  induction h with
  | none l => rfl
  | @part a b t hh hi hc _ =>
    have h1 : b.stype = a.stype := by rw [← hh]
    have h2 : b.name = a.name := by rw [← hh]
    rw [List.filter_cons, h1, h2] at hb
    split at hb
    · cases hb
    · rename_i hn
      rw [List.filter_cons, if_neg hn]
      rfl
  | cons a _ ih =>
    rw [List.filter_cons] at hb ⊢
    split at hb
    · cases hb
    · rename_i hn
      rw [if_neg hn]
      exact ih hb

theorem pInstance_other {srcs : List Scope} {k i : String} (h : k ≠ i) :
    (pInstance srcs k).filter (fun c => maskHit c.stype ST.INSTANCE && decide (c.name = i)) = [] := by
  have h1 : maskHit ST.DU_MODULE ST.INSTANCE = false := by decide
  simp [pInstance, mkDu, mkInstance, h1, h]

theorem pInstances_other {srcs : List Scope} {l : List String} {i : String} (h : i ∉ l) :
    (l.flatMap (pInstance srcs)).filter (fun c => maskHit c.stype ST.INSTANCE && decide (c.name = i)) = [] := by
  rw [List.filter_flatMap, List.flatMap_eq_nil_iff]
  exact fun k hk => pInstance_other (fun e => h (e ▸ hk))

theorem firstSeen_same {i : String} {l : List String} (h : ∀ x ∈ l, x = i) (hne : l ≠ []) : firstSeen l = [i] := by
  cases l with
  | nil => exact absurd rfl hne
  | cons a t =>
    obtain rfl := h a (by simp)
    rw [firstSeen, List.filter_eq_nil_iff.2]
    intro x hx
    rw [mem_firstSeen] at hx
    simp [h x (by simp [hx])]

theorem named_onlyNamed (m : Nat) (i : String) (srcs : List Scope) : named m (srcs.map (onlyNamed i)) i = named m srcs i := by
  unfold named
  rw [List.filterMap_map]
  congr 1
  funext s
  simp only [Function.comp_apply, lastNamed, Scope.scopes, onlyNamed, List.filter_filter]
  congr 2
  funext c
  by_cases h : c.name = i <;> simp [h]

/-- Merging what the inputs hold under one instance name. -/
theorem leftMerge_only {srcs : List Scope} {i : String} (hi : i ∈ childNames ST.INSTANCE srcs) :
    (leftMerge (srcs.map (onlyNamed i))).res = (leftInstance (i, srcs.map (fun s => lastNamed i (s.scopes ST.INSTANCE)))).res := by
  have hne := named_ne_nil hi
  have hnames : childNames ST.INSTANCE (srcs.map (onlyNamed i)) = [i] := by
    refine firstSeen_same ?_ ?_
    · intro x hx
      simp only [List.mem_flatMap, List.mem_map] at hx
      obtain ⟨_, ⟨s, _, rfl⟩, c, hc, rfl⟩ := hx
      simp only [Scope.scopes, onlyNamed, List.filter_filter, List.mem_filter, Bool.and_eq_true, decide_eq_true_eq] at hc
      exact hc.2.2
    · intro hnil
      have : named ST.INSTANCE (srcs.map (onlyNamed i)) i = [] := by
        unfold named
        rw [List.filterMap_eq_nil_iff]
        intro s hs
        have h0 : (s.scopes ST.INSTANCE).map (·.name) = [] := List.flatMap_eq_nil_iff.1 hnil s hs
        rw [List.map_eq_nil_iff] at h0
        rw [h0]
        rfl
      rw [named_onlyNamed] at this
      exact hne this
  unfold leftMerge
  rw [collect_closed, hnames]
  show (Left.bind (leftInstance _) (fun _ => pure ())).res = _
  have hsame : leftInstance (i, (srcs.map (onlyNamed i)).map (fun s => lastNamed i (s.scopes ST.INSTANCE))) =
      leftInstance (i, srcs.map (fun s => lastNamed i (s.scopes ST.INSTANCE))) := by
    unfold leftInstance
    simp only
    rw [present_slots, present_slots, named_onlyNamed]
  rw [hsame]
  unfold Left.bind
  cases hr : (leftInstance (i, srcs.map (fun s => lastNamed i (s.scopes ST.INSTANCE)))).res with
  | error e => rfl
  | ok u => rfl

/-- A merge that raises has completed the instances before the failing one and not begun those after it. -/
theorem left_split {srcs : List Scope} {e : Err} (h : (leftMerge srcs).res = .error e) :
    ∃ done n rest, childNames ST.INSTANCE srcs = done ++ n :: rest ∧
      (∀ i ∈ done, (leftMerge (srcs.map (onlyNamed i))).res = .ok ()) ∧ (leftMerge (srcs.map (onlyNamed n))).res = .error e ∧
      ∀ dst i q, (i ∈ done → reach ((ST.INSTANCE, i) :: q) (leftIn dst srcs) = reach ((ST.INSTANCE, i) :: q) (pMerge dst srcs)) ∧
        (i ∈ rest → reach ((ST.INSTANCE, i) :: q) (leftIn dst srcs) = reach ((ST.INSTANCE, i) :: q) dst) := by
  unfold leftMerge at h
  obtain ⟨l1, a, l2, hl, h1, h2, h3⟩ := each_error h
  rw [collect_closed] at hl
  obtain ⟨done, t, hnames, hd, ht⟩ := List.map_eq_append_iff.1 hl
  obtain ⟨n, rest, rfl, rfl, hrest⟩ := List.map_eq_cons_iff.1 ht
  refine ⟨done, n, rest, hnames, ?_, ?_, ?_⟩
  · intro i hi
    rw [leftMerge_only (by rw [hnames]; simp [hi])]
    exact h1 _ (by rw [← hd]; exact List.mem_map.2 ⟨i, hi, rfl⟩)
  · rw [leftMerge_only (by rw [hnames]; simp)]
    exact h2
  have hnd : (done ++ n :: rest).Nodup := by rw [← hnames]; exact firstSeen_nodup _
  have hfit : ∀ k ∈ done ++ n :: rest, Fits (leftInstance (k, srcs.map (fun s => lastNamed k (s.scopes ST.INSTANCE)))) (pInstance srcs k) [] := by
    intro k hk
    rw [← hnames] at hk
    obtain ⟨c, hc, _⟩ := listGetE_zero (named_ne_nil hk)
    exact fits_instance k c (named_name (List.mem_of_mem_head? hc)) hc
  have hdone : l1.flatMap (fun b => (leftInstance b).kids) = done.flatMap (pInstance srcs) := by
    subst hd
    rw [List.flatMap_map]
    refine List.flatMap_congr (fun k hk => ?_)
    have := hfit k (by simp [hk])
    unfold Fits at this
    rw [h1 _ (List.mem_map.2 ⟨k, hk, rfl⟩)] at this
    exact this.1
  have hcut := hfit n (by simp)
  unfold Fits at hcut
  rw [h2] at hcut
  intro dst i q
  unfold reach childrenAt leftIn pMerge
  simp only [leftMerge]
  rw [h3, hdone, hnames]
  simp only [List.filter_append, List.flatMap_append, List.flatMap_cons]
  constructor
  · intro hi
    have hn : n ≠ i := by
      rintro rfl
      exact (List.nodup_append.1 hnd).2.2 n hi n (by simp) rfl
    have hr : i ∉ rest := by
      intro hr
      exact (List.nodup_append.1 hnd).2.2 i hi i (by simp [hr]) rfl
    rw [cut_filter (st := (ST.INSTANCE, i)) hcut.1 (pInstance_other hn), pInstance_other hn, pInstances_other hr]
    simp
  · intro hi
    have hn : n ≠ i := by
      rintro rfl
      exact (List.nodup_cons.1 (List.nodup_append.1 hnd).2.1).1 hi
    have hr : i ∉ done := by
      intro hr
      exact (List.nodup_append.1 hnd).2.2 i hr i (by simp [hi]) rfl
    rw [cut_filter (st := (ST.INSTANCE, i)) hcut.1 (pInstance_other hn), pInstances_other hr]
    simp

end Merge
end Verif
