import Verif.MergeSingle
/-!
# The form of merged databases (C06)

Which databases a merge can produce, written down without reference to merging, and that these are exactly the ones which a merge of
a single database leaves as they are.
-/

namespace Verif

namespace Spec

/-- A bin of exactly that kind with a threshold, and with the default goal and weight. -/
def KindBin (k : Nat) (i : Item) : Prop := i.kind = k ∧ i.goal = 1 ∧ i.weight = 1 ∧ i.atLeast ≠ none

/-- First ordinary bins, then ignore bins, then illegal bins, and within each kind no name twice. -/
def BinsForm (l : List Item) : Prop :=
  ∃ a b c, l = a ++ b ++ c ∧
    ((∀ i ∈ a, KindBin CT.CVGBIN i) ∧ (a.map (·.name)).Nodup) ∧
    ((∀ i ∈ b, KindBin CT.IGNOREBIN i) ∧ (b.map (·.name)).Nodup) ∧
    ((∀ i ∈ c, KindBin CT.ILLEGALBIN i) ∧ (c.map (·.name)).Nodup)

/-- A coverpoint with nothing in it but bins. -/
def PointForm (s : Scope) : Prop :=
  s.stype = ST.COVERPOINT ∧ s.du = none ∧ s.cps = none ∧ s.children = [] ∧ BinsForm s.items

/-- A cross of some of the coverpoints `names`, with nothing in it but bins. -/
def CrossForm (names : List String) (s : Scope) : Prop :=
  s.stype = ST.CROSS ∧ s.du = none ∧ (∃ cps, s.cps = some cps ∧ ∀ n ∈ cps, n ∈ names) ∧ s.children = [] ∧ BinsForm s.items

/-- Coverpoints and crosses of one group: no name twice, and the crosses are of these coverpoints. -/
def ItemsForm (points crosses : List Scope) : Prop :=
  ((∀ s ∈ points, PointForm s) ∧ (points.map (·.name)).Nodup) ∧
  ((∀ s ∈ crosses, CrossForm (points.map (·.name)) s) ∧ (crosses.map (·.name)).Nodup)

/-- A cover-instance with coverpoints and after them crosses, and nothing else in it. -/
def EntryForm (s : Scope) : Prop :=
  s.stype = ST.COVERINSTANCE ∧ s.du = none ∧ s.cps = none ∧ s.items = [] ∧
    ∃ points crosses, s.children = points ++ crosses ∧ ItemsForm points crosses

/-- A covergroup with coverpoints, crosses and cover-instances in this order, and nothing else in it. -/
def GroupForm (s : Scope) : Prop :=
  s.stype = ST.COVERGROUP ∧ s.du = none ∧ s.cps = none ∧ s.items = [] ∧
    ∃ points crosses entries, s.children = points ++ crosses ++ entries ∧ ItemsForm points crosses ∧
      (∀ e ∈ entries, EntryForm e) ∧ (entries.map (·.name)).Nodup

/-- A design unit of module type, and after it an instance of it with weight 1 that contains covergroups and nothing else. -/
def InstForm (x : Scope × Scope) : Prop :=
  (x.1.stype = ST.DU_MODULE ∧ x.1.du = none ∧ x.1.cps = none ∧ x.1.children = [] ∧ x.1.items = []) ∧
  (x.2.stype = ST.INSTANCE ∧ x.2.weight = 1 ∧ x.2.du = some ⟨x.1.name, x.1.src, x.1.weight⟩ ∧ x.2.cps = none ∧ x.2.items = []) ∧
  (∀ g ∈ x.2.children, GroupForm g) ∧ (x.2.children.map (·.name)).Nodup

/-- Pairs of design unit and instance with different instance names, in an otherwise empty database. -/
def MergedForm (r : Scope) : Prop :=
  ∃ l : List (Scope × Scope), r = { emptyDb with children := l.flatMap (fun x => [x.1, x.2]) } ∧
    (∀ x ∈ l, InstForm x) ∧ (l.map (fun x => x.2.name)).Nodup

end Spec
open Spec Merge

namespace Merge

/-! ## What a merge makes has the form -/

theorem binsPart {l : List Item} (k : Nat) : (∀ i ∈ pBinsOfKind l k, KindBin k i) ∧ ((pBinsOfKind l k).map (·.name)).Nodup := by
  constructor
  · intro i hi
    obtain ⟨n, _, rfl⟩ := List.mem_map.1 hi
    exact ⟨rfl, rfl, rfl, nofun⟩
  · have : (pBinsOfKind l k).map (·.name) = firstSeen (l.map (·.name)) := by
      simp [pBinsOfKind, Function.comp_def, pBin, mkBin]
    rw [this]
    exact firstSeen_nodup _

theorem binsForm_pBins (l : List Scope) : BinsForm (pBins l) :=
  ⟨_, _, _, rfl, binsPart _, binsPart _, binsPart _⟩

theorem names_map {names : List String} {f : String → Scope} (h : ∀ n, (f n).name = n) : (names.map f).map (·.name) = names := by
  rw [List.map_map, show ((fun x : Scope => x.name) ∘ f) = id from funext h, List.map_id]

theorem itemsForm_merged {l : List Scope} (h : itemsOk l) : ItemsForm (pCoverpoints l) (pCrosses l) := by
  refine ⟨⟨?_, ?_⟩, ?_, ?_⟩
  · intro s hs
    obtain ⟨n, _, rfl⟩ := List.mem_map.1 hs
    exact ⟨rfl, rfl, rfl, rfl, binsForm_pBins _⟩
  · rw [names_pCoverpoints]; exact childNames_nodup _ _
  · rw [names_pCoverpoints]
    intro s hs
    obtain ⟨n, hn, rfl⟩ := List.mem_map.1 hs
    obtain ⟨⟨c, cps, hc, hcps, hin⟩, _⟩ := h.2 n hn
    exact ⟨rfl, rfl, ⟨cps, by simp [pCross, mkCross, headCps, hc, hcps], hin⟩, rfl, binsForm_pBins _⟩
  · show ((List.map _ (childNames _ _)).map _).Nodup
    rw [names_map (fun _ => rfl)]; exact childNames_nodup _ _

theorem groupForm_merged {l : List Scope} {k : String} (h : covergroupOk (named ST.COVERGROUP l k)) : GroupForm (pCovergroup l k) := by
  refine ⟨rfl, rfl, rfl, rfl, _, _, _, rfl, itemsForm_merged h.1, ?_, ?_⟩
  · intro e he
    obtain ⟨n, hn, rfl⟩ := List.mem_map.1 he
    exact ⟨rfl, rfl, rfl, rfl, _, _, rfl, itemsForm_merged (h.2 n hn)⟩
  · show ((List.map _ (childNames _ _)).map _).Nodup
    rw [names_map (fun _ => rfl)]; exact childNames_nodup _ _

theorem form_of_merge {srcs : List Scope} {m : Scope} (h : merge emptyDb srcs = .ok m) : MergedForm m := by
  obtain ⟨hok, rfl⟩ := merge_ok h
  refine ⟨(childNames ST.INSTANCE srcs).map (fun k =>
    let l := named ST.INSTANCE srcs k
    (mkDu (headDu l).name (headDu l).src (headDu l).weight, mkInstance k (headSrc l) 1 (some (headDu l)) (pCovergroups l))), ?_, ?_, ?_⟩
  · show ({ emptyDb with children := [] ++ (childNames ST.INSTANCE srcs).flatMap (pInstance srcs) } : Scope) = _
    rw [List.nil_append, List.flatMap_map]
    rfl
  · intro x hx
    obtain ⟨k, hk, rfl⟩ := List.mem_map.1 hx
    refine ⟨⟨rfl, rfl, rfl, rfl, rfl⟩, ⟨rfl, rfl, rfl, rfl, rfl⟩, ?_, ?_⟩
    · intro g hg
      obtain ⟨n, hn, rfl⟩ := List.mem_map.1 hg
      exact groupForm_merged ((hok k hk).2 n hn)
    · show ((List.map _ (childNames _ _)).map _).Nodup
      rw [names_map (fun _ => rfl)]; exact childNames_nodup _ _
  · rw [List.map_map]
    show (List.map (fun k => k) (childNames ST.INSTANCE srcs)).Nodup
    rw [List.map_id']
    exact childNames_nodup _ _

/-! ## What has the form is copied unchanged -/

theorem filter_all {α : Type} {p : α → Bool} {l : List α} (h : ∀ x ∈ l, p x = true) : l.filter p = l := List.filter_eq_self.2 h
theorem filter_none {α : Type} {p : α → Bool} {l : List α} (h : ∀ x ∈ l, p x = false) : l.filter p = [] :=
  List.filter_eq_nil_iff.2 (fun x hx => by rw [h x hx]; decide)

theorem binsOfKind_form {l : List Item} {k : Nat} (h : ∀ i ∈ l, KindBin k i) (hn : (l.map (·.name)).Nodup) :
    pBinsOfKind l k = l ∧ binsOk l := by
  constructor
  · rw [pBinsOfKind_one hn]
    conv_rhs => rw [← List.map_id l]
    apply List.map_congr_left
    intro i hi
    obtain ⟨h1, h2, h3, h4⟩ := h i hi
    obtain ⟨n, kk, c, a, g, w⟩ := i
    subst h1; subst h2; subst h3
    cases a with
    | none => exact absurd rfl h4
    | some a => rfl
  · intro n it hit
    have hm : it ∈ l := List.mem_of_find?_eq_some hit
    have := (h it hm).2.2.2
    cases e : it.atLeast with
    | none => exact absurd e this
    | some a => rfl

theorem bins_of_form {s : Scope} (h : BinsForm s.items) : pBins [s] = s.items ∧ allBinsOk [s] := by
  obtain ⟨a, b, c, hl, ⟨ha, na⟩, ⟨hb, nb⟩, hc, nc⟩ := h
  have part : ∀ {l : List Item} {k j : Nat}, (∀ i ∈ l, KindBin k i) → maskHit k j = true → l.filter (fun i => maskHit i.kind j) = l :=
    fun hl hk => filter_all (fun i hi => by rw [(hl i hi).1]; exact hk)
  have none : ∀ {l : List Item} {k j : Nat}, (∀ i ∈ l, KindBin k i) → maskHit k j = false → l.filter (fun i => maskHit i.kind j) = [] :=
    fun hl hk => filter_none (fun i hi => by rw [(hl i hi).1]; exact hk)
  have e1 : kindItems [s] CT.CVGBIN = a := by
    show [s].flatMap _ = _
    rw [List.flatMap_singleton]
    show s.items.filter _ = _
    rw [hl, List.filter_append, List.filter_append, part ha (by decide), none hb (by decide), none hc (by decide)]; simp
  have e2 : kindItems [s] CT.IGNOREBIN = b := by
    show [s].flatMap _ = _
    rw [List.flatMap_singleton]
    show s.items.filter _ = _
    rw [hl, List.filter_append, List.filter_append, none ha (by decide), part hb (by decide), none hc (by decide)]; simp
  have e3 : kindItems [s] CT.ILLEGALBIN = c := by
    show [s].flatMap _ = _
    rw [List.flatMap_singleton]
    show s.items.filter _ = _
    rw [hl, List.filter_append, List.filter_append, none ha (by decide), none hb (by decide), part hc (by decide)]; simp
  obtain ⟨p1, q1⟩ := binsOfKind_form ha na
  obtain ⟨p2, q2⟩ := binsOfKind_form hb nb
  obtain ⟨p3, q3⟩ := binsOfKind_form hc nc
  unfold pBins allBinsOk
  rw [e1, e2, e3, p1, p2, p3]
  exact ⟨hl.symm, q1, q2, q3⟩

/-- Children of one type, each of which is copied unchanged. -/
theorem copies {m : Nat} {p : Scope} {l : List Scope} (hk : kids m p = l) (hn : (l.map (·.name)).Nodup) {f : String → Scope}
    {f' : String → List Scope → Scope} (hf : ∀ n, f n = f' n (pick (m, n) [p])) (hc : ∀ c ∈ l, f' c.name [c] = c) :
    (childNames m [p]).map f = l := by
  subst hk
  rw [named_map hn hf]
  conv_rhs => rw [← List.map_id (kids m p)]
  exact List.map_congr_left hc

/-- A statement about what has a name of the children of one type, from the children. -/
theorem each_child {m : Nat} {p : Scope} {l : List Scope} (hk : kids m p = l) (hn : (l.map (·.name)).Nodup) {P : List Scope → Prop}
    (h : ∀ c ∈ l, P [c]) : ∀ n ∈ childNames m [p], P (pick (m, n) [p]) := by
  subst hk
  rw [childNames_one hn]
  intro n hm
  obtain ⟨c, hc, rfl⟩ := List.mem_map.1 hm
  rw [pick_one hn hc]
  exact h c hc

theorem items_of_form {s : Scope} {ps cs : List Scope} (hp : kids ST.COVERPOINT s = ps) (hx : kids ST.CROSS s = cs) (h : ItemsForm ps cs) :
    pCoverpoints [s] = ps ∧ pCrosses [s] = cs ∧ itemsOk [s] := by
  obtain ⟨⟨h1, n1⟩, h2, n2⟩ := h
  refine ⟨copies hp n1 (fun n => pCoverpoint_eq [s] n) ?_, copies hx n2 (fun n => pCross_eq [s] n) ?_, ?_, ?_⟩
  · intro c hc
    obtain ⟨a1, a2, a3, a4, a5⟩ := h1 c hc
    have := (bins_of_form a5).1
    unfold mCp mkCoverpoint
    rw [this]
    obtain ⟨t, n, sr, w, d, cp, ch, it⟩ := c
    simp_all [headSrc, headWeight]
  · intro c hc
    obtain ⟨a1, a2, ⟨cps, a3, _⟩, a4, a5⟩ := h2 c hc
    have := (bins_of_form a5).1
    unfold mCross mkCross
    rw [this]
    obtain ⟨t, n, sr, w, d, cp, ch, it⟩ := c
    simp_all [headSrc, headWeight, headCps]
  · intro n hn
    rw [named_eq_pick (by decide)]
    exact each_child hp n1 (P := allBinsOk) (fun c hc => (bins_of_form (h1 c hc).2.2.2.2).2) n hn
  · intro n hn
    rw [crossesNamed_eq_pick]
    refine each_child hx n2 (P := fun l => crossOk (childNames ST.COVERPOINT [s]) l) (fun c hc => ?_) n hn
    obtain ⟨_, _, ⟨cps, a3, a4⟩, _, a5⟩ := h2 c hc
    refine ⟨⟨c, cps, rfl, a3, ?_⟩, (bins_of_form a5).2⟩
    subst hp
    rw [childNames_one n1]
    exact a4

theorem kids_parts {a b c : List Scope} {ta tb tc m : Nat} (ha : ∀ s ∈ a, s.stype = ta) (hb : ∀ s ∈ b, s.stype = tb) (hc : ∀ s ∈ c, s.stype = tc) :
    (a ++ b ++ c).filter (fun s => maskHit s.stype m)
      = (if maskHit ta m then a else []) ++ (if maskHit tb m then b else []) ++ (if maskHit tc m then c else []) := by
  have part : ∀ {l : List Scope} {t : Nat}, (∀ s ∈ l, s.stype = t) → l.filter (fun s => maskHit s.stype m) = if maskHit t m then l else [] := by
    intro l t hl
    cases e : maskHit t m
    · exact filter_none (fun s hs => by rw [hl s hs]; exact e)
    · exact filter_all (fun s hs => by rw [hl s hs]; exact e)
  rw [List.filter_append, List.filter_append, part ha, part hb, part hc]

theorem entry_of_form {s : Scope} (h : EntryForm s) : mCi s.name [s] = s ∧ itemsOk [s] := by
  obtain ⟨a1, a2, a3, a4, ps, cs, a5, h⟩ := h
  have key : ∀ m, kids m s = (if maskHit ST.COVERPOINT m then ps else []) ++ (if maskHit ST.CROSS m then cs else []) := by
    intro m
    have := kids_parts (m := m) (a := ps) (b := cs) (c := []) (tc := 0) (fun x hx => (h.1.1 x hx).1) (fun x hx => (h.2.1 x hx).1) (by simp)
    show s.children.filter _ = _
    rw [a5]
    simpa using this
  have hp : kids ST.COVERPOINT s = ps := by rw [key, hit_cp_cp, hit_cross_cp]; simp
  have hx : kids ST.CROSS s = cs := by rw [key, hit_cp_cross, hit_cross_cross]; simp
  obtain ⟨e1, e2, e3⟩ := items_of_form hp hx h
  refine ⟨?_, e3⟩
  unfold mCi mkCoverInst
  rw [e1, e2]
  obtain ⟨t, n, sr, w, d, cp, ch, it⟩ := s
  simp_all [headSrc, headWeight]

theorem group_of_form {s : Scope} (h : GroupForm s) : mCg s.name [s] = s ∧ covergroupOk [s] := by
  obtain ⟨a1, a2, a3, a4, ps, cs, es, a5, h, he, hn⟩ := h
  have key : ∀ m, kids m s = (if maskHit ST.COVERPOINT m then ps else []) ++ (if maskHit ST.CROSS m then cs else [])
      ++ (if maskHit ST.COVERINSTANCE m then es else []) := by
    intro m
    show s.children.filter _ = _
    rw [a5]
    exact kids_parts (fun x hx => (h.1.1 x hx).1) (fun x hx => (h.2.1 x hx).1) (fun x hx => (he x hx).1)
  have hp : kids ST.COVERPOINT s = ps := by rw [key, hit_cp_cp, hit_cross_cp, hit_ci_cp]; simp
  have hx : kids ST.CROSS s = cs := by rw [key, hit_cp_cross, hit_cross_cross, hit_ci_cross]; simp
  have hi : kids ST.COVERINSTANCE s = es := by rw [key, hit_cp_ci, hit_cross_ci, hit_ci_ci]; simp
  obtain ⟨e1, e2, e3⟩ := items_of_form hp hx h
  have e4 : pCoverinsts [s] = es := copies hi hn (fun n => pCoverinst_eq [s] n) (fun c hc => (entry_of_form (he c hc)).1)
  refine ⟨?_, e3, ?_⟩
  · unfold mCg mkCovergroup pCovergroupBody
    rw [e1, e2, e4]
    obtain ⟨t, n, sr, w, d, cp, ch, it⟩ := s
    simp_all [headSrc, headWeight]
  · intro n hc
    rw [named_eq_pick (by decide)]
    exact each_child hi hn (P := itemsOk) (fun c hc => (entry_of_form (he c hc)).2) n hc

theorem inst_of_form {x : Scope × Scope} (h : InstForm x) :
    mkDu (headDu [x.2]).name (headDu [x.2]).src (headDu [x.2]).weight = x.1 ∧ mInst x.2.name [x.2] = x.2 ∧ instOk [x.2] := by
  obtain ⟨u, i⟩ := x
  obtain ⟨⟨a1, a2, a3, a4, a5⟩, ⟨b1, b2, b3, b4, b5⟩, hg, hn⟩ := h
  simp only at a1 a2 a3 a4 a5 b1 b2 b3 b4 b5 hg hn
  have hd : headDu [i] = ⟨u.name, u.src, u.weight⟩ := by simp [headDu, b3]
  have hk : kids ST.COVERGROUP i = i.children :=
    filter_all (fun s hs => by rw [(hg s hs).1]; exact hit_cg_cg)
  have e : pCovergroups [i] = i.children := copies hk hn (fun n => pCovergroup_eq [i] n) (fun c hc => (group_of_form (hg c hc)).1)
  refine ⟨?_, ?_, ⟨i, _, rfl, b3⟩, ?_⟩
  · show mkDu (headDu [i]).name (headDu [i]).src (headDu [i]).weight = u
    rw [hd]
    obtain ⟨t, n, sr, w, d, cp, ch, it⟩ := u
    simp_all [mkDu]
  · show mInst i.name [i] = i
    unfold mInst mkInstance
    rw [e, hd, ← b3]
    obtain ⟨t, n, sr, w, d, cp, ch, it⟩ := i
    simp_all [headSrc]
  · intro n hc
    rw [named_eq_pick (by decide)]
    exact each_child hk hn (P := covergroupOk) (fun c hc => (group_of_form (hg c hc)).2) n hc

theorem copy_of_form {m : Scope} (h : MergedForm m) : merge emptyDb [m] = .ok m := by
  obtain ⟨l, hm, hi, hn⟩ := h
  have hk : kids ST.INSTANCE m = l.map (·.2) := by
    rw [hm]
    show (l.flatMap (fun x => [x.1, x.2])).filter _ = _
    clear hm hn
    induction l with
    | nil => rfl
    | cons x t ih =>
      rw [List.flatMap_cons, List.filter_append, ih (fun y hy => hi y (List.mem_cons_of_mem _ hy)), List.map_cons]
      have h1 := (hi x List.mem_cons_self).1.1
      have h2 := (hi x List.mem_cons_self).2.1.1
      simp [h1, h2, hit_du_inst, hit_inst_inst]
  have hn' : ((l.map (·.2)).map (·.name)).Nodup := by rw [List.map_map]; exact hn
  have hok : mergeOk [m] := by
    intro n hc
    rw [named_eq_pick (by decide)]
    refine each_child hk hn' (P := instOk) (fun c hc => ?_) n hc
    obtain ⟨x, hx, rfl⟩ := List.mem_map.1 hc
    exact (inst_of_form (hi x hx)).2.2
  rw [(merge_closed emptyDb [m]).1 hok]
  have e : (childNames ST.INSTANCE [m]).flatMap (pInstance [m]) = l.flatMap (fun x => [x.1, x.2]) := by
    have hkn : ((kids ST.INSTANCE m).map (·.name)).Nodup := by rw [hk]; exact hn'
    rw [childNames_one hkn, hk, List.map_map, List.flatMap_map]
    apply List.flatMap_congr
    intro x hx
    have hc : x.2 ∈ kids ST.INSTANCE m := by rw [hk]; exact List.mem_map_of_mem hx
    obtain ⟨e1, e2, _⟩ := inst_of_form (hi x hx)
    show pInstance [m] x.2.name = _
    rw [pInstance_eq, pick_one hkn hc, e1, e2]
  show Except.ok ({ emptyDb with children := [] ++ (childNames ST.INSTANCE [m]).flatMap (pInstance [m]) } : Scope) = _
  rw [e, List.nil_append, ← hm]

end Merge

/-- **C06** A database is the result of some merge exactly if it has the form `MergedForm`, and these are exactly the databases that a
merge of one database leaves as they are. -/
theorem C06_form (m : Scope) :
    ((∃ srcs, merge emptyDb srcs = .ok m) ↔ MergedForm m) ∧ (merge emptyDb [m] = .ok m ↔ MergedForm m) :=
  ⟨⟨fun ⟨_, h⟩ => form_of_merge h, fun h => ⟨[m], copy_of_form h⟩⟩, ⟨form_of_merge, copy_of_form⟩⟩

/-- The merged sample has the form, and one of its inputs (with bins of kinds in another order and a second instance without design unit
scope before it) does not. -/
example : MergedForm Ex.out ∧ ¬ MergedForm Ex.dbB :=
  ⟨(C06_form _).1.1 ⟨_, Ex.merge_ok⟩, fun h => by
    have h1 := (C06_form _).2.2 h
    have h2 : ((merge emptyDb [Ex.dbB]).toOption.map (fun o => o.children.length)) = some 4 := by decide
    rw [h1] at h2
    revert h2; decide⟩

end Verif
