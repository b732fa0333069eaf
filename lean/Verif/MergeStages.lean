import Verif.MergeXmlThms
/-!
# Property C108: merging XML files in stages

A large regression is merged in stages: some files are merged into a file, which is merged with further files, and so on.
This file shows that the stages do not matter for what the last file says about instance coverage, although every
intermediate file loses weights, thresholds, source positions and the type-level data of the merge it stores.

The merge is `Merge.merge` (`lib/ucis/merge/db_merger.py`, see `Verif/Merge.lean`), a file is `Xml.throughFile`
(`xml_writer.py`, `xml_factory.py`, `xml_reader.py`, see `Verif/XmlFactory.lean`).
-/

namespace Verif
open Merge Xml Spec

/-! ## What a document says about a cover-instance -/

/-- A coverpoint: name and bins. -/
def wCp (c : Scope) : String × List (String × Nat × Int) := (c.name, binTriples c)
/-- A cross: name, crossed names and bins. -/
def wCr (c : Scope) : String × List String × List (String × Nat × Int) := (c.name, c.cps.getD [], binTriples c)
/-- A cover-instance. -/
abbrev WCi := String × List (String × List (String × Nat × Int)) × List (String × List String × List (String × Nat × Int))
def wCi (c : Scope) : WCi := (c.name, (kids ST.COVERPOINT c).map wCp, (kids ST.CROSS c).map wCr)
def wCg (g : Scope) : String × List WCi := (g.name, (kids ST.COVERINSTANCE g).map wCi)
def wInst (i : Scope) : String × List (String × List WCi) := (i.name, (kids ST.COVERGROUP i).map wCg)
def wDb (r : Scope) : List (String × List (String × List WCi)) := (kids ST.INSTANCE r).map wInst

/-! ## The merge respects it -/

/-- Parents with the same views contribute children with the same views. -/
theorem pick_view {α β : Type} {V : Scope → α} {v : Scope → String × β} {m : Nat} (hname : ∀ s, (v s).1 = s.name)
    {get : α → List (String × β)} (hget : ∀ s, get (V s) = (kids m s).map v) {l l' : List Scope} (h : l.map V = l'.map V)
    (n : String) : (pick (m, n) l).map v = (pick (m, n) l').map v := by
  have hat : ∀ s, (childrenAt (m, n) s).map v = (get (V s)).filter (fun p => p.1 = n) := by
    intro s
    rw [childrenAt_kids, hget, List.filter_map]
    congr 1
    apply List.filter_congr
    intro x _
    simp only [Function.comp, hname]
  have key : ∀ l : List Scope, (pick (m, n) l).map v
      = if m = ST.CROSS then (l.map V).flatMap (fun a => (get a).filter (fun p => p.1 = n))
        else (l.map V).filterMap (fun a => ((get a).filter (fun p => p.1 = n)).getLast?) := by
    intro l
    unfold pick
    by_cases hm : m = ST.CROSS
    · simp only [hm, if_true]
      rw [List.map_flatMap, List.flatMap_map]
      subst hm
      exact List.flatMap_congr (fun s _ => hat s)
    · simp only [hm, if_false]
      rw [List.map_filterMap, List.filterMap_map]
      congr 1
      funext s
      simp only [Function.comp]
      rw [← hat, List.getLast?_map]
  rw [key, key, h]

theorem names_view {α β : Type} {V : Scope → α} {v : Scope → String × β} {m : Nat} (hname : ∀ s, (v s).1 = s.name)
    {get : α → List (String × β)} (hget : ∀ s, get (V s) = (kids m s).map v) {l l' : List Scope} (h : l.map V = l'.map V) :
    childNames m l = childNames m l' := by
  have key : ∀ l : List Scope, childNames m l = firstSeen ((l.map V).flatMap (fun a => (get a).map (·.1))) := by
    intro l
    unfold childNames
    rw [List.flatMap_map]
    congr 1
    apply List.flatMap_congr
    intro s _
    rw [hget, List.map_map]
    show (kids m s).map _ = _
    apply List.map_congr_left
    intro x _
    exact (hname x).symm
  rw [key, key, h]

theorem kind_triples {k : Nat} (hk : IsKind k) (s : Scope) :
    (s.coverItems k).map (fun i => (i.name, i.kind, i.count)) = (binTriples s).filter (fun t => maskHit t.2.1 k) := by
  unfold binTriples covBins Scope.coverItems
  rw [List.filter_map, List.filter_filter]
  congr 1
  apply List.filter_congr
  intro i _
  rcases hk with rfl | rfl | rfl
  · cases h : maskHit i.kind CT.CVGBIN <;> simp [h]
  · cases h : maskHit i.kind CT.IGNOREBIN <;> simp [h]
  · cases h : maskHit i.kind CT.ILLEGALBIN <;> simp [h]

/-- The merged bins of a kind, from the contributing triples. -/
def tBins (k : Nat) (ts : List (String × Nat × Int)) : List (String × Nat × Int) :=
  (firstSeen (ts.map (·.1))).map (fun n => (n, k, ((ts.filter (fun t => t.1 = n)).map (·.2.2)).sum))

theorem pBinsOfKind_triples (items : List Item) (k : Nat) :
    (pBinsOfKind items k).map (fun i => (i.name, i.kind, i.count)) = tBins k (items.map (fun i => (i.name, i.kind, i.count))) := by
  unfold pBinsOfKind tBins
  rw [List.map_map, List.map_map]
  apply List.map_congr_left
  intro n _
  simp only [Function.comp, pBin, mkBin, sumNamed, List.filter_map, List.map_map]
  rfl

theorem pBins_triples {l l' : List Scope} (h : l.map binTriples = l'.map binTriples) :
    (pBins l).map (fun i => (i.name, i.kind, i.count)) = (pBins l').map (fun i => (i.name, i.kind, i.count)) := by
  have hk : ∀ k, IsKind k → (kindItems l k).map (fun i => (i.name, i.kind, i.count)) = (kindItems l' k).map (fun i => (i.name, i.kind, i.count)) := by
    intro k hk
    have key : ∀ l : List Scope, (kindItems l k).map (fun i => (i.name, i.kind, i.count))
        = (l.map binTriples).flatMap (fun t => t.filter (fun t => maskHit t.2.1 k)) := by
      intro l
      unfold kindItems
      rw [List.map_flatMap, List.flatMap_map]
      exact List.flatMap_congr (fun s _ => kind_triples hk s)
    rw [key, key, h]
  unfold pBins
  simp only [List.map_append, pBinsOfKind_triples]
  rw [hk _ (.inl rfl), hk _ (.inr (.inl rfl)), hk _ (.inr (.inr rfl))]

theorem wCp_mCp {n : String} {l l' : List Scope} (h : l.map wCp = l'.map wCp) : wCp (mCp n l) = wCp (mCp n l') := by
  have : l.map binTriples = l'.map binTriples := by
    have := congrArg (List.map Prod.snd) h
    rwa [List.map_map, List.map_map] at this
  unfold wCp binTriples
  rw [covBins_mCp, covBins_mCp, pBins_triples this]
  rfl

theorem wCr_mCross {n : String} {l l' : List Scope} (h : l.map wCr = l'.map wCr) : wCr (mCross n l) = wCr (mCross n l') := by
  have hb : l.map binTriples = l'.map binTriples := by
    have := congrArg (List.map (fun x => x.2.2)) h
    rwa [List.map_map, List.map_map] at this
  have hc : headCps l = headCps l' := by
    have key : ∀ l : List Scope, headCps l = (((l.map wCr).head?).map (fun x => x.2.1)).getD [] := by
      intro l
      cases l with
      | nil => rfl
      | cons a t => rfl
    rw [key, key, h]
  unfold wCr binTriples
  rw [covBins_mCross, covBins_mCross, pBins_triples hb]
  simp only [mCross, mkCross, hc]

theorem wCi_mCi {n : String} {l l' : List Scope} (h : l.map wCi = l'.map wCi) : wCi (mCi n l) = wCi (mCi n l') := by
  unfold wCi
  rw [kids_mCi_cp, kids_mCi_cp, kids_mCi_cross, kids_mCi_cross]
  unfold pCoverpoints pCrosses
  rw [names_view (V := wCi) (v := wCp) (m := ST.COVERPOINT) (fun _ => rfl) (get := fun a => a.2.1) (fun _ => rfl) h,
    names_view (V := wCi) (v := wCr) (m := ST.CROSS) (fun _ => rfl) (get := fun a => a.2.2) (fun _ => rfl) h]
  simp only [List.map_map]
  refine Prod.ext rfl (Prod.ext ?_ ?_)
  · apply List.map_congr_left
    intro k _
    simp only [Function.comp, pCoverpoint_eq]
    exact wCp_mCp (pick_view (V := wCi) (v := wCp) (m := ST.COVERPOINT) (fun _ => rfl) (get := fun a => a.2.1) (fun _ => rfl) h k)
  · apply List.map_congr_left
    intro k _
    simp only [Function.comp, pCross_eq]
    exact wCr_mCross (pick_view (V := wCi) (v := wCr) (m := ST.CROSS) (fun _ => rfl) (get := fun a => a.2.2) (fun _ => rfl) h k)

theorem wCg_mCg {n : String} {l l' : List Scope} (h : l.map wCg = l'.map wCg) : wCg (mCg n l) = wCg (mCg n l') := by
  unfold wCg
  rw [kids_mCg_ci, kids_mCg_ci]
  unfold pCoverinsts
  rw [names_view (V := wCg) (v := wCi) (m := ST.COVERINSTANCE) (fun _ => rfl) (get := fun a => a.2) (fun _ => rfl) h]
  simp only [List.map_map]
  refine Prod.ext rfl ?_
  apply List.map_congr_left
  intro k _
  simp only [Function.comp, pCoverinst_eq]
  exact wCi_mCi (pick_view (V := wCg) (v := wCi) (m := ST.COVERINSTANCE) (fun _ => rfl) (get := fun a => a.2) (fun _ => rfl) h k)

theorem wInst_mInst {n : String} {l l' : List Scope} (h : l.map wInst = l'.map wInst) : wInst (mInst n l) = wInst (mInst n l') := by
  unfold wInst
  rw [kids_mInst_cg, kids_mInst_cg]
  unfold pCovergroups
  rw [names_view (V := wInst) (v := wCg) (m := ST.COVERGROUP) (fun _ => rfl) (get := fun a => a.2) (fun _ => rfl) h]
  simp only [List.map_map]
  refine Prod.ext rfl ?_
  apply List.map_congr_left
  intro k _
  simp only [Function.comp, pCovergroup_eq]
  exact wCg_mCg (pick_view (V := wInst) (v := wCg) (m := ST.COVERGROUP) (fun _ => rfl) (get := fun a => a.2) (fun _ => rfl) h k)

/-- Databases that say the same about cover-instances have merges that do. -/
theorem wDb_pMerge {l l' : List Scope} (h : l.map wDb = l'.map wDb) : wDb (pMerge emptyDb l) = wDb (pMerge emptyDb l') := by
  unfold wDb
  rw [kids_pMerge, kids_pMerge,
    names_view (V := wDb) (v := wInst) (m := ST.INSTANCE) (fun _ => rfl) (get := id) (fun _ => rfl) h]
  simp only [List.map_map]
  apply List.map_congr_left
  intro k _
  simp only [Function.comp]
  exact wInst_mInst (pick_view (V := wDb) (v := wInst) (m := ST.INSTANCE) (fun _ => rfl) (get := id) (fun _ => rfl) h k)

/-! ## A file keeps it -/

/-- The names that crosses of cover-instances cross have no white space at their ends. -/
def Spec.StrippedCrosses (r : Scope) : Prop := ∀ i ∈ kids ST.INSTANCE r, ∀ g ∈ kids ST.COVERGROUP i, ∀ c ∈ kids ST.COVERINSTANCE g,
  ∀ x ∈ kids ST.CROSS c, ∀ n ∈ x.cps.getD [], stripS n = n

theorem read_stripped {flt : FloatText} {doc : Elem} {db : Database} (h : Xml.read flt doc = .ok db) : StrippedCrosses db.root := by
  intro i hi g hg c hc x hx n hn
  obtain ⟨t, es, hne, _, rfl⟩ := read_group h hi hg
  rw [insts_build, List.map_map] at hc
  obtain ⟨e, he, rfl⟩ := List.mem_map.1 hc
  rw [Function.comp, kids_inst_cross] at hx
  obtain ⟨y, hy, rfl⟩ := List.mem_map.1 hx
  obtain ⟨z, hz, rfl⟩ := List.mem_map.1 hy
  obtain ⟨w, _, rfl⟩ := List.mem_map.1 (show n ∈ (within "crossExpr" z).map crossed from hn)
  exact stripS_crossed w

theorem merged_stripped {srcs : List Scope} (h : ∀ s ∈ srcs, StrippedCrosses s) : StrippedCrosses (pMerge emptyDb srcs) := by
  intro i hi g hg c hc x hx
  rw [kids_pMerge] at hi
  obtain ⟨n, hn, rfl⟩ := List.mem_map.1 hi
  rw [kids_mInst_cg] at hg
  obtain ⟨k, hk, rfl⟩ := List.mem_map.1 hg
  rw [pCovergroup_eq, kids_mCg_ci] at hc
  obtain ⟨q, hq, rfl⟩ := List.mem_map.1 hc
  rw [pCoverinst_eq, kids_mCi_cross] at hx
  obtain ⟨y, hy, rfl⟩ := List.mem_map.1 hx
  rw [pCross_eq]
  have hall : ∀ x ∈ pick (ST.CROSS, y) (pick (ST.COVERINSTANCE, q) (pick (ST.COVERGROUP, k) (pick (ST.INSTANCE, n) srcs))),
      ∀ b ∈ x.cps.getD [], stripS b = b := by
    intro x hx
    obtain ⟨a, ha, h1, _⟩ := mem_pick hx
    obtain ⟨b, hb, h2, _⟩ := mem_pick ha
    obtain ⟨c, hc, h3, _⟩ := mem_pick hb
    obtain ⟨s, hs, h4, _⟩ := mem_pick hc
    exact h s hs c h4 b h3 a h2 x h1
  generalize pick (ST.CROSS, y) _ = l at hall
  intro b hb
  have hb : b ∈ headCps l := hb
  unfold headCps at hb
  cases l with
  | nil => cases hb
  | cons a t => exact hall a List.mem_cons_self b hb

/-- What is asked of a database; all of it holds of databases read from XML and of their merges. -/
structure Plainly (r : Scope) : Prop where
  inst : Instanced r
  ord : OrdinaryCrosses r
  strip : StrippedCrosses r

theorem read_plainly {flt : FloatText} {doc : Elem} {db : Database} (h : Xml.read flt doc = .ok db) : Plainly db.root :=
  ⟨read_instanced h, fun _ hi _ hg _ hc _ hx => read_ordinary h hi hg hc hx, read_stripped h⟩

theorem merged_plainly {srcs : List Scope} (h : ∀ s ∈ srcs, Plainly s) : Plainly (pMerge emptyDb srcs) :=
  ⟨merged_instanced (fun s hs => (h s hs).inst), merged_ordinaryCrosses (fun s hs => (h s hs).ord), merged_stripped (fun s hs => (h s hs).strip)⟩

theorem wCi_pInst {c : Scope} (ho : ∀ x ∈ kids ST.CROSS c, ∀ b ∈ covBins x, b.kind = CT.CVGBIN)
    (hs : ∀ x ∈ kids ST.CROSS c, ∀ n ∈ x.cps.getD [], stripS n = n) : wCi (pInst c).scope = wCi c := by
  unfold wCi
  rw [kids_pInst_cp, kids_pInst_cross, List.map_map, List.map_map]
  refine Prod.ext rfl (Prod.ext ?_ ?_)
  · apply List.map_congr_left
    intro x _
    simp only [Function.comp, wCp, binTriples]
    rw [covBins_pCp, List.map_map]
    rfl
  · apply List.map_congr_left
    intro x hx
    simp only [Function.comp, wCr, binTriples]
    rw [covBins_pCr, List.map_map]
    refine Prod.ext rfl (Prod.ext ?_ ?_)
    · show ((x.cps.getD []).map stripS) = x.cps.getD []
      conv_rhs => rw [← List.map_id (x.cps.getD [])]
      exact List.map_congr_left (fun n hn => hs x hx n hn)
    · apply List.map_congr_left
      intro b hb
      simp only [Function.comp, mkBin]
      rw [ho x hx b hb]

theorem wInst_rInst {i : Scope} (hi : ∀ g ∈ kids ST.COVERGROUP i, kids ST.COVERINSTANCE g ≠ [])
    (h : ∀ g ∈ kids ST.COVERGROUP i, ∀ c ∈ kids ST.COVERINSTANCE g, wCi (pInst c).scope = wCi c) : wInst (rInst i) = wInst i := by
  unfold wInst
  rw [kids_rInst, List.map_map]
  refine Prod.ext rfl ?_
  apply List.map_congr_left
  intro g hg
  simp only [Function.comp, wCg, rCg]
  rw [insts_build, List.map_map, List.map_map, written_insts (hi g hg)]
  refine Prod.ext rfl ?_
  exact List.map_congr_left (fun c hc => h g hg c hc)

theorem wDb_throughFile {env : Env} (he : GoodEnv env) {db db' : Database} (hu : UniqueInsts db.root) (hp : Plainly db.root)
    (hr : throughFile env db = .ok db') : wDb db'.root = wDb db.root := by
  unfold throughFile at hr
  obtain ⟨doc, hw, hr⟩ := Ex.bind_ok.1 hr
  obtain ⟨_, hr⟩ := factoryRead_ok.1 hr
  obtain ⟨_, rfl⟩ := (read_written he.envOk he.floatOk he.now hw db').1 hr
  unfold wDb
  rw [kids_rDb hu, List.map_map]
  apply List.map_congr_left
  intro i hi
  exact wInst_rInst (hp.inst i hi) (fun g hg c hc => wCi_pInst (hp.ord i hi g hg c hc) (hp.strip i hi g hg c hc))

/-! ## It determines the document and what is read from it -/

theorem eGroup_view {n : String} {c c' : Scope} (f : String → Option String) (h : wCi c = wCi c') : eGroup f n c = eGroup f n c' := by
  have h1 : c.name = c'.name := congrArg Prod.fst h
  have h2 : (kids ST.COVERPOINT c).map wCp = (kids ST.COVERPOINT c').map wCp := congrArg (fun x => x.2.1) h
  have h3 : (kids ST.CROSS c).map wCr = (kids ST.CROSS c').map wCr := congrArg (fun x => x.2.2) h
  have e1 : ∀ c : Scope, (kids ST.COVERPOINT c).map eCp = ((kids ST.COVERPOINT c).map wCp).map (fun p =>
      (⟨"coverpoint", [("name", p.1), ("key", "0")], none, optionsElem :: p.2.map (fun t => eBin (mkBin t.1 t.2.1 1 t.2.2))⟩ : Elem)) := by
    intro c
    rw [List.map_map]
    apply List.map_congr_left
    intro x _
    simp only [Function.comp, wCp, binTriples, List.map_map, eCp]
    rfl
  have e2 : ∀ c : Scope, (kids ST.CROSS c).map (eCross f) = ((kids ST.CROSS c).map wCr).map (fun p =>
      (⟨"cross", [("name", p.1), ("key", "0")], none,
        optionsElem :: (p.2.1.map (eExpr f) ++ p.2.2.map (fun t => eCrossBin (mkBin t.1 t.2.1 1 t.2.2)))⟩ : Elem)) := by
    intro c
    rw [List.map_map]
    apply List.map_congr_left
    intro x _
    simp only [Function.comp, wCr, binTriples, List.map_map, eCross]
    rfl
  unfold eGroup
  rw [e1, e1, e2, e2, h1, h2, h3]

theorem pInst_view {c c' : Scope} (h : wCi c = wCi c') : pInst c = pInst c' := by
  have h1 : c.name = c'.name := congrArg Prod.fst h
  have h2 : (kids ST.COVERPOINT c).map wCp = (kids ST.COVERPOINT c').map wCp := congrArg (fun x => x.2.1) h
  have h3 : (kids ST.CROSS c).map wCr = (kids ST.CROSS c').map wCr := congrArg (fun x => x.2.2) h
  have e1 : ∀ c : Scope, (kids ST.COVERPOINT c).map Xml.pCp = ((kids ST.COVERPOINT c).map wCp).map (fun p =>
      (⟨p.1, p.2.map (fun t => mkBin t.1 t.2.1 1 t.2.2)⟩ : PCp)) := by
    intro c
    rw [List.map_map]
    apply List.map_congr_left
    intro x _
    simp only [Function.comp, wCp, binTriples, List.map_map, Xml.pCp]
    rfl
  have e2 : ∀ c : Scope, (kids ST.CROSS c).map Xml.pCr = ((kids ST.CROSS c).map wCr).map (fun p =>
      (⟨p.1, p.2.1.map stripS, p.2.2.map (fun t => mkBin t.1 CT.CVGBIN 1 t.2.2)⟩ : PCr)) := by
    intro c
    rw [List.map_map]
    apply List.map_congr_left
    intro x _
    simp only [Function.comp, wCr, binTriples, List.map_map, Xml.pCr]
    rfl
  unfold pInst
  rw [e1, e1, e2, e2, h1, h2, h3]

theorem map_transport {α β γ : Type} {v : α → β} {f : α → γ} : ∀ {l l' : List α}, l.map v = l'.map v →
    (∀ x ∈ l, ∀ y ∈ l', v x = v y → f x = f y) → l.map f = l'.map f
  | [], [], _, _ => rfl
  | [], _ :: _, h, _ => nomatch h
  | _ :: _, [], h, _ => nomatch h
  | a :: t, b :: u, h, hf => by
    rw [List.map_cons, List.map_cons, List.cons.injEq] at h
    rw [List.map_cons, List.map_cons, hf a List.mem_cons_self b List.mem_cons_self h.1,
      map_transport h.2 (fun x hx y hy => hf x (List.mem_cons_of_mem _ hx) y (List.mem_cons_of_mem _ hy))]

theorem eInst_view {i i' : Scope} (f : String → Option String) (hi : ∀ g ∈ kids ST.COVERGROUP i, kids ST.COVERINSTANCE g ≠ [])
    (hi' : ∀ g ∈ kids ST.COVERGROUP i', kids ST.COVERINSTANCE g ≠ []) (h : wInst i = wInst i') : eInst f i = eInst f i' := by
  have h1 : i.name = i'.name := congrArg Prod.fst h
  have h2 : (kids ST.COVERGROUP i).map wCg = (kids ST.COVERGROUP i').map wCg := congrArg (fun x => x.2) h
  unfold eInst
  rw [h1, map_transport (f := eCg f) h2 (fun g hg g' hg' h => ?_)]
  unfold eCg
  rw [written_insts (hi g hg), written_insts (hi' g' hg'), show g.name = g'.name from congrArg Prod.fst h]
  rw [map_transport (f := eGroup f g'.name) (congrArg (fun x => x.2) h) (fun c _ c' _ hc => eGroup_view f hc)]

theorem rInst_view {i i' : Scope} (hi : ∀ g ∈ kids ST.COVERGROUP i, kids ST.COVERINSTANCE g ≠ [])
    (hi' : ∀ g ∈ kids ST.COVERGROUP i', kids ST.COVERINSTANCE g ≠ []) (h : wInst i = wInst i') : rInst i = rInst i' := by
  have h1 : i.name = i'.name := congrArg Prod.fst h
  have h2 : (kids ST.COVERGROUP i).map wCg = (kids ST.COVERGROUP i').map wCg := congrArg (fun x => x.2) h
  unfold rInst
  rw [h1, map_transport (f := rCg) h2 (fun g hg g' hg' h => ?_)]
  unfold rCg
  rw [written_insts (hi g hg), written_insts (hi' g' hg'), show g.name = g'.name from congrArg Prod.fst h]
  rw [map_transport (f := pInst) (congrArg (fun x => x.2) h) (fun c _ c' _ hc => pInst_view hc)]

theorem doc_view {env env' : Env} (he : GoodEnv env) (he' : GoodEnv env') {a b : Database} {d d' : Elem} (ha : Plainly a.root) (hb : Plainly b.root)
    (h : wDb a.root = wDb b.root) (hw : Xml.write env a = .ok d) (hw' : Xml.write env' b = .ok d') : instancePart d = instancePart d' := by
  obtain ⟨_, rfl⟩ := (write_ok he.envOk a d).1 hw
  obtain ⟨_, rfl⟩ := (write_ok he'.envOk b d').1 hw'
  rw [instancePart_eDoc, instancePart_eDoc]
  exact map_transport h (fun i hi i' hi' e => eInst_view some (ha.inst i hi) (hb.inst i' hi') e)

theorem uniqueInsts_view {a b : Scope} (h : wDb a = wDb b) (hu : UniqueInsts a) : UniqueInsts b := by
  have := congrArg (List.map Prod.fst) h
  unfold wDb at this
  rw [List.map_map, List.map_map] at this
  unfold UniqueInsts at hu ⊢
  rwa [show (kids ST.INSTANCE b).map (·.name) = (kids ST.INSTANCE a).map (·.name) from this.symm]

theorem read_view {env env' : Env} (he : GoodEnv env) (he' : GoodEnv env') {a b a' b' : Database} (ha : Plainly a.root) (hb : Plainly b.root)
    (hu : UniqueInsts a.root) (h : wDb a.root = wDb b.root) (hr : throughFile env a = .ok a') (hr' : throughFile env' b = .ok b') :
    a'.root = b'.root := by
  unfold throughFile at hr hr'
  obtain ⟨doc, hw, hr⟩ := Ex.bind_ok.1 hr
  obtain ⟨_, hr⟩ := factoryRead_ok.1 hr
  obtain ⟨_, rfl⟩ := (read_written he.envOk he.floatOk he.now hw a').1 hr
  obtain ⟨doc', hw', hr'⟩ := Ex.bind_ok.1 hr'
  obtain ⟨_, hr'⟩ := factoryRead_ok.1 hr'
  obtain ⟨_, rfl⟩ := (read_written he'.envOk he'.floatOk he'.now hw' b').1 hr'
  have hm : (kids ST.INSTANCE a.root).map rInst = (kids ST.INSTANCE b.root).map rInst :=
    map_transport h (fun i hi i' hi' e => rInst_view (ha.inst i hi) (hb.inst i' hi') e)
  have hnil : kids ST.INSTANCE a.root = [] ↔ kids ST.INSTANCE b.root = [] := by
    rw [← List.map_eq_nil_iff (f := rInst), hm, List.map_eq_nil_iff]
  unfold rDb
  simp only
  rw [rTops_closed _ hu, rTops_closed _ (uniqueInsts_view h hu), hm]
  by_cases h0 : kids ST.INSTANCE a.root = []
  · rw [if_pos h0, if_pos (hnil.1 h0)]
  · rw [if_neg h0, if_neg (fun h => h0 (hnil.2 h))]

/-! ## Stages -/

namespace Spec

mutual
/-- `Staged ls d`: the database `d` comes from the databases `ls`, in this order, by any number of stages.  A stage merges
databases into an empty one, writes the result to a file (at any time, by any user) and reads the file. -/
inductive Staged : List Database → Database → Prop
  | file {d : Database} {flt : FloatText} {doc : Elem} (h : Xml.read flt doc = .ok d) : Staged [d] d
  | stage {ls ds : List Database} {out d : Database} {env : Env} (he : GoodEnv env) (hs : StagedAll ls ds)
      (hm : mergeDb ⟨emptyDb, [], []⟩ ds = .ok out) (hr : throughFile env out = .ok d) : Staged ls d
/-- Several, one after the other. -/
inductive StagedAll : List Database → List Database → Prop
  | nil : StagedAll [] []
  | cons {ls ls' ds : List Database} {d : Database} (h : Staged ls d) (ht : StagedAll ls' ds) : StagedAll (ls ++ ls') (d :: ds)
end

end Spec

theorem read_ofFile {env : Env} {a b : Database} (h : throughFile env a = .ok b) : ∃ doc, Xml.read env.flt doc = .ok b := by
  unfold throughFile at h
  obtain ⟨doc, _, hr⟩ := Ex.bind_ok.1 h
  exact ⟨_, (factoryRead_ok.1 hr).2⟩

theorem mergeDb_pMerge {srcs : List Database} {out : Database} (h : mergeDb ⟨emptyDb, [], []⟩ srcs = .ok out) :
    mergeOk (srcs.map (·.root)) ∧ out.root = pMerge emptyDb (srcs.map (·.root)) ∧ UniqueInsts out.root := by
  unfold mergeDb at h
  cases hm : merge emptyDb (srcs.map (·.root)) with
  | error e => rw [hm] at h; cases h
  | ok r =>
    rw [hm] at h
    cases h
    obtain ⟨h1, h2⟩ := Merge.merge_ok hm
    exact ⟨h1, h2, (C03_merged_names_unique hm r (mem_subtrees_self r)).1 ST.INSTANCE (by simp)⟩

theorem read_mergeOk {srcs : List Scope} (h : ∀ s ∈ srcs, Mergeable s) : mergeOk srcs :=
  (mergeOk_iff_resolvable _).2 (mergeable_resolvable h)

/-- What the stages keep. -/
structure Kept (ls : List Database) (d : Database) : Prop where
  read : ∃ (flt : FloatText) (doc : Elem), Xml.read flt doc = .ok d
  leaves : ∀ s ∈ ls, ∃ (flt : FloatText) (doc : Elem), Xml.read flt doc = .ok s
  view : ∃ m, wDb d.root = wDb m ∧ EDb [m] (ls.map (·.root))

structure KeptAll (ls ds : List Database) : Prop where
  reads : ∀ d ∈ ds, ∃ (flt : FloatText) (doc : Elem), Xml.read flt doc = .ok d
  leaves : ∀ s ∈ ls, ∃ (flt : FloatText) (doc : Elem), Xml.read flt doc = .ok s
  views : ∃ ms, ds.map (fun d => wDb d.root) = ms.map wDb ∧ EDb ms (ls.map (·.root))

theorem roots_mergeable {ls : List Database} (h : ∀ s ∈ ls, ∃ (flt : FloatText) (doc : Elem), Xml.read flt doc = .ok s) :
    ∀ s ∈ ls.map (·.root), Mergeable s := by
  intro s hs
  obtain ⟨d, hd, rfl⟩ := List.mem_map.1 hs
  obtain ⟨_, _, hr⟩ := h d hd
  exact read_mergeable hr

theorem roots_plainly {ls : List Database} (h : ∀ s ∈ ls, ∃ (flt : FloatText) (doc : Elem), Xml.read flt doc = .ok s) :
    ∀ s ∈ ls.map (·.root), Plainly s := by
  intro s hs
  obtain ⟨d, hd, rfl⟩ := List.mem_map.1 hs
  obtain ⟨_, _, hr⟩ := h d hd
  exact read_plainly hr

/-- The merge of a stage says what merging its leaves at once says. -/
theorem KeptAll.merged {ls ds : List Database} (h : KeptAll ls ds) :
    wDb (pMerge emptyDb (ds.map (·.root))) = wDb (pMerge emptyDb (ls.map (·.root))) := by
  obtain ⟨ms, h1, h2⟩ := h.views
  rw [← pMerge_congr h2]
  apply wDb_pMerge
  rw [List.map_map]
  exact h1

mutual
theorem kept {ls : List Database} {d : Database} : Staged ls d → Kept ls d
  | .file h => ⟨⟨_, _, h⟩, fun s hs => ⟨_, _, List.mem_singleton.1 hs ▸ h⟩, _, rfl, EDb.refl _⟩
  | .stage (out := out) he hs hm hr => by
    have hk := keptAll hs
    obtain ⟨_, hroot, hu⟩ := mergeDb_pMerge hm
    refine ⟨⟨_, read_ofFile hr⟩, hk.leaves, pMerge emptyDb (ls.map (·.root)), ?_, EDb.merged rfl (read_mergeOk (roots_mergeable hk.leaves))⟩
    have hp : Plainly out.root := by
      rw [hroot]; exact merged_plainly (roots_plainly hk.reads)
    rw [wDb_throughFile he hu hp hr, hroot]
    exact hk.merged
termination_by structural h => h
theorem keptAll {ls ds : List Database} : StagedAll ls ds → KeptAll ls ds
  | .nil => ⟨fun _ h => (nomatch h), fun _ h => (nomatch h), ⟨[], rfl, EDb.refl _⟩⟩
  | .cons h ht => by
    obtain ⟨k1, k2, m, k3, k4⟩ := kept h
    obtain ⟨t1, t2, ms, t3, t4⟩ := keptAll ht
    refine ⟨?_, ?_, m :: ms, ?_, ?_⟩
    · intro d hd
      rcases List.mem_cons.1 hd with rfl | hd
      · exact k1
      · exact t1 d hd
    · intro s hs
      rcases List.mem_append.1 hs with hs | hs
      · exact k2 s hs
      · exact t2 s hs
    · rw [List.map_cons, List.map_cons, k3, t3]
    · rw [List.map_append]
      exact EDb.append (a := [m]) k4 t4
termination_by structural h => h
end

/-- **C108** (documents). Merge databases read from XML in any stages, storing and reading every intermediate result as XML,
and in any other stages in the same order of the original databases; then the documents written for the two final merges have
the same instance-coverage part.  Nothing is asked of the inputs. -/
theorem C108_documents {env env' : Env} (he : GoodEnv env) (he' : GoodEnv env') {ls ds ds' : List Database} {out out' : Database} {doc doc' : Elem}
    (hs : StagedAll ls ds) (hs' : StagedAll ls ds')
    (hm : mergeDb ⟨emptyDb, [], []⟩ ds = .ok out) (hm' : mergeDb ⟨emptyDb, [], []⟩ ds' = .ok out')
    (hw : Xml.write env out = .ok doc) (hw' : Xml.write env' out' = .ok doc') : instancePart doc = instancePart doc' := by
  have k := keptAll hs
  have k' := keptAll hs'
  obtain ⟨_, hroot, _⟩ := mergeDb_pMerge hm
  obtain ⟨_, hroot', _⟩ := mergeDb_pMerge hm'
  refine doc_view he he' ?_ ?_ ?_ hw hw'
  · rw [hroot]; exact merged_plainly (roots_plainly k.reads)
  · rw [hroot']; exact merged_plainly (roots_plainly k'.reads)
  · rw [hroot, hroot', k.merged, k'.merged]

/-- **C108** (databases). Two stagings of the same databases, in the same order, that both end by reading the file of a merge
give the same content, so every report on it is the same. -/
theorem C108_databases {env env' : Env} (he : GoodEnv env) (he' : GoodEnv env') {ls ds ds' : List Database} {out out' db db' : Database}
    (hs : StagedAll ls ds) (hs' : StagedAll ls ds')
    (hm : mergeDb ⟨emptyDb, [], []⟩ ds = .ok out) (hm' : mergeDb ⟨emptyDb, [], []⟩ ds' = .ok out')
    (hr : throughFile env out = .ok db) (hr' : throughFile env' out' = .ok db') : db.root = db'.root := by
  have k := keptAll hs
  have k' := keptAll hs'
  obtain ⟨_, hroot, hu⟩ := mergeDb_pMerge hm
  obtain ⟨_, hroot', _⟩ := mergeDb_pMerge hm'
  refine read_view he he' ?_ ?_ hu ?_ hr hr'
  · rw [hroot]; exact merged_plainly (roots_plainly k.reads)
  · rw [hroot']; exact merged_plainly (roots_plainly k'.reads)
  · rw [hroot, hroot', k.merged, k'.merged]

theorem stagedAll_files {ls : List Database} (h : ∀ s ∈ ls, ∃ (flt : FloatText) (doc : Elem), Xml.read flt doc = .ok s) : StagedAll ls ls := by
  induction ls with
  | nil => exact .nil
  | cons a t ih =>
    obtain ⟨_, _, ha⟩ := h a List.mem_cons_self
    exact .cons (ls := [a]) (.file ha) (ih (fun s hs => h s (List.mem_cons_of_mem _ hs)))

/-- **C108** (two stages). Merging a stored merge of `xs` with `ys` and storing the result gives the content that storing the
merge of `xs` and `ys` gives. -/
theorem C108_two_stages {e1 e2 e3 : Env} (h1 : GoodEnv e1) (h2 : GoodEnv e2) (h3 : GoodEnv e3) {xs ys : List Database} {o1 d1 o2 d2 o3 d3 : Database}
    (hx : ∀ s ∈ xs ++ ys, ∃ (flt : FloatText) (doc : Elem), Xml.read flt doc = .ok s)
    (hm1 : mergeDb ⟨emptyDb, [], []⟩ xs = .ok o1) (hr1 : throughFile e1 o1 = .ok d1)
    (hm2 : mergeDb ⟨emptyDb, [], []⟩ (d1 :: ys) = .ok o2) (hr2 : throughFile e2 o2 = .ok d2)
    (hm3 : mergeDb ⟨emptyDb, [], []⟩ (xs ++ ys) = .ok o3) (hr3 : throughFile e3 o3 = .ok d3) : d2.root = d3.root :=
  C108_databases h2 h3
    (.cons (.stage h1 (stagedAll_files (fun s hs => hx s (List.mem_append_left _ hs))) hm1 hr1)
      (stagedAll_files (fun s hs => hx s (List.mem_append_right _ hs))))
    (stagedAll_files hx) hm2 hm3 hr2 hr3

theorem dbView_wDb {r : Scope} (hr : Instanced r) {α : Type} {f : Scope → α} {get : WCi → α} (hf : ∀ c, f c = get (wCi c)) :
    dbView f r = (wDb r).map (fun i => (i.1, i.2.map (fun g => (g.1, g.2.map (fun c => (c.1, get c)))))) := by
  unfold dbView wDb
  rw [List.map_map]
  apply List.map_congr_left
  intro i hi
  simp only [Function.comp, wInst, List.map_map]
  refine Prod.ext rfl ?_
  apply List.map_congr_left
  intro g hg
  simp only [Function.comp, wCg, List.map_map]
  rw [written_insts (hr i hi g hg)]
  refine Prod.ext rfl ?_
  apply List.map_congr_left
  intro c _
  simp only [Function.comp, hf]
  rfl

theorem leafView_congr {a b : Scope} (ha : Instanced a) (hb : Instanced b) (h : wDb a = wDb b) {m : Nat} {p : Addr} (hp : InstLeaf m p) :
    dbView (leafView m) a = dbView (leafView m) b := by
  cases hp with
  | cp i g c n =>
    have hf : ∀ c, leafView ST.COVERPOINT c = (wCi c).2.1 := fun _ => rfl
    rw [dbView_wDb ha (get := fun c => c.2.1) hf, dbView_wDb hb (get := fun c => c.2.1) hf, h]
  | cross i g c n =>
    have hf : ∀ c, leafView ST.CROSS c = (wCi c).2.2.map (fun x => (x.1, x.2.2)) := by
      intro c
      unfold leafView wCi
      rw [List.map_map]
      rfl
    rw [dbView_wDb ha (get := fun c => c.2.2.map (fun x => (x.1, x.2.2))) hf, dbView_wDb hb (get := fun c => c.2.2.map (fun x => (x.1, x.2.2))) hf, h]

/-- **C108** (counts). However the inputs are merged in stages, the count of a bin of a cover-instance in the last file is the sum of
its counts in the inputs. -/
theorem C108_counts {env : Env} (he : GoodEnv env) {ls ds : List Database} {out db : Database} (hs : StagedAll ls ds)
    (hu : ∀ s ∈ ls, UniqueNames s.root) (hm : mergeDb ⟨emptyDb, [], []⟩ ds = .ok out) (hr : throughFile env out = .ok db)
    {m : Nat} {p : Addr} (hp : InstLeaf m p) {k : Nat} (hk : IsKind k) (b : String) :
    total p k b db.root = (ls.map (fun s => total p k b s.root)).sum := by
  have ka := keptAll hs
  obtain ⟨_, hroot, huo⟩ := mergeDb_pMerge hm
  have hp1 : Plainly out.root := by rw [hroot]; exact merged_plainly (roots_plainly ka.reads)
  have hv : wDb db.root = wDb (pMerge emptyDb (ls.map (·.root))) := by
    rw [wDb_throughFile he huo hp1 hr, hroot]; exact ka.merged
  have hi : Instanced (pMerge emptyDb (ls.map (·.root))) := (merged_plainly (roots_plainly ka.leaves)).inst
  obtain ⟨_, hd⟩ := read_ofFile hr
  rw [total_congr (read_instanced hd) hi (leafView_congr (read_instanced hd) hi hv hp) hk hp]
  have hmerge := (merge_closed emptyDb (ls.map (·.root))).1 (read_mergeOk (roots_mergeable ka.leaves))
  have hsum := C01_merge_conserves_counts (srcs := ls.map (·.root)) (by
    intro s hs
    obtain ⟨d, hd, rfl⟩ := List.mem_map.1 hs
    exact hu d hd) hmerge hp.leaf hk b
  rw [List.map_map] at hsum
  exact hsum

/-- **C108** (order). Two stagings of the same inputs in any order agree on all counts. -/
theorem C108_any_order {env env' : Env} (he : GoodEnv env) (he' : GoodEnv env') {ls ls' ds ds' : List Database} {out out' db db' : Database}
    (hs : StagedAll ls ds) (hs' : StagedAll ls' ds') (hperm : ls.Perm ls') (hu : ∀ s ∈ ls, UniqueNames s.root)
    (hm : mergeDb ⟨emptyDb, [], []⟩ ds = .ok out) (hm' : mergeDb ⟨emptyDb, [], []⟩ ds' = .ok out')
    (hr : throughFile env out = .ok db) (hr' : throughFile env' out' = .ok db')
    {m : Nat} {p : Addr} (hp : InstLeaf m p) {k : Nat} (hk : IsKind k) (b : String) : total p k b db.root = total p k b db'.root := by
  rw [C108_counts he hs hu hm hr hp hk b, C108_counts he' hs' (fun s hs => hu s (hperm.mem_iff.2 hs)) hm' hr' hp hk b]
  exact (hperm.map _).sum_eq

end Verif
