import Verif.XmlRound
/-!
# C31, C32, C35, C38, C39, C41: documents written and read back
-/

namespace Verif
namespace Xml
open PyNum Spec

/-! ## Shape of the database read back -/

/-- The instance read back. -/
def rInst (i : Scope) : Scope :=
  mkInstance i.name SrcInfo.none 1 (some ⟨"default", SrcInfo.none, 1⟩) ((kids ST.COVERGROUP i).map rCg)

theorem rTops_closed (l : List Scope) (hn : (l.map (·.name)).Nodup) :
    rTops l = if l = [] then [] else mkDu "default" SrcInfo.none 1 :: l.map rInst := by
  unfold rTops
  induction l using List.reverseRecOn with
  | nil => rfl
  | append_singleton t a ih =>
    rw [List.map_append, List.nodup_append] at hn
    obtain ⟨h1, _, h3⟩ := hn
    rw [List.foldl_append, ih h1]
    simp only [List.foldl_cons, List.foldl_nil, List.append_eq_nil_iff, List.cons_ne_nil, and_false, if_false]
    by_cases ht : t = []
    · subst ht
      rfl
    · rw [if_neg ht]
      have hmod : addModule "default" (mkDu "default" SrcInfo.none 1 :: t.map rInst) = mkDu "default" SrcInfo.none 1 :: t.map rInst := by
        unfold addModule
        rw [if_pos]
        rw [List.any_cons]
        rfl
      rw [hmod]
      unfold addInst
      rw [if_neg]
      · simp [rInst]
      · simp only [List.any_cons, Bool.or_eq_true, List.any_eq_true, Bool.and_eq_true, beq_iff_eq, not_or, not_exists, not_and]
        refine ⟨fun h => absurd h (by decide), ?_⟩
        intro x hx _ hname
        obtain ⟨b, hb, rfl⟩ := List.mem_map.1 hx
        exact h3 b.name (List.mem_map_of_mem hb) a.name (by simp) hname

theorem filter_map_all {α : Type} {f : α → Scope} {m : Nat} {l : List α} (h : ∀ x, maskHit (f x).stype m = true) :
    (l.map f).filter (fun c => maskHit c.stype m) = l.map f := by
  rw [List.filter_eq_self]
  intro c hc
  obtain ⟨x, _, rfl⟩ := List.mem_map.1 hc
  exact h x

theorem filter_map_none {α : Type} {f : α → Scope} {m : Nat} {l : List α} (h : ∀ x, maskHit (f x).stype m = false) :
    (l.map f).filter (fun c => maskHit c.stype m) = [] := by
  rw [List.filter_eq_nil_iff]
  intro c hc
  obtain ⟨x, _, rfl⟩ := List.mem_map.1 hc
  simp [h x]

theorem kids_rDb {env : Env} {db : Database} (hn : ((kids ST.INSTANCE db.root).map (·.name)).Nodup) :
    kids ST.INSTANCE (rDb env db).root = (kids ST.INSTANCE db.root).map rInst := by
  show (rTops (kids ST.INSTANCE db.root)).filter (fun c => maskHit c.stype ST.INSTANCE) = _
  rw [rTops_closed _ hn]
  split
  · rename_i h; rw [h]; rfl
  · rw [List.filter_cons_of_neg (by decide)]
    exact filter_map_all (fun _ => show maskHit ST.INSTANCE ST.INSTANCE = true by decide)

theorem kids_rInst (i : Scope) : kids ST.COVERGROUP (rInst i) = (kids ST.COVERGROUP i).map rCg :=
  filter_map_all (fun _ => show maskHit ST.COVERGROUP ST.COVERGROUP = true by decide)

theorem writtenGroups_rCg (g : Scope) : writtenGroups (rCg g) = (writtenGroups g).map (fun c => (pInst c).scope) := by
  have h : kids ST.COVERINSTANCE (rCg g) = (writtenGroups g).map (fun c => (pInst c).scope) := by
    unfold kids rCg
    rw [buildGroup_insts, List.map_map]
    rfl
  have hne : kids ST.COVERINSTANCE (rCg g) ≠ [] := by
    rw [h]; simpa using writtenGroups_ne_nil g
  rw [writtenGroups, if_neg hne, h]

theorem kids_pInst_cp (c : Scope) :
    kids ST.COVERPOINT (pInst c).scope = (kids ST.COVERPOINT c).map (fun x => mkCoverpoint x.name SrcInfo.none 1 (pCp x).bins) := by
  unfold kids PInst.scope mkCoverInst
  simp only [List.filter_append]
  rw [filter_map_all (fun _ => by simp only [mkCoverpoint]; decide), filter_map_none (fun _ => by simp only [mkCross]; decide)]
  simp [pInst, pCp, kids]

theorem kids_pInst_cross (c : Scope) :
    kids ST.CROSS (pInst c).scope = (kids ST.CROSS c).map (fun x => mkCross x.name SrcInfo.none 1 (pCr x).exprs (pCr x).bins) := by
  unfold kids PInst.scope mkCoverInst
  simp only [List.filter_append]
  rw [filter_map_none (fun _ => by simp only [mkCoverpoint]; decide), filter_map_all (fun _ => by simp only [mkCross]; decide)]
  simp [pInst, pCr, kids]

theorem covBins_idem (l : List Item) (p : Item → Bool) : (l.filter p).filter p = l.filter p := by
  rw [List.filter_filter]; simp

theorem covBins_pCp (x : Scope) :
    covBins (mkCoverpoint x.name SrcInfo.none 1 (pCp x).bins) = (covBins x).map (fun i => mkBin i.name i.kind 1 i.count) := by
  rw [covBins, mkCoverpoint]
  simp only
  show (((covBins x).map _).filter _) = _
  rw [List.filter_eq_self]
  intro i hi
  obtain ⟨j, hj, rfl⟩ := List.mem_map.1 hi
  exact (List.mem_filter.1 hj).2

theorem covBins_pCr (x : Scope) :
    covBins (mkCross x.name SrcInfo.none 1 (pCr x).exprs (pCr x).bins) = (covBins x).map (fun i => mkBin i.name CT.CVGBIN 1 i.count) := by
  rw [covBins, mkCross]
  simp only
  show (((covBins x).map _).filter _) = _
  rw [List.filter_eq_self]
  intro i hi
  obtain ⟨j, hj, rfl⟩ := List.mem_map.1 hi
  show (maskHit CT.CVGBIN CT.CVGBIN || maskHit CT.CVGBIN CT.IGNOREBIN || maskHit CT.CVGBIN CT.ILLEGALBIN) = true
  decide

theorem cpView_pInst (c : Scope) : cpView (pInst c).scope = cpView c := by
  unfold cpView
  rw [kids_pInst_cp, List.map_map]
  apply List.map_congr_left
  intro x _
  simp only [Function.comp, binTriples]
  rw [covBins_pCp]
  simp [Function.comp_def, mkCoverpoint, mkBin]

theorem dbView_rDb {α : Type} {f : Scope → α} {env : Env} {db : Database} (hn : ((kids ST.INSTANCE db.root).map (·.name)).Nodup)
    (hf : ∀ i ∈ kids ST.INSTANCE db.root, ∀ g ∈ kids ST.COVERGROUP i, ∀ c ∈ writtenGroups g, f (pInst c).scope = f c) :
    dbView f (rDb env db).root = dbView f db.root := by
  unfold dbView
  rw [kids_rDb hn, List.map_map]
  apply List.map_congr_left
  intro i hi
  simp only [Function.comp]
  rw [kids_rInst, List.map_map]
  have : (rInst i).name = i.name := rfl
  rw [this]
  congr 1
  apply List.map_congr_left
  intro g hg
  simp only [Function.comp]
  rw [writtenGroups_rCg, List.map_map]
  have : (rCg g).name = g.name := rfl
  rw [this]
  congr 1
  apply List.map_congr_left
  intro c hc
  simp only [Function.comp]
  rw [hf i hi g hg c hc]
  rfl

end Xml

open Xml Spec

/-! ## Hypotheses on the environment -/

/-- The environment of the writer: printable user name, dates in ISO form, `float(str(x)) == x`. -/
structure GoodEnv (env : Env) : Prop where
  user : Printable env.user
  today : ∃ d : DateTime.DT, d.ok = true ∧ env.today = String.ofList (DateTime.iso d)
  now : ∃ d : DateTime.DT, d.ok = true ∧ env.now = String.ofList (DateTime.iso d)
  round : ∀ x, env.flt.read (env.flt.show_ x) = some x
  zero : env.flt.read "0" = some 0

theorem GoodEnv.envOk {env : Env} (h : GoodEnv env) : EnvOk env := by
  obtain ⟨d, _, hd⟩ := h.today
  obtain ⟨d', _, hd'⟩ := h.now
  exact ⟨h.user, hd ▸ printable_iso d, hd' ▸ printable_iso d'⟩

theorem GoodEnv.floatOk {env : Env} (h : GoodEnv env) : FloatOk env.flt := ⟨h.round, h.zero⟩

/-- The instances of a database have distinct names. -/
def UniqueInsts (db : Scope) : Prop := ((kids ST.INSTANCE db).map (·.name)).Nodup

/-- White space at the ends does not matter for a name. -/
def Trimmed (n : String) : Prop :=
  (∀ c ∈ n.toList.head?, PyNum.isSpace c = false) ∧ ∀ c ∈ n.toList.getLast?, PyNum.isSpace c = false

theorem Trimmed.strip {n : String} (h : Trimmed n) : stripS n = n := by
  unfold stripS
  rw [PyNum.stripL_eq_self h.1 h.2, String.ofList_toList]

/-- The names used by the crosses of everything that is written have no surrounding white space. -/
def TrimmedCrosses (db : Scope) : Prop :=
  ∀ i ∈ kids ST.INSTANCE db, ∀ g ∈ kids ST.COVERGROUP i, ∀ c ∈ writtenGroups g, ∀ cr ∈ kids ST.CROSS c,
    ∀ n ∈ cr.cps.getD [], Trimmed n

/-- C31: writing and reading back preserves instance, covergroup and cover-instance names, and names,
order, bin names, bin kinds and bin counts of all coverpoints of what is written. -/
theorem C31_coverpoint_round_trip {env : Env} (he : GoodEnv env) {db db' : Database} {doc : Elem}
    (hu : UniqueInsts db.root) (hw : write env db = .ok doc) (hr : read env.flt (reparse doc) = .ok db') :
    dbView cpView db'.root = dbView cpView db.root := by
  obtain ⟨_, rfl⟩ := (read_written he.envOk he.floatOk he.now hw db').1 hr
  exact dbView_rDb hu (fun _ _ _ _ c _ => cpView_pInst c)

/-- C31: a written document can be read back exactly when each crossed name is a nonempty text that,
after stripping, is the name of a coverpoint of the same written group. -/
theorem C31_reads_back {env : Env} (he : GoodEnv env) {db : Database} {doc : Elem} (hw : write env db = .ok doc) :
    (∃ db', read env.flt (reparse doc) = .ok db') ↔
      ∀ i ∈ kids ST.INSTANCE db.root, ∀ g ∈ kids ST.COVERGROUP i, ∀ c ∈ writtenGroups g, ∀ cr ∈ kids ST.CROSS c,
        ∀ n ∈ cr.cps.getD [], n ≠ "" ∧ String.ofList (PyNum.stripL n.toList) ∈ (kids ST.COVERPOINT c).map (·.name) := by
  simp only [read_written he.envOk he.floatOk he.now hw]
  exact ⟨fun ⟨_, h, _⟩ => h, fun h => ⟨_, h, rfl⟩⟩

theorem writable_of_write {env : Env} (he : GoodEnv env) {db : Database} {doc : Elem} (hw : write env db = .ok doc) :
    ∀ i ∈ kids ST.INSTANCE db.root, WritableInst i := ((write_ok he.envOk db doc).1 hw).1.2.2

theorem pCr_exprs {cr : Scope} (hwr : WritableCross cr) (ht : ∀ n ∈ cr.cps.getD [], Trimmed n) :
    some (pCr cr).exprs = cr.cps := by
  obtain ⟨_, ⟨l, hl, _⟩, _⟩ := hwr
  show some ((cr.cps.getD []).map stripS) = cr.cps
  rw [hl] at ht ⊢
  simp only [Option.getD_some, Option.some.injEq] at ht ⊢
  conv_rhs => rw [← List.map_id l]
  apply List.map_congr_left
  intro n hn
  exact (ht n hn).strip

theorem crossView_pInst {c : Scope} (hwr : ∀ cr ∈ kids ST.CROSS c, WritableCross cr)
    (ht : ∀ cr ∈ kids ST.CROSS c, ∀ n ∈ cr.cps.getD [], Trimmed n) : crossView (pInst c).scope = crossView c := by
  unfold crossView
  rw [kids_pInst_cross, List.map_map]
  apply List.map_congr_left
  intro x hx
  simp only [Function.comp, crossBinView]
  rw [covBins_pCr]
  have : (mkCross x.name SrcInfo.none 1 (pCr x).exprs (pCr x).bins).cps = x.cps := pCr_exprs (hwr x hx) (ht x hx)
  rw [this]
  simp [Function.comp_def, mkCross, mkBin]

/-- C32 (without bin kinds): names, crossed coverpoints, bin names, order and counts of all crosses
survive.  Missing: the kinds of cross bins, see `C32_cross_kinds_refuted`. -/
theorem C32_cross_round_trip_partial {env : Env} (he : GoodEnv env) {db db' : Database} {doc : Elem}
    (hu : UniqueInsts db.root) (ht : TrimmedCrosses db.root)
    (hw : write env db = .ok doc) (hr : read env.flt (reparse doc) = .ok db') :
    dbView crossView db'.root = dbView crossView db.root := by
  obtain ⟨_, rfl⟩ := (read_written he.envOk he.floatOk he.now hw db').1 hr
  refine dbView_rDb hu (fun i hi g hg c hc => crossView_pInst (fun cr hcr => ?_) (ht i hi g hg c hc))
  exact (((writable_of_write he hw i hi).2 g hg).2 c hc).2.2 cr hcr

/-- C32 with kinds, when all cross bins are ordinary bins. -/
theorem C32_cross_kinds_partial {env : Env} (he : GoodEnv env) {db db' : Database} {doc : Elem}
    (hu : UniqueInsts db.root) (ht : TrimmedCrosses db.root)
    (hk : ∀ i ∈ kids ST.INSTANCE db.root, ∀ g ∈ kids ST.COVERGROUP i, ∀ c ∈ writtenGroups g, ∀ cr ∈ kids ST.CROSS c,
      ∀ b ∈ covBins cr, b.kind = CT.CVGBIN)
    (hw : write env db = .ok doc) (hr : read env.flt (reparse doc) = .ok db') :
    dbView crossKindView db'.root = dbView crossKindView db.root := by
  obtain ⟨_, rfl⟩ := (read_written he.envOk he.floatOk he.now hw db').1 hr
  refine dbView_rDb hu (fun i hi g hg c hc => ?_)
  unfold crossKindView
  rw [kids_pInst_cross, List.map_map]
  apply List.map_congr_left
  intro x hx
  simp only [Function.comp, binTriples]
  rw [covBins_pCr]
  have hcw := (((writable_of_write he hw i hi).2 g hg).2 c hc).2.2 x hx
  have : (mkCross x.name SrcInfo.none 1 (pCr x).exprs (pCr x).bins).cps = x.cps := pCr_exprs hcw (ht i hi g hg c hc x hx)
  rw [this]
  refine Prod.ext rfl (Prod.ext rfl ?_)
  simp only [List.map_map]
  apply List.map_congr_left
  intro b hb
  simp [mkBin, hk i hi g hg c hc x hx b hb]

/-! ## C35 -/

/-- The instance-coverage part of a document. -/
def instancePart (doc : Elem) : List Elem := doc.children.filter (fun e => e.tag = "instanceCoverages")

theorem filter_tag_all {α : Type} {f : α → Elem} {t : String} {l : List α} (h : ∀ x, (f x).tag = t) :
    (l.map f).filter (fun e => e.tag = t) = l.map f := by
  rw [List.filter_eq_self]
  intro c hc
  obtain ⟨x, _, rfl⟩ := List.mem_map.1 hc
  simp [h x]

theorem filter_tag_none {α : Type} {f : α → Elem} {t : String} {l : List α} (h : ∀ x, (f x).tag ≠ t) :
    (l.map f).filter (fun e => e.tag = t) = [] := by
  rw [List.filter_eq_nil_iff]
  intro c hc
  obtain ⟨x, _, rfl⟩ := List.mem_map.1 hc
  simp [h x]

theorem tag_eHistory {env : Env} {l : List Hist} {e : Elem} (h : e ∈ eHistory env l) : e.tag = "historyNodes" := by
  have : ∀ (l : List Hist) (i : Nat), ∀ e ∈ eHists env.flt i l, e.tag = "historyNodes" := by
    intro l
    induction l with
    | nil => intro i e he; cases he
    | cons a t ih =>
      intro i e he
      rcases List.mem_cons.1 he with rfl | he
      · rfl
      · exact ih _ _ he
  unfold eHistory at h
  cases l with
  | nil => simp at h; subst h; rfl
  | cons a t => exact this _ _ _ h

theorem filter_tag_hist {env : Env} {l : List Hist} {t : String} (ht : t ≠ "historyNodes") :
    (eHistory env l).filter (fun e => e.tag = t) = [] := by
  rw [List.filter_eq_nil_iff]
  intro e he
  rw [tag_eHistory he]
  simp [ht.symm]

theorem instancePart_eDoc (f : String → Option String) (env : Env) (db : Database) :
    instancePart (eDoc f env db) = (kids ST.INSTANCE db.root).map (eInst f) := by
  unfold instancePart eDoc
  simp only [List.filter_append]
  rw [filter_tag_none (fun _ => by simp [eFile]), filter_tag_hist (by decide), filter_tag_all (t := "instanceCoverages") (f := eInst f) (fun _ => rfl)]
  rfl

theorem eCp_pCp (x : Scope) : eCp (mkCoverpoint x.name SrcInfo.none 1 (pCp x).bins) = eCp x := by
  unfold eCp
  rw [covBins_pCp, List.map_map]
  rfl

theorem eCross_pCr {cr : Scope} (hwr : WritableCross cr) (ht : ∀ n ∈ cr.cps.getD [], Trimmed n) :
    eCross some (mkCross cr.name SrcInfo.none 1 (pCr cr).exprs (pCr cr).bins) = eCross some cr := by
  unfold eCross
  rw [covBins_pCr, List.map_map]
  have : (mkCross cr.name SrcInfo.none 1 (pCr cr).exprs (pCr cr).bins).cps = cr.cps := pCr_exprs hwr ht
  rw [this]
  rfl

theorem eInst_rInst {i : Scope} (hwr : WritableInst i)
    (ht : ∀ g ∈ kids ST.COVERGROUP i, ∀ c ∈ writtenGroups g, ∀ cr ∈ kids ST.CROSS c, ∀ n ∈ cr.cps.getD [], Trimmed n) :
    eInst some (rInst i) = eInst some i := by
  unfold eInst
  rw [kids_rInst, List.map_map]
  have : (kids ST.COVERGROUP i).map (eCg some ∘ rCg) = (kids ST.COVERGROUP i).map (eCg some) := by
    apply List.map_congr_left
    intro g hg
    simp only [Function.comp, eCg]
    rw [writtenGroups_rCg, List.map_map]
    have : (writtenGroups g).map (eGroup some (rCg g).name ∘ fun c => (pInst c).scope) = (writtenGroups g).map (eGroup some g.name) := by
      apply List.map_congr_left
      intro c hc
      simp only [Function.comp, eGroup]
      rw [kids_pInst_cp, kids_pInst_cross, List.map_map, List.map_map]
      have h1 : (kids ST.COVERPOINT c).map (eCp ∘ fun x => mkCoverpoint x.name SrcInfo.none 1 (pCp x).bins) = (kids ST.COVERPOINT c).map eCp :=
        List.map_congr_left (fun x _ => eCp_pCp x)
      have h2 : (kids ST.CROSS c).map (eCross some ∘ fun x => mkCross x.name SrcInfo.none 1 (pCr x).exprs (pCr x).bins)
          = (kids ST.CROSS c).map (eCross some) :=
        List.map_congr_left (fun x hx => eCross_pCr (((hwr.2 g hg).2 c hc).2.2 x hx) (ht g hg c hc x hx))
      rw [h1, h2]
      rfl
    rw [this]
  rw [this]
  rfl

/-- C35: writing, reading and writing again gives the same instance-coverage part. -/
theorem C35_write_stable {env env' : Env} (he : GoodEnv env) (he' : GoodEnv env') {db db' : Database} {doc doc' : Elem}
    (hu : UniqueInsts db.root) (ht : TrimmedCrosses db.root)
    (hw : write env db = .ok doc) (hr : read env.flt (reparse doc) = .ok db') (hw' : write env' db' = .ok doc') :
    instancePart doc' = instancePart doc := by
  obtain ⟨_, rfl⟩ := (read_written he.envOk he.floatOk he.now hw db').1 hr
  have hwi := writable_of_write he hw
  obtain ⟨_, rfl⟩ := (write_ok he.envOk db doc).1 hw
  obtain ⟨_, rfl⟩ := (write_ok he'.envOk _ doc').1 hw'
  rw [instancePart_eDoc, instancePart_eDoc, kids_rDb hu, List.map_map]
  apply List.map_congr_left
  intro i hi
  exact eInst_rInst (hwi i hi) (ht i hi)

end Verif
