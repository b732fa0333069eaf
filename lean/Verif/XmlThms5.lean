import Verif.XmlThms4
import Verif.ReportThms3
import Mathlib.Data.List.Perm.Basic
/-!
# C36: coverage figures and the XML interchange
-/

namespace Verif
namespace Xml
open PyNum Spec

/-! ## A second round trip changes nothing -/

theorem head_dropWhile {α : Type} {p : α → Bool} {l : List α} {c : α} (h : (l.dropWhile p).head? = some c) : p c = false := by
  induction l with
  | nil => cases h
  | cons a t ih =>
    rw [List.dropWhile_cons] at h
    split at h
    · exact ih h
    · rename_i hp
      simp at h hp
      exact h ▸ hp

theorem stripL_idem (l : List Char) : stripL (stripL l) = stripL l := by
  apply stripL_eq_self
  · intro c hc
    unfold stripL at hc
    have hsuf : ((l.dropWhile isSpace).reverse.dropWhile isSpace).reverse <+: l.dropWhile isSpace := by
      have := List.dropWhile_suffix isSpace (l := (l.dropWhile isSpace).reverse)
      have h2 := List.reverse_prefix.2 this
      simpa using h2
    apply head_dropWhile (l := l)
    obtain ⟨r, hr⟩ := hsuf
    rw [← hr]
    rw [List.head?_append, hc]; rfl
  · intro c hc
    unfold stripL at hc
    rw [List.getLast?_reverse] at hc
    exact head_dropWhile hc

theorem stripS_crossed (e : Elem) : stripS (crossed e) = crossed e := by
  unfold stripS crossed
  rw [String.toList_ofList, stripL_idem]

theorem mkBin_items {l : List (String × Nat × Int)} :
    (l.map itemOf).map (fun i => mkBin i.name i.kind 1 i.count) = l.map itemOf := by
  rw [List.map_map]; rfl

theorem pCp_dCp {e : Elem} (h : ∀ b ∈ within "coverpointBin" e, GoodBin b) :
    pCp (mkCoverpoint (dCp e).name SrcInfo.none 1 (dCp e).bins) = dCp e := by
  unfold pCp
  have h1 : covBins (mkCoverpoint (dCp e).name SrcInfo.none 1 (dCp e).bins) = (dCp e).bins := by
    apply covBins_all
    intro b hb
    obtain ⟨x, hx, rfl⟩ := List.mem_map.1 hb
    exact kind_binOf (h x hx)
  rw [h1]
  simp only [dCp, mkCoverpoint, List.map_map]
  rfl

theorem pCr_dCr (e : Elem) : pCr (mkCross (dCr e).name SrcInfo.none 1 (dCr e).exprs (dCr e).bins) = dCr e := by
  unfold pCr
  have h1 : covBins (mkCross (dCr e).name SrcInfo.none 1 (dCr e).exprs (dCr e).bins) = (dCr e).bins := by
    apply covBins_all
    intro b hb
    obtain ⟨x, hx, rfl⟩ := List.mem_map.1 hb
    exact kind_crossBinOf x
  rw [h1]
  simp only [dCr, mkCross, Option.getD_some, List.map_map]
  have : ∀ l : List Elem, l.map (stripS ∘ crossed) = l.map crossed :=
    fun l => List.map_congr_left (fun x _ => stripS_crossed x)
  rw [this]
  rfl

theorem pInst_dInst {e : Elem} (h : GoodGroup e) : pInst (dInst e).scope = dInst e := by
  unfold pInst
  rw [kids_inst_cp, kids_inst_cross]
  simp only [dInst, List.map_map]
  have h1 : (within "coverpoint" e).map (pCp ∘ (fun c : PCp => mkCoverpoint c.name SrcInfo.none 1 c.bins) ∘ dCp) = (within "coverpoint" e).map dCp :=
    List.map_congr_left (fun x hx => pCp_dCp (h.1 x hx))
  have h2 : (within "cross" e).map (pCr ∘ (fun c : PCr => mkCross c.name SrcInfo.none 1 c.exprs c.bins) ∘ dCr) = (within "cross" e).map dCr :=
    List.map_congr_left (fun x _ => pCr_dCr x)
  rw [h1, h2]
  rfl

theorem rCg_read {flt : FloatText} {doc : Elem} {db : Database} (h : Xml.read flt doc = .ok db) {i g : Scope}
    (hi : i ∈ kids ST.INSTANCE db.root) (hg : g ∈ kids ST.COVERGROUP i) : rCg g = g := by
  obtain ⟨t, es, hne, hgood, rfl⟩ := read_group h hi hg
  unfold rCg
  rw [writtenGroups_build (by simpa using hne), List.map_map, List.map_map]
  have h1 : es.map (pInst ∘ PInst.scope ∘ dInst) = es.map dInst :=
    List.map_congr_left (fun e he => pInst_dInst (hgood e he).1)
  rw [show (pInst ∘ PInst.scope) ∘ dInst = pInst ∘ PInst.scope ∘ dInst from rfl, h1]
  rfl

theorem uniqueInsts_read {flt : FloatText} {doc : Elem} {db : Database} (h : Xml.read flt doc = .ok db) : UniqueInsts db.root := by
  have := congrArg (List.map Prod.fst) (read_insts h)
  rw [List.map_map, List.map_map] at this
  unfold UniqueInsts
  have e : ((kids ST.INSTANCE db.root).map (·.name)) = (kids ST.INSTANCE db.root).map (Prod.fst ∘ fun s => (s.name, s.children)) := rfl
  rw [e, this]
  show (List.map id _).Nodup
  rw [List.map_id, distinct_eq]
  exact firstSeen_nodup _

/-- What a report looks at. -/
theorem build_congr {rd : Rat → Rat} {a b : Scope}
    (h : (kids ST.INSTANCE a).map (kids ST.COVERGROUP) = (kids ST.INSTANCE b).map (kids ST.COVERGROUP)) :
    Report.build rd a = Report.build rd b := by
  unfold Report.build
  have : ∀ (l m : List Scope), l.map (kids ST.COVERGROUP) = m.map (kids ST.COVERGROUP) → ∀ r : Report.Rpt,
      l.foldlM (Report.buildCovergroups rd) r = m.foldlM (Report.buildCovergroups rd) r := by
    intro l
    induction l with
    | nil => intro m hm r; cases m with
      | nil => rfl
      | cons _ _ => cases hm
    | cons x t ih =>
      intro m hm r
      cases m with
      | nil => cases hm
      | cons y u =>
        simp only [List.map_cons, List.cons.injEq] at hm
        rw [List.foldlM_cons, List.foldlM_cons]
        have hxy : Report.buildCovergroups rd r x = Report.buildCovergroups rd r y := by
          unfold Report.buildCovergroups
          have h1 : x.scopes ST.COVERGROUP = y.scopes ST.COVERGROUP := hm.1
          rw [h1]
        rw [hxy]
        congr 1
        funext r'
        exact ih u hm.2 r'
  exact this _ _ h _

end Xml

open Xml Spec Report

/-- C36 for databases that came from a document: writing and reading once more gives the very same
covergroups, and therefore the same report (or the same failure to make one) in any arithmetic. -/
theorem C36_second_trip_partial {flt : FloatText} {env : Env} (he : GoodEnv env) {doc0 doc : Elem} {db db' : Database}
    (h0 : Xml.read flt doc0 = .ok db) (hw : write env db = .ok doc) (hr : Xml.read env.flt (reparse doc) = .ok db') :
    (kids ST.INSTANCE db'.root).map (fun i => (i.name, kids ST.COVERGROUP i))
      = (kids ST.INSTANCE db.root).map (fun i => (i.name, kids ST.COVERGROUP i)) ∧
    ∀ rd, build rd db'.root = build rd db.root := by
  obtain ⟨_, rfl⟩ := (read_written he.envOk he.floatOk he.now hw db').1 hr
  have hk : (kids ST.INSTANCE (rDb env db).root).map (fun i => (i.name, kids ST.COVERGROUP i))
      = (kids ST.INSTANCE db.root).map (fun i => (i.name, kids ST.COVERGROUP i)) := by
    rw [kids_rDb (uniqueInsts_read h0), List.map_map]
    apply List.map_congr_left
    intro i hi
    simp only [Function.comp]
    rw [kids_rInst]
    have : (kids ST.COVERGROUP i).map rCg = kids ST.COVERGROUP i := by
      conv_rhs => rw [← List.map_id (kids ST.COVERGROUP i)]
      exact List.map_congr_left (fun g hg => rCg_read h0 hi hg)
    rw [this]
    rfl
  refine ⟨hk, fun rd => build_congr ?_⟩
  have := congrArg (List.map Prod.snd) hk
  rw [List.map_map, List.map_map] at this
  exact this

/-! ## Reports of databases that were read -/

/-- Leaves as the reader makes them: thresholds 1. -/
def Spec.UnitLeaf (c : Scope) : Prop := ∀ b ∈ covBins c, b.atLeast = some 1

theorem itemsOfKind_cov {c : Scope} {k : Nat} (hk : k ∈ [CT.CVGBIN, CT.IGNOREBIN, CT.ILLEGALBIN]) :
    itemsOfKind k c = (covBins c).filter (fun i => maskHit i.kind k) := by
  unfold itemsOfKind covBins
  rw [List.filter_filter]
  apply List.filter_congr
  intro i _
  simp only [List.mem_cons, List.not_mem_nil, or_false] at hk
  rcases hk with rfl | rfl | rfl
  · cases maskHit i.kind CT.CVGBIN <;> simp
  · cases maskHit i.kind CT.IGNOREBIN <;> simp
  · cases maskHit i.kind CT.ILLEGALBIN <;> simp

theorem Spec.UnitLeaf.cpOk {c : Scope} (h : UnitLeaf c) : CpOk c := by
  intro k hk i hi
  rw [itemsOfKind_cov hk] at hi
  rw [h i (List.mem_filter.1 hi).1]
  simp

theorem Spec.UnitLeaf.crossOk {c : Scope} (h : UnitLeaf c) : CrossOk c := h.cpOk CT.CVGBIN (by simp)

theorem unitLeaf_of_items {c : Scope} (h : ∀ b ∈ c.items, b.atLeast = some 1) : UnitLeaf c :=
  fun b hb => h b (List.mem_filter.1 hb).1

theorem groupTree_mem {s g : Scope} : g ∈ groupTree s ↔ g = s ∨ ∃ c ∈ kids ST.COVERINSTANCE s, g ∈ groupTree c := by
  have hF : ∀ l : List Scope, g ∈ groupForest l ↔ ∃ c ∈ l.filter (fun c => maskHit c.stype ST.COVERINSTANCE), g ∈ groupTree c := by
    intro l
    induction l with
    | nil => simp [groupForest]
    | cons a t ih =>
      rw [groupForest, List.filter_cons]
      split
      · simp [ih]
      · exact ih
  cases s
  rw [groupTree, List.mem_cons, hF]
  rfl

theorem kids_inst_inst (p : PInst) : kids ST.COVERINSTANCE p.scope = [] := by
  unfold kids PInst.scope mkCoverInst
  simp only [List.filter_append]
  rw [filter_map_none (fun _ => by simp only [mkCoverpoint]; decide), filter_map_none (fun _ => by simp only [mkCross]; decide)]
  rfl

theorem unit_buildGroup {t : String} {es : List Elem} {g : Scope} (hg : g ∈ groupTree (buildGroup t (es.map dInst))) :
    (∀ c ∈ kids ST.COVERPOINT g, c.weight = 1 ∧ UnitLeaf c) ∧ ∀ c ∈ kids ST.CROSS g, UnitLeaf c := by
  rw [groupTree_mem] at hg
  have hk : kids ST.COVERINSTANCE (buildGroup t (es.map dInst)) = _ := buildGroup_insts t _
  have h1 : kids ST.COVERPOINT (buildGroup t (es.map dInst)) = _ := buildGroup_cps t _
  have h2 : kids ST.CROSS (buildGroup t (es.map dInst)) = _ := buildGroup_crosses t _
  rcases hg with rfl | ⟨c, hc, hg⟩
  · rw [h1, h2]
    refine ⟨fun c hc => ?_, fun c hc => ?_⟩
    · obtain ⟨n, _, rfl⟩ := List.mem_map.1 hc
      refine ⟨rfl, unitLeaf_of_items (fun b hb => ?_)⟩
      obtain ⟨x, _, rfl⟩ := List.mem_map.1 hb
      rfl
    · obtain ⟨n, _, rfl⟩ := List.mem_map.1 hc
      refine unitLeaf_of_items (fun b hb => ?_)
      obtain ⟨x, _, rfl⟩ := List.mem_map.1 hb
      rfl
  · rw [hk, List.map_map] at hc
    obtain ⟨e, _, rfl⟩ := List.mem_map.1 hc
    rw [Function.comp, groupTree_mem] at hg
    rcases hg with rfl | ⟨c, hc, _⟩
    · rw [kids_inst_cp, kids_inst_cross]
      refine ⟨fun c hc => ?_, fun c hc => ?_⟩
      · obtain ⟨p, hp, rfl⟩ := List.mem_map.1 hc
        obtain ⟨x, _, rfl⟩ := List.mem_map.1 hp
        refine ⟨rfl, unitLeaf_of_items (fun b hb => ?_)⟩
        obtain ⟨y, _, rfl⟩ := List.mem_map.1 hb
        rfl
      · obtain ⟨p, hp, rfl⟩ := List.mem_map.1 hc
        obtain ⟨x, _, rfl⟩ := List.mem_map.1 hp
        refine unitLeaf_of_items (fun b hb => ?_)
        obtain ⟨y, _, rfl⟩ := List.mem_map.1 hb
        rfl
    · rw [kids_inst_inst] at hc; cases hc

/-- C70: a report can be made of a database read from a document exactly when every instance has a
covergroup. -/
theorem C70_report_of_read {flt : FloatText} {doc : Elem} {db : Database} (h : Xml.read flt doc = .ok db) (rd : Rat → Rat) :
    (∃ r, build rd db.root = .ok r) ↔ ∀ i ∈ kids ST.INSTANCE db.root, kids ST.COVERGROUP i ≠ [] := by
  simp only [build_ok]
  have hw : ∀ i ∈ kids ST.INSTANCE db.root, weightSum (kids ST.COVERGROUP i) = (kids ST.COVERGROUP i).length := by
    intro i hi
    have : ∀ g ∈ kids ST.COVERGROUP i, g.weight = 1 := by
      intro g hg
      obtain ⟨t, es, _, _, rfl⟩ := read_group h hi hg
      rfl
    unfold weightSum
    rw [show (kids ST.COVERGROUP i).map (·.weight) = (kids ST.COVERGROUP i).map (fun _ => (1 : Int)) from List.map_congr_left this]
    simp
  constructor
  · rintro ⟨_, h1, _⟩ i hi hnil
    have := (h1 i hi).2
    rw [hw i hi, hnil] at this
    exact this rfl
  · intro h1
    refine ⟨_, fun i hi => ⟨fun s hs g hg => ?_, ?_⟩, rfl⟩
    · obtain ⟨t, es, _, _, rfl⟩ := read_group h hi hs
      have := unit_buildGroup hg
      exact ⟨fun c hc => (this.1 c hc).2.cpOk, fun c hc => (this.2 c hc).crossOk⟩
    · rw [hw i hi]
      have := List.length_pos_of_ne_nil (h1 i hi)
      omega

/-! ## First trip: what figures depend on -/

/-- Percentage of ordinary bins hit at least once, from names, kinds and counts. -/
def share (l : List (String × Nat × Int)) : Rat :=
  if l.countP (fun t => maskHit t.2.1 CT.CVGBIN) = 0 then 0
  else 100 * ((l.filter (fun t => maskHit t.2.1 CT.CVGBIN)).countP (fun t => decide (1 ≤ t.2.2)) : Rat)
    / (l.countP (fun t => maskHit t.2.1 CT.CVGBIN) : Rat)

theorem share_perm {l m : List (String × Nat × Int)} (h : l.Perm m) : share l = share m := by
  unfold share
  rw [h.countP_eq, (h.filter _).countP_eq]

theorem hitShare_unit {c : Scope} (h : UnitLeaf c) : hitShare c = share (binTriples c) := by
  have h1 : numBins c = (binTriples c).countP (fun t => maskHit t.2.1 CT.CVGBIN) := by
    unfold numBins binTriples
    rw [itemsOfKind_cov (by simp), List.countP_map, List.countP_eq_length_filter]
    rfl
  have h2 : numReached c = ((binTriples c).filter (fun t => maskHit t.2.1 CT.CVGBIN)).countP (fun t => decide (1 ≤ t.2.2)) := by
    unfold numReached binTriples
    rw [itemsOfKind_cov (by simp), List.filter_map, List.countP_map]
    apply List.countP_congr
    intro i hi
    have := h i (List.mem_filter.1 hi).1
    simp [reached, this]
  unfold hitShare share
  rw [h1, h2]

/-- Name, kind and count of the bins under coverpoints (or crosses) of a name in what is written of a
covergroup. -/
def Spec.writtenBins (m : Nat) (g : Scope) (n : String) : List (String × Nat × Int) :=
  (((writtenGroups g).flatMap (kids m)).filter (fun c => c.name = n)).flatMap binTriples

/-- The coverpoints (or crosses) of the covergroup itself are the sums of those in what is written of
it.  For a covergroup without cover-instances this says that names of coverpoints, and names of bins
within each, are distinct. -/
structure Spec.Aggregated (m : Nat) (g : Scope) : Prop where
  names_nodup : ((kids m g).map (·.name)).Nodup
  names : ∀ n, n ∈ (kids m g).map (·.name) ↔ n ∈ ((writtenGroups g).flatMap (kids m)).map (·.name)
  bins_nodup : ∀ c ∈ kids m g, ((binTriples c).map (·.1)).Nodup
  bins : ∀ c ∈ kids m g, ∀ n k z, (n, k, z) ∈ binTriples c ↔
    (∃ z', (n, k, z') ∈ writtenBins m g c.name) ∧ z = (((writtenBins m g c.name).filter (fun t => t.1 = n)).map (·.2.2)).sum

theorem nodup_of_map {α β : Type} {f : α → β} {l : List α} (h : (l.map f).Nodup) : l.Nodup := List.Nodup.of_map f h

theorem aggregated_perm {m : Nat} {g g' : Scope} (h : Aggregated m g) (h' : Aggregated m g')
    (hn : ((writtenGroups g').flatMap (kids m)).map (·.name) = ((writtenGroups g).flatMap (kids m)).map (·.name))
    (hb : ∀ n, writtenBins m g' n = writtenBins m g n) :
    ((kids m g').map (fun c => (c.name, share (binTriples c)))).Perm ((kids m g).map (fun c => (c.name, share (binTriples c)))) := by
  have key : ∀ {a b : Scope}, Aggregated m a → Aggregated m b →
      ((writtenGroups b).flatMap (kids m)).map (·.name) = ((writtenGroups a).flatMap (kids m)).map (·.name) →
      (∀ n, writtenBins m b n = writtenBins m a n) → ∀ x, x ∈ (kids m a).map (fun c => (c.name, share (binTriples c))) →
        x ∈ (kids m b).map (fun c => (c.name, share (binTriples c))) := by
    intro a b ha hb' hn hb x hx
    obtain ⟨c, hc, rfl⟩ := List.mem_map.1 hx
    have h1 : c.name ∈ (kids m b).map (·.name) := by
      rw [hb'.names, hn, ← ha.names]
      exact List.mem_map_of_mem hc
    obtain ⟨d, hd, hdn⟩ := List.mem_map.1 h1
    refine List.mem_map.2 ⟨d, hd, ?_⟩
    have hp : (binTriples d).Perm (binTriples c) := by
      rw [List.perm_ext_iff_of_nodup (nodup_of_map (hb'.bins_nodup d hd)) (nodup_of_map (ha.bins_nodup c hc))]
      rintro ⟨n, k, z⟩
      rw [hb'.bins d hd, ha.bins c hc, hb, hdn]
    rw [hdn, share_perm hp]
  have nd : ∀ {a : Scope}, Aggregated m a → ((kids m a).map (fun c => (c.name, share (binTriples c)))).Nodup := by
    intro a ha
    apply nodup_of_map (f := Prod.fst)
    rw [List.map_map]
    exact ha.names_nodup
  rw [List.perm_ext_iff_of_nodup (nd h') (nd h)]
  intro x
  exact ⟨key h' h hn.symm (fun n => (hb n).symm) x, key h h' hn hb x⟩

/-- Membership in aggregated bins when the kind depends on the name only. -/
theorem mem_aggBins {l : List (String × Nat × Int)} (K : String → Nat) (hK : ∀ a ∈ l, K a.1 = a.2.1) (n : String) (k : Nat) (z : Int) :
    (n, k, z) ∈ (firstSeen (l.map (·.1))).map (fun b => (b, K b, ((l.filter (fun t => t.1 = b)).map (·.2.2)).sum)) ↔
      (∃ z', (n, k, z') ∈ l) ∧ z = ((l.filter (fun t => t.1 = n)).map (·.2.2)).sum := by
  rw [List.mem_map]
  constructor
  · rintro ⟨b, hb, he⟩
    simp only [Prod.mk.injEq] at he
    obtain ⟨rfl, rfl, rfl⟩ := he
    rw [mem_firstSeen] at hb
    obtain ⟨⟨b', k', z'⟩, hm, rfl⟩ := List.mem_map.1 hb
    exact ⟨⟨z', by rw [hK _ hm]; exact hm⟩, rfl⟩
  · rintro ⟨⟨z', hz'⟩, rfl⟩
    refine ⟨n, ?_, ?_⟩
    · rw [mem_firstSeen]; exact List.mem_map.2 ⟨_, hz', rfl⟩
    · have := hK _ hz'
      simp only at this
      rw [this]

/-- The triple of an item. -/
def tr (i : Item) : String × Nat × Int := (i.name, i.kind, i.count)

theorem flatMap_kids_written (m : Nat) (g : Scope) (f : Scope → Scope)
    (hf : ∀ c, kids m (pInst c).scope = (kids m c).map f) :
    (writtenGroups (rCg g)).flatMap (kids m) = ((writtenGroups g).flatMap (kids m)).map f := by
  rw [writtenGroups_rCg, List.flatMap_map, List.map_flatMap]
  exact List.flatMap_congr (fun c _ => hf c)

theorem writtenBins_rCg {m : Nat} {g : Scope} (f : Scope → Scope) (hf : ∀ c, kids m (pInst c).scope = (kids m c).map f)
    (hn : ∀ c, (f c).name = c.name) (hb : ∀ x ∈ (writtenGroups g).flatMap (kids m), binTriples (f x) = binTriples x) :
    ((writtenGroups (rCg g)).flatMap (kids m)).map (·.name) = ((writtenGroups g).flatMap (kids m)).map (·.name) ∧
    ∀ n, writtenBins m (rCg g) n = writtenBins m g n := by
  have h := flatMap_kids_written m g f hf
  constructor
  · rw [h, List.map_map]
    exact List.map_congr_left (fun c _ => hn c)
  · intro n
    unfold writtenBins
    rw [h, List.filter_map, List.flatMap_map]
    have : (fun c : Scope => decide (c.name = n)) ∘ f = fun c => decide (c.name = n) := by
      funext c; simp [Function.comp, hn]
    rw [this]
    exact List.flatMap_congr (fun c hc => hb c (List.mem_filter.1 hc).1)

theorem binTriples_rCp (x : Scope) : binTriples (mkCoverpoint x.name SrcInfo.none 1 (Xml.pCp x).bins) = binTriples x := by
  unfold binTriples
  rw [covBins_pCp]
  simp [Function.comp_def, mkBin]

theorem binTriples_rCr {x : Scope} (h : ∀ b ∈ covBins x, b.kind = CT.CVGBIN) :
    binTriples (mkCross x.name SrcInfo.none 1 (pCr x).exprs (pCr x).bins) = binTriples x := by
  unfold binTriples
  rw [covBins_pCr, List.map_map]
  apply List.map_congr_left
  intro b hb
  simp [mkBin, h b hb]

theorem cpBins_tr (g : Scope) (n : String) : (cpBins ((writtenGroups g).map Xml.pInst) n).map tr = writtenBins ST.COVERPOINT g n := by
  unfold cpBins writtenBins
  rw [List.flatMap_map]
  have : (writtenGroups g).flatMap (fun c => (Xml.pInst c).cps) = ((writtenGroups g).flatMap (kids ST.COVERPOINT)).map Xml.pCp := by
    rw [List.map_flatMap]; rfl
  rw [this, List.filter_map, List.flatMap_map, List.map_flatMap]
  apply List.flatMap_congr
  intro c _
  simp only [Xml.pCp, List.map_map]
  rfl

theorem crBins_tr {g : Scope} (h : ∀ x ∈ (writtenGroups g).flatMap (kids ST.CROSS), ∀ b ∈ covBins x, b.kind = CT.CVGBIN) (n : String) :
    (crBins ((writtenGroups g).map Xml.pInst) n).map tr = writtenBins ST.CROSS g n := by
  unfold crBins writtenBins
  rw [List.flatMap_map]
  have : (writtenGroups g).flatMap (fun c => (Xml.pInst c).crs) = ((writtenGroups g).flatMap (kids ST.CROSS)).map pCr := by
    rw [List.map_flatMap]; rfl
  rw [this, List.filter_map, List.flatMap_map, List.map_flatMap]
  apply List.flatMap_congr
  intro c hc
  simp only [pCr, List.map_map]
  apply List.map_congr_left
  intro b hb
  simp [tr, mkBin, h c (List.mem_filter.1 hc).1 b hb]

theorem filter_tr (l : List Item) (b : String) :
    ((l.filter (fun i => i.name = b)).map (·.count)).sum = (((l.map tr).filter (fun t => t.1 = b)).map (·.2.2)).sum := by
  rw [List.filter_map, List.map_map]
  rfl

/-- The kind of the first bin of a name. -/
def firstKind (l : List Item) (b : String) : Nat := ((l.filter (fun i => i.name = b)).head?.map (·.kind)).getD 0

theorem firstKind_eq {l : List Item} (hk : ∀ a ∈ l, ∀ b ∈ l, a.name = b.name → a.kind = b.kind) {a : Item} (ha : a ∈ l) :
    firstKind l a.name = a.kind := by
  unfold firstKind
  cases hf : l.filter (fun i => i.name = a.name) with
  | nil =>
    rw [List.filter_eq_nil_iff] at hf
    exact absurd (decide_eq_true rfl) (hf a ha)
  | cons b t =>
    have hb : b ∈ l.filter (fun i => i.name = a.name) := by rw [hf]; simp
    obtain ⟨hb1, hb2⟩ := List.mem_filter.1 hb
    exact hk b hb1 a ha (of_decide_eq_true hb2)

theorem typeBins_tr (l : List Item) : (typeBins l).map tr
    = (firstSeen ((l.map tr).map (·.1))).map (fun b => (b, firstKind l b, (((l.map tr).filter (fun t => t.1 = b)).map (·.2.2)).sum)) := by
  unfold typeBins
  rw [List.map_map, List.map_map]
  apply List.map_congr_left
  intro b _
  simp only [Function.comp, tr, mkBin]
  rw [filter_tr]; rfl

theorem typeCrossBins_tr (l : List Item) : (typeCrossBins l).map tr
    = (firstSeen ((l.map tr).map (·.1))).map (fun b => (b, CT.CVGBIN, (((l.map tr).filter (fun t => t.1 = b)).map (·.2.2)).sum)) := by
  unfold typeCrossBins
  rw [List.map_map, List.map_map]
  apply List.map_congr_left
  intro b _
  simp only [Function.comp, tr, mkBin]
  rw [filter_tr]

theorem Spec.Aggregated.agree {m : Nat} {g : Scope} (h : Aggregated m g) (n : String) :
    ∀ a ∈ writtenBins m g n, ∀ b ∈ writtenBins m g n, a.1 = b.1 → a.2.1 = b.2.1 := by
  rintro ⟨x, k, z⟩ ha ⟨x', k', z'⟩ hb rfl
  obtain ⟨c, hc, _⟩ := List.mem_flatMap.1 ha
  obtain ⟨hc1, hc2⟩ := List.mem_filter.1 hc
  have hn : n ∈ (kids m g).map (·.name) := by
    rw [h.names]; exact List.mem_map.2 ⟨c, hc1, of_decide_eq_true hc2⟩
  obtain ⟨d, hd, rfl⟩ := List.mem_map.1 hn
  have e1 := (h.bins d hd x k _).2 ⟨⟨z, ha⟩, rfl⟩
  have e2 := (h.bins d hd x k' _).2 ⟨⟨z', hb⟩, rfl⟩
  have := List.inj_on_of_nodup_map (h.bins_nodup d hd) e1 e2 rfl
  simp only [Prod.mk.injEq] at this
  exact this.2.1

/-- The reader aggregates. -/
theorem aggregated_rCg_cp {g : Scope} (hk : ∀ c ∈ writtenGroups g, ∀ x ∈ kids ST.COVERPOINT c, ∀ b ∈ covBins x, IsKind b.kind)
    (ha : ∀ n, ∀ a ∈ writtenBins ST.COVERPOINT g n, ∀ b ∈ writtenBins ST.COVERPOINT g n, a.1 = b.1 → a.2.1 = b.2.1) :
    Aggregated ST.COVERPOINT (rCg g) := by
  obtain ⟨hnm, hwb⟩ := writtenBins_rCg (g := g) (m := ST.COVERPOINT) (fun x => mkCoverpoint x.name SrcInfo.none 1 (Xml.pCp x).bins)
    kids_pInst_cp (fun _ => rfl) (fun x _ => binTriples_rCp x)
  have hkids : kids ST.COVERPOINT (rCg g) = _ := buildGroup_cps g.name ((writtenGroups g).map Xml.pInst)
  have hnames : ((((writtenGroups g).map Xml.pInst).flatMap (·.cps)).map (·.name)) = ((writtenGroups g).flatMap (kids ST.COVERPOINT)).map (·.name) := by
    rw [List.flatMap_map, List.map_flatMap, List.map_flatMap]
    apply List.flatMap_congr
    intro c _
    simp [Xml.pInst, Xml.pCp, Function.comp_def]
  have hbins : ∀ n, binTriples (mkCoverpoint n SrcInfo.none 1 (typeBins (cpBins ((writtenGroups g).map Xml.pInst) n)))
      = (firstSeen ((writtenBins ST.COVERPOINT g n).map (·.1))).map (fun b => (b, firstKind (cpBins ((writtenGroups g).map Xml.pInst) n) b,
          (((writtenBins ST.COVERPOINT g n).filter (fun t => t.1 = b)).map (·.2.2)).sum)) := by
    intro n
    rw [← cpBins_tr, ← typeBins_tr]
    unfold binTriples
    rw [covBins_all]
    · rfl
    · intro b hb
      obtain ⟨x, hx, rfl⟩ := List.mem_map.1 hb
      rw [mem_firstSeen] at hx
      obtain ⟨i, hi, rfl⟩ := List.mem_map.1 hx
      have hagree : ∀ a ∈ cpBins ((writtenGroups g).map Xml.pInst) n, ∀ b ∈ cpBins ((writtenGroups g).map Xml.pInst) n, a.name = b.name → a.kind = b.kind := by
        intro a h1 b h2 h3
        have h1' := List.mem_map_of_mem (f := tr) h1
        have h2' := List.mem_map_of_mem (f := tr) h2
        rw [cpBins_tr] at h1' h2'
        exact ha n _ h1' _ h2' h3
      show IsKind (firstKind _ i.name)
      rw [firstKind_eq hagree hi]
      obtain ⟨p, hp, hi⟩ := List.mem_flatMap.1 hi
      obtain ⟨q, hq, hp⟩ := List.mem_flatMap.1 (List.mem_filter.1 hp).1
      obtain ⟨c, hc, rfl⟩ := List.mem_map.1 hq
      obtain ⟨y, hy, rfl⟩ := List.mem_map.1 hp
      obtain ⟨j, hj, rfl⟩ := List.mem_map.1 hi
      exact hk c hc y hy j hj
  constructor
  · rw [hkids, List.map_map]
    show (List.map id _).Nodup
    rw [List.map_id]; exact firstSeen_nodup _
  · intro n
    rw [hnm, hkids, List.map_map, ← hnames]
    show n ∈ List.map id _ ↔ _
    rw [List.map_id, mem_firstSeen]
  · intro c hc
    rw [hkids] at hc
    obtain ⟨n, _, rfl⟩ := List.mem_map.1 hc
    rw [hbins, List.map_map]
    show (List.map id _).Nodup
    rw [List.map_id]; exact firstSeen_nodup _
  · intro c hc n k z
    rw [hkids] at hc
    obtain ⟨x, _, rfl⟩ := List.mem_map.1 hc
    rw [hbins, hwb]
    apply mem_aggBins
    rintro a haa
    have haa' := haa
    rw [← cpBins_tr] at haa'
    obtain ⟨i, hi, rfl⟩ := List.mem_map.1 haa'
    apply firstKind_eq _ hi
    intro a h1 b h2 h3
    have h1' := List.mem_map_of_mem (f := tr) h1
    have h2' := List.mem_map_of_mem (f := tr) h2
    rw [cpBins_tr] at h1' h2'
    exact ha x _ h1' _ h2' h3

theorem aggregated_rCg_cross {g : Scope} (hk : ∀ c ∈ writtenGroups g, ∀ x ∈ kids ST.CROSS c, ∀ b ∈ covBins x, b.kind = CT.CVGBIN) :
    Aggregated ST.CROSS (rCg g) := by
  have hk' : ∀ x ∈ (writtenGroups g).flatMap (kids ST.CROSS), ∀ b ∈ covBins x, b.kind = CT.CVGBIN := by
    intro x hx
    obtain ⟨c, hc, hx⟩ := List.mem_flatMap.1 hx
    exact hk c hc x hx
  obtain ⟨hnm, hwb⟩ := writtenBins_rCg (g := g) (m := ST.CROSS) (fun x => mkCross x.name SrcInfo.none 1 (pCr x).exprs (pCr x).bins)
    kids_pInst_cross (fun _ => rfl) (fun x hx => binTriples_rCr (hk' x hx))
  have hkids : kids ST.CROSS (rCg g) = _ := buildGroup_crosses g.name ((writtenGroups g).map Xml.pInst)
  have hnames : ((((writtenGroups g).map Xml.pInst).flatMap (·.crs)).map (·.name)) = ((writtenGroups g).flatMap (kids ST.CROSS)).map (·.name) := by
    rw [List.flatMap_map, List.map_flatMap, List.map_flatMap]
    apply List.flatMap_congr
    intro c _
    simp [Xml.pInst, pCr, Function.comp_def]
  have hbins : ∀ n l, binTriples (mkCross n SrcInfo.none 1 l (typeCrossBins (crBins ((writtenGroups g).map Xml.pInst) n)))
      = (firstSeen ((writtenBins ST.CROSS g n).map (·.1))).map (fun b => (b, CT.CVGBIN,
          (((writtenBins ST.CROSS g n).filter (fun t => t.1 = b)).map (·.2.2)).sum)) := by
    intro n l
    rw [← crBins_tr hk', ← typeCrossBins_tr]
    unfold binTriples
    rw [covBins_all]
    · rfl
    · intro b hb
      obtain ⟨x, hx, rfl⟩ := List.mem_map.1 hb
      exact .inl rfl
  constructor
  · rw [hkids, List.map_map]
    show (List.map id _).Nodup
    rw [List.map_id]; exact firstSeen_nodup _
  · intro n
    rw [hnm, hkids, List.map_map, ← hnames]
    show n ∈ List.map id _ ↔ _
    rw [List.map_id, mem_firstSeen]
  · intro c hc
    rw [hkids] at hc
    obtain ⟨n, _, rfl⟩ := List.mem_map.1 hc
    rw [hbins, List.map_map]
    show (List.map id _).Nodup
    rw [List.map_id]; exact firstSeen_nodup _
  · intro c hc n k z
    rw [hkids] at hc
    obtain ⟨x, _, rfl⟩ := List.mem_map.1 hc
    rw [hbins, hwb]
    apply mem_aggBins (K := fun _ => CT.CVGBIN)
    intro a haa
    obtain ⟨c, hc, hm⟩ := List.mem_flatMap.1 haa
    obtain ⟨b, hb, rfl⟩ := List.mem_map.1 hm
    exact (hk' c (List.mem_filter.1 hc).1 b hb).symm

/-! ## First trip: figures -/

/-- What a covergroup must satisfy for its figures to be representable in a document: weights and
thresholds 1, only ordinary bins in crosses, and its own coverpoints and crosses are the sums over
what is written. -/
structure Spec.Representable (g : Scope) : Prop where
  weight : g.weight = 1
  cps : ∀ c ∈ g :: writtenGroups g, ∀ x ∈ kids ST.COVERPOINT c, x.weight = 1 ∧ UnitLeaf x
  crosses : ∀ c ∈ g :: writtenGroups g, ∀ x ∈ kids ST.CROSS c, UnitLeaf x ∧ ∀ b ∈ covBins x, b.kind = CT.CVGBIN
  aggCps : Aggregated ST.COVERPOINT g
  aggCrosses : Aggregated ST.CROSS g

/-- Figures of a reported covergroup, with names, compared with another one: type-level coverpoints and
crosses up to order, cover-instances in order (a covergroup without cover-instances counts as its own). -/
structure Spec.SameFigures (a b : RCg) : Prop where
  name : b.name = a.name
  coverage : b.coverage = a.coverage
  cps : (b.coverpoints.map (fun c => (c.name, c.coverage))).Perm (a.coverpoints.map (fun c => (c.name, c.coverage)))
  crosses : (b.crosses.map (fun c => (c.name, c.coverage))).Perm (a.crosses.map (fun c => (c.name, c.coverage)))
  insts : b.covergroups.map (fun c => (c.name, figures c))
    = (if a.covergroups = [] then [a] else a.covergroups).map (fun c => (c.name, figures c))

theorem groupCov_unit {g : Scope} (h : ∀ x ∈ kids ST.COVERPOINT g, x.weight = 1) :
    groupCov id g = if 0 < (((kids ST.COVERPOINT g).length + (kids ST.CROSS g).length : Nat) : Int) then
      (((kids ST.COVERPOINT g).map hitShare).sum + ((kids ST.CROSS g).map hitShare).sum)
        / (((kids ST.COVERPOINT g).length + (kids ST.CROSS g).length : Nat) : Rat) else 0 := by
  rw [groupCov_mean (fun c hc => by rw [h c hc]; omega)]
  have hw : groupWeight g = (((kids ST.COVERPOINT g).length + (kids ST.CROSS g).length : Nat) : Int) := by
    unfold groupWeight weightSum
    rw [show (kids ST.COVERPOINT g).map (·.weight) = (kids ST.COVERPOINT g).map (fun _ => (1 : Int)) from List.map_congr_left h]
    simp
  have hs : (kids ST.COVERPOINT g).map (fun c => hitShare c * (c.weight : Rat)) = (kids ST.COVERPOINT g).map hitShare :=
    List.map_congr_left (fun c hc => by rw [h c hc]; simp)
  unfold meanCoverage
  rw [hw, hs]
  norm_cast

theorem groupCov_perm {g g' : Scope} (h : ∀ x ∈ kids ST.COVERPOINT g, x.weight = 1) (h' : ∀ x ∈ kids ST.COVERPOINT g', x.weight = 1)
    (h1 : ((kids ST.COVERPOINT g').map hitShare).Perm ((kids ST.COVERPOINT g).map hitShare))
    (h2 : ((kids ST.CROSS g').map hitShare).Perm ((kids ST.CROSS g).map hitShare)) : groupCov id g' = groupCov id g := by
  rw [groupCov_unit h, groupCov_unit h', h1.sum_eq, h2.sum_eq]
  have l1 := h1.length_eq
  have l2 := h2.length_eq
  simp only [List.length_map] at l1 l2
  rw [l1, l2]

theorem unit_rCg {g c : Scope} (hc : c ∈ rCg g :: writtenGroups (rCg g)) :
    (∀ x ∈ kids ST.COVERPOINT c, x.weight = 1 ∧ UnitLeaf x) ∧ ∀ x ∈ kids ST.CROSS c, UnitLeaf x := by
  have h1 : kids ST.COVERPOINT (rCg g) = _ := buildGroup_cps g.name _
  have h2 : kids ST.CROSS (rCg g) = _ := buildGroup_crosses g.name _
  rcases List.mem_cons.1 hc with rfl | hc
  · rw [h1, h2]
    refine ⟨fun c hc => ?_, fun c hc => ?_⟩
    · obtain ⟨n, _, rfl⟩ := List.mem_map.1 hc
      refine ⟨rfl, unitLeaf_of_items (fun b hb => ?_)⟩
      obtain ⟨x, _, rfl⟩ := List.mem_map.1 hb
      rfl
    · obtain ⟨n, _, rfl⟩ := List.mem_map.1 hc
      refine unitLeaf_of_items (fun b hb => ?_)
      obtain ⟨x, _, rfl⟩ := List.mem_map.1 hb
      rfl
  · rw [writtenGroups_rCg] at hc
    obtain ⟨d, _, rfl⟩ := List.mem_map.1 hc
    rw [kids_pInst_cp, kids_pInst_cross]
    refine ⟨fun c hc => ?_, fun c hc => ?_⟩
    · obtain ⟨p, hp, rfl⟩ := List.mem_map.1 hc
      refine ⟨rfl, unitLeaf_of_items (fun b hb => ?_)⟩
      obtain ⟨y, _, rfl⟩ := List.mem_map.1 hb
      rfl
    · obtain ⟨p, hp, rfl⟩ := List.mem_map.1 hc
      refine unitLeaf_of_items (fun b hb => ?_)
      obtain ⟨y, _, rfl⟩ := List.mem_map.1 hb
      rfl

theorem hitShare_map {l : List Scope} (h : ∀ c ∈ l, UnitLeaf c) :
    l.map (fun c => (c.name, hitShare c)) = l.map (fun c => (c.name, share (binTriples c))) :=
  List.map_congr_left (fun c hc => by rw [hitShare_unit (h c hc)])

/-- Figures of one written group. -/
theorem figures_written {c : Scope} (hcp : ∀ x ∈ kids ST.COVERPOINT c, x.weight = 1 ∧ UnitLeaf x)
    (hcr : ∀ x ∈ kids ST.CROSS c, UnitLeaf x ∧ ∀ b ∈ covBins x, b.kind = CT.CVGBIN) :
    figures (Report.pCg id (Xml.pInst c).scope) = figures (Report.pCg id c) := by
  have e1 : (kids ST.COVERPOINT (Xml.pInst c).scope).map (fun x => (leafCov id x, x.weight))
      = (kids ST.COVERPOINT c).map (fun x => (leafCov id x, x.weight)) := by
    rw [kids_pInst_cp, List.map_map]
    apply List.map_congr_left
    intro x hx
    simp only [Function.comp, leafCov_id]
    rw [hitShare_unit (hcp x hx).2, (hcp x hx).1, hitShare_unit, binTriples_rCp]
    · rfl
    · refine unitLeaf_of_items (fun b hb => ?_)
      obtain ⟨y, _, rfl⟩ := List.mem_map.1 hb
      rfl
  have e2 : (kids ST.CROSS (Xml.pInst c).scope).map (leafCov id) = (kids ST.CROSS c).map (leafCov id) := by
    rw [kids_pInst_cross, List.map_map]
    apply List.map_congr_left
    intro x hx
    simp only [Function.comp, leafCov_id]
    rw [hitShare_unit (hcr x hx).1, hitShare_unit, binTriples_rCr (hcr x hx).2]
    refine unitLeaf_of_items (fun b hb => ?_)
    obtain ⟨y, _, rfl⟩ := List.mem_map.1 hb
    rfl
  rw [figures_pCg, figures_pCg, groupCov_congr e1 e2, e2]
  have := congrArg (List.map Prod.fst) e1
  rw [List.map_map, List.map_map] at this
  rw [show (kids ST.COVERPOINT (Xml.pInst c).scope).map (leafCov id)
    = (kids ST.COVERPOINT (Xml.pInst c).scope).map (Prod.fst ∘ fun x => (leafCov id x, x.weight)) from rfl, this]
  rfl

theorem figures_rCg {g : Scope} (h : Representable g)
    (hk : ∀ c ∈ writtenGroups g, ∀ x ∈ kids ST.COVERPOINT c, ∀ b ∈ covBins x, IsKind b.kind) :
    SameFigures (Report.pCg id g) (Report.pCg id (rCg g)) := by
  have hkc : ∀ c ∈ writtenGroups g, ∀ x ∈ kids ST.CROSS c, ∀ b ∈ covBins x, b.kind = CT.CVGBIN :=
    fun c hc x hx => (h.crosses c (List.mem_cons_of_mem _ hc) x hx).2
  have hkc' : ∀ x ∈ (writtenGroups g).flatMap (kids ST.CROSS), ∀ b ∈ covBins x, b.kind = CT.CVGBIN := by
    intro x hx
    obtain ⟨c, hc, hx⟩ := List.mem_flatMap.1 hx
    exact hkc c hc x hx
  obtain ⟨n1, b1⟩ := writtenBins_rCg (g := g) (m := ST.COVERPOINT) (fun x => mkCoverpoint x.name SrcInfo.none 1 (Xml.pCp x).bins)
    kids_pInst_cp (fun _ => rfl) (fun x _ => binTriples_rCp x)
  obtain ⟨n2, b2⟩ := writtenBins_rCg (g := g) (m := ST.CROSS) (fun x => mkCross x.name SrcInfo.none 1 (pCr x).exprs (pCr x).bins)
    kids_pInst_cross (fun _ => rfl) (fun x hx => binTriples_rCr (hkc' x hx))
  have p1 := aggregated_perm h.aggCps (aggregated_rCg_cp hk h.aggCps.agree) n1 b1
  have p2 := aggregated_perm h.aggCrosses (aggregated_rCg_cross hkc) n2 b2
  have u := unit_rCg (g := g) (c := rCg g) (by simp)
  have ug1 := h.cps g (by simp)
  have ug2 := h.crosses g (by simp)
  rw [← hitShare_map (fun c hc => (u.1 c hc).2), ← hitShare_map (fun c hc => (ug1 c hc).2)] at p1
  rw [← hitShare_map u.2, ← hitShare_map (fun c hc => (ug2 c hc).1)] at p2
  have q1 := p1.map Prod.snd
  have q2 := p2.map Prod.snd
  simp only [List.map_map] at q1 q2
  have hcov : groupCov id (rCg g) = groupCov id g :=
    groupCov_perm (fun x hx => (ug1 x hx).1) (fun x hx => (u.1 x hx).1) q1 q2
  rw [pCg_eq, pCg_eq]
  refine ⟨rfl, hcov, ?_, ?_, ?_⟩
  · simpa only [List.map_map, Function.comp_def, Report.pCp, leafCov_id] using p1
  · simpa only [List.map_map, Function.comp_def, Report.pCross, leafCov_id] using p2
  · have hi : kids ST.COVERINSTANCE (rCg g) = (writtenGroups g).map (fun c => (Xml.pInst c).scope) := by
      have := buildGroup_insts g.name ((writtenGroups g).map Xml.pInst)
      rw [List.map_map] at this
      exact this
    simp only [hi, List.map_map, List.map_eq_nil_iff]
    have hw : ∀ c ∈ writtenGroups g, ((Report.pCg id (Xml.pInst c).scope).name, figures (Report.pCg id (Xml.pInst c).scope))
        = ((Report.pCg id c).name, figures (Report.pCg id c)) := by
      intro c hc
      rw [figures_written (h.cps c (List.mem_cons_of_mem _ hc)) (h.crosses c (List.mem_cons_of_mem _ hc)), pCg_eq, pCg_eq]
      rfl
    rw [show (writtenGroups g).map ((fun c => (c.name, figures c)) ∘ Report.pCg id ∘ fun c => (Xml.pInst c).scope)
      = (writtenGroups g).map (fun c => ((Report.pCg id c).name, figures (Report.pCg id c))) from List.map_congr_left hw]
    unfold writtenGroups
    split
    · rename_i hnil
      rw [hnil]
      simp only [List.map_cons, List.map_nil]
      rw [pCg_eq, hnil]
      rfl
    · rename_i hnil
      rw [List.map_map]
      rfl

/-- C36 for databases whose covergroups are representable (`Representable`: thresholds and weights 1,
ordinary bins in crosses, type level equal to the sums): the report of the database read back exists
whenever the original one does, has the same overall coverage, and lists the same covergroups with the
same figures.  Missing: other thresholds and weights (`C36_threshold_refuted`, `C36_weight_refuted`)
and rounding of the last digit, where the order of summation may matter. -/
theorem C36_figures_partial {env : Env} (he : GoodEnv env) {db db' : Database} {doc : Elem} {r : Rpt}
    (hu : UniqueInsts db.root) (hrep : ∀ g ∈ allCovergroups db.root, Representable g)
    (hw : write env db = .ok doc) (hr : Xml.read env.flt (reparse doc) = .ok db') (hb : build id db.root = .ok r) :
    ∃ r', build id db'.root = .ok r' ∧ r'.coverage = r.coverage ∧ List.Forall₂ SameFigures r.covergroups r'.covergroups := by
  have hr0 := hr
  obtain ⟨_, rfl⟩ := (read_written he.envOk he.floatOk he.now hw db').1 hr
  obtain ⟨hok, rfl⟩ := (build_ok _ _ _).1 hb
  have hkids := kids_rDb (env := env) hu
  have hwr := writable_of_write he hw
  have hfig : ∀ i ∈ kids ST.INSTANCE db.root, ∀ g ∈ kids ST.COVERGROUP i, SameFigures (Report.pCg id g) (Report.pCg id (rCg g)) := by
    intro i hi g hg
    apply figures_rCg (hrep g (List.mem_flatMap.2 ⟨i, hi, hg⟩))
    intro c hc x hx b hb
    exact (((((hwr i hi).2 g hg).2 c hc).2.1 x hx).2 b hb).2
  have hex : ∃ r', build id (rDb env db).root = .ok r' := by
    rw [C70_report_of_read hr0 id]
    intro i hi hnil
    rw [hkids] at hi
    obtain ⟨j, hj, rfl⟩ := List.mem_map.1 hi
    rw [kids_rInst, List.map_eq_nil_iff] at hnil
    have := (hok j hj).2
    rw [hnil] at this
    exact this rfl
  obtain ⟨r', hr'⟩ := hex
  refine ⟨r', hr', ?_⟩
  obtain ⟨_, rfl⟩ := (build_ok _ _ _).1 hr'
  constructor
  · unfold pRpt
    simp only
    rw [hkids, List.getLast?_map, Option.map_map]
    cases hl : (kids ST.INSTANCE db.root).getLast? with
    | none => rfl
    | some i =>
      simp only [Option.map_some, Function.comp, Option.getD_some]
      apply instCov_congr
      rw [kids_rInst, List.map_map]
      apply List.map_congr_left
      intro g hg
      have hi := List.mem_of_getLast? hl
      have hf := (hfig i hi g hg).coverage
      rw [pCg_eq, pCg_eq] at hf
      have h1 : groupCov id (rCg g) = groupCov id g := hf
      simp only [Function.comp]
      rw [h1, (hrep g (List.mem_flatMap.2 ⟨i, hi, hg⟩)).weight]
      rfl
  · unfold pRpt
    simp only
    have hall : allCovergroups (rDb env db).root = (allCovergroups db.root).map rCg := by
      unfold allCovergroups
      rw [hkids, List.flatMap_map, List.map_flatMap]
      exact List.flatMap_congr (fun i _ => kids_rInst i)
    rw [hall, List.map_map, List.forall₂_map_left_iff, List.forall₂_map_right_iff, List.forall₂_same]
    intro g hg
    obtain ⟨i, hi, hg⟩ := List.mem_flatMap.1 hg
    exact hfig i hi g hg

/-- For a covergroup without cover-instances, `Aggregated` asks for distinct names only. -/
theorem aggregated_flat {m : Nat} {g : Scope} (hi : kids ST.COVERINSTANCE g = []) (h1 : ((kids m g).map (·.name)).Nodup)
    (h2 : ∀ c ∈ kids m g, ((binTriples c).map (·.1)).Nodup) : Aggregated m g := by
  have hw : writtenGroups g = [g] := by unfold writtenGroups; rw [if_pos hi]
  refine ⟨h1, fun n => by rw [hw]; simp, h2, ?_⟩
  intro c hc n k z
  have hb : writtenBins m g c.name = binTriples c := by
    have : (kids m g).filter (fun x => x.name = c.name) = [c] := by
      clear h2
      generalize kids m g = l at hc h1
      induction l with
      | nil => cases hc
      | cons a t ih =>
        rw [List.map_cons, List.nodup_cons] at h1
        rcases List.mem_cons.1 hc with rfl | hc
        · rw [List.filter_cons_of_pos (by simp), List.filter_eq_nil_iff.2]
          intro x hx hxn
          exact h1.1 (List.mem_map.2 ⟨x, hx, of_decide_eq_true hxn⟩)
        · rw [List.filter_cons_of_neg, ih hc h1.2]
          intro ha
          exact h1.1 (List.mem_map.2 ⟨c, hc, (of_decide_eq_true ha).symm⟩)
    unfold writtenBins
    rw [hw, List.flatMap_singleton, this, List.flatMap_singleton]
  rw [hb]
  have hf : ∀ z', (n, k, z') ∈ binTriples c → (((binTriples c).filter (fun t => t.1 = n)).map (·.2.2)).sum = z' := by
    intro z' hz'
    have : (binTriples c).filter (fun t => t.1 = n) = [(n, k, z')] := by
      have h2 := h2 c hc
      generalize binTriples c = l at hz' h2
      induction l with
      | nil => cases hz'
      | cons a t ih =>
        rw [List.map_cons, List.nodup_cons] at h2
        rcases List.mem_cons.1 hz' with rfl | hz'
        · rw [List.filter_cons_of_pos (by simp), List.filter_eq_nil_iff.2]
          intro x hx hxn
          exact h2.1 (List.mem_map.2 ⟨x, hx, of_decide_eq_true hxn⟩)
        · rw [List.filter_cons_of_neg, ih hz' h2.2]
          intro ha
          exact h2.1 (List.mem_map.2 ⟨_, hz', (of_decide_eq_true ha).symm⟩)
    rw [this]; simp
  constructor
  · intro h; exact ⟨⟨z, h⟩, (hf z h).symm⟩
  · rintro ⟨⟨z', hz'⟩, rfl⟩; rw [hf z' hz']; exact hz'

/-- A flat covergroup with two coverpoints and a cross, and one with two cover-instances. -/
def exRepDb : Database where
  root := { emptyDb with children :=
    [mkInstance "top" SrcInfo.none 1 none
      [mkCovergroup "flat" SrcInfo.none 1
        [mkCoverpoint "a" SrcInfo.none 1 [mkBin "x" CT.CVGBIN 1 3, mkBin "y" CT.CVGBIN 1 0, mkBin "z" CT.IGNOREBIN 1 0],
         mkCoverpoint "b" SrcInfo.none 1 [mkBin "x" CT.CVGBIN 1 1],
         mkCross "ab" SrcInfo.none 1 ["a", "b"] [mkBin "<x,x>" CT.CVGBIN 1 9, mkBin "<y,x>" CT.CVGBIN 1 0]]]] }
  hist := []
  files := []

/-- The hypotheses of `C36_figures_partial` are met, with figures that are neither 0 nor 100. -/
example : UniqueInsts exRepDb.root ∧ (∀ g ∈ allCovergroups exRepDb.root, Representable g) ∧ (roundTrip exEnv exRepDb).isOk = true ∧
    (build id exRepDb.root).map (·.coverage) = .ok (200 / 3) := by
  refine ⟨by unfold UniqueInsts; decide +kernel, ?_, by decide +kernel, by decide +kernel⟩
  intro g hg
  rw [show allCovergroups exRepDb.root = [mkCovergroup "flat" SrcInfo.none 1
        [mkCoverpoint "a" SrcInfo.none 1 [mkBin "x" CT.CVGBIN 1 3, mkBin "y" CT.CVGBIN 1 0, mkBin "z" CT.IGNOREBIN 1 0],
         mkCoverpoint "b" SrcInfo.none 1 [mkBin "x" CT.CVGBIN 1 1],
         mkCross "ab" SrcInfo.none 1 ["a", "b"] [mkBin "<x,x>" CT.CVGBIN 1 9, mkBin "<y,x>" CT.CVGBIN 1 0]]] from rfl] at hg
  rw [List.mem_singleton] at hg
  subst hg
  refine ⟨rfl, ?_, ?_, aggregated_flat rfl (by decide +kernel) (by decide +kernel), aggregated_flat rfl (by decide +kernel) (by decide +kernel)⟩
  · unfold UnitLeaf; decide +kernel
  · unfold UnitLeaf; decide +kernel

/-- The same for the hypotheses of `C36_second_trip_partial`: reading, writing and reading again. -/
example : ((roundTrip exEnv exXmlDb).bind (roundTrip exEnv)).isOk = true := by decide +kernel

/-- After reading, same-named bins agreeing in kind, the database is representable: the covergroup of
`exXmlDb` with two cover-instances. -/
example : Representable (rCg (mkCovergroup "cg" SrcInfo.none 2
        [mkCoverInst "i1" SrcInfo.none 1
          [mkCoverpoint "a" SrcInfo.none 1 [mkBin "x" CT.CVGBIN 1 3],
           mkCross "ab" SrcInfo.none 1 ["a", "a"] [mkBin "<x,x>" CT.CVGBIN 1 9]],
         mkCoverInst "i2" SrcInfo.none 1 [mkCoverpoint "a" SrcInfo.none 1 [mkBin "x" CT.CVGBIN 1 5]]])) := by
  refine ⟨rfl, ?_, ?_, aggregated_rCg_cp ?_ ?_, aggregated_rCg_cross ?_⟩
  · unfold UnitLeaf; decide +kernel
  · unfold UnitLeaf; decide +kernel
  · unfold IsKind; decide +kernel
  · have h : ∀ a ∈ ((writtenGroups (mkCovergroup "cg" SrcInfo.none 2
        [mkCoverInst "i1" SrcInfo.none 1
          [mkCoverpoint "a" SrcInfo.none 1 [mkBin "x" CT.CVGBIN 1 3],
           mkCross "ab" SrcInfo.none 1 ["a", "a"] [mkBin "<x,x>" CT.CVGBIN 1 9]],
         mkCoverInst "i2" SrcInfo.none 1 [mkCoverpoint "a" SrcInfo.none 1 [mkBin "x" CT.CVGBIN 1 5]]])).flatMap (kids ST.COVERPOINT)).flatMap binTriples,
         a.2.1 = CT.CVGBIN := by decide +kernel
    intro n a ha b hb _
    have : ∀ t ∈ writtenBins ST.COVERPOINT _ n, t.2.1 = CT.CVGBIN := fun t ht => h t (by
      obtain ⟨c, hc, ht⟩ := List.mem_flatMap.1 ht
      exact List.mem_flatMap.2 ⟨c, (List.mem_filter.1 hc).1, ht⟩)
    rw [this a ha, this b hb]
  · decide +kernel

/-! ## C36 refuted -/

/-- A bin hit once that needs two hits. -/
def exThresholdDb : Database where
  root := { emptyDb with children :=
    [mkInstance "top" SrcInfo.none 1 none
      [mkCovergroup "cg" SrcInfo.none 1 [mkCoverpoint "a" SrcInfo.none 1 [mkBin "x" CT.CVGBIN 2 1]]]] }
  hist := []
  files := []

/-- C36 fails: a bin hit once with threshold 2 is reported as 0% before and as 100% after the trip. -/
theorem C36_threshold_refuted : ∃ (env : Env) (db db' : Database) (doc : Elem) (r r' : Rpt), GoodEnv env ∧ UniqueInsts db.root ∧
    write env db = .ok doc ∧ Xml.read env.flt (reparse doc) = .ok db' ∧ build id db.root = .ok r ∧ build id db'.root = .ok r' ∧
    r.coverage = 0 ∧ r'.coverage = 100 := by
  have h1 : (roundTrip exEnv exThresholdDb).isOk = true := by decide +kernel
  obtain ⟨db', hdb'⟩ := exists_of_isOk h1
  obtain ⟨doc, hw, hr⟩ := roundTrip_ok.1 hdb'
  have h2 : (build id exThresholdDb.root).map (·.coverage) = .ok 0 := by decide +kernel
  have h3 : ((roundTrip exEnv exThresholdDb).bind (fun d => (build id d.root).map (·.coverage))) = .ok 100 := by decide +kernel
  rw [hdb'] at h3
  change (build id db'.root).map (·.coverage) = .ok 100 at h3
  cases hb : build id exThresholdDb.root with
  | error e => rw [hb] at h2; cases h2
  | ok r =>
    rw [hb] at h2
    cases hb' : build id db'.root with
    | error e => rw [hb'] at h3; cases h3
    | ok r' =>
      rw [hb'] at h3
      exact ⟨exEnv, exThresholdDb, db', doc, r, r', exEnv_good, by unfold UniqueInsts; decide +kernel, hw, hr, hb, hb',
        Except.ok.inj h2, Except.ok.inj h3⟩

/-- Two coverpoints with weights 3 and 1. -/
def exWeightDb : Database where
  root := { emptyDb with children :=
    [mkInstance "top" SrcInfo.none 1 none
      [mkCovergroup "cg" SrcInfo.none 1
        [mkCoverpoint "a" SrcInfo.none 3 [mkBin "x" CT.CVGBIN 1 1], mkCoverpoint "b" SrcInfo.none 1 [mkBin "x" CT.CVGBIN 1 0]]]] }
  hist := []
  files := []

/-- C36 fails for weights too: 75% becomes 50%. -/
theorem C36_weight_refuted : ∃ (env : Env) (db db' : Database) (doc : Elem) (r r' : Rpt), GoodEnv env ∧ UniqueInsts db.root ∧
    write env db = .ok doc ∧ Xml.read env.flt (reparse doc) = .ok db' ∧ build id db.root = .ok r ∧ build id db'.root = .ok r' ∧
    r.coverage = 75 ∧ r'.coverage = 50 := by
  have h1 : (roundTrip exEnv exWeightDb).isOk = true := by decide +kernel
  obtain ⟨db', hdb'⟩ := exists_of_isOk h1
  obtain ⟨doc, hw, hr⟩ := roundTrip_ok.1 hdb'
  have h2 : (build id exWeightDb.root).map (·.coverage) = .ok 75 := by decide +kernel
  have h3 : ((roundTrip exEnv exWeightDb).bind (fun d => (build id d.root).map (·.coverage))) = .ok 50 := by decide +kernel
  rw [hdb'] at h3
  change (build id db'.root).map (·.coverage) = .ok 50 at h3
  cases hb : build id exWeightDb.root with
  | error e => rw [hb] at h2; cases h2
  | ok r =>
    rw [hb] at h2
    cases hb' : build id db'.root with
    | error e => rw [hb'] at h3; cases h3
    | ok r' =>
      rw [hb'] at h3
      exact ⟨exEnv, exWeightDb, db', doc, r, r', exEnv_good, by unfold UniqueInsts; decide +kernel, hw, hr, hb, hb',
        Except.ok.inj h2, Except.ok.inj h3⟩

/-- Both sides of C70 occur: an instance without covergroups is readable and stops the report. -/
example :
    ((roundTrip exEnv exRepDb).bind (fun d => (build id d.root).map (·.coverage))) = .ok (200 / 3) ∧
    ((roundTrip exEnv { exRepDb with root := { emptyDb with children := [mkInstance "top" SrcInfo.none 1 none []] } }).bind
      (fun d => (build id d.root).map (·.coverage))) = .error .zeroDivision := by
  decide +kernel

end Verif
