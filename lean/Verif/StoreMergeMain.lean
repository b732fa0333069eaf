import Verif.StoreMergeThms
import Verif.StoreSolid
import Verif.StoreFrame
import Verif.MergeThms
/-!
# Merging databases held in memory (C82–C84)

The databases are built by arbitrary API calls and merged by `DbMerger` (`merge/db_merger.py`), acting on the objects.
Nothing is assumed about the inputs being different from each other or from the destination.
-/

namespace Verif
namespace Spec

/-- `o` lies below `d` or is `d`. -/
inductive Below (s : Store.Heap) (d : Nat) : Nat → Prop
  | here : Below s d d
  | child {o p : Nat} {x : Store.Obj} (hx : s.objs[o]? = some x) (hp : x.parent = some p) (h : Below s d p) : Below s d o

/-- The store after the merge differs from the one before only in that the destination has more children. -/
structure OnlyGrew (s s' : Store.Heap) (dst : Nat) : Prop where
  others : ∀ (o : Nat) (x : Store.Obj), o ≠ dst → s.objs[o]? = some x → s'.objs[o]? = some x
  dest : ∀ x, s.objs[dst]? = some x → ∃ k, s'.objs[dst]? = some { x with children := x.children ++ k } ∧ ∀ c ∈ k, s.objs.length ≤ c
  bins : ∀ (b : Nat) (x : Store.Bin), s.bins[b]? = some x → s'.bins[b]? = some x
  datas : ∀ (d : Nat) (x : Store.CData), s.datas[d]? = some x → s'.datas[d]? = some x
  handles : s'.handles = s.handles
  nodes : s'.nodes = s.nodes

/-- Each call of a sequence is fine at its time. -/
def Each (ok : Store.Heap → Store.Call → Prop) : Store.Heap → List Store.Call → Prop
  | _, [] => True
  | s, c :: t => ok s c ∧ Each ok (Store.exec c s).2 t

/-- The call is not made on a scope made between `s` and `s'`, and does not set the data of one of their bins. -/
def NotOnNew (s s' t : Store.Heap) (c : Store.Call) : Prop :=
  (∀ o, Receiver c o → o < s.objs.length ∨ s'.objs.length ≤ o) ∧
  ∀ d, Sets t c d → ∀ (o : Nat) (y : Store.Obj) (b : Nat) (z : Store.Bin), s.objs.length ≤ o → s'.objs[o]? = some y → b ∈ y.items →
    s'.bins[b]? = some z → z.data ≠ d

/-- The call is made on the destination or on a scope that did not exist in `s`, and sets only data that did not exist in `s`. -/
def OnlyOnNew (s : Store.Heap) (dst : Nat) (t : Store.Heap) (c : Store.Call) : Prop :=
  (∀ o, Receiver c o → o = dst ∨ s.objs.length ≤ o) ∧ ∀ d, Sets t c d → s.datas.length ≤ d

end Spec

namespace Store
open Spec

/-- Shown trees stay within the existing objects, and do not meet a database below. -/
theorem shows_region {cs : List Call} {D : Nat} {z : Obj} (hz : (run Heap.empty cs).objs[D]? = some z) (hc : z.cls = .db) {n o : Nat} {v : Scope}
    (ho : o ≠ D) (h : ShowsIn (fun _ => True) (run Heap.empty cs) n o v) :
    ShowsIn (fun q => q < (run Heap.empty cs).objs.length ∧ q ≠ D) (run Heap.empty cs) n o v := by
  induction n generalizing o v with
  | zero => exact h
  | succ n ih =>
    obtain ⟨_, x, hx, h1, h2, h3, h4, h5, h6, h7, h8⟩ := h
    refine ⟨⟨(List.getElem?_eq_some_iff.1 hx).1, ho⟩, x, hx, h1, h2, h3, h4, h5, h6, forall2_imp h7 (fun a ha b hab => ih ?_ hab), h8⟩
    rintro rfl
    obtain ⟨y, hy, hp⟩ := ((tree_facts cs hx).2.1 a).1 ha
    rw [hz] at hy
    cases hy
    rw [(tree_facts cs hz).2.2.2.2 hc] at hp
    cases hp

theorem shows_kids {cs : List Call} {D : Nat} {z : Obj} (hz : (run Heap.empty cs).objs[D]? = some z) (hc : z.cls = .db) {o : Nat} {v : Scope}
    (h : Shows (run Heap.empty cs) o v) : Kids (run Heap.empty cs).objs.length D (run Heap.empty cs) o v := by
  obtain ⟨n, h⟩ := h
  cases n with
  | zero => exact h.elim
  | succ n =>
    obtain ⟨_, x, hx, _, _, _, _, _, _, h7, _⟩ := h
    refine ⟨x, hx, forall2_imp h7 (fun a ha b hab => ⟨n, shows_region hz hc ?_ hab⟩)⟩
    rintro rfl
    obtain ⟨y, hy, hp⟩ := ((tree_facts cs hx).2.1 a).1 ha
    rw [hz] at hy
    cases hy
    rw [(tree_facts cs hz).2.2.2.2 hc] at hp
    cases hp

theorem frame_onlyGrew {N : Nat} {s s' : Heap} {d : Nat} {k i : List Nat} (f : Frame N s s' d k i) {x : Obj} (hx : s.objs[d]? = some x)
    (hc : x.cls = .db) : OnlyGrew s s' d where
  others o y ho hy := by
    have := f.old o y hy
    rwa [if_neg ho] at this
  dest y hy := by
    have hi : i = [] := by
      by_contra hne
      obtain ⟨z, hz, h⟩ := f.itemsAt hne
      rw [hx] at hz
      cases hz
      rw [hc] at h
      simp at h
    have := f.old d y hy
    rw [if_pos rfl, hi] at this
    refine ⟨k, ?_, f.kids⟩
    rw [this]
    simp [grow]
  bins b y hb := getElem?_prefix f.bins hb
  datas b y hb := getElem?_prefix f.datas hb
  handles := f.handles
  nodes := f.nodes

/-- All outcomes at once. -/
theorem merge_frame {cs : List Call} {dst : Nat} {x : Obj} (hx : (run Heap.empty cs).objs[dst]? = some x) (hc : x.cls = .db)
    {srcs : List Nat} {vs : List Scope} (h : List.Forall₂ (Shows (run Heap.empty cs)) srcs vs) {r : Except Err Unit} {s' : Heap}
    (hm : DbMerger.merge dst srcs (run Heap.empty cs) = (r, s')) :
    ∃ k i, Frame (run Heap.empty cs).objs.length (run Heap.empty cs) s' dst k i := by
  have ho := merge_out (Nat.le_refl _) hx hc (forall2_imp h (fun _ _ _ hab => shows_kids hx hc hab))
  unfold Outcome at ho
  split at ho
  · obtain ⟨_, s1, k, i, h1, f, _⟩ := ho
    rw [hm] at h1
    cases h1
    exact ⟨k, i, f⟩
  · obtain ⟨s1, k, i, h1, f⟩ := ho
    rw [hm] at h1
    cases h1
    exact ⟨k, i, f⟩

theorem shows_all {cs : List Call} (hr : RealCalls Heap.empty cs) {srcs : List Nat} (h : ∀ o ∈ srcs, o < (run Heap.empty cs).objs.length) :
    ∃ vs, List.Forall₂ (Shows (run Heap.empty cs)) srcs vs :=
  forall2_of_forall (fun o ho => shows_exists (run_solid hr) (h o ho))

/-! ## C82: inputs are not modified -/

/-- **C82.** Whatever the databases are, and also if the merge raises: every scope other than the destination, every bin,
every count, file handle and history node is what it was; the destination keeps its own content and only
gets further children; reading any scope other than the destination shows what it showed before. -/
theorem C82_inputs_kept {cs : List Call} (hr : RealCalls Heap.empty cs) {dst : Nat} {x : Obj} (hx : (run Heap.empty cs).objs[dst]? = some x)
    (hc : x.cls = .db) {srcs : List Nat} (hs : ∀ o ∈ srcs, o < (run Heap.empty cs).objs.length) {r : Except Err Unit} {s' : Heap}
    (hm : DbMerger.merge dst srcs (run Heap.empty cs) = (r, s')) :
    OnlyGrew (run Heap.empty cs) s' dst ∧ ∀ o v, o ≠ dst → Shows (run Heap.empty cs) o v → Shows s' o v := by
  obtain ⟨vs, hvs⟩ := shows_all hr hs
  obtain ⟨k, i, f⟩ := merge_frame hx hc hvs hm
  refine ⟨frame_onlyGrew f hx hc, ?_⟩
  rintro o v ho ⟨n, h⟩
  exact ⟨n, showsIn_mono (fun _ _ => trivial) (Nat.le_refl _) (f.showsIn (by simp) (shows_region hx hc ho h))⟩

/-! ## C83: nothing is shared -/

/-- **C83.** Everything the merge makes, also if it raises later, hangs below the destination and belongs to it alone:
a new scope's parent is the destination or another new scope; its bins are new and have their own new counts; a new
cross refers to coverpoints of the covergroup it lies in, which are new themselves; the design unit of a new instance
is a new scope beside it. -/
theorem C83_own_objects {cs : List Call} (hr : RealCalls Heap.empty cs) {dst : Nat} {x : Obj} (hx : (run Heap.empty cs).objs[dst]? = some x)
    (hc : x.cls = .db) {srcs : List Nat} (hs : ∀ o ∈ srcs, o < (run Heap.empty cs).objs.length) {r : Except Err Unit} {s' : Heap}
    (hm : DbMerger.merge dst srcs (run Heap.empty cs) = (r, s')) {o : Nat} {y : Obj} (hn : (run Heap.empty cs).objs.length ≤ o)
    (hy : s'.objs[o]? = some y) :
    Below s' dst o ∧
    (∃ p, y.parent = some p ∧ (p = dst ∨ (run Heap.empty cs).objs.length ≤ p)) ∧
    (∀ b ∈ y.items, (run Heap.empty cs).bins.length ≤ b ∧ ∃ z, s'.bins[b]? = some z ∧ (run Heap.empty cs).datas.length ≤ z.data) ∧
    (∀ p ∈ y.cps, (run Heap.empty cs).objs.length ≤ p ∧ ∃ z, s'.objs[p]? = some z ∧ z.parent = y.parent ∧ z.cls = .coverpoint) ∧
    (∀ u, y.du = some u → (run Heap.empty cs).objs.length ≤ u ∧ ∃ z, s'.objs[u]? = some z ∧ z.parent = y.parent) := by
  obtain ⟨vs, hvs⟩ := shows_all hr hs
  obtain ⟨k, i, f⟩ := merge_frame hx hc hvs hm
  obtain ⟨cs', hcs'⟩ := f.calls
  have hrun : s' = run Heap.empty (cs ++ cs') := by rw [run_append]; exact hcs'
  have hnew := f.new o y hn hy
  have hbelow : ∀ (q : Nat) (z : Obj), (run Heap.empty cs).objs.length ≤ q → s'.objs[q]? = some z → Below s' dst q := by
    intro q
    induction q using Nat.strongRecOn with
    | _ q ih =>
      intro z hq hz
      obtain ⟨p, hp, h⟩ := (f.new q z hq hz).parent
      refine .child hz hp ?_
      rcases h with rfl | h
      · exact .here
      · have hlt : p < q := (tree_facts (cs ++ cs') (hrun ▸ hz)).2.2.1 p hp
        have hpl : p < s'.objs.length := Nat.lt_trans hlt (List.getElem?_eq_some_iff.1 hz).1
        exact ih p hlt _ h (List.getElem?_eq_getElem hpl)
  refine ⟨hbelow o y hn hy, hnew.parent, ?_, ?_, ?_⟩
  · intro b hb
    have hb0 := hnew.bins b hb
    have hbl := (run_items (cs ++ cs')).bound o y (hrun ▸ hy) b hb
    rw [← hrun] at hbl
    exact ⟨hb0, _, List.getElem?_eq_getElem hbl, f.newBins b _ hb0 (List.getElem?_eq_getElem hbl)⟩
  · intro p hp
    obtain ⟨z, hz, h1, h2⟩ := hnew.cps (Nat.zero_lt_of_lt (List.getElem?_eq_some_iff.1 hx).1) p hp
    refine ⟨?_, z, hz, h1, h2⟩
    -- an old object keeps its parent, and the parent of the cross is a new covergroup
    by_contra hlt
    have hlt : p < (run Heap.empty cs).objs.length := by omega
    obtain ⟨q, w, hq, hw, hwc⟩ := hnew.cross (List.ne_nil_of_mem hp)
    obtain ⟨z', hz', _, _, _, _, hpar⟩ := f.keeps (List.getElem?_eq_getElem hlt)
    rw [hz] at hz'
    cases hz'
    rw [h1, hq] at hpar
    have hql : q < p := (tree_facts cs (List.getElem?_eq_getElem hlt)).2.2.1 q hpar.symm
    obtain ⟨p', hp', h⟩ := hnew.parent
    rw [hq] at hp'
    cases hp'
    rcases h with h | h
    · subst h
      obtain ⟨w', hw', _, _, _, hcl, _⟩ := f.keeps hx
      rw [hw] at hw'
      cases hw'
      rw [hwc, hc] at hcl
      cases hcl
    · omega
  · exact fun u hu => ⟨(hnew.du u hu).1, (hnew.du u hu).2.2⟩

/-- Showing depends only on the scopes met, their bins and data, and the scopes they refer to. -/
theorem showsIn_agree {P Q : Nat → Prop} {s t : Heap} (hobj : ∀ o x, P o ∨ Q o → s.objs[o]? = some x → t.objs[o]? = some x)
    (href : ∀ o x, P o → s.objs[o]? = some x → (∀ p ∈ x.cps, P p ∨ Q p) ∧ ∀ u, x.du = some u → P u ∨ Q u)
    (hitem : ∀ o x b it, P o → s.objs[o]? = some x → b ∈ x.items → ShowsItem s b it → ShowsItem t b it) {n o : Nat} {v : Scope}
    (h : ShowsIn P s n o v) : ShowsIn P t n o v := by
  induction n generalizing o v with
  | zero => exact h
  | succ n ih =>
    obtain ⟨hp, x, hx, h1, h2, h3, h4, h5, h6, h7, h8⟩ := h
    obtain ⟨hc, hd⟩ := href o x hp hx
    refine ⟨hp, x, hobj o x (.inl hp) hx, h1, h2, h3, h4, ?_, ?_, forall2_imp h7 (fun a _ b hab => ih hab),
      forall2_imp h8 (fun a ha b hab => hitem o x a b hp hx ha hab)⟩
    · unfold ShowsDu at h5 ⊢
      cases hu : x.du with
      | none => rw [hu] at h5; exact h5
      | some u =>
        rw [hu] at h5
        obtain ⟨h0, y, hy, e⟩ := h5
        exact ⟨h0, y, hobj u y (hd u hu) hy, e⟩
    · unfold ShowsCps at h6 ⊢
      split at h6
      · rename_i hcl
        rw [if_pos hcl]
        obtain ⟨l, hl, hf⟩ := h6
        refine ⟨l, hl, forall2_imp hf ?_⟩
        rintro a ha b ⟨y, hy, e⟩
        exact ⟨y, hobj a y (hc a ha) hy, e⟩
      · rename_i hcl
        rw [if_neg hcl]
        exact h6

/-- What the calls of a sequence leave alone. -/
theorem each_keeps {ok : Heap → Call → Prop} {P K : Nat → Prop} (hobj : ∀ t c, ok t c → ∀ o, Receiver c o → ¬ P o)
    (hdata : ∀ t c, ok t c → ∀ d, Sets t c d → ¬ K d) {cs : List Call} {s : Heap} (h : Each ok s cs) :
    (∀ (o : Nat) x, P o → s.objs[o]? = some x → (run s cs).objs[o]? = some x) ∧
    (∀ (b : Nat) x, s.bins[b]? = some x → (run s cs).bins[b]? = some x) ∧
    (∀ (d : Nat) x, K d → s.datas[d]? = some x → (run s cs).datas[d]? = some x) := by
  induction cs generalizing s with
  | nil => exact ⟨fun _ _ _ h => h, fun _ _ h => h, fun _ _ _ h => h⟩
  | cons c t ih =>
    obtain ⟨h1, h2, h3⟩ := ih h.2
    obtain ⟨f1, _, f3, f4, _⟩ := C85_frame c s
    exact ⟨fun o x hp hx => h1 o x hp (f1 o x (fun hr => hobj s c h.1 o hr hp) hx),
      fun b x hx => h2 b x (f4 b x hx),
      fun d x hk hx => h3 d x hk (f3 d x (fun hs => hdata s c h.1 d hs hk) hx)⟩

/-- Scopes the merge made show only such scopes. -/
theorem shows_new {cs : List Call} {M o n : Nat} {v : Scope} (ho : M ≤ o) (h : ShowsIn (fun _ => True) (run Heap.empty cs) n o v) :
    ShowsIn (fun q => M ≤ q ∧ q < (run Heap.empty cs).objs.length) (run Heap.empty cs) n o v := by
  induction n generalizing o v with
  | zero => exact h
  | succ n ih =>
    obtain ⟨_, x, hx, h1, h2, h3, h4, h5, h6, h7, h8⟩ := h
    refine ⟨⟨ho, (List.getElem?_eq_some_iff.1 hx).1⟩, x, hx, h1, h2, h3, h4, h5, h6, forall2_imp h7 (fun a ha b hab => ih ?_ hab), h8⟩
    obtain ⟨y, hy, hp⟩ := ((tree_facts cs hx).2.1 a).1 ha
    have := (tree_facts cs hy).2.2.1 o hp
    omega

/-- **C83.** Hence later changes anywhere else, in the inputs in particular, never show in what the merge made. -/
theorem C83_merge_unaffected {cs : List Call} (hr : RealCalls Heap.empty cs) {dst : Nat} {x : Obj} (hx : (run Heap.empty cs).objs[dst]? = some x)
    (hc : x.cls = .db) {srcs : List Nat} (hs : ∀ o ∈ srcs, o < (run Heap.empty cs).objs.length) {r : Except Err Unit} {s' : Heap}
    (hm : DbMerger.merge dst srcs (run Heap.empty cs) = (r, s')) {o : Nat} (hn : (run Heap.empty cs).objs.length ≤ o) {v : Scope}
    (hv : Shows s' o v) {later : List Call} (hl : Each (NotOnNew (run Heap.empty cs) s') s' later) : Shows (run s' later) o v := by
  obtain ⟨vs, hvs⟩ := shows_all hr hs
  obtain ⟨k, i, f⟩ := merge_frame hx hc hvs hm
  obtain ⟨cs', hcs'⟩ := f.calls
  have hrun : s' = run Heap.empty (cs ++ cs') := by rw [run_append]; exact hcs'
  obtain ⟨n, hv⟩ := hv
  have hv' : ShowsIn (fun q => (run Heap.empty cs).objs.length ≤ q ∧ q < s'.objs.length) s' n o v := by
    rw [hrun] at hv ⊢
    exact shows_new hn hv
  obtain ⟨k1, k2, k3⟩ := each_keeps (P := fun q => (run Heap.empty cs).objs.length ≤ q ∧ q < s'.objs.length)
    (K := fun d => ∃ (o : Nat) (y : Obj) (b : Nat) (z : Bin), (run Heap.empty cs).objs.length ≤ o ∧ s'.objs[o]? = some y ∧ b ∈ y.items ∧
      s'.bins[b]? = some z ∧ z.data = d)
    (fun t c hok o ho hp => by have := hok.1 o ho; omega)
    (fun t c hok d hd ⟨o, y, b, z, h1, h2, h3, h4, h5⟩ => hok.2 d hd o y b z h1 h2 h3 h4 h5) hl
  refine ⟨n, showsIn_mono (fun _ _ => trivial) (Nat.le_refl _) (showsIn_agree (Q := fun _ => False) ?_ ?_ ?_ hv')⟩
  · rintro o x (hp | hp) hx
    · exact k1 o x hp hx
    · exact hp.elim
  · rintro o y ⟨h1, h2⟩ hy
    obtain ⟨_, _, _, h4, h5⟩ := C83_own_objects hr hx hc hs hm h1 hy
    refine ⟨fun p hp => .inl ?_, fun u hu => .inl ?_⟩
    · obtain ⟨h6, z, hz, _⟩ := h4 p hp
      exact ⟨h6, (List.getElem?_eq_some_iff.1 hz).1⟩
    · obtain ⟨h6, z, hz, _⟩ := h5 u hu
      exact ⟨h6, (List.getElem?_eq_some_iff.1 hz).1⟩
  · rintro o y b it ⟨h1, h2⟩ hy hb ⟨z, d, hz, hd, rfl⟩
    exact ⟨z, d, k2 b z hz, k3 z.data d ⟨o, y, b, z, h1, hy, hb, hz, rfl⟩ hd, rfl⟩

/-- **C83.** The other way round: whatever is done later with the destination, with the scopes the merge made or with their bins,
an input that is not the destination still shows what it showed before the merge, if it does not refer to the destination itself. -/
theorem C83_inputs_unaffected {cs : List Call} (hr : RealCalls Heap.empty cs) {dst : Nat} {x : Obj} (hx : (run Heap.empty cs).objs[dst]? = some x)
    (hc : x.cls = .db) {srcs : List Nat} (hs : ∀ o ∈ srcs, o < (run Heap.empty cs).objs.length) {r : Except Err Unit} {s' : Heap}
    (hm : DbMerger.merge dst srcs (run Heap.empty cs) = (r, s')) {o : Nat} (hn : o ≠ dst) {v : Scope} (hv : Shows (run Heap.empty cs) o v)
    (href : ∀ (q : Nat) y, (run Heap.empty cs).objs[q]? = some y → dst ∉ y.cps ∧ y.du ≠ some dst)
    {later : List Call} (hl : Each (OnlyOnNew (run Heap.empty cs) dst) s' later) : Shows (run s' later) o v := by
  obtain ⟨vs, hvs⟩ := shows_all hr hs
  obtain ⟨k, i, f⟩ := merge_frame hx hc hvs hm
  have hgrew := frame_onlyGrew f hx hc
  obtain ⟨n, hv⟩ := hv
  have hv' := shows_region hx hc hn hv
  obtain ⟨k1, k2, k3⟩ := each_keeps (P := fun q => q < (run Heap.empty cs).objs.length ∧ q ≠ dst) (K := fun d => d < (run Heap.empty cs).datas.length)
    (fun t c hok o ho hp => by have := hok.1 o ho; omega) (fun t c hok d hd hk => by have := hok.2 d hd; omega) hl
  have solid := run_solid hr
  refine ⟨n, showsIn_mono (fun _ _ => trivial) (Nat.le_refl _) (showsIn_agree (Q := fun _ => False) ?_ ?_ ?_ hv')⟩
  · rintro q y (hp | hp) hy
    · exact k1 q y hp (hgrew.others q y hp.2 hy)
    · exact hp.elim
  · rintro q y ⟨h1, h2⟩ hy
    obtain ⟨h3, h4⟩ := solid q y hy
    obtain ⟨h5, h6⟩ := href q y hy
    refine ⟨fun p hp => .inl ⟨h3 p hp, fun e => h5 (e ▸ hp)⟩, fun u hu => .inl ⟨(h4 u hu).1, fun e => h6 (e ▸ hu)⟩⟩
  · rintro q y b it _ hy hb ⟨z, d, hz, hd, rfl⟩
    exact ⟨z, d, k2 b z (hgrew.bins b z hz), k3 z.data d (List.getElem?_eq_some_iff.1 hd).1 (hgrew.datas z.data d hd), rfl⟩

/-! ## C84: the merge of the objects is the merge of what they show -/

/-- **C84.** Let the databases show the trees `vs` and the destination the tree `v`, at the time of the call.  Then
the merge raises exactly if merging those trees fails, with the same exception, and otherwise the destination shows exactly the
tree that merging them gives — also if an input is given several times, if inputs and destination overlap, or if the destination is itself one of
the inputs. -/
theorem C84_refines {cs : List Call} {dst : Nat} {x : Obj} (hx : (run Heap.empty cs).objs[dst]? = some x) (hc : x.cls = .db) {v : Scope}
    (hv : Shows (run Heap.empty cs) dst v) {srcs : List Nat} {vs : List Scope} (h : List.Forall₂ (Shows (run Heap.empty cs)) srcs vs)
    {r : Except Err Unit} {s' : Heap} (hm : DbMerger.merge dst srcs (run Heap.empty cs) = (r, s')) :
    (∀ e, Merge.merge v vs = .error e → r = .error e) ∧ (∀ w, Merge.merge v vs = .ok w → r = .ok () ∧ Shows s' dst w) := by
  have ho := merge_out (Nat.le_refl _) hx hc (forall2_imp h (fun _ _ _ hab => shows_kids hx hc hab))
  have hkids := shows_kids hx hc hv
  unfold Outcome at ho
  unfold Merge.merge
  cases hr : (Merge.collect ST.INSTANCE vs).mapM Merge.mergeInstance with
  | error e =>
    rw [hr] at ho
    obtain ⟨s1, k, i, h1, f⟩ := ho
    rw [hm] at h1
    cases h1
    exact ⟨fun e' h => (by cases h; rfl), fun w h => (by cases h)⟩
  | ok ws =>
    rw [hr] at ho
    obtain ⟨_, s1, k, i, h1, f, rfl, hk⟩ := ho
    rw [hm] at h1
    cases h1
    refine ⟨fun e h => (by cases h), fun w h => ?_⟩
    cases h
    refine ⟨rfl, ?_⟩
    obtain ⟨n, hn⟩ := hv
    cases n with
    | zero => exact hn.elim
    | succ n =>
      obtain ⟨_, y, hy, a1, a2, a3, a4, a5, a6, a7, a8⟩ := hn
      obtain ⟨y2, hy2, hold⟩ := hkids
      rw [hy] at hy2
      cases hy2
      have hd := f.old dst y hy
      rw [if_pos rfl] at hd
      have hch : List.Forall₂ (fun o v => ∃ n, ShowsIn (fun _ => True) s' n o v) (y.children ++ k) (v.children ++ ws.flatten) := by
        refine List.rel_append ?_ ?_
        · refine forall2_imp hold ?_
          rintro a _ b ⟨n, hab⟩
          exact ⟨n, showsIn_mono (fun _ _ => trivial) (Nat.le_refl _) (f.showsIn (by simp) hab)⟩
        · refine forall2_imp hk ?_
          rintro a _ b ⟨n, hab⟩
          exact ⟨n, showsIn_mono (fun _ _ => trivial) (Nat.le_refl _) hab⟩
      obtain ⟨m, hm'⟩ := showsIn_list hch
      refine ⟨m + 1, trivial, _, hd, a1, a2, a3, a4, ?_, ?_, hm', ?_⟩
      · exact f.showsDu a5
      · exact f.showsCps a6
      · simpa [grow] using forall2_imp a8 (fun _ _ _ hab => f.showsItem hab)

/-- **C84.** In particular the counts: after a successful merge, a bin of the destination shows what it showed before plus what
the inputs show for the same place, an input given twice counted twice, the destination as an input counted as an input. -/
theorem C84_counts {cs : List Call} {dst : Nat} {x : Obj} (hx : (run Heap.empty cs).objs[dst]? = some x) (hc : x.cls = .db) {v : Scope}
    (hv : Shows (run Heap.empty cs) dst v) {srcs : List Nat} {vs : List Scope} (h : List.Forall₂ (Shows (run Heap.empty cs)) srcs vs)
    (hu : ∀ u ∈ vs, UniqueNames u) {s' : Heap} (hm : DbMerger.merge dst srcs (run Heap.empty cs) = (.ok (), s')) :
    ∃ w, Shows s' dst w ∧ ∀ {p : Addr}, LeafAddr p → ∀ {k : Nat}, IsKind k → ∀ b,
      total p k b w = total p k b v + (vs.map (total p k b)).sum := by
  obtain ⟨h1, h2⟩ := C84_refines hx hc hv h hm
  cases hr : Merge.merge v vs with
  | error e => exact absurd (h1 e hr) (by simp)
  | ok w => exact ⟨w, (h2 w hr).2, fun hp _ hk b => C01_merge_conserves_counts_into hu hr hp hk b⟩

/-! ## Examples -/

/-- A database with a crossed coverpoint, and an empty one. -/
def twoDbs : List Call := sample ++ [.createCross 3 "x" none 1 1 [4], .createBin 5 "a" none 1 2 1, .newDb]

theorem twoDbs_real : RealCalls Heap.empty twoDbs := by
  refine ⟨trivial, trivial, ?_, trivial, trivial, trivial, trivial, ?_, trivial, trivial, trivial⟩
  · intro u hu
    cases hu
    decide
  · intro p hp
    simp only [List.mem_singleton] at hp
    subst hp
    decide

/-- **C82** to **C84** apply: one input twice, into an empty database. -/
example : RealCalls Heap.empty twoDbs ∧ (∃ x, (run Heap.empty twoDbs).objs[6]? = some x ∧ x.cls = .db) ∧
    (∀ o ∈ [0, 0], o < (run Heap.empty twoDbs).objs.length) ∧
    (DbMerger.merge 6 [0, 0] (run Heap.empty twoDbs)).1.isOk = true ∧
    ((DbMerger.merge 6 [0, 0] (run Heap.empty twoDbs)).2.objs.map (·.cps)).drop 7 = [[], [], [], [], [10]] ∧
    (DbMerger.merge 6 [0, 0] (run Heap.empty twoDbs)).2.datas.map (·.count) = [3, 0, 2, 6, 0, 4] := by
  refine ⟨twoDbs_real, ⟨_, rfl, rfl⟩, by decide, ?_, ?_, ?_⟩ <;> decide +kernel

/-- A database merged into itself: its content is there a second time. -/
example : (DbMerger.merge 0 [0] (run Heap.empty twoDbs)).1.isOk = true ∧
    ((DbMerger.merge 0 [0] (run Heap.empty twoDbs)).2.objs.map (·.children)).take 1 = [[1, 2, 7, 8]] ∧
    (DbMerger.merge 0 [0] (run Heap.empty twoDbs)).2.datas.map (·.count) = [3, 0, 2, 3, 0, 2] := by
  refine ⟨?_, ?_, ?_⟩ <;> decide +kernel

/-- **C83** applies: after the merge, a bin of the input and one of the merge are incremented. -/
example : Each (NotOnNew (run Heap.empty twoDbs) (DbMerger.merge 6 [0, 0] (run Heap.empty twoDbs)).2) (DbMerger.merge 6 [0, 0] (run Heap.empty twoDbs)).2
      [.incrementCover 0 5, .setWeight 3 9] ∧
    Each (OnlyOnNew (run Heap.empty twoDbs) 6) (DbMerger.merge 6 [0, 0] (run Heap.empty twoDbs)).2 [.setWeight 9 4, .incrementCover 3 1] ∧
    (∀ (q : Nat) y, (run Heap.empty twoDbs).objs[q]? = some y → 6 ∉ y.cps ∧ y.du ≠ some 6) := by
  have hb : ∀ (b : Nat) (z : Bin), 3 ≤ b → (DbMerger.merge 6 [0, 0] (run Heap.empty twoDbs)).2.bins[b]? = some z → z.data ≠ 0 := by
    intro b z hb hz
    have h1 : ∀ b < 6, 3 ≤ b → ((DbMerger.merge 6 [0, 0] (run Heap.empty twoDbs)).2.bins[b]?).map (·.data) ≠ some 0 := by decide +kernel
    have h2 : (DbMerger.merge 6 [0, 0] (run Heap.empty twoDbs)).2.bins.length = 6 := by decide +kernel
    have := (List.getElem?_eq_some_iff.1 hz).1
    intro e
    exact h1 b (by omega) hb (by rw [hz]; simp [e])
  refine ⟨⟨⟨fun o h => h.elim, ?_⟩, ⟨fun o h => .inl (h ▸ by decide), fun d h => h.elim⟩, trivial⟩, ⟨⟨fun o h => .inr (h ▸ by decide), fun d h => h.elim⟩,
    ⟨fun o h => h.elim, ?_⟩, trivial⟩, ?_⟩
  · rintro d ⟨z0, hz0, rfl⟩ o y b z ho hy hm hz
    have h0 : ((DbMerger.merge 6 [0, 0] (run Heap.empty twoDbs)).2.bins[0]?).map (·.data) = some 0 := by decide +kernel
    rw [hz0] at h0
    rw [show z0.data = 0 from Option.some.inj h0]
    refine hb b z ?_ hz
    have h6 : ∃ x, (run Heap.empty twoDbs).objs[6]? = some x ∧ x.cls = .db := ⟨_, rfl, rfl⟩
    obtain ⟨x6, h6, hc6⟩ := h6
    exact ((C83_own_objects twoDbs_real h6 hc6 (by decide) (Prod.mk.eta).symm ho hy).2.2.1 b hm).1
  · rintro d ⟨z0, hz0, rfl⟩
    have h0 : ((exec (.setWeight 9 4) (DbMerger.merge 6 [0, 0] (run Heap.empty twoDbs)).2).2.bins[3]?).map (·.data) = some 3 := by decide +kernel
    rw [hz0] at h0
    rw [show z0.data = 3 from Option.some.inj h0]
    decide
  · intro q y hy
    have h1 : ∀ y ∈ (run Heap.empty twoDbs).objs, 6 ∉ y.cps ∧ y.du ≠ some 6 := by decide
    exact h1 y (List.mem_of_getElem? hy)

/-- A merge that raises: an instance without design unit. -/
example : ∃ s', DbMerger.merge 2 [0, 0] (run Heap.empty [.newDb, .createInstance 0 "i" none 1 1 ST.INSTANCE none 0, .newDb]) = (.error .attributeError, s') :=
  ⟨_, rfl⟩

end Store
end Verif
