import Verif.StoreXmlRead
import Verif.StoreXmlWriteThms
/-!
# What the XML reader makes of one covergroup
-/

namespace Verif
namespace Store
open Spec
open Xml (Elem iter)

/-! ## Simulations -/

/-- Running `act` in `s` raises exactly when `r` is an error, and then the same; `Q` relates the results, `F` holds after an exception. -/
def Sim {α β : Type} (act : M α) (s : Heap) (r : Except Err β) (Q : α → β → Heap → Prop) (F : Heap → Prop) : Prop :=
  match r with
  | .ok v => ∃ a s', act s = (.ok a, s') ∧ Q a v s'
  | .error e => ∃ s', act s = (.error e, s') ∧ F s'

theorem Sim.mono {α β : Type} {act : M α} {s : Heap} {r : Except Err β} {Q Q' : α → β → Heap → Prop} {F F' : Heap → Prop}
    (h : Sim act s r Q F) (hq : ∀ a v s', Q a v s' → Q' a v s') (hf : ∀ s', F s' → F' s') : Sim act s r Q' F' := by
  cases r with
  | error e => obtain ⟨s', h1, h2⟩ := h; exact ⟨s', h1, hf _ h2⟩
  | ok v => obtain ⟨a, s', h1, h2⟩ := h; exact ⟨a, s', h1, hq _ _ _ h2⟩

theorem Sim.pure {α β : Type} {s : Heap} {a : α} {b : β} {Q : α → β → Heap → Prop} {F : Heap → Prop} (h : Q a b s) :
    Sim (Pure.pure a : M α) s (Pure.pure b) Q F := ⟨a, s, rfl, h⟩

theorem Sim.bind {α β γ δ : Type} {x : M α} {f : α → M γ} {r : Except Err β} {g : β → Except Err δ} {s : Heap}
    {Q : α → β → Heap → Prop} {Q' : γ → δ → Heap → Prop} {F : Heap → Prop} (hx : Sim x s r Q F)
    (hf : ∀ a b s1, Q a b s1 → Sim (f a) s1 (g b) Q' F) : Sim (x >>= f) s (r >>= g) Q' F := by
  cases r with
  | error e =>
    obtain ⟨s', h1, h2⟩ := hx
    exact ⟨s', bind_eq_of_error h1, h2⟩
  | ok b =>
    obtain ⟨a, s1, h1, h2⟩ := hx
    have := hf a b s1 h2
    show Sim (x >>= f) s (g b) Q' F
    unfold Sim at this ⊢
    rw [bind_eq_of_ok h1]
    exact this

theorem Sim.step {α β γ : Type} {x : M α} {f : α → M γ} {s s1 : Heap} {a : α} {r : Except Err β}
    {Q : γ → β → Heap → Prop} {F : Heap → Prop} (hx : x s = (.ok a, s1)) (h : Sim (f a) s1 r Q F) : Sim (x >>= f) s r Q F := by
  unfold Sim at h ⊢
  rw [bind_eq_of_ok hx]
  exact h

theorem Sim.foldlM {σ τ α : Type} {f : σ → α → M σ} {g : τ → α → Except Err τ} {Q : σ → τ → Heap → Prop} {F : Heap → Prop}
    (h : ∀ a v s x, Q a v s → Sim (f a x) s (g v x) Q F) (l : List α) {a : σ} {v : τ} {s : Heap} (hq : Q a v s) :
    Sim (l.foldlM f a) s (l.foldlM g v) Q F := by
  induction l generalizing a v s with
  | nil => exact Sim.pure hq
  | cons x t ih =>
    rw [List.foldlM_cons, List.foldlM_cons]
    exact Sim.bind (h a v s x hq) (fun a b s1 h1 => ih h1)

theorem Outcome.sim {N : Nat} {α β : Type} {act : M α} {s : Heap} {d : Nat} {r : Except Err β} {Q : α → β → Heap → List Nat → List Nat → Prop}
    (h : Outcome N act s d r Q) :
    Sim act s r (fun a v s' => ∃ k i, Frame N s s' d k i ∧ Q a v s' k i) (fun s' => ∃ k i, Frame N s s' d k i) := by
  cases r with
  | error e => obtain ⟨s', k, i, h1, h2⟩ := h; exact ⟨s', h1, k, i, h2⟩
  | ok v => obtain ⟨a, s', k, i, h1, h2, h3⟩ := h; exact ⟨a, s', h1, k, i, h2, h3⟩

theorem Outcome.of_sim {N : Nat} {α β : Type} {act : M α} {s : Heap} {d : Nat} {r : Except Err β} {Q : α → β → Heap → List Nat → List Nat → Prop}
    (h : Sim act s r (fun a v s' => ∃ k i, Frame N s s' d k i ∧ Q a v s' k i) (fun s' => ∃ k i, Frame N s s' d k i)) :
    Outcome N act s d r Q := by
  cases r with
  | error e => obtain ⟨s', h1, k, i, h2⟩ := h; exact ⟨s', k, i, h1, h2⟩
  | ok v => obtain ⟨a, s', h1, k, i, h2, h3⟩ := h; exact ⟨a, s', k, i, h1, h2, h3⟩

/-! ## Trees that keep away from objects still growing -/

/-- `c` shows `v` through existing objects outside `K`. -/
def Closed (K : Nat → Prop) (s : Heap) (c : Nat) (v : Scope) : Prop := ∃ n, ShowsIn (fun o => o < s.objs.length ∧ ¬ K o) s n c v

theorem showsIn_exists {P : Nat → Prop} {s : Heap} {n o : Nat} {v : Scope} (h : ShowsIn P s n o v) :
    ShowsIn (fun o => P o ∧ o < s.objs.length) s n o v := by
  induction n generalizing o v with
  | zero => exact h
  | succ n ih =>
    obtain ⟨hp, x, hx, h1, h2, h3, h4, h5, h6, h7, h8⟩ := h
    exact ⟨⟨hp, (List.getElem?_eq_some_iff.1 hx).1⟩, x, hx, h1, h2, h3, h4, h5, h6, forall2_imp h7 (fun a _ b hab => ih hab), h8⟩

theorem Closed.frame {N : Nat} {K K' : Nat → Prop} {s s' : Heap} {d c : Nat} {k i : List Nat} {v : Scope} (h : Closed K s c v)
    (f : Frame N s s' d k i) (hd : K d ∨ s.objs.length ≤ d) (hK : ∀ o, o < s.objs.length → K' o → K o) : Closed K' s' c v := by
  obtain ⟨n, hn⟩ := h
  have := f.showsIn (P := fun o => o < s.objs.length ∧ ¬ K o) (by
    rintro ⟨h1, h2⟩
    rcases hd with h | h
    · exact h2 h
    · omega) hn
  exact ⟨n, showsIn_mono (fun o ho => ⟨Nat.lt_of_lt_of_le ho.1 f.len, fun hk => ho.2 (hK o ho.1 hk)⟩) (Nat.le_refl _) this⟩

theorem Closed.mono {K K' : Nat → Prop} {s : Heap} {c : Nat} {v : Scope} (h : Closed K s c v) (hK : ∀ o, o < s.objs.length → K' o → K o) :
    Closed K' s c v := by
  obtain ⟨n, hn⟩ := h
  exact ⟨n, showsIn_mono (fun o ho => ⟨ho.1, fun hk => ho.2 (hK o ho.1 hk)⟩) (Nat.le_refl _) hn⟩

theorem New.closed {m : Nat} {s : Heap} {c : Nat} {v : Scope} (h : New m s c v) {K : Nat → Prop} (hK : ∀ o, m ≤ o → o < s.objs.length → ¬ K o) :
    Closed K s c v := by
  obtain ⟨n, hn⟩ := h
  exact ⟨n, showsIn_mono (fun o ho => ⟨ho.2, hK o ho.1 ho.2⟩) (Nat.le_refl _) (showsIn_exists hn)⟩

theorem Closed.new {K : Nat → Prop} {m : Nat} {s : Heap} {c : Nat} {v : Scope} (h : Closed K s c v) (hK : ∀ o, o < m → K o) : New m s c v := by
  obtain ⟨n, hn⟩ := h
  exact ⟨n, showsIn_mono (fun o ho => by
    by_contra hlt
    exact ho.2 (hK o (by omega))) (Nat.le_refl _) hn⟩

/-- An object with its children and bins. -/
theorem closed_node {K : Nat → Prop} {s : Heap} {c : Nat} {y : Obj} {v : Scope} (hy : s.objs[c]? = some y) (hK : ¬ K c)
    (h1 : v.stype = y.stype) (h2 : v.name = y.name) (h3 : v.src = y.src) (h4 : v.weight = y.weight) (h5 : ShowsDu s y v.du) (h6 : ShowsCps s y v.cps)
    (h7 : List.Forall₂ (Closed K s) y.children v.children) (h8 : List.Forall₂ (ShowsItem s) y.items v.items) : Closed K s c v := by
  obtain ⟨n, hn⟩ := showsIn_list h7
  exact ⟨n + 1, ⟨(List.getElem?_eq_some_iff.1 hy).1, hK⟩, y, hy, h1, h2, h3, h4, h5, h6, hn, h8⟩

/-! ## Bins -/

/-- A loop that reads bins, makes them below `d` and enters them in a table. -/
theorem binLoop_out {N : Nat} {α : Type} {rb : Elem → Except Err Item} {ab : α → Item → α} {f : α → Elem → M α} (kd : Item → Nat) {d : Nat}
    (hf : ∀ t e, f t e = (do let b ← lift (rb e); let _ ← createBin d b.name none 1 b.count (kd b); pure (ab t b)))
    (hrb : ∀ e b, rb e = .ok b → b = mkBin b.name (kd b) 1 b.count)
    (l : List Elem) (t : α) {s : Heap} {x : Obj} (hx : s.objs[d]? = some x) (hc : x.cls = .coverpoint ∨ x.cls = .cross) :
    Outcome N (l.foldlM f t) s d (l.mapM rb)
      (fun t' its s' k i => k = [] ∧ t' = its.foldl ab t ∧ List.Forall₂ (ShowsItem s') i its) := by
  induction l generalizing t s x with
  | nil => exact ⟨t, s, [], [], rfl, Frame.refl N s d, rfl, rfl, .nil⟩
  | cons e l ih =>
    rw [List.foldlM_cons, List.mapM_cons, hf]
    cases hr : rb e with
    | error er => exact ⟨s, [], [], rfl, Frame.refl N s d⟩
    | ok b =>
      obtain ⟨s1, h1, f1, hs⟩ := frame_createBin (N := N) hx hc b.name 1 b.count (kd b)
      obtain ⟨x1, hx1, _, _, _, hcls, _⟩ := f1.keeps hx
      have hrec := ih (ab t b) hx1 (hcls ▸ hc)
      have hrun : ((do let b ← lift (.ok b); let _ ← createBin d b.name none 1 b.count (kd b); pure (ab t b) : M α) >>= fun t => l.foldlM f t) s =
          l.foldlM f (ab t b) s1 := by
        have : (do let b ← lift (.ok b); let _ ← createBin d b.name none 1 b.count (kd b); pure (ab t b) : M α) s = (.ok (ab t b), s1) := by
          show (createBin d b.name none 1 b.count (kd b) >>= fun _ => (pure (ab t b) : M α)) s = _
          rw [bind_eq_of_ok h1]; rfl
        rw [bind_eq_of_ok this]
      have hl := (List.getElem?_eq_some_iff.1 hx).1
      unfold Outcome at hrec
      show Outcome N _ s d (l.mapM rb >>= fun bs => Pure.pure (b :: bs)) _
      cases hm : l.mapM rb with
      | error er =>
        rw [hm] at hrec
        obtain ⟨s2, k, i, h2, f2⟩ := hrec
        exact ⟨s2, _, _, by rw [hrun, h2], f1.trans f2 hl⟩
      | ok bs =>
        rw [hm] at hrec
        obtain ⟨t', s2, k, i, h2, f2, rfl, rfl, h3⟩ := hrec
        refine ⟨_, s2, [] ++ [], [s.bins.length] ++ i, hrun.trans h2, f1.trans f2 hl, rfl, rfl, .cons ?_ h3⟩
        rw [hrb e b hr]
        exact f2.showsItem hs

theorem readBin_mk {e : Elem} {b : Item} (h : Xml.readBin e = .ok b) : b = mkBin b.name b.kind 1 b.count := by
  unfold Xml.readBin at h
  cases h1 : Xml.contentsE e with
  | error er => rw [h1] at h; cases h
  | ok c =>
    rw [h1] at h
    cases h2 : Xml.readKind (e.getD "type" "default") with
    | error er => rw [h2] at h; cases h
    | ok k =>
      rw [h2] at h
      cases h3 : c.getInt "coverageCount" with
      | error er => simp only [bind, Except.bind, h3] at h; cases h
      | ok n => simp only [bind, Except.bind, h3] at h; cases h; rfl

theorem readCrossBin_mk {e : Elem} {b : Item} (h : Xml.readCrossBin e = .ok b) : b = mkBin b.name b.kind 1 b.count ∧ b.kind = CT.CVGBIN := by
  unfold Xml.readCrossBin at h
  cases h1 : Xml.nextE e "contents" with
  | error er => rw [h1] at h; cases h
  | ok c =>
    rw [h1] at h
    cases h3 : c.getInt "coverageCount" with
    | error er => simp only [bind, Except.bind, h3] at h; cases h
    | ok n => simp only [bind, Except.bind, h3] at h; cases h; exact ⟨rfl, rfl⟩

/-- `createBin` for each entry of a table. -/
theorem populate_out {N : Nat} {α : Type} {f : α → M Unit} {d : Nat} {w : α → Item}
    (hf : ∀ a, f a = (do let _ ← createBin d (w a).name none 1 (w a).count (w a).kind)) (hw : ∀ a, w a = mkBin (w a).name (w a).kind 1 (w a).count)
    (l : List α) {s : Heap} {x : Obj} (hx : s.objs[d]? = some x) (hc : x.cls = .coverpoint ∨ x.cls = .cross) :
    ∃ s' i, each f l s = (.ok (), s') ∧ Frame N s s' d [] i ∧ List.Forall₂ (ShowsItem s') i (l.map w) := by
  induction l generalizing s x with
  | nil => exact ⟨s, [], rfl, Frame.refl N s d, .nil⟩
  | cons a l ih =>
    obtain ⟨s1, h1, f1, hs⟩ := frame_createBin (N := N) hx hc (w a).name 1 (w a).count (w a).kind
    obtain ⟨x1, hx1, _, _, _, hcls, _⟩ := f1.keeps hx
    obtain ⟨s2, i, h2, f2, h3⟩ := ih hx1 (hcls ▸ hc)
    refine ⟨s2, [s.bins.length] ++ i, ?_, f1.trans f2 (List.getElem?_eq_some_iff.1 hx).1, .cons ?_ h3⟩
    · have : f a s = (.ok (), s1) := by
        rw [hf]
        show (createBin d _ none 1 _ _ >>= fun _ => (pure () : M Unit)) s = _
        rw [bind_eq_of_ok h1]; rfl
      show (f a >>= fun _ => each f l) s = _
      rw [bind_eq_of_ok this, h2]
    · rw [hw a]; exact f2.showsItem hs

/-! ## Crossed coverpoints -/

theorem xmlResolve_out {s : Heap} {d : Nat} {look : String → Option Nat} {known : List String}
    (hcp : ∀ n q, look n = some q → IsCp s d n q) (hk : ∀ n, (look n).isSome ↔ n ∈ known) (e : Elem) :
    match Xml.resolve known e with
    | .ok l => ∃ qs, XmlReader.resolve look e s = (.ok qs, s) ∧ List.Forall₂ (fun q n => IsCp s d n q) qs l
    | .error er => XmlReader.resolve look e s = (.error er, s) := by
  unfold Xml.resolve XmlReader.resolve
  induction iter "crossExpr" e with
  | nil => exact ⟨[], rfl, .nil⟩
  | cons x t ih =>
    rw [List.mapM_cons, List.mapM_cons]
    cases hn : Xml.exprName x with
    | error er => rfl
    | ok n =>
      cases hl : look n with
      | none =>
        have hno : n ∉ known := by rw [← hk, hl]; simp
        have e1 : (do let n ← Except.ok n; if n ∈ known then pure n else .error .userError : Except Err String) = .error .userError := by
          show (if n ∈ known then _ else _) = _
          rw [if_neg hno]
        have e2 : (do let n ← lift (.ok n); match look n with | some q => pure q | none => fail .userError : M Nat) s = (.error .userError, s) := by
          show (match look n with | some q => pure q | none => fail .userError : M Nat) s = _
          rw [hl]; rfl
        rw [e1]
        exact bind_eq_of_error e2
      | some q =>
        have hyes : n ∈ known := by rw [← hk, hl]; simp
        have e1 : (do let n ← Except.ok n; if n ∈ known then pure n else .error .userError : Except Err String) = .ok n := by
          show (if n ∈ known then _ else _) = _
          rw [if_pos hyes]; rfl
        have e2 : (do let n ← lift (.ok n); match look n with | some q => pure q | none => fail .userError : M Nat) s = (.ok q, s) := by
          show (match look n with | some q => pure q | none => fail .userError : M Nat) s = _
          rw [hl]; rfl
        rw [e1]
        cases hr : t.mapM (fun x => do let n ← Xml.exprName x; if n ∈ known then pure n else .error .userError : Elem → Except Err String) with
        | error er =>
          rw [hr] at ih
          exact (bind_eq_of_ok e2).trans (bind_eq_of_error ih)
        | ok l =>
          rw [hr] at ih
          obtain ⟨qs, h1, h2⟩ := ih
          exact ⟨q :: qs, (bind_eq_of_ok e2).trans (by rw [bind_eq_of_ok h1]; rfl), .cons (hcp n q hl) h2⟩

end Store
end Verif
