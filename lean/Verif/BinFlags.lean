import Verif.StoreThms2
/-!
# Flags of bins (C141)

No new code: `createBin` (`coverpoint.py:44-66`) makes the flags, nothing changes them (`cover_data.py:10-20`).
-/

namespace Verif
namespace Spec

/-- What a flag says about a bin (`cover_flags_t.py:9-13`, in the words of the standard); the number is the position of the bit. -/
inductive BinFlag where
  | bits32 | bits64 | vector | goal | weight
  deriving DecidableEq, Repr

def BinFlag.position : BinFlag → Nat
  | .bits32 => 0
  | .bits64 => 1
  | .vector => 2
  | .goal => 3
  | .weight => 4

/-- The bin has flags, of which exactly the ones at these positions are set. -/
def FlagsAre (s : Store.Heap) (b : Nat) (P : Nat → Prop) : Prop :=
  ∃ x d, s.bins[b]? = some x ∧ s.datas[x.data]? = some d ∧ 0 ≤ d.flags ∧ ∀ k, d.flags.toNat.testBit k = true ↔ P k

/-- The count of the bin is within the width that its flags state. -/
def WidthHolds (s : Store.Heap) (b : Nat) : Prop :=
  ∃ x d, s.bins[b]? = some x ∧ s.datas[x.data]? = some d ∧
    (d.flags.toNat.testBit BinFlag.bits32.position = true → 0 ≤ d.count ∧ d.count < 2 ^ 32) ∧
    (d.flags.toNat.testBit BinFlag.bits64.position = true → 0 ≤ d.count ∧ d.count < 2 ^ 64)

end Spec

namespace Store
open Spec

theorem binFlags_bits (k : Nat) : binFlags.toNat.testBit k = true ↔ k = 0 ∨ k = 3 ∨ k = 4 := by
  have e : binFlags.toNat = 25 := by decide
  rw [e]
  by_cases hk : k < 5
  · revert k; decide
  · have : (25 : Nat).testBit k = false := Nat.testBit_lt_two_pow (Nat.lt_of_lt_of_le (by decide : 25 < 2 ^ 5) (Nat.pow_le_pow_right (by decide) (by omega)))
    rw [this]
    constructor
    · intro h; cases h
    · intro h; omega

/-- The new bin and its data. -/
theorem createBin_new {o : Nat} {n : String} {src : Option SrcInfo} {a c : Int} {k : Nat} {s s' : Heap} {r : Cover} (h : createBin o n src a c k s = (.ok r, s')) :
    ∃ b x d, r = .bin b ∧ s'.bins[b]? = some x ∧ s'.datas[x.data]? = some d ∧ d.flags = binFlags ∧ d.count = c := by
  rcases obj_cases s o with ⟨x, hx, ho⟩ | ⟨_, ho⟩
  · by_cases hcl : x.cls = .coverpoint ∨ x.cls = .cross
    · rw [createBin_eq hx hcl] at h
      cases h
      exact ⟨_, ⟨n, s.datas.length, src⟩, binData k a c, rfl, by simp [Heap.withBin], by simp, rfl, rfl⟩
    · rw [createBin_error hx (fun h => hcl (.inl h)) (fun h => hcl (.inr h))] at h; cases h
  · unfold createBin at h
    rw [bind_eq_of_error ho] at h; cases h

/-- **C141.** A bin made with `createBin` is flagged as holding 32 bits, a goal and a weight, and nothing else, after whatever calls. -/
theorem C141_flags {o : Nat} {n : String} {src : Option SrcInfo} {a c : Int} {k : Nat} {s s' : Heap} {r : Cover} (h : createBin o n src a c k s = (.ok r, s'))
    (cs : List Call) :
    ∃ b, r = .bin b ∧ FlagsAre (run s' cs) b (fun p => p ∈ [BinFlag.bits32, .goal, .weight].map BinFlag.position) := by
  obtain ⟨b, x, d, rfl, hb, hd, hf, _⟩ := createBin_new h
  have ev := run_evolves cs s'
  obtain ⟨y, hy, _, hyf⟩ := ev.datas _ d hd
  obtain ⟨t, ht⟩ := ev.bins
  refine ⟨b, rfl, x, y, ?_, hy, by rw [hyf, hf]; decide, fun p => ?_⟩
  · rw [← ht, List.getElem?_append_left (List.getElem?_eq_some_iff.1 hb).1]; exact hb
  · rw [hyf, hf, binFlags_bits]; simp [BinFlag.position]

/-- **C141**, the width: it holds exactly if the count made of the first count and the increments is a number of 32 bits.  Full statement: it always holds
(`C141_width_refuted`).  As in C53, for a bin with data of its own that are not assigned. -/
theorem C141_width_partial {o : Nat} {n : String} {src : Option SrcInfo} {a c : Int} {k : Nat} {s s' : Heap} {b : Nat}
    (h : createBin o n src a c k s = (.ok (.bin b), s')) (cs : List Call) (hown : OwnData (run s' cs) b)
    (ho : ∀ q ∈ cs, ∀ x, s'.bins[b]? = some x → q.overwrites x.data = false) :
    WidthHolds (run s' cs) b ↔ 0 ≤ c + (cs.map (Call.adds b)).sum ∧ c + (cs.map (Call.adds b)).sum < 2 ^ 32 := by
  obtain ⟨b', x, d, e, hb, hd, hf, hc⟩ := createBin_new h
  cases e
  obtain ⟨x1, d1, hx1, hd1, hcount⟩ := C53_count_partial cs (k := c) hb ⟨x, d, hb, hd, hc⟩ hown (fun q hq => ho q hq x hb)
  obtain ⟨b', e, x2, d2, hx2, hd2, _, hfl⟩ := C141_flags h cs
  cases e
  cases hx1.symm.trans hx2
  cases hd1.symm.trans hd2
  have h32 := (hfl BinFlag.bits32.position).2 (by decide)
  have h64 : ¬ d1.flags.toNat.testBit BinFlag.bits64.position = true := fun e => absurd ((hfl _).1 e) (by decide)
  constructor
  · rintro ⟨x3, d3, hx3, hd3, w, _⟩
    cases hx1.symm.trans hx3
    cases hd1.symm.trans hd3
    have := w h32
    rwa [hcount] at this
  · intro w
    exact ⟨x1, d1, hx1, hd1, fun _ => by rw [hcount]; exact w, fun e => absurd e h64⟩

namespace Ex
/-- A database with a coverpoint. -/
def flagHeap : Heap := run Heap.empty [.newDb, .createCovergroup 0 "cg" none 1 1, .createCoverpoint 1 "cp" none 1 1]
end Ex

/-- The hypotheses of `C141_flags` and `C141_width_partial` are met, with increments in between. -/
example : ∃ s', createBin 2 "a" none 1 5 CT.CVGBIN Ex.flagHeap = (.ok (.bin 0), s') ∧ OwnData (run s' [.incrementCover 0 3, .setWeight 2 7]) 0 ∧
    (∀ q ∈ [Call.incrementCover 0 3, .setWeight 2 7], ∀ x, s'.bins[0]? = some x → q.overwrites x.data = false) ∧
    ([Call.incrementCover 0 3, .setWeight 2 7].map (Call.adds 0)).sum = 3 := by
  refine ⟨_, rfl, ⟨_, rfl, fun b' x' h _ => ?_⟩, fun q hq x _ => ?_, rfl⟩
  · rcases b' with _ | b'
    · rfl
    · cases h
  · simp only [List.mem_cons, List.not_mem_nil, or_false] at hq
    rcases hq with rfl | rfl <;> rfl

/-- **C141** is violated: a count can be given, or reached with increments, that does not fit into the 32 bits that the flags state. -/
theorem C141_width_refuted :
    (∃ o n src a c k s s' b, createBin o n src a c k s = (.ok (.bin b), s') ∧ ¬ WidthHolds s' b) ∧
    ∃ o n src a k s s' b cs, createBin o n src a 0 k s = (.ok (.bin b), s') ∧ ¬ WidthHolds (run s' cs) b := by
  constructor
  · refine ⟨2, "a", none, 1, 2 ^ 32, CT.CVGBIN, Ex.flagHeap, _, 0, rfl, ?_⟩
    rintro ⟨x, d, hx, hd, h, _⟩
    cases hx
    cases hd
    exact absurd (h (by decide)).2 (by decide)
  · refine ⟨2, "a", none, 1, CT.CVGBIN, Ex.flagHeap, _, 0, [.incrementCover 0 (2 ^ 31), .incrementCover 0 (2 ^ 31)], rfl, ?_⟩
    rintro ⟨x, d, hx, hd, h, _⟩
    cases hx
    cases hd
    exact absurd (h (by decide)).2 (by decide)

end Store
end Verif
