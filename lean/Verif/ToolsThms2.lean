import Verif.ToolsSpec
/-!
# Properties of the C structures: C63, C64
-/

namespace Verif
namespace Tools

/-! ## C63: cover data -/

theorem toUnsigned_fit {n : Nat} {x : Int} (h0 : 0 ≤ x) (h1 : x < (2 ^ n : Nat)) : (toUnsigned n x : Int) = x := by
  unfold toUnsigned
  rw [Int.emod_eq_of_lt h0 h1, Int.toNat_of_nonneg h0]

theorem toUnsigned_lt (n : Nat) (x : Int) : toUnsigned n x < 2 ^ n := by
  unfold toUnsigned
  have hp : (0 : Int) < (2 ^ n : Nat) := by exact_mod_cast Nat.two_pow_pos n
  have h1 := Int.emod_lt_of_pos x hp
  have h2 := Int.emod_nonneg x (ne_of_gt hp)
  omega

theorem toCInt_fit {x : Int} (h0 : -2 ^ 31 ≤ x) (h1 : x < 2 ^ 31) : toCInt x = x := by
  unfold toCInt
  simp only [show ((2 ^ 32 : Nat) : Int) = 4294967296 from rfl, show ((2 ^ 31 : Nat) : Int) = 2147483648 from rfl]
  have e : (2 : Int) ^ 31 = 2147483648 := rfl
  rw [e] at h0 h1
  by_cases hx : 0 ≤ x
  · rw [Int.emod_eq_of_lt hx (by omega)]
    rw [if_pos (by omega)]
  · have : x % 4294967296 = x + 4294967296 := by omega
    rw [this, if_neg (by omega)]
    omega

namespace Spec
/-- A width is announced by a flag word. -/
def Announces32 (flags : Nat) : Prop := flags.testBit 0 = true
def Announces64 (flags : Nat) : Prop := flags.testBit 1 = true
def AnnouncesVector (flags : Nat) : Prop := flags.testBit 2 = true

/-- The full C63: a count that fits an announced width is read back from the member of that width, and without an announced
width the conversion raises. -/
def KeepsCount (c : CovData) : Prop :=
  (Announces32 c.flags → 0 ≤ c.data → c.data < 2 ^ 32 → ∃ s, libCoverData c = .ok s ∧ (getInt32 s.data : Int) = c.data) ∧
  (Announces64 c.flags → 0 ≤ c.data → c.data < 2 ^ 64 → ∃ s, libCoverData c = .ok s ∧ (getInt64 s.data : Int) = c.data) ∧
  (¬ Announces32 c.flags → ¬ Announces64 c.flags → ¬ AnnouncesVector c.flags → ∃ e, libCoverData c = .error e)
end Spec

theorem maskHit_bit (f k : Nat) : maskHit f (2 ^ k) = f.testBit k := by
  unfold maskHit
  rw [Bool.eq_iff_iff, bne_iff_ne, ne_eq]
  constructor
  · intro h
    by_contra hb
    apply h
    apply Nat.eq_of_testBit_eq
    intro i
    rw [Nat.testBit_and, Nat.testBit_two_pow, Nat.zero_testBit]
    by_cases hi : k = i
    · subst hi; simpa using hb
    · simp [hi]
  · intro h e
    have := congrArg (fun n => Nat.testBit n k) e
    simp [Nat.testBit_and, h] at this

theorem libCoverData_eq (c : CovData) :
    libCoverData c = if c.flags.testBit 0 then .ok ⟨toUnsigned 64 c.type, toCInt c.flags, toUnsigned 32 c.data, toCInt c.goal, toCInt c.weight, toCInt c.limit, toCInt c.bitlen⟩
      else if c.flags.testBit 1 ∨ c.flags.testBit 2 then
        .ok ⟨toUnsigned 64 c.type, toCInt c.flags, toUnsigned 64 c.data, toCInt c.goal, toCInt c.weight, toCInt c.limit, toCInt c.bitlen⟩
      else .error .userError := by
  unfold libCoverData
  rw [show IS_32BIT = 2 ^ 0 from rfl, show IS_64BIT = 2 ^ 1 from rfl, show IS_VECTOR = 2 ^ 2 from rfl, maskHit_bit, maskHit_bit, maskHit_bit]
  cases c.flags.testBit 0 <;> cases c.flags.testBit 1 <;> cases c.flags.testBit 2 <;> rfl

/-- **C63, partial.** Missing: both widths announced and a count that needs the larger one (`C63_both_widths_refuted`).  The
count is kept for one announced width, and also for both if it fits the smaller. -/
theorem C63_count_partial (c : CovData) (h : ¬ (Spec.Announces32 c.flags ∧ Spec.Announces64 c.flags) ∨ c.data < 2 ^ 32) :
    Spec.KeepsCount c := by
  unfold Spec.KeepsCount Spec.Announces32 Spec.Announces64 Spec.AnnouncesVector at *
  rw [libCoverData_eq]
  refine ⟨?_, ?_, ?_⟩
  · intro h32 h0 h1
    simp only [h32, if_true]
    refine ⟨_, rfl, ?_⟩
    simp only [getInt32]
    rw [Nat.mod_eq_of_lt (toUnsigned_lt 32 _)]
    exact toUnsigned_fit h0 (by simpa using h1)
  · intro h64 h0 h1
    by_cases h32 : c.flags.testBit 0 = true
    · have hs : c.data < 2 ^ 32 := h.resolve_left (fun hn => hn ⟨h32, h64⟩)
      simp only [h32, if_true]
      exact ⟨_, rfl, toUnsigned_fit h0 (by simpa using hs)⟩
    · simp only [h32, h64, Bool.false_eq_true, if_false, true_or, if_true]
      exact ⟨_, rfl, toUnsigned_fit h0 (by simpa using h1)⟩
  · intro a b d
    simp only [a, b, d, Bool.false_eq_true, if_false, or_self]
    exact ⟨_, rfl⟩

/-- The full C63 fails: with both widths announced the low 32 bits are kept. -/
theorem C63_both_widths_refuted : ¬ ∀ c, Spec.KeepsCount c := by
  intro h
  obtain ⟨_, h2, _⟩ := h ⟨1, 3, 2 ^ 32, 0, 0, 0, 0⟩
  obtain ⟨s, hs, hd⟩ := h2 (by unfold Spec.Announces64; decide) (by decide) (by decide)
  rw [libCoverData_eq] at hs
  have : s = _ := (Except.ok.inj hs).symm
  subst this
  revert hd
  decide

/-- Exactly the counts that are lost when the 32-bit flag is set. -/
theorem C63_kept32_iff (c : CovData) (h : Spec.Announces32 c.flags) :
    ∃ s, libCoverData c = .ok s ∧ ((getInt32 s.data : Int) = c.data ↔ 0 ≤ c.data ∧ c.data < 2 ^ 32) := by
  unfold Spec.Announces32 at h
  rw [libCoverData_eq]
  simp only [h, if_true]
  refine ⟨_, rfl, ?_⟩
  simp only [getInt32]
  rw [Nat.mod_eq_of_lt (toUnsigned_lt 32 _)]
  constructor
  · intro e
    have h1 := toUnsigned_lt 32 c.data
    omega
  · rintro ⟨h0, h1⟩
    exact toUnsigned_fit h0 (by simpa using h1)

/-- Goal, weight, limit and length are kept if they fit 32 bits. -/
theorem C63_other_fields {c : CovData} {s : CCovData} (h : libCoverData c = .ok s) :
    (-2 ^ 31 ≤ c.goal → c.goal < 2 ^ 31 → s.goal = c.goal) ∧ (-2 ^ 31 ≤ c.weight → c.weight < 2 ^ 31 → s.weight = c.weight) ∧
    (-2 ^ 31 ≤ c.limit → c.limit < 2 ^ 31 → s.limit = c.limit) ∧ (-2 ^ 31 ≤ c.bitlen → c.bitlen < 2 ^ 31 → s.bitlen = c.bitlen) ∧
    (c.flags < 2 ^ 31 → s.flags = c.flags) ∧ (c.type < 2 ^ 64 → s.type = c.type) := by
  have key : s.goal = toCInt c.goal ∧ s.weight = toCInt c.weight ∧ s.limit = toCInt c.limit ∧ s.bitlen = toCInt c.bitlen ∧
      s.flags = toCInt c.flags ∧ s.type = toUnsigned 64 c.type := by
    rw [libCoverData_eq] at h
    split at h
    · have h := Except.ok.inj h; subst h; simp
    · split at h
      · have h := Except.ok.inj h; subst h; simp
      · cases h
  obtain ⟨h1, h2, h3, h4, h5, h6⟩ := key
  refine ⟨fun a b => by rw [h1, toCInt_fit a b], fun a b => by rw [h2, toCInt_fit a b], fun a b => by rw [h3, toCInt_fit a b],
    fun a b => by rw [h4, toCInt_fit a b], fun a => ?_, fun a => ?_⟩
  · rw [h5, toCInt_fit (by omega) (by exact_mod_cast a)]
  · rw [h6]
    have := toUnsigned_fit (n := 64) (x := (c.type : Int)) (by omega) (Int.ofNat_lt.2 a)
    exact Int.ofNat.inj this

/-- The flags `createBin` uses (32 bit, goal, weight) with the largest count. -/
example : Spec.KeepsCount ⟨1, 0x19, 2 ^ 32 - 1, 100, 1, 0, 0⟩ :=
  C63_count_partial _ (.inr (by decide))
example : (libCoverData ⟨1, 0x19, 2 ^ 32 - 1, 100, 1, 0, 0⟩).map (fun s => getInt32 s.data) = .ok 4294967295 := by decide +kernel

/-! ## C64: test data -/

theorem cText_text {v : Val} (h : Spec.Text v) : ∃ s : Option String, (∀ x, v ≠ .float x) ∧ cText v = .ok s ∧ readText s = v := by
  rcases h with rfl | ⟨s, rfl, hn⟩
  · exact ⟨none, fun _ h => (by cases h), rfl, rfl⟩
  refine ⟨some s, fun _ h => (by cases h), rfl, ?_⟩
  have key : ∀ l : List Char, '\x00' ∉ l → l.takeWhile (· ≠ '\x00') = l := by
    intro l
    induction l with
    | nil => intro _; rfl
    | cons c t ih =>
      intro h
      have hc : c ≠ '\x00' := fun e => h (by simp [e])
      rw [List.takeWhile_cons, if_pos (by simpa using hc), ih (fun ht => h (by simp [ht]))]
  show Val.str (String.ofList (s.toList.takeWhile (· ≠ '\x00'))) = Val.str s
  rw [key _ hn, String.ofList_toList]

/-- The only way a record cannot be handed to the library: a member of another type than the field. -/
theorem libTestData_error {t : TestData} {e : Err} (h : libTestData t = .error e) : e = .typeError := by
  have hu : ∀ v e, cUint v = .error e → e = .typeError := by intro v e h; unfold cUint at h; split at h <;> cases h; rfl
  have hi : ∀ v e, cInt v = .error e → e = .typeError := by intro v e h; unfold cInt at h; split at h <;> cases h; rfl
  have hd : ∀ v e, cDouble v = .error e → e = .typeError := by intro v e h; unfold cDouble at h; split at h <;> cases h; rfl
  have ht : ∀ v e, cText v = .error e → e = .typeError := by intro v e h; unfold cText at h; split at h <;> cases h; rfl
  have hb : ∀ {α β : Type} {x : Except Err α} {f : α → Except Err β}, (∀ e, x = .error e → e = .typeError) → (∀ a e, f a = .error e → e = .typeError) →
      ∀ e, (x >>= f) = .error e → e = .typeError := by
    intro α β x f hx hf e h
    cases x with
    | error e' => cases h; exact hx _ rfl
    | ok a => exact hf a e h
  unfold libTestData at h
  refine hb (hu _) (fun _ => ?_) e h
  repeat' first
    | exact fun _ h => by cases h
    | refine hb (hi _) (fun _ => ?_)
    | refine hb (hd _) (fun _ => ?_)
    | refine hb (ht _) (fun _ => ?_)

example : libTestData (TestData.mk' .none (.float 0) .none .none (.float 0) .none .none .none (.int 0) .none .none (.float 0) .none) = .error .typeError := rfl

/-- **C64** fails for all test data: converting it to the C structure succeeds, and converting back never gives the
original (the fields are passed in the order of the C structure, which is not that of the constructor). -/
theorem C64_round_trip_refuted (t : TestData) (h : Spec.Typed t) : ∃ c, libTestData t = .ok c ∧ toTestData c ≠ t := by
  obtain ⟨n, h1, _⟩ := h.teststatus
  obtain ⟨x, h2⟩ := h.simtime
  obtain ⟨_, h3, e3, r3⟩ := cText_text h.timeunit
  obtain ⟨_, h4, e4, r4⟩ := cText_text h.runcwd
  obtain ⟨y, h5⟩ := h.cputime
  obtain ⟨_, h6, e6, r6⟩ := cText_text h.seed
  obtain ⟨_, h7, e7, r7⟩ := cText_text h.cmd
  obtain ⟨_, h8, e8, r8⟩ := cText_text h.args
  obtain ⟨k, h9, _, _⟩ := h.compulsory
  obtain ⟨_, h10, e10, r10⟩ := cText_text h.date
  obtain ⟨_, h11, e11, r11⟩ := cText_text h.user
  obtain ⟨z, h12⟩ := h.cost
  obtain ⟨tc, h13, e13, r13⟩ := cText_text h.toolcategory
  unfold libTestData
  rw [e3, e4, e6, e7, e8, e10, e11, e13, h1, h2, h5, h9, h12]
  refine ⟨_, rfl, ?_⟩
  intro e
  have : (toTestData _).toolcategory = t.toolcategory := congrArg TestData.toolcategory e
  rw [← r13] at this
  exact h13 x (r13.symm.trans this.symm)

/-- **C64, partial.** Missing: the way back.  The C structure itself holds every field unchanged, and the test status is the
one field that comes back. -/
theorem C64_fields_partial (t : TestData) (h : Spec.Typed t) :
    ∃ c, libTestData t = .ok c ∧ .int c.teststatus = t.teststatus ∧ .float c.simtime = t.simtime ∧ readText c.timeunit = t.timeunit ∧
      readText c.runcwd = t.runcwd ∧ .float c.cputime = t.cputime ∧ readText c.seed = t.seed ∧ readText c.cmd = t.cmd ∧
      readText c.args = t.args ∧ .int c.compulsory = t.compulsory ∧ readText c.date = t.date ∧ readText c.username = t.user ∧
      .float c.cost = t.cost ∧ readText c.toolcategory = t.toolcategory ∧
      (toTestData c).teststatus = t.teststatus ∧ (toTestData c).toolcategory = t.simtime ∧ (toTestData c).date = t.timeunit ∧
      (toTestData c).simtime = t.runcwd ∧ (toTestData c).timeunit = t.cputime ∧ (toTestData c).runcwd = t.seed ∧
      (toTestData c).cputime = t.cmd ∧ (toTestData c).seed = t.args ∧ (toTestData c).cmd = t.compulsory ∧
      (toTestData c).args = t.date ∧ (toTestData c).compulsory = t.user ∧ (toTestData c).user = t.cost ∧
      (toTestData c).cost = t.toolcategory := by
  obtain ⟨n, h1, hn⟩ := h.teststatus
  obtain ⟨x, h2⟩ := h.simtime
  obtain ⟨_, h3, e3, r3⟩ := cText_text h.timeunit
  obtain ⟨_, h4, e4, r4⟩ := cText_text h.runcwd
  obtain ⟨y, h5⟩ := h.cputime
  obtain ⟨_, h6, e6, r6⟩ := cText_text h.seed
  obtain ⟨_, h7, e7, r7⟩ := cText_text h.cmd
  obtain ⟨_, h8, e8, r8⟩ := cText_text h.args
  obtain ⟨k, h9, hk0, hk1⟩ := h.compulsory
  obtain ⟨_, h10, e10, r10⟩ := cText_text h.date
  obtain ⟨_, h11, e11, r11⟩ := cText_text h.user
  obtain ⟨z, h12⟩ := h.cost
  obtain ⟨_, h13, e13, r13⟩ := cText_text h.toolcategory
  have hu : (toUnsigned 32 (n : Int) : Int) = n := toUnsigned_fit (by omega) (by exact_mod_cast hn)
  have hc : toCInt k = k := toCInt_fit hk0 hk1
  unfold libTestData
  rw [e3, e4, e6, e7, e8, e10, e11, e13, h1, h2, h5, h9, h12]
  have e1 : Val.int (toUnsigned 32 (n : Int) : Int) = .int n := by rw [hu]
  have e9 : Val.int (toCInt k) = .int k := by rw [hc]
  exact ⟨_, rfl, e1, rfl, r3, r4, rfl, r6, r7, r8, e9, r10, r11, rfl, r13, e1, rfl, r3, r4, rfl, r6, r7, r8, e9, r10, r11, rfl, r13⟩

def exTestData : TestData :=
  TestData.mk' (.int 1) (.str "UCIS:Simulator") (.str "20200202020") (.float (3 / 2)) (.str "ns") (.str ".") (.float 2) (.str "17")
    (.str "run") (.str "-x") (.int 0) (.str "me") (.float 0)

example : Spec.Typed exTestData :=
  { teststatus := ⟨1, rfl, by decide⟩, simtime := ⟨_, rfl⟩, timeunit := .inr ⟨_, rfl, by decide⟩, runcwd := .inr ⟨_, rfl, by decide⟩,
    cputime := ⟨_, rfl⟩, seed := .inr ⟨_, rfl, by decide⟩, cmd := .inr ⟨_, rfl, by decide⟩, args := .inr ⟨_, rfl, by decide⟩,
    compulsory := ⟨0, rfl, by decide, by decide⟩, date := .inr ⟨_, rfl, by decide⟩, user := .inr ⟨_, rfl, by decide⟩, cost := ⟨_, rfl⟩,
    toolcategory := .inr ⟨_, rfl, by decide⟩ }
/-- The same without a seed: a missing text stays missing. -/
example : ∃ c, libTestData { exTestData with seed := .none } = .ok c ∧ readText c.seed = .none := ⟨_, rfl, rfl⟩

end Tools
end Verif
