import Verif.XmlThms2
/-!
# C120: dates and the time zone of the process

`setAttrDateTime` (`xml_writer.py:318-320`) takes a date without time zone to seconds with `time.mktime` and back with
`datetime.fromtimestamp`; both use the local time zone.  `DateTime.toIso` leaves that out; here it is modelled.
-/

namespace Verif
namespace DateTime

/-! ## The calendar -/

/-- The lengths of `n` units, the first of them unit `k`. -/
def total (len : Nat → Nat) (k : Nat) : Nat → Nat
  | 0 => 0
  | n + 1 => len k + total len (k + 1) n

/-- Number of the unit, counted from `k`, that contains position `n`, and the position in it. -/
def walk (len : Nat → Nat) : Nat → Nat → Nat → Option (Nat × Nat)
  | 0, _, _ => none
  | fuel + 1, k, n => if n < len k then some (k, n) else walk len fuel (k + 1) (n - len k)

def yearLen (y : Nat) : Nat := if isLeap y then 366 else 365

/-- Seconds from 0001-01-01T00:00:00 in the proleptic Gregorian calendar, without regard to time zones. -/
def toSec (d : DT) : Nat :=
  (((total yearLen 1 (d.year - 1) + total (daysIn d.year) 1 (d.month - 1) + (d.day - 1)) * 24 + d.hour) * 60 + d.minute) * 60 + d.second

/-- The date at that many seconds; `none` after the year 9999. -/
def fromSec (n : Nat) : Option DT := do
  let (y, r) ← walk yearLen 9999 1 (n / 60 / 60 / 24)
  let (m, q) ← walk (daysIn y) 12 1 r
  pure ⟨y, m, q + 1, n / 60 / 60 % 24, n / 60 % 60, n % 60⟩

theorem walk_iff (len : Nat → Nat) : ∀ (fuel k n j r : Nat),
    walk len fuel k n = some (j, r) ↔ ∃ i, i < fuel ∧ j = k + i ∧ n = total len k i + r ∧ r < len j
  | 0, k, n, j, r => by simp [walk]
  | fuel + 1, k, n, j, r => by
    rw [walk]
    split
    · rename_i h
      constructor
      · intro e
        cases e
        exact ⟨0, by omega, rfl, by simp [total], h⟩
      · rintro ⟨i, hi, rfl, rfl, hr⟩
        cases i with
        | zero => simp [total]
        | succ i =>
          rw [total] at h
          omega
    · rename_i h
      rw [walk_iff len fuel (k + 1) (n - len k) j r]
      constructor
      · rintro ⟨i, hi, rfl, e, hr⟩
        refine ⟨i + 1, by omega, by omega, ?_, hr⟩
        rw [total]
        omega
      · rintro ⟨i, hi, rfl, e, hr⟩
        cases i with
        | zero =>
          rw [total] at e
          simp only [Nat.add_zero] at hr
          omega
        | succ i =>
          rw [total] at e
          exact ⟨i, by omega, by omega, by omega, hr⟩

theorem total_months (y : Nat) : total (daysIn y) 1 12 = yearLen y := by
  unfold yearLen
  simp only [total, daysIn]
  cases isLeap y <;> rfl

theorem total_le (len : Nat → Nat) (k : Nat) {a b : Nat} (h : a ≤ b) : total len k a ≤ total len k b := by
  induction a generalizing b k with
  | zero => simp [total]
  | succ a ih =>
    cases b with
    | zero => omega
    | succ b =>
      rw [total, total]
      have := ih (k + 1) (b := b) (by omega)
      omega

theorem total_succ (len : Nat → Nat) (k n : Nat) : total len k (n + 1) = total len k n + len (k + n) := by
  induction n generalizing k with
  | zero => simp [total]
  | succ n ih =>
    rw [total, ih (k + 1), total]
    have : k + 1 + n = k + (n + 1) := by omega
    rw [this]
    omega

/-- Day of the year, counted from 0. -/
theorem dayOfYear_lt {d : DT} (h : d.ok = true) : total (daysIn d.year) 1 (d.month - 1) + (d.day - 1) < yearLen d.year := by
  obtain ⟨_, _, h3, h4, h5, h6, _⟩ := (DT.ok_iff d).1 h
  rw [← total_months]
  have h1 := total_succ (daysIn d.year) 1 (d.month - 1)
  have h2 : 1 + (d.month - 1) = d.month := by omega
  rw [h2] at h1
  have := total_le (daysIn d.year) 1 (a := d.month - 1 + 1) (b := 12) (by omega)
  omega

theorem fromSec_toSec {d : DT} (h : d.ok = true) : fromSec (toSec d) = some d := by
  have hd := dayOfYear_lt h
  obtain ⟨h1, h2, h3, h4, h5, h6, h7, h8, h9⟩ := (DT.ok_iff d).1 h
  have e1 : toSec d / 60 / 60 / 24 = total yearLen 1 (d.year - 1) + total (daysIn d.year) 1 (d.month - 1) + (d.day - 1) := by
    unfold toSec; omega
  have e2 : toSec d / 60 / 60 % 24 = d.hour := by unfold toSec; omega
  have e3 : toSec d / 60 % 60 = d.minute := by unfold toSec; omega
  have e4 : toSec d % 60 = d.second := by unfold toSec; omega
  have w1 : walk yearLen 9999 1 (toSec d / 60 / 60 / 24) = some (d.year, total (daysIn d.year) 1 (d.month - 1) + (d.day - 1)) :=
    (walk_iff ..).2 ⟨d.year - 1, by omega, by omega, by omega, hd⟩
  have w2 : walk (daysIn d.year) 12 1 (total (daysIn d.year) 1 (d.month - 1) + (d.day - 1)) = some (d.month, d.day - 1) :=
    (walk_iff ..).2 ⟨d.month - 1, by omega, by omega, rfl, by omega⟩
  unfold fromSec
  rw [w1]
  show (walk (daysIn d.year) 12 1 _ >>= _) = _
  rw [w2, e2, e3, e4]
  show some (DT.mk _ _ _ _ _ _) = some d
  have : d.day - 1 + 1 = d.day := by omega
  rw [this]

theorem toSec_of_fromSec {n : Nat} {d : DT} (h : fromSec n = some d) : d.ok = true ∧ toSec d = n := by
  unfold fromSec at h
  cases w1 : walk yearLen 9999 1 (n / 60 / 60 / 24) with
  | none => rw [w1] at h; cases h
  | some p =>
    obtain ⟨y, r⟩ := p
    rw [w1] at h
    replace h : (walk (daysIn y) 12 1 r >>= fun x => some (DT.mk y x.1 (x.2 + 1) (n / 60 / 60 % 24) (n / 60 % 60) (n % 60))) = some d := h
    cases w2 : walk (daysIn y) 12 1 r with
    | none => rw [w2] at h; cases h
    | some q =>
      obtain ⟨m, q⟩ := q
      rw [w2] at h
      cases h
      obtain ⟨i, hi, rfl, e1, hr⟩ := (walk_iff ..).1 w1
      obtain ⟨j, hj, rfl, e2, hq⟩ := (walk_iff ..).1 w2
      constructor
      · rw [DT.ok_iff]
        refine ⟨?_, ?_, ?_, ?_, ?_, ?_, ?_, ?_, ?_⟩ <;> dsimp only <;> omega
      · unfold toSec
        dsimp only
        have a1 : 1 + i - 1 = i := by omega
        have a2 : 1 + j - 1 = j := by omega
        rw [a1, a2]
        omega

/-- The calendar on known dates: 1970-01-01 has the ordinal 719163, and 2000 was a leap year. -/
example : toSec ⟨1970, 1, 1, 0, 0, 0⟩ = 719162 * 86400 ∧ fromSec (719162 * 86400 + 951825599) = some ⟨2000, 2, 29, 11, 59, 59⟩ := by
  decide +kernel

/-! ## Time zones -/

/-- A time zone: `off t` is how far the local clocks are ahead at time `t`, and `mktime l` is the time that the C library answers for the local
time `l` when it has to find out itself whether daylight saving time is in effect (`tm_isdst` is -1 in the result of `timetuple()`).  All
in seconds; times are counted from the year 1 instead of 1970. -/
structure Zone where
  off : Int → Int
  mktime : Int → Int

/-- What `mktime` promises: if the clocks show `l` at some time, the answer is such a time.  (For local times that the clocks skip, the answer
is up to the C library.) -/
def Zone.Ok (z : Zone) : Prop := ∀ l, (∃ t, t + z.off t = l) → z.mktime l + z.off (z.mktime l) = l

/-- `datetime.fromtimestamp(t)`: `ValueError` outside the years 1 to 9999. -/
def fromTimestamp (z : Zone) (t : Int) : Except Err DT :=
  if 0 ≤ t + z.off t then
    match fromSec (t + z.off t).toNat with
    | some d => .ok d
    | none => .error .valueError
  else .error .valueError

/-- `setAttrDateTime`, `xml_writer.py:318-320`, in a time zone. -/
def toIsoIn (z : Zone) (s : String) : Except Err String := do
  let d ← strptime compactFmt s.toList
  let d' ← fromTimestamp z (z.mktime (toSec d))
  pure (String.ofList (iso d'))

end DateTime

namespace Spec
open DateTime

/-- The clocks of the zone show the date at some time. -/
def Shown (z : Zone) (d : DT) : Prop := ∃ t, t + z.off t = toSec d

/-- The date comes back unchanged from a document written in the zone. -/
def Survives (z : Zone) (s : String) : Prop := ∃ text, toIsoIn z s = .ok text ∧ fromIso text = .ok s

end Spec

namespace DateTime
open Spec

theorem fromTimestamp_ok {z : Zone} {t : Int} {d : DT} : fromTimestamp z t = .ok d ↔ d.ok = true ∧ t + z.off t = toSec d := by
  unfold fromTimestamp
  split
  · rename_i h0
    constructor
    · intro h
      split at h
      · rename_i d' hd
        cases h
        have := toSec_of_fromSec hd
        exact ⟨this.1, by omega⟩
      · cases h
    · rintro ⟨hd, e⟩
      have : (t + z.off t).toNat = toSec d := by omega
      rw [this, fromSec_toSec hd]
  · rename_i h0
    constructor
    · intro h; cases h
    · rintro ⟨_, e⟩
      exact absurd (by omega : 0 ≤ t + z.off t) h0

theorem ok_of_strptime {f : List Tok} {s : List Char} {d : DT} (h : strptime f s = .ok d) : d.ok = true := by
  unfold strptime at h
  split at h
  · split at h
    · cases h; assumption
    · cases h
  · cases h

/-- **C120** (part), for any text: in a zone whose clocks show the date, the text written is that of the model without time zones; a text that is not a date
raises the same exception.  So what is proved about written documents with `DateTime.toIso` holds in every zone for the dates that its clocks show. -/
theorem C120_same_text_partial {z : Zone} (hz : z.Ok) (s : String) (h : ∀ d, strptime compactFmt s.toList = .ok d → Shown z d) :
    toIsoIn z s = toIso s := by
  unfold toIsoIn toIso
  cases hp : strptime compactFmt s.toList with
  | error e => rfl
  | ok d =>
    have : fromTimestamp z (z.mktime (toSec d)) = .ok d := fromTimestamp_ok.2 ⟨ok_of_strptime hp, hz _ (h d hp)⟩
    show (fromTimestamp z (z.mktime (toSec d)) >>= _) = _
    rw [this]

theorem compact_length {d : DT} (h : d.ok = true) : (compact d).length = (PyNum.natL d.year).length + 10 := by
  obtain ⟨_, _, _, h4, _, h6, h7, h8, h9⟩ := (DT.ok_iff d).1 h
  have := daysIn_le d.year d.month
  unfold compact
  simp only [List.length_append]
  have p : ∀ n, n < 100 → (PyNum.padL 2 n).length = 2 := fun n hn => PyNum.padL_length (by decide) (by omega)
  rw [p _ (by omega), p _ (by omega), p _ (by omega), p _ (by omega), p _ (by omega)]

theorem year_length (y : Nat) (h : y < 10000) : (PyNum.natL y).length = 4 ↔ 1000 ≤ y := by
  have a : (PyNum.natL y).length ≤ 4 := PyNum.natL_length_le (by decide) (by omega)
  have b : (PyNum.natL y).length ≤ 3 ↔ y < 10 ^ 3 := Nat.length_toDigits_le_iff (b := 10) (by decide) (by decide : 0 < 3)
  omega

theorem compact_inj {d d' : DT} (h : d.ok = true) (h' : d'.ok = true) (hy : 1000 ≤ d.year) (e : compact d' = compact d) : d' = d := by
  have l := congrArg List.length e
  rw [compact_length h, compact_length h'] at l
  have y1 := ((DT.ok_iff d).1 h).2.1
  have y2 := ((DT.ok_iff d').1 h').2.1
  have hy' : 1000 ≤ d'.year := by
    rw [← year_length _ (by omega)]
    have := (year_length d.year (by omega)).2 hy
    omega
  have := strptime_compact h' hy'
  rw [e, strptime_compact h hy] at this
  cases this
  rfl

/-- **C120** (part): a valid date comes back unchanged exactly if the clocks of the zone show it at some time. -/
theorem C120_exact_partial {z : Zone} (hz : z.Ok) {d : DT} (hd : d.ok = true) (hy : 1000 ≤ d.year) :
    Survives z (String.ofList (compact d)) ↔ Shown z d := by
  have hp : strptime compactFmt (String.ofList (compact d)).toList = .ok d := by
    rw [String.toList_ofList, strptime_compact hd hy]
  constructor
  · rintro ⟨text, h1, h2⟩
    unfold toIsoIn at h1
    rw [hp] at h1
    replace h1 : (fromTimestamp z (z.mktime (toSec d)) >>= fun d' => pure (String.ofList (iso d'))) = .ok text := h1
    cases ht : fromTimestamp z (z.mktime (toSec d)) with
    | error e => rw [ht] at h1; cases h1
    | ok d' =>
      rw [ht] at h1
      cases h1
      obtain ⟨hd', e'⟩ := fromTimestamp_ok.1 ht
      unfold fromIso at h2
      rw [String.toList_ofList, strptime_iso hd'] at h2
      have h3 : String.ofList (compact d') = String.ofList (compact d) := by
        injection h2
      have h4 : compact d' = compact d := by
        have := congrArg String.toList h3
        simpa only [String.toList_ofList] using this
      rw [compact_inj hd hd' hy h4] at e'
      exact ⟨_, e'⟩
  · intro hs
    have h1 := C120_same_text_partial hz (String.ofList (compact d)) (fun d' e => by
      rw [hp] at e
      cases e
      exact hs)
    obtain ⟨text, a, b⟩ := C41_dates_survive ⟨d, hd, hy, rfl⟩
    exact ⟨text, h1.trans a, b⟩

/-- Between two values an integer function that never jumps up by more than 1 takes all values. -/
theorem takes_between {f : Int → Int} (step : ∀ t, f (t + 1) ≤ f t + 1) (a : Int) (l : Int) (ha : f a ≤ l) :
    ∀ n : Nat, l ≤ f (a + n) → ∃ t, f t = l
  | 0, h => ⟨a, by simp only [Nat.cast_zero, Int.add_zero] at h; omega⟩
  | n + 1, h => by
    by_cases hn : l ≤ f (a + n)
    · exact takes_between step a l ha n hn
    · have := step (a + n)
      have e : a + ((n + 1 : Nat) : Int) = a + n + 1 := by push_cast; omega
      rw [e] at h
      exact ⟨a + n + 1, by omega⟩

/-- **C120** (part): in a zone that never sets its clocks forward, every valid date comes back unchanged; in particular with a fixed offset such as UTC. -/
theorem C120_never_forward_partial {z : Zone} (hz : z.Ok) (hf : ∀ t, z.off (t + 1) ≤ z.off t) {b : Int} (hb : ∀ t, -b ≤ z.off t ∧ z.off t ≤ b)
    {s : String} (h : ValidDate s) : Survives z s := by
  obtain ⟨d, hd, hy, rfl⟩ := h
  rw [C120_exact_partial hz hd hy]
  have h1 := hb ((toSec d : Int) - b)
  have h2 := hb ((toSec d : Int) - b + ((2 * b).toNat : Nat))
  exact takes_between (f := fun t => t + z.off t) (fun t => by have := hf t; omega) ((toSec d : Int) - b) (toSec d)
    (by omega) (2 * b).toNat (by omega)

/-- **C120** (part): whatever the zone, the text written is that of a date its clocks show, so writing it again in the same zone changes nothing more. -/
theorem C120_second_time {z : Zone} (hz : z.Ok) {s text back : String} (h1 : toIsoIn z s = .ok text) (h2 : fromIso text = .ok back)
    (hy : ValidDate back) : Survives z back := by
  obtain ⟨d, hd, hy, rfl⟩ := hy
  rw [C120_exact_partial hz hd hy]
  unfold toIsoIn at h1
  cases hp : strptime compactFmt s.toList with
  | error e => rw [hp] at h1; cases h1
  | ok d0 =>
    rw [hp] at h1
    replace h1 : (fromTimestamp z (z.mktime (toSec d0)) >>= fun d' => pure (String.ofList (iso d'))) = .ok text := h1
    cases ht : fromTimestamp z (z.mktime (toSec d0)) with
    | error e => rw [ht] at h1; cases h1
    | ok d' =>
      rw [ht] at h1
      cases h1
      obtain ⟨hd', e'⟩ := fromTimestamp_ok.1 ht
      unfold fromIso at h2
      rw [String.toList_ofList, strptime_iso hd'] at h2
      have h3 : String.ofList (compact d') = String.ofList (compact d) := by injection h2
      have h4 : compact d' = compact d := by
        have := congrArg String.toList h3
        simpa only [String.toList_ofList] using this
      rw [compact_inj hd hd' hy h4] at e'
      exact ⟨_, e'⟩

/-! ## Two zones -/

/-- UTC. -/
def utc : Zone := ⟨fun _ => 0, fun l => l⟩

theorem utc_ok : utc.Ok := by
  intro l _
  simp [utc]

/-- 2024-03-31T01:00:00 UTC, when central Europe set the clocks from 02:00 to 03:00. -/
def spring24 : Int := toSec ⟨2024, 3, 31, 1, 0, 0⟩

/-- The clocks of central Europe around that time.  For a local time that is skipped the answer is the one of the C library that takes
the offset before the change. -/
def cet : Zone where
  off t := if t < spring24 then 3600 else 7200
  mktime l := if l < spring24 + 7200 then l - 3600 else l - 7200

theorem cet_ok : cet.Ok := by
  rintro l ⟨t, e⟩
  simp only [cet] at e ⊢
  split at e <;> split <;> split <;> omega

theorem cet_shown (d : DT) : Shown cet d ↔ ¬ (spring24 + 3600 ≤ toSec d ∧ (toSec d : Int) < spring24 + 7200) := by
  constructor
  · rintro ⟨t, e⟩
    simp only [cet] at e
    split at e <;> omega
  · intro h
    by_cases h1 : (toSec d : Int) < spring24 + 3600
    · refine ⟨toSec d - 3600, ?_⟩
      simp only [cet]
      split <;> omega
    · refine ⟨toSec d - 7200, ?_⟩
      simp only [cet]
      split <;> omega

/-- **C120** is false as stated: half past two in the night the clocks were set forward comes back as half past three. -/
theorem C120_refuted : ∃ z : Zone, z.Ok ∧ ∃ s, ValidDate s ∧ ¬ Survives z s :=
  ⟨cet, cet_ok, "20240331023000", ⟨⟨2024, 3, 31, 2, 30, 0⟩, by decide, by decide, by decide +kernel⟩, by
    have e : ("20240331023000" : String) = String.ofList (compact ⟨2024, 3, 31, 2, 30, 0⟩) := by decide +kernel
    rw [e, C120_exact_partial cet_ok (by decide) (by decide), cet_shown]
    decide +kernel⟩

/-- What is written in that case, and what is read. -/
example : toIsoIn cet "20240331023000" = .ok "2024-03-31T03:30:00" ∧ fromIso "2024-03-31T03:30:00" = .ok "20240331033000" := by
  decide +kernel
/-- An hour later and an hour earlier nothing happens. -/
example : toIsoIn cet "20240331033000" = toIso "20240331033000" ∧ toIsoIn cet "20240331013000" = toIso "20240331013000" := by
  decide +kernel
/-- A date in that zone meets the hypotheses of `C120_exact_partial`. -/
example : cet.Ok ∧ Shown cet ⟨2024, 7, 1, 12, 0, 0⟩ ∧ ¬ Shown cet ⟨2024, 3, 31, 2, 0, 0⟩ := by
  refine ⟨cet_ok, ?_, ?_⟩ <;> rw [cet_shown] <;> decide +kernel
/-- UTC meets those of `C120_never_forward_partial`. -/
example : Survives utc "20240331023000" :=
  C120_never_forward_partial utc_ok (fun _ => Int.le_refl _) (b := 0) (fun _ => by simp [utc])
    ⟨⟨2024, 3, 31, 2, 30, 0⟩, by decide, by decide, by decide +kernel⟩
end DateTime
end Verif
