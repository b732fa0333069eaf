import Verif.PyNum
import Mathlib.Tactic.IntervalCases
/-!
# Dates: `datetime.strptime`, `strftime` and `isoformat` for the two formats in use

`strptime` compiles the format to a regular expression and takes the first match in backtracking
order (CPython `_strptime.py`); the expressions of the six directives are modelled alternative by
alternative.  Only ASCII digits are modelled.
-/

namespace Verif
namespace DateTime
open PyNum

/-- A `datetime` without fraction and time zone. -/
structure DT where
  year : Nat
  month : Nat
  day : Nat
  hour : Nat
  minute : Nat
  second : Nat
  deriving DecidableEq, Repr

/-- Leap years of the Gregorian calendar. -/
def isLeap (y : Nat) : Bool := (y % 4 == 0 && y % 100 != 0) || y % 400 == 0

def daysIn (y m : Nat) : Nat :=
  if m = 2 then (if isLeap y then 29 else 28) else if m = 4 ∨ m = 6 ∨ m = 9 ∨ m = 11 then 30 else 31

/-- The checks of the `datetime` constructor. -/
def DT.ok (d : DT) : Bool :=
  decide (1 ≤ d.year ∧ d.year ≤ 9999 ∧ 1 ≤ d.month ∧ d.month ≤ 12 ∧ 1 ≤ d.day ∧ d.day ≤ daysIn d.year d.month
    ∧ d.hour < 24 ∧ d.minute < 60 ∧ d.second < 60)

def digitVal (c : Char) : Nat := c.toNat - '0'.toNat

/-- Matches of an expression at the start of a text: value and rest, in backtracking order. -/
abbrev Matcher := List Char → List (Nat × List Char)

/-- One character class. -/
def m1 (a : Char → Bool) : Matcher
  | x :: t => if a x then [(digitVal x, t)] else []
  | [] => []

/-- Two character classes. -/
def m2 (a b : Char → Bool) : Matcher
  | x :: y :: t => if a x && b y then [(10 * digitVal x + digitVal y, t)] else []
  | _ => []

/-- Four digits. -/
def m4 : Matcher
  | x :: y :: z :: w :: t =>
    if x.isDigit && y.isDigit && z.isDigit && w.isDigit then [(Nat.ofDigitChars 10 [x, y, z, w] 0, t)] else []
  | _ => []

def alts (l : List Matcher) : Matcher := fun s => l.flatMap (fun m => m s)

def rng (lo hi : Char) (c : Char) : Bool := decide (lo ≤ c ∧ c ≤ hi)

/-- `%Y`: `\d\d\d\d` -/
def pY : Matcher := m4
/-- `%m`: `1[0-2]|0[1-9]|[1-9]` -/
def pm : Matcher := alts [m2 (· == '1') (rng '0' '2'), m2 (· == '0') (rng '1' '9'), m1 (rng '1' '9')]
/-- `%d`: `3[0-1]|[1-2]\d|0[1-9]|[1-9]| [1-9]` -/
def pd : Matcher := alts [m2 (· == '3') (rng '0' '1'), m2 (rng '1' '2') (rng '0' '9'), m2 (· == '0') (rng '1' '9'), m1 (rng '1' '9'),
  fun s => match s with | ' ' :: t => m1 (rng '1' '9') t | _ => []]
/-- `%H`: `2[0-3]|[0-1]\d|\d` -/
def pH : Matcher := alts [m2 (· == '2') (rng '0' '3'), m2 (rng '0' '1') (rng '0' '9'), m1 (rng '0' '9')]
/-- `%M`: `[0-5]\d|\d` -/
def pM : Matcher := alts [m2 (rng '0' '5') (rng '0' '9'), m1 (rng '0' '9')]
/-- `%S`: `6[0-1]|[0-5]\d|\d` -/
def pS : Matcher := alts [m2 (· == '6') (rng '0' '1'), m2 (rng '0' '5') (rng '0' '9'), m1 (rng '0' '9')]

/-- Parts of a format. -/
inductive Tok where
  | field (m : Matcher)
  | lit (c : Char)
  /-- a letter of either case: `_strptime` compiles its expressions with `re.IGNORECASE` -/
  | letter (c : Char)

/-- All matches of a format, in backtracking order. -/
def runFmt : List Tok → List Char → List (List Nat × List Char)
  | [], s => [([], s)]
  | .lit c :: f, s =>
    match s with
    | x :: t => if x = c then runFmt f t else []
    | [] => []
  | .letter c :: f, s =>
    match s with
    | x :: t => if x.toLower = c.toLower then runFmt f t else []
    | [] => []
  | .field m :: f, s => (m s).flatMap (fun vr => (runFmt f vr.2).map (fun q => (vr.1 :: q.1, q.2)))

/-- `"%Y%m%d%H%M%S"` -/
def compactFmt : List Tok := [.field pY, .field pm, .field pd, .field pH, .field pM, .field pS]
/-- `"%Y-%m-%dT%H:%M:%S"` -/
def isoFmt : List Tok :=
  [.field pY, .lit '-', .field pm, .lit '-', .field pd, .letter 'T', .field pH, .lit ':', .field pM, .lit ':', .field pS]

/-- `datetime.strptime(s, fmt)`: no match, text left over, or fields out of range raise `ValueError`. -/
def strptime (f : List Tok) (s : List Char) : Except Err DT :=
  match (runFmt f s).head? with
  | some ([y, m, d, h, mi, sec], []) => if (DT.mk y m d h mi sec).ok then .ok ⟨y, m, d, h, mi, sec⟩ else .error .valueError
  | _ => .error .valueError

/-- `d.isoformat()` (no microseconds). -/
def iso (d : DT) : List Char :=
  padL 4 d.year ++ '-' :: padL 2 d.month ++ '-' :: padL 2 d.day ++ 'T' :: padL 2 d.hour ++ ':' :: padL 2 d.minute ++ ':' :: padL 2 d.second

/-- `d.strftime("%Y%m%d%H%M%S")`.  The C library prints years below 1000 without leading zeros. -/
def compact (d : DT) : List Char :=
  natL d.year ++ padL 2 d.month ++ padL 2 d.day ++ padL 2 d.hour ++ padL 2 d.minute ++ padL 2 d.second

/-- `setAttrDateTime` (`xml_writer.py:318-320`): the text stored.  `time.mktime` followed by
`fromtimestamp` is taken to be the identity (true outside daylight saving gaps; see C120 in `Verif/Zone.lean`). -/
def toIso (s : String) : Except Err String := do
  let d ← strptime compactFmt s.toList
  pure (String.ofList (iso d))

/-- `getAttrDateTime` (`xml_reader.py:454-458`) for a present attribute. -/
def fromIso (s : String) : Except Err String := do
  let d ← strptime isoFmt s.toList
  pure (String.ofList (compact d))

/-! ## Round trip -/

theorem runFmt_field {m : Matcher} {f : List Tok} {s r r' : List Char} {v : Nat} {vs : List Nat}
    (h1 : (m s).head? = some (v, r)) (h2 : (runFmt f r).head? = some (vs, r')) :
    (runFmt (.field m :: f) s).head? = some (v :: vs, r') := by
  obtain ⟨l1, e1⟩ : ∃ l, m s = (v, r) :: l := by
    cases h : m s with
    | nil => rw [h] at h1; cases h1
    | cons a t => rw [h] at h1; simp at h1; exact ⟨t, by rw [h1]⟩
  obtain ⟨l2, e2⟩ : ∃ l, runFmt f r = (vs, r') :: l := by
    cases h : runFmt f r with
    | nil => rw [h] at h2; cases h2
    | cons a t => rw [h] at h2; simp at h2; exact ⟨t, by rw [h2]⟩
  rw [runFmt, e1, List.flatMap_cons, e2]; rfl

theorem runFmt_lit {c : Char} {f : List Tok} {s : List Char} : runFmt (.lit c :: f) (c :: s) = runFmt f s := by
  simp [runFmt]

theorem runFmt_letter {c : Char} {f : List Tok} {s : List Char} : runFmt (.letter c :: f) (c :: s) = runFmt f s := by
  simp [runFmt]

theorem pY_year {y : Nat} (h : y ≤ 9999) (r : List Char) : (pY (padL 4 y ++ r)).head? = some (y, r) := by
  have hlen : (padL 4 y).length = 4 := padL_length (by decide) (by omega)
  have hd : ∀ c ∈ padL 4 y, c.isDigit = true := by
    intro c hc
    unfold padL at hc
    rcases List.mem_append.1 hc with hc | hc
    · rw [List.eq_of_mem_replicate hc]; decide
    · exact natL_digit hc
  have hv := ofDigitChars_padL 4 y
  generalize padL 4 y = l at *
  match l, hlen with
  | [a, b, c, e], _ =>
    simp only [pY, m4, List.cons_append, List.nil_append]
    rw [if_pos (by simp [hd])]
    simp [hv]

theorem pm_month {n : Nat} (h1 : 1 ≤ n) (h2 : n ≤ 12) (r : List Char) : (pm (padL 2 n ++ r)).head? = some (n, r) := by
  interval_cases n <;> rfl

theorem pd_day {n : Nat} (h1 : 1 ≤ n) (h2 : n ≤ 31) (r : List Char) : (pd (padL 2 n ++ r)).head? = some (n, r) := by
  interval_cases n <;> rfl

theorem pH_hour {n : Nat} (h2 : n < 24) (r : List Char) : (pH (padL 2 n ++ r)).head? = some (n, r) := by
  interval_cases n <;> rfl

theorem pM_minute {n : Nat} (h2 : n < 60) (r : List Char) : (pM (padL 2 n ++ r)).head? = some (n, r) := by
  interval_cases n <;> rfl

theorem pS_second {n : Nat} (h2 : n < 60) (r : List Char) : (pS (padL 2 n ++ r)).head? = some (n, r) := by
  interval_cases n <;> rfl

theorem daysIn_le (y m : Nat) : daysIn y m ≤ 31 := by
  unfold daysIn; split
  · split <;> omega
  · split <;> omega

theorem DT.ok_iff (d : DT) : d.ok = true ↔ 1 ≤ d.year ∧ d.year ≤ 9999 ∧ 1 ≤ d.month ∧ d.month ≤ 12 ∧ 1 ≤ d.day ∧
    d.day ≤ daysIn d.year d.month ∧ d.hour < 24 ∧ d.minute < 60 ∧ d.second < 60 := by
  simp [DT.ok]

theorem strptime_iso {d : DT} (h : d.ok = true) : strptime isoFmt (iso d) = .ok d := by
  have hh := (DT.ok_iff d).1 h
  obtain ⟨_, h2, h3, h4, h5, h6, h7, h8, h9⟩ := hh
  have h6' := le_trans h6 (daysIn_le _ _)
  have key : (runFmt isoFmt (iso d)).head? = some ([d.year, d.month, d.day, d.hour, d.minute, d.second], []) := by
    unfold isoFmt iso
    simp only [List.append_assoc, List.cons_append]
    refine runFmt_field (pY_year h2 _) ?_
    rw [runFmt_lit]
    refine runFmt_field (pm_month h3 h4 _) ?_
    rw [runFmt_lit]
    refine runFmt_field (pd_day h5 h6' _) ?_
    rw [runFmt_letter]
    refine runFmt_field (pH_hour h7 _) ?_
    rw [runFmt_lit]
    refine runFmt_field (pM_minute h8 _) ?_
    rw [runFmt_lit]
    refine runFmt_field (r := []) ?_ rfl
    have := pS_second h9 []
    rwa [List.append_nil] at this
  unfold strptime
  rw [key]
  show (if d.ok = true then _ else _) = _
  rw [if_pos h]

theorem natL_year {y : Nat} (h1 : 1000 ≤ y) (h2 : y ≤ 9999) : natL y = padL 4 y := by
  have a : (natL y).length ≤ 4 := natL_length_le (by decide) (by omega)
  have b : ¬ (natL y).length ≤ 3 := by
    intro h
    have := (Nat.length_toDigits_le_iff (b := 10) (by decide) (by decide : 0 < 3)).1 h
    omega
  unfold padL
  rw [show 4 - (natL y).length = 0 by omega]
  rfl

theorem strptime_compact {d : DT} (h : d.ok = true) (hy : 1000 ≤ d.year) : strptime compactFmt (compact d) = .ok d := by
  have hh := (DT.ok_iff d).1 h
  obtain ⟨_, h2, h3, h4, h5, h6, h7, h8, h9⟩ := hh
  have h6' := le_trans h6 (daysIn_le _ _)
  have key : (runFmt compactFmt (compact d)).head? = some ([d.year, d.month, d.day, d.hour, d.minute, d.second], []) := by
    unfold compactFmt compact
    rw [natL_year hy h2]
    simp only [List.append_assoc]
    refine runFmt_field (pY_year h2 _) ?_
    refine runFmt_field (pm_month h3 h4 _) ?_
    refine runFmt_field (pd_day h5 h6' _) ?_
    refine runFmt_field (pH_hour h7 _) ?_
    refine runFmt_field (pM_minute h8 _) ?_
    refine runFmt_field (r := []) ?_ rfl
    have := pS_second h9 []
    rwa [List.append_nil] at this
  unfold strptime
  rw [key]
  show (if d.ok = true then _ else _) = _
  rw [if_pos h]

theorem strptime_ok {f : List Tok} {s : List Char} {d : DT} (h : strptime f s = .ok d) : d.ok = true := by
  unfold strptime at h
  split at h
  · split at h
    · rename_i hok; cases h; exact hok
    · cases h
  · cases h

end DateTime
end Verif
