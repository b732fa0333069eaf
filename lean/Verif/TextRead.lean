import Verif.FormatThms2
/-!
# Reading text reports (C134)

What a text report shows of a coverage report, and that the text determines it as long as no name
contains a line end.
-/

namespace Verif
namespace Spec
open Report Format PyNum

/-- The lists of bins shown for a coverpoint or cross: names with counts. -/
structure ShownBins where
  bins : List (String × Int)
  ignored : List (String × Int)
  illegal : List (String × Int)

/-- What is shown of a coverpoint or cross: its name, its percentage and, with details, its bins. -/
structure ShownPoint where
  name : String
  pct : String
  bins : Option ShownBins

/-- What is shown of a covergroup or cover-instance. -/
inductive ShownGroup where
  | mk (name pct : String) (points crosses : List ShownPoint) (instances : List ShownGroup)

/-- Name and count of bins, in the order of listing. -/
def shownList (order : List RBin → List RBin) (l : List RBin) : List (String × Int) :=
  (order l).map (fun b => (b.name, b.count))

def shownCp (cfg : Cfg) (order : List RBin → List RBin) (c : RCp) : ShownPoint :=
  ⟨c.name, cfg.leafPct c.coverage,
    if cfg.details then some ⟨shownList order c.bins, shownList order c.ignoreBins, shownList order c.illegalBins⟩ else none⟩

def shownCross (cfg : Cfg) (order : List RBin → List RBin) (c : RCross) : ShownPoint :=
  ⟨c.name, cfg.leafPct c.coverage, if cfg.details then some ⟨shownList order c.bins, [], []⟩ else none⟩

mutual
def shownGroup (cfg : Cfg) (order : List RBin → List RBin) : RCg → ShownGroup
  | ⟨name, _, coverage, _, cps, crs, cgs⟩ =>
    .mk name (cfg.groupPct coverage) (cps.map (shownCp cfg order)) (crs.map (shownCross cfg order)) (shownGroups cfg order cgs)
termination_by structural g => g
def shownGroups (cfg : Cfg) (order : List RBin → List RBin) : List RCg → List ShownGroup
  | [] => []
  | g :: t => shownGroup cfg order g :: shownGroups cfg order t
termination_by structural l => l
end

end Spec

namespace TextRead
open Spec Report Format PyNum

/-- A line of a text report. -/
inductive Tok where
  | head (d : Nat) (kind name pct : String)
  | title (d : Nat) (t : String)
  | bin (d : Nat) (name : String) (count : Int)

/-- Level and text of a line. -/
def Tok.line : Tok → Nat × String
  | .head d k n p => (d, heading k n p)
  | .title d t => (d, t)
  | .bin d n z => (d, n ++ " : " ++ strInt z)

def Tok.chars (t : Tok) : List Char := List.replicate (4 * t.line.1) ' ' ++ t.line.2.toList

def optional (t : String) : List (String × Int) → List (String × List (String × Int))
  | [] => []
  | b :: l => [(t, b :: l)]

/-- The lists of bins with their titles. -/
def titled : Option ShownBins → List (String × List (String × Int))
  | none => []
  | some b => ("Bins:", b.bins) :: (optional "IgnoreBins:" b.ignored ++ optional "IllegalBins:" b.illegal)

def binToks (d : Nat) (l : List (String × Int)) : List Tok := l.map (fun b => .bin d b.1 b.2)

def secToks (d : Nat) (l : List (String × List (String × Int))) : List Tok :=
  l.flatMap (fun s => .title d s.1 :: binToks (d + 1) s.2)

def pointToks (kind : String) (d : Nat) (l : List ShownPoint) : List Tok :=
  l.flatMap (fun p => .head d kind p.name p.pct :: secToks d (titled p.bins))

mutual
def groupToks (kind : String) (d : Nat) : ShownGroup → List Tok
  | .mk n p ps cs is =>
    .head d kind n p :: (pointToks "CVP" (d + 1) ps ++ (pointToks "CROSS" (d + 1) cs ++ groupsToks "INST" (d + 1) is))
termination_by structural g => g
def groupsToks (kind : String) (d : Nat) : List ShownGroup → List Tok
  | [] => []
  | g :: t => groupToks kind d g ++ groupsToks kind d t
termination_by structural l => l
end

/-! ## The lines of the outline are the lines of what is shown -/

theorem lines_bins (d : Nat) (l : List RBin) (o : List RBin → List RBin) :
    Outline.linesL d ((o l).map binOutline) = (binToks d (shownList o l)).map Tok.line := by
  rw [lines_binOutline, binToks, shownList, List.map_map, List.map_map]
  rfl

theorem lines_binList {o : List RBin → List RBin} (ho : ∀ l, (o l).Perm l) (d : Nat) (t : String) (l : List RBin) :
    Outline.linesL d (binList o t true l) = (secToks d (optional t (shownList o l))).map Tok.line := by
  cases l with
  | nil =>
    have : o [] = [] := (ho []).eq_nil
    simp [binList, Outline.linesL, shownList, this, optional, secToks]
  | cons a l =>
    have hne : o (a :: l) ≠ [] := fun h => by have := (ho (a :: l)).length_eq; rw [h] at this; simp at this
    have e : optional t (shownList o (a :: l)) = [(t, shownList o (a :: l))] := by
      unfold shownList
      cases h : o (a :: l) with
      | nil => exact absurd h hne
      | cons b m => rfl
    rw [e]
    simp [binList, Outline.linesL, Outline.lines, lines_bins, secToks, Tok.line]

theorem secToks_append (d : Nat) (a b : List (String × List (String × Int))) : secToks d (a ++ b) = secToks d a ++ secToks d b := by
  simp [secToks]

theorem lines_cp (cfg : Cfg) {o : List RBin → List RBin} (ho : ∀ l, (o l).Perm l) (d : Nat) (c : RCp) :
    Outline.linesL d (cpOutline cfg o c) = (pointToks "CVP" d [shownCp cfg o c]).map Tok.line := by
  unfold cpOutline shownCp pointToks
  cases cfg.details with
  | false => simp [Outline.linesL, Outline.lines, titled, secToks, Tok.line]
  | true =>
    simp only [if_true, Outline.linesL, Outline.lines, List.flatMap_cons, List.flatMap_nil, List.append_nil, List.map_cons,
      List.singleton_append, titled]
    rw [Outline.linesL_append, Outline.linesL_append, lines_binList ho, lines_binList ho]
    have e : secToks d (("Bins:", shownList o c.bins) :: (optional "IgnoreBins:" (shownList o c.ignoreBins)
        ++ optional "IllegalBins:" (shownList o c.illegalBins)))
        = (.title d "Bins:" :: binToks (d + 1) (shownList o c.bins)) ++ (secToks d (optional "IgnoreBins:" (shownList o c.ignoreBins))
          ++ secToks d (optional "IllegalBins:" (shownList o c.illegalBins))) := by
      rw [← secToks_append]; rfl
    rw [e]
    simp [binList, Outline.linesL, Outline.lines, lines_bins, Tok.line]

theorem lines_cross (cfg : Cfg) {o : List RBin → List RBin} (d : Nat) (c : RCross) :
    Outline.linesL d (crossOutline cfg o c) = (pointToks "CROSS" d [shownCross cfg o c]).map Tok.line := by
  unfold crossOutline shownCross pointToks
  cases cfg.details with
  | false => simp [Outline.linesL, Outline.lines, titled, secToks, Tok.line]
  | true => simp [Outline.linesL, Outline.lines, titled, secToks, Tok.line, optional, binList, lines_bins]

theorem pointToks_cons (k : String) (d : Nat) (p : ShownPoint) (l : List ShownPoint) :
    pointToks k d (p :: l) = pointToks k d [p] ++ pointToks k d l := by
  simp [pointToks]

theorem lines_cps (cfg : Cfg) {o : List RBin → List RBin} (ho : ∀ l, (o l).Perm l) (d : Nat) (l : List RCp) :
    Outline.linesL d (l.flatMap (cpOutline cfg o)) = (pointToks "CVP" d (l.map (shownCp cfg o))).map Tok.line := by
  induction l with
  | nil => rfl
  | cons a t ih => rw [List.flatMap_cons, Outline.linesL_append, ih, lines_cp cfg ho, List.map_cons, pointToks_cons _ _ _ (t.map _), List.map_append]

theorem lines_crosses (cfg : Cfg) {o : List RBin → List RBin} (d : Nat) (l : List RCross) :
    Outline.linesL d (l.flatMap (crossOutline cfg o)) = (pointToks "CROSS" d (l.map (shownCross cfg o))).map Tok.line := by
  induction l with
  | nil => rfl
  | cons a t ih => rw [List.flatMap_cons, Outline.linesL_append, ih, lines_cross cfg, List.map_cons, pointToks_cons _ _ _ (t.map _), List.map_append]

mutual
theorem lines_group (cfg : Cfg) {o : List RBin → List RBin} (ho : ∀ l, (o l).Perm l) (k : String) (d : Nat) :
    ∀ g : RCg, (groupOutline cfg o k g).lines d = (groupToks k d (shownGroup cfg o g)).map Tok.line
  | ⟨name, inst, coverage, weight, cps, crs, cgs⟩ => by
    rw [groupOutline, shownGroup, groupToks, Outline.lines, Outline.linesL_append, Outline.linesL_append, lines_cps cfg ho,
      lines_crosses cfg, lines_groups cfg ho (d + 1) cgs]
    simp [Tok.line]
termination_by structural g => g
theorem lines_groups (cfg : Cfg) {o : List RBin → List RBin} (ho : ∀ l, (o l).Perm l) (d : Nat) :
    ∀ l : List RCg, Outline.linesL d (groupOutlines cfg o l) = (groupsToks "INST" d (shownGroups cfg o l)).map Tok.line
  | [] => rfl
  | g :: t => by
    rw [groupOutlines, shownGroups, groupsToks, Outline.linesL, List.map_append, lines_group cfg ho _ d g, lines_groups cfg ho d t]
termination_by structural l => l
end

theorem lines_report (cfg : Cfg) {o : List RBin → List RBin} (ho : ∀ l, (o l).Perm l) (r : Rpt) :
    Outline.linesL 0 (reportOutline cfg o r) = (groupsToks "TYPE" 0 (r.covergroups.map (shownGroup cfg o))).map Tok.line := by
  unfold reportOutline
  generalize r.covergroups = l
  induction l with
  | nil => rfl
  | cons g t ih => rw [List.map_cons, Outline.linesL, lines_group cfg ho, ih, List.map_cons, groupsToks, List.map_append]

/-! ## A line determines what it shows -/

/-- The levels of bins follow from the lines before them. -/
def Follows (e : Nat) : List Tok → Prop
  | [] => True
  | .bin d _ _ :: t => d = e ∧ Follows e t
  | .title d _ :: t => Follows (d + 1) t
  | .head _ _ _ _ :: t => Follows e t

def kinds : List String := ["TYPE", "INST", "CVP", "CROSS"]
def titles : List String := ["Bins:", "IgnoreBins:", "IllegalBins:"]

def Tok.good : Tok → Prop
  | .head _ k _ p => k ∈ kinds ∧ ':' ∉ p.toList
  | .title _ t => t ∈ titles
  | .bin _ _ _ => True

theorem follows_append {a b : List Tok} (hb : ∀ e, Follows e b) : ∀ e, Follows e a → Follows e (a ++ b) := by
  induction a with
  | nil => intro e _; exact hb e
  | cons t a ih =>
    intro e h
    cases t with
    | head => exact ih e h
    | title => exact ih _ h
    | bin => exact ⟨h.1, ih e h.2⟩

theorem follows_bins (d : Nat) (l : List (String × Int)) : Follows d (binToks d l) := by
  induction l with
  | nil => trivial
  | cons a t ih => exact ⟨rfl, ih⟩

theorem follows_secs (d : Nat) (l : List (String × List (String × Int))) : ∀ e, Follows e (secToks d l) := by
  induction l with
  | nil => intro e; trivial
  | cons a t ih =>
    intro e
    show Follows (d + 1) (binToks (d + 1) a.2 ++ secToks d t)
    exact follows_append ih _ (follows_bins _ _)

theorem follows_points (k : String) (d : Nat) (l : List ShownPoint) : ∀ e, Follows e (pointToks k d l) := by
  induction l with
  | nil => intro e; trivial
  | cons a t ih =>
    intro e
    show Follows e (secToks d (titled a.bins) ++ pointToks k d t)
    exact follows_append ih _ (follows_secs _ _ _)

mutual
theorem follows_group (k : String) (d : Nat) : ∀ (g : ShownGroup) (e : Nat), Follows e (groupToks k d g)
  | .mk n p ps cs is, e => by
    rw [groupToks]
    exact follows_append (fun e => follows_append (fun e => follows_groups "INST" (d + 1) is e) e (follows_points _ _ _ _)) e
      (follows_points _ _ _ _)
termination_by structural g => g
theorem follows_groups (k : String) (d : Nat) : ∀ (l : List ShownGroup) (e : Nat), Follows e (groupsToks k d l)
  | [], _ => trivial
  | g :: t, e => by
    rw [groupsToks]; exact follows_append (fun e => follows_groups k d t e) e (follows_group k d g e)
termination_by structural l => l
end

/-- The percentages of a group contain no colon. -/
def PctOk (s : String) : Prop := ':' ∉ s.toList

mutual
def ShownOk : ShownGroup → Prop
  | .mk _ p ps cs is => PctOk p ∧ (∀ q ∈ ps, PctOk q.pct) ∧ (∀ q ∈ cs, PctOk q.pct) ∧ ShownsOk is
termination_by structural g => g
def ShownsOk : List ShownGroup → Prop
  | [] => True
  | g :: t => ShownOk g ∧ ShownsOk t
termination_by structural l => l
end

theorem good_secs (d : Nat) (b : Option ShownBins) : ∀ t ∈ secToks d (titled b), t.good := by
  intro t ht
  unfold secToks at ht
  obtain ⟨s, hs, ht⟩ := List.mem_flatMap.1 ht
  rcases List.mem_cons.1 ht with rfl | ht
  · show s.1 ∈ titles
    cases b with
    | none => simp [titled] at hs
    | some b =>
      obtain ⟨b1, b2, b3⟩ := b
      simp only [titled, List.mem_cons, List.mem_append] at hs
      rcases hs with rfl | hs | hs
      · simp [titles]
      · cases b2 <;> simp [optional] at hs; subst hs; simp [titles]
      · cases b3 <;> simp [optional] at hs; subst hs; simp [titles]
  · obtain ⟨x, _, rfl⟩ := List.mem_map.1 ht
    trivial

theorem good_points {k : String} (hk : k ∈ kinds) (d : Nat) {l : List ShownPoint} (h : ∀ q ∈ l, PctOk q.pct) :
    ∀ t ∈ pointToks k d l, t.good := by
  intro t ht
  obtain ⟨p, hp, ht⟩ := List.mem_flatMap.1 ht
  rcases List.mem_cons.1 ht with rfl | ht
  · exact ⟨hk, h p hp⟩
  · exact good_secs d _ t ht

mutual
theorem good_group {k : String} (hk : k ∈ kinds) (d : Nat) : ∀ g : ShownGroup, ShownOk g → ∀ t ∈ groupToks k d g, t.good
  | .mk n p ps cs is, h, t, ht => by
    rw [groupToks] at ht
    rw [ShownOk] at h
    simp only [List.mem_cons, List.mem_append] at ht
    rcases ht with rfl | ht | ht | ht
    · exact ⟨hk, h.1⟩
    · exact good_points (by simp [kinds]) _ h.2.1 t ht
    · exact good_points (by simp [kinds]) _ h.2.2.1 t ht
    · exact good_groups (by simp [kinds]) _ is h.2.2.2 t ht
termination_by structural g => g
theorem good_groups {k : String} (hk : k ∈ kinds) (d : Nat) : ∀ l : List ShownGroup, ShownsOk l → ∀ t ∈ groupsToks k d l, t.good
  | [], _, t, ht => by simp [groupsToks] at ht
  | g :: l, h, t, ht => by
    rw [groupsToks] at ht
    rw [ShownsOk] at h
    rcases List.mem_append.1 ht with ht | ht
    · exact good_group hk d g h.1 t ht
    · exact good_groups hk d l h.2 t ht
termination_by structural l => l
end

theorem split_last {c : Char} {a b p q : List Char} (h : a ++ c :: p = b ++ c :: q) (hp : c ∉ p) (hq : c ∉ q) : a = b ∧ p = q := by
  induction a generalizing b with
  | nil =>
    cases b with
    | nil => simpa using h
    | cons x b =>
      simp only [List.nil_append, List.cons_append, List.cons.injEq] at h
      exact absurd (by rw [h.2]; simp) hp
  | cons x a ih =>
    cases b with
    | nil =>
      simp only [List.nil_append, List.cons_append, List.cons.injEq] at h
      exact absurd (by rw [← h.2]; simp) hq
    | cons y b =>
      simp only [List.cons_append, List.cons.injEq] at h
      obtain ⟨rfl, h⟩ := h
      obtain ⟨rfl, rfl⟩ := ih h
      exact ⟨rfl, rfl⟩

theorem blanks_inj {m n : Nat} {x y : List Char} (h : List.replicate m ' ' ++ x = List.replicate n ' ' ++ y)
    (hx : ∃ c t, x = c :: t ∧ c ≠ ' ') (hy : ∃ c t, y = c :: t ∧ c ≠ ' ') : m = n ∧ x = y := by
  induction m generalizing n with
  | zero =>
    cases n with
    | zero => exact ⟨rfl, by simpa using h⟩
    | succ n =>
      obtain ⟨c, t, rfl, hc⟩ := hx
      simp [List.replicate_succ] at h
      exact absurd h.1 hc
  | succ m ih =>
    cases n with
    | zero =>
      obtain ⟨c, t, rfl, hc⟩ := hy
      simp [List.replicate_succ] at h
      exact absurd h.1.symm hc
    | succ n =>
      simp only [List.replicate_succ, List.cons_append, List.cons.injEq, true_and] at h
      obtain ⟨h1, h2⟩ := ih h
      exact ⟨by rw [h1], h2⟩

theorem intL_no_colon (z : Int) : ':' ∉ intL z := by
  intro h
  cases z with
  | ofNat n => exact absurd (natL_digit h) (by decide)
  | negSucc n =>
    rcases List.mem_cons.1 h with h | h
    · exact absurd h (by decide)
    · exact absurd (natL_digit h) (by decide)

theorem intL_last (z : Int) : ∃ c, (intL z).getLast? = some c ∧ c.isDigit = true := by
  have h : ∀ n, ∃ c, (natL n).getLast? = some c ∧ c.isDigit = true := fun n =>
    ⟨(natL n).getLast (natL_ne_nil n), List.getLast?_eq_getLast_of_ne_nil (natL_ne_nil n), natL_digit (List.getLast_mem _)⟩
  cases z with
  | ofNat n => exact h n
  | negSucc n =>
    obtain ⟨c, h1, h2⟩ := h (n + 1)
    refine ⟨c, ?_, h2⟩
    show ('-' :: natL (n + 1)).getLast? = _
    rw [List.getLast?_cons, h1]; rfl

/-- The last character tells the kind of a line. -/
def Tok.last : Tok → Char → Prop
  | .head _ _ _ _, c => c = '%'
  | .title _ _, c => c = ':'
  | .bin _ _ _, c => c.isDigit = true

theorem last_chars {t : Tok} (h : t.good) : ∃ c, t.chars.getLast? = some c ∧ t.last c := by
  cases t with
  | head d k n p =>
    refine ⟨'%', ?_, rfl⟩
    simp only [Tok.chars, Tok.line, heading, String.toList_append]
    rw [← List.append_assoc, show "%".toList = ['%'] from rfl, List.getLast?_concat]
  | title d s =>
    refine ⟨':', ?_, rfl⟩
    have h : s ∈ titles := h
    simp only [titles, List.mem_cons, List.not_mem_nil, or_false] at h
    rcases h with rfl | rfl | rfl <;> simp [Tok.chars, Tok.line]
  | bin d n z =>
    obtain ⟨c, h1, h2⟩ := intL_last z
    refine ⟨c, ?_, h2⟩
    simp only [Tok.chars, Tok.line, String.toList_append, strInt, String.toList_ofList]
    rw [← List.append_assoc, List.getLast?_append, h1]
    rfl

/-- Equal lines show the same, the level of a bin being known. -/
theorem chars_inj {a b : Tok} (ha : a.good) (hb : b.good) (h : a.chars = b.chars)
    (hd : ∀ d n z d' n' z', a = .bin d n z → b = .bin d' n' z' → d = d') : a = b := by
  obtain ⟨c, h1, h2⟩ := last_chars ha
  obtain ⟨c', h1', h2'⟩ := last_chars hb
  rw [h, h1'] at h1
  obtain rfl : c' = c := by simpa using h1
  cases a with
  | head d k n p =>
    obtain rfl : c' = '%' := h2
    cases b with
    | title => exact absurd (show '%' = ':' from h2') (by decide)
    | bin => exact absurd (show Char.isDigit '%' = true from h2') (by decide)
    | head d' k' n' p' =>
      obtain ⟨hk, hp⟩ := ha
      obtain ⟨hk', hp'⟩ := hb
      have start : ∀ k ∈ kinds, ∀ n p, ∃ c t, (heading k n p).toList = c :: t ∧ c ≠ ' ' := by
        intro k hk n p
        simp only [kinds, List.mem_cons, List.not_mem_nil, or_false] at hk
        rcases hk with rfl | rfl | rfl | rfl <;> simp [heading, String.toList_append]
      obtain ⟨e1, e2⟩ := blanks_inj h (start k hk n p) (start k' hk' n' p')
      have e1 : 4 * d = 4 * d' := e1
      obtain rfl : d = d' := by omega
      have hkk : k = k' ∧ (n ++ " : " ++ p ++ "%").toList = (n' ++ " : " ++ p' ++ "%").toList := by
        simp only [kinds, List.mem_cons, List.not_mem_nil, or_false] at hk hk'
        simp only [Tok.line] at e2
        rcases hk with rfl | rfl | rfl | rfl <;> rcases hk' with rfl | rfl | rfl | rfl <;>
          simp [heading, String.toList_append] at e2 ⊢ <;> exact e2
      obtain ⟨rfl, e3⟩ := hkk
      have e4 : (n.toList ++ [' ']) ++ ':' :: (' ' :: (p.toList ++ ['%'])) = (n'.toList ++ [' ']) ++ ':' :: (' ' :: (p'.toList ++ ['%'])) := by
        simpa [String.toList_append] using e3
      obtain ⟨e5, e6⟩ := split_last e4 (by simpa using hp) (by simpa using hp')
      have e5 : n.toList = n'.toList := by simpa using e5
      have e6 : p.toList = p'.toList := by simpa using e6
      rw [String.toList_inj.1 e5, String.toList_inj.1 e6]
  | title d t =>
    obtain rfl : c' = ':' := h2
    cases b with
    | head => exact absurd (show ':' = '%' from h2') (by decide)
    | bin => exact absurd (show Char.isDigit ':' = true from h2') (by decide)
    | title d' t' =>
      have start : ∀ t ∈ titles, ∃ c u, t.toList = c :: u ∧ c ≠ ' ' := by
        intro t ht
        simp only [titles, List.mem_cons, List.not_mem_nil, or_false] at ht
        rcases ht with rfl | rfl | rfl <;> simp
      obtain ⟨e1, e2⟩ := blanks_inj h (start t ha) (start t' hb)
      have e1 : 4 * d = 4 * d' := e1
      obtain rfl : d = d' := by omega
      have e2 : t.toList = t'.toList := e2
      rw [String.toList_inj.1 e2]
  | bin d n z =>
    cases b with
    | head => rw [show c' = '%' from h2'] at h2; exact absurd (show Char.isDigit '%' = true from h2) (by decide)
    | title => rw [show c' = ':' from h2'] at h2; exact absurd (show Char.isDigit ':' = true from h2) (by decide)
    | bin d' n' z' =>
      obtain rfl := hd d n z d' n' z' rfl rfl
      have e := List.append_cancel_left (h : List.replicate (4 * d) ' ' ++ _ = List.replicate (4 * d) ' ' ++ _)
      have e4 : (n.toList ++ [' ']) ++ ':' :: (' ' :: intL z) = (n'.toList ++ [' ']) ++ ':' :: (' ' :: intL z') := by
        simpa [Tok.line, String.toList_append, strInt] using e
      obtain ⟨e5, e6⟩ := split_last e4 (by simpa using intL_no_colon z) (by simpa using intL_no_colon z')
      have e5 : n.toList = n'.toList := by simpa using e5
      have e6 : strInt z = strInt z' := by unfold strInt; rw [show intL z = intL z' by simpa using e6]
      rw [String.toList_inj.1 e5, strInt_injective e6]

theorem toks_inj : ∀ (a b : List Tok) (e : Nat), Follows e a → Follows e b → (∀ t ∈ a, t.good) → (∀ t ∈ b, t.good) →
    a.map Tok.chars = b.map Tok.chars → a = b
  | [], [], _, _, _, _, _, _ => rfl
  | [], _ :: _, _, _, _, _, _, h => by simp at h
  | _ :: _, [], _, _, _, _, _, h => by simp at h
  | x :: a, y :: b, e, fa, fb, ga, gb, h => by
    rw [List.map_cons, List.map_cons, List.cons.injEq] at h
    have hxy : x = y := by
      refine chars_inj (ga x (by simp)) (gb y (by simp)) h.1 ?_
      rintro d n z d' n' z' rfl rfl
      rw [fa.1, fb.1]
    subst hxy
    have ih : ∀ e, Follows e a → Follows e b → a = b := fun e fa fb =>
      toks_inj a b e fa fb (fun t ht => ga t (by simp [ht])) (fun t ht => gb t (by simp [ht])) h.2
    cases x with
    | head => rw [ih e fa fb]
    | title => rw [ih _ fa fb]
    | bin => rw [ih e fa.2 fb.2]

/-! ## The lines determine what is shown -/

/-- What may follow a block: nothing, or a heading with the given property. -/
def Starts (P : Nat → String → Prop) : List Tok → Prop
  | [] => True
  | .head d k _ _ :: _ => P d k
  | _ => False

def NotBin : List Tok → Prop
  | .bin _ _ _ :: _ => False
  | _ => True

theorem Starts.notBin {P : Nat → String → Prop} {r : List Tok} (h : Starts P r) : NotBin r := by
  cases r with
  | nil => trivial
  | cons t r => cases t with
    | head => trivial
    | title => trivial
    | bin => exact absurd h id

theorem Starts.mono {P Q : Nat → String → Prop} (hpq : ∀ d k, P d k → Q d k) {r : List Tok} (h : Starts P r) : Starts Q r := by
  cases r with
  | nil => trivial
  | cons t r => cases t with
    | head => exact hpq _ _ h
    | title => exact absurd h id
    | bin => exact absurd h id

theorem bins_inj {d : Nat} {a b : List (String × Int)} {r s : List Tok} (h : binToks d a ++ r = binToks d b ++ s)
    (hr : NotBin r) (hs : NotBin s) : a = b ∧ r = s := by
  induction a generalizing b with
  | nil =>
    cases b with
    | nil => exact ⟨rfl, h⟩
    | cons y b =>
      have h : r = .bin d y.1 y.2 :: (binToks d b ++ s) := h
      rw [h] at hr; exact absurd hr id
  | cons x a ih =>
    cases b with
    | nil =>
      have h : .bin d x.1 x.2 :: (binToks d a ++ r) = s := h
      rw [← h] at hs; exact absurd hs id
    | cons y b =>
      have h : Tok.bin d x.1 x.2 :: (binToks d a ++ r) = .bin d y.1 y.2 :: (binToks d b ++ s) := h
      simp only [List.cons.injEq, Tok.bin.injEq, true_and] at h
      obtain ⟨h1, h2⟩ := ih h.2
      exact ⟨by rw [h1, Prod.ext h.1.1 h.1.2], h2⟩

theorem notBin_secs (d : Nat) (l : List (String × List (String × Int))) {r : List Tok} (hr : NotBin r) : NotBin (secToks d l ++ r) := by
  cases l with
  | nil => exact hr
  | cons a t => trivial

theorem secs_inj {d : Nat} {P Q : Nat → String → Prop} {a b : List (String × List (String × Int))} {r s : List Tok}
    (h : secToks d a ++ r = secToks d b ++ s) (hr : Starts P r) (hs : Starts Q s) : a = b ∧ r = s := by
  induction a generalizing b with
  | nil =>
    cases b with
    | nil => exact ⟨rfl, h⟩
    | cons y b =>
      have h : r = .title d y.1 :: ((binToks (d + 1) y.2 ++ secToks d b) ++ s) := h
      rw [h] at hr; exact absurd hr id
  | cons x a ih =>
    cases b with
    | nil =>
      have h : .title d x.1 :: ((binToks (d + 1) x.2 ++ secToks d a) ++ r) = s := h
      rw [← h] at hs; exact absurd hs id
    | cons y b =>
      have h : Tok.title d x.1 :: ((binToks (d + 1) x.2 ++ secToks d a) ++ r)
          = .title d y.1 :: ((binToks (d + 1) y.2 ++ secToks d b) ++ s) := h
      simp only [List.cons.injEq, Tok.title.injEq, true_and, List.append_assoc] at h
      obtain ⟨h1, h2⟩ := bins_inj h.2 (notBin_secs d a hr.notBin) (notBin_secs d b hs.notBin)
      obtain ⟨h3, h4⟩ := ih h2
      exact ⟨by rw [h3, Prod.ext h.1 h1], h4⟩

theorem optional_inj {a b : List (String × Int)} {s t : String} {x y : List (String × List (String × Int))}
    (hx : ∀ p ∈ x, p.1 = t) (hy : ∀ p ∈ y, p.1 = t) (hst : s ≠ t)
    (h : optional s a ++ x = optional s b ++ y) : a = b ∧ x = y := by
  cases a with
  | nil =>
    cases b with
    | nil => exact ⟨rfl, h⟩
    | cons b1 b =>
      have h : x = (s, b1 :: b) :: y := h
      exact absurd (hx (s, b1 :: b) (by rw [h]; simp)) hst
  | cons a1 a =>
    cases b with
    | nil =>
      have h : (s, a1 :: a) :: x = y := h
      exact absurd (hy (s, a1 :: a) (by rw [← h]; simp)) hst
    | cons b1 b => simpa [optional] using h

theorem titled_inj {a b : Option ShownBins} (h : titled a = titled b) : a = b := by
  have ot : ∀ (t : String) (l : List (String × Int)), ∀ p ∈ optional t l, p.1 = t := by
    intro t l p hp
    cases l with
    | nil => simp [optional] at hp
    | cons x l => simp [optional] at hp; rw [hp]
  cases a with
  | none => cases b with
    | none => rfl
    | some b => simp [titled] at h
  | some a => cases b with
    | none => simp [titled] at h
    | some b =>
      obtain ⟨a1, a2, a3⟩ := a
      obtain ⟨b1, b2, b3⟩ := b
      simp only [titled, List.cons.injEq, Prod.mk.injEq, true_and] at h
      obtain ⟨rfl, h⟩ := h
      obtain ⟨rfl, h⟩ := optional_inj (ot _ _) (ot _ _) (by decide) h
      have h : optional "IllegalBins:" a3 ++ [] = optional "IllegalBins:" b3 ++ [] := by simpa using h
      obtain ⟨rfl, _⟩ := optional_inj (t := "") (by simp) (by simp) (by decide) h
      rfl

theorem starts_points {k : String} {d : Nat} (l : List ShownPoint) {P : Nat → String → Prop} {r : List Tok} (hr : Starts P r) :
    Starts (fun d' k' => (d' = d ∧ k' = k) ∨ P d' k') (pointToks k d l ++ r) := by
  cases l with
  | nil => exact hr.mono (fun _ _ h => Or.inr h)
  | cons a t => exact Or.inl ⟨rfl, rfl⟩

theorem points_inj {k : String} {d : Nat} {a b : List ShownPoint} {r s : List Tok}
    (h : pointToks k d a ++ r = pointToks k d b ++ s) (hr : Starts (fun d' k' => ¬ (d' = d ∧ k' = k)) r)
    (hs : Starts (fun d' k' => ¬ (d' = d ∧ k' = k)) s) : a = b ∧ r = s := by
  induction a generalizing b with
  | nil =>
    cases b with
    | nil => exact ⟨rfl, h⟩
    | cons y b =>
      have h : r = .head d k y.name y.pct :: ((secToks d (titled y.bins) ++ pointToks k d b) ++ s) := h
      rw [h] at hr; exact absurd ⟨rfl, rfl⟩ hr
  | cons x a ih =>
    cases b with
    | nil =>
      have h : .head d k x.name x.pct :: ((secToks d (titled x.bins) ++ pointToks k d a) ++ r) = s := h
      rw [← h] at hs; exact absurd ⟨rfl, rfl⟩ hs
    | cons y b =>
      have h : Tok.head d k x.name x.pct :: ((secToks d (titled x.bins) ++ pointToks k d a) ++ r)
          = .head d k y.name y.pct :: ((secToks d (titled y.bins) ++ pointToks k d b) ++ s) := h
      simp only [List.cons.injEq, Tok.head.injEq, true_and, List.append_assoc] at h
      obtain ⟨h1, h2⟩ := secs_inj h.2 (starts_points a hr) (starts_points b hs)
      obtain ⟨h3, h4⟩ := ih h2
      obtain ⟨xn, xp, xb⟩ := x
      obtain ⟨yn, yp, yb⟩ := y
      obtain ⟨⟨rfl, rfl⟩, _⟩ := h
      obtain rfl := titled_inj h1
      exact ⟨by rw [h3], h4⟩

theorem starts_groups {k : String} {d : Nat} (l : List ShownGroup) {P : Nat → String → Prop} {r : List Tok} (hr : Starts P r) :
    Starts (fun d' k' => (d' = d ∧ k' = k) ∨ P d' k') (groupsToks k d l ++ r) := by
  cases l with
  | nil => exact hr.mono (fun _ _ h => Or.inr h)
  | cons a t =>
    cases a
    rw [groupsToks, groupToks]
    exact Or.inl ⟨rfl, rfl⟩

mutual
theorem group_inj (k : String) (d : Nat) : ∀ (a b : ShownGroup) (r s : List Tok), groupToks k d a ++ r = groupToks k d b ++ s →
    Starts (fun d' _ => d' ≤ d) r → Starts (fun d' _ => d' ≤ d) s → a = b ∧ r = s
  | .mk n p ps cs is, .mk n' p' ps' cs' is', r, s, h, hr, hs => by
    rw [groupToks, groupToks] at h
    simp only [List.cons_append, List.cons.injEq, Tok.head.injEq, true_and, List.append_assoc] at h
    obtain ⟨⟨rfl, rfl⟩, h⟩ := h
    have sr : ∀ (l : List ShownGroup) {r : List Tok}, Starts (fun d' _ => d' ≤ d) r →
        Starts (fun d' k' => (d' = d + 1 ∧ k' = "INST") ∨ d' ≤ d) (groupsToks "INST" (d + 1) l ++ r) := fun l _ h => starts_groups l h
    have sc : ∀ (l : List ShownPoint) (l' : List ShownGroup) {r : List Tok}, Starts (fun d' _ => d' ≤ d) r →
        Starts (fun d' k' => (d' = d + 1 ∧ k' = "CROSS") ∨ (d' = d + 1 ∧ k' = "INST") ∨ d' ≤ d)
          (pointToks "CROSS" (d + 1) l ++ (groupsToks "INST" (d + 1) l' ++ r)) := fun l l' _ h => starts_points l (sr l' h)
    have w1 : ∀ d' k', ((d' = d + 1 ∧ k' = "CROSS") ∨ (d' = d + 1 ∧ k' = "INST") ∨ d' ≤ d) → ¬ (d' = d + 1 ∧ k' = "CVP") := by
      rintro d' k' (⟨rfl, rfl⟩ | ⟨rfl, rfl⟩ | h) ⟨h1, h2⟩
      · exact absurd h2 (by decide)
      · exact absurd h2 (by decide)
      · omega
    have w2 : ∀ d' k', ((d' = d + 1 ∧ k' = "INST") ∨ d' ≤ d) → ¬ (d' = d + 1 ∧ k' = "CROSS") := by
      rintro d' k' (⟨rfl, rfl⟩ | h) ⟨h1, h2⟩
      · exact absurd h2 (by decide)
      · omega
    obtain ⟨q1, h1⟩ := points_inj h ((sc cs is hr).mono w1) ((sc cs' is' hs).mono w1)
    obtain ⟨q2, h2⟩ := points_inj h1 ((sr is hr).mono w2) ((sr is' hs).mono w2)
    obtain ⟨q3, h3⟩ := groups_inj "INST" (d + 1) is is' r s h2 (hr.mono (fun _ _ h => Nat.lt_succ_of_le h))
      (hs.mono (fun _ _ h => Nat.lt_succ_of_le h))
    exact ⟨by rw [q1, q2, q3], h3⟩
termination_by structural a => a
theorem groups_inj (k : String) (d : Nat) : ∀ (a b : List ShownGroup) (r s : List Tok), groupsToks k d a ++ r = groupsToks k d b ++ s →
    Starts (fun d' _ => d' < d) r → Starts (fun d' _ => d' < d) s → a = b ∧ r = s
  | [], [], r, s, h, _, _ => ⟨rfl, h⟩
  | [], .mk n p ps cs is :: t, r, s, h, hr, _ => by
    rw [groupsToks, groupsToks, groupToks] at h
    rw [show r = _ from h] at hr
    exact absurd (show d < d from hr) (Nat.lt_irrefl d)
  | .mk n p ps cs is :: t, [], r, s, h, _, hs => by
    rw [groupsToks, groupsToks, groupToks] at h
    rw [← (show _ = s from h)] at hs
    exact absurd (show d < d from hs) (Nat.lt_irrefl d)
  | x :: a, y :: b, r, s, h, hr, hs => by
    rw [groupsToks, groupsToks, List.append_assoc, List.append_assoc] at h
    have w : ∀ d' k', ((d' = d ∧ k' = k) ∨ d' < d) → d' ≤ d := by rintro d' k' (⟨rfl, _⟩ | h) <;> omega
    obtain ⟨q1, h1⟩ := group_inj k d x y _ _ h ((starts_groups a hr).mono w) ((starts_groups b hs).mono w)
    obtain ⟨q2, h2⟩ := groups_inj k d a b r s h1 hr hs
    exact ⟨by rw [q1, q2], h2⟩
termination_by structural a => a
end

/-! ## C134 -/

/-- Percentages without colons. -/
def PctCfg (cfg : Cfg) : Prop := ∀ x, PctOk (cfg.groupPct x) ∧ PctOk (cfg.leafPct x)

theorem natL_no_colon (n : Nat) : ':' ∉ natL n := fun h => absurd (natL_digit h) (by decide)

theorem fixedL_no_colon (d : Nat) (x : Rat) : ':' ∉ fixedL d x := by
  unfold fixedL fixedNatL padL
  simp only [List.mem_append, not_or]
  refine ⟨?_, natL_no_colon _, ?_⟩
  · split <;> decide
  · split
    · simp
    · simp only [List.mem_cons, List.mem_append, not_or]
      refine ⟨by decide, ?_, natL_no_colon _⟩
      intro h
      exact absurd (List.eq_of_mem_replicate h) (by decide)

theorem pctCfg_text (n : Nat) (d o : Bool) : PctCfg (textCfg n d o) := by
  intro x
  simp only [PctOk, textCfg, String.toList_ofList]
  exact ⟨fixedL_no_colon _ _, fixedL_no_colon _ _⟩

theorem pctCfg_rpt (d o : Bool) : PctCfg (rptCfg d o) := by
  intro x
  simp only [PctOk, rptCfg, String.toList_ofList, wholeL, List.mem_append, not_or]
  exact ⟨⟨fixedL_no_colon _ _, by decide⟩, intL_no_colon _, by decide⟩

mutual
theorem shownOk_group {cfg : Cfg} (h : PctCfg cfg) (o : List RBin → List RBin) : ∀ g : RCg, ShownOk (shownGroup cfg o g)
  | ⟨_, _, c, _, cps, crs, cgs⟩ => by
    rw [shownGroup, ShownOk]
    refine ⟨(h c).1, ?_, ?_, shownOk_groups h o cgs⟩
    · intro q hq
      obtain ⟨c, _, rfl⟩ := List.mem_map.1 hq
      exact (h _).2
    · intro q hq
      obtain ⟨c, _, rfl⟩ := List.mem_map.1 hq
      exact (h _).2
termination_by structural g => g
theorem shownOk_groups {cfg : Cfg} (h : PctCfg cfg) (o : List RBin → List RBin) : ∀ l : List RCg, ShownsOk (shownGroups cfg o l)
  | [] => trivial
  | g :: t => by rw [shownGroups, ShownsOk]; exact ⟨shownOk_group h o g, shownOk_groups h o t⟩
termination_by structural l => l
end

theorem shownsOk_map {cfg : Cfg} (h : PctCfg cfg) (o : List RBin → List RBin) (l : List RCg) : ShownsOk (l.map (shownGroup cfg o)) := by
  induction l with
  | nil => trivial
  | cons g t ih => rw [List.map_cons, ShownsOk]; exact ⟨shownOk_group h o g, ih⟩

end TextRead
open TextRead Spec Report Format PyNum

/-- All names in a report are free of line ends. -/
def Spec.OneLineNames (r : Rpt) : Prop := ∀ g ∈ r.covergroups, ∀ n ∈ groupNames g, OneLine n

/-- Either of the two text formatters. -/
def Spec.TextFormat (cfg : Cfg) : Prop :=
  (∃ n d o, cfg = textCfg n d o) ∨ ∃ d o, cfg = rptCfg d o

/-- **C134.** When no name contains a line end, the text of a report determines everything the report
shows: which covergroups, cover-instances, coverpoints and crosses there are, their names, their
nesting, order and percentages, and with details all bins with their names and counts - whatever
else the names contain (colons, blanks at either end, words like `CVP` or `Bins:`). -/
theorem C134_text_determines_partial {cfg : Cfg} (hc : TextFormat cfg) :
    ∃ order, BinOrder cfg.orderBinsByHit order ∧ ∀ r s : Rpt, OneLineNames r → OneLineNames s →
      textOf (report cfg r ⟨"", []⟩).out = textOf (report cfg s ⟨"", []⟩).out →
      r.covergroups.map (shownGroup cfg order) = s.covergroups.map (shownGroup cfg order) := by
  have hp : PctCfg cfg := by
    rcases hc with ⟨n, d, o, rfl⟩ | ⟨d, o, rfl⟩
    · exact pctCfg_text n d o
    · exact pctCfg_rpt d o
  have ho : OneLineCfg cfg := by
    rcases hc with ⟨n, d, o, rfl⟩ | ⟨d, o, rfl⟩
    · exact oneLineCfg_text n d o
    · exact oneLineCfg_rpt d o
  refine ⟨hitOrder cfg.orderBinsByHit, binOrder_hitOrder _, ?_⟩
  intro r s hr hs h
  have key : ∀ r, OneLineNames r → linesOf (textOf (report cfg r ⟨"", []⟩).out)
      = (groupsToks "TYPE" 0 (r.covergroups.map (shownGroup cfg (hitOrder cfg.orderBinsByHit)))).map Tok.chars := by
    intro r hr
    rw [text_lines_hitOrder ho r hr, lines_report cfg (binOrder_hitOrder _).perm, List.map_map]
    rfl
  have e := (key r hr).symm.trans ((congrArg linesOf h).trans (key s hs))
  have e2 := toks_inj _ _ 0 (follows_groups _ _ _ _) (follows_groups _ _ _ _)
    (good_groups (by simp [kinds]) _ _ (shownsOk_map hp _ _)) (good_groups (by simp [kinds]) _ _ (shownsOk_map hp _ _)) e
  exact (groups_inj "TYPE" 0 _ _ [] [] (by rw [List.append_nil, List.append_nil]; exact e2) trivial trivial).1

/-- Figures printed alike differ by at most one unit of the last place that is rounded to. -/
theorem C134_figures {x y : Rat} (hx : 0 ≤ x) (hy : 0 ≤ y) (n : Nat) (d o : Bool) :
    ((textCfg n d o).groupPct x = (textCfg n d o).groupPct y → |x - y| ≤ 1 / 10 ^ n) ∧
    ((textCfg n d o).leafPct x = (textCfg n d o).leafPct y → |x - y| ≤ 1 / 10 ^ n) ∧
    ((rptCfg d o).groupPct x = (rptCfg d o).groupPct y → |x - y| ≤ 1 / 100) ∧
    ((rptCfg d o).leafPct x = (rptCfg d o).leafPct y → |x - y| ≤ 1) := by
  obtain ⟨a1, a2, a3, a4⟩ := C66_printed_percentage hx n d o
  obtain ⟨b1, b2, b3, b4⟩ := C66_printed_percentage hy n d o
  have key : ∀ {v e : Rat}, |v - x| ≤ e → |v - y| ≤ e → |x - y| ≤ 2 * e := by
    intro v e h1 h2
    rw [abs_le] at h1 h2 ⊢
    constructor <;> linarith [h1.1, h1.2, h2.1, h2.2]
  refine ⟨fun h => ?_, fun h => ?_, fun h => ?_, fun h => ?_⟩
  · rw [h] at a1; refine (key a1 b1).trans (le_of_eq ?_); ring
  · rw [h] at a2; refine (key a2 b2).trans (le_of_eq ?_); ring
  · rw [h] at a3; exact (key a3 b3).trans (by norm_num)
  · rw [h] at a4; exact (key a4 b4).trans (by norm_num)

namespace Ex
/-- Names made to look like other lines. -/
def oddRpt : Rpt := ⟨[⟨"a : 100.00%", "a", 50, 1, [⟨" CVP x : 1", 50, 1, [⟨"        Bins:", 1, 0⟩, ⟨"b : 3", 2, 3⟩], [⟨"", 1, -1⟩], []⟩],
  [⟨"cr", 0, 1, [⟨"CROSS y : 5%", 1, 0⟩]⟩], [⟨"INST z", "ci", 0, 1, [], [], []⟩]⟩], [], 50⟩

/-- A database with covergroups of these names and nothing in them. -/
def bareDb (names : List String) : Scope := { emptyDb with children :=
  [mkInstance "i" SrcInfo.none 1 (some ⟨"du", SrcInfo.none, 1⟩) (names.map (fun n => mkCovergroup n SrcInfo.none 1 []))] }
end Ex

example : TextFormat (textCfg 2 true true) ∧ OneLineNames Ex.oddRpt ∧ OneLineNames Ex.frpt := by
  refine ⟨Or.inl ⟨_, _, _, rfl⟩, ?_, ?_⟩
  · show ∀ g ∈ Ex.oddRpt.covergroups, ∀ n ∈ groupNames g, '\n' ∉ n.toList
    decide
  · show ∀ g ∈ Ex.frpt.covergroups, ∀ n ∈ groupNames g, '\n' ∉ n.toList
    decide

/-- Names with line ends can make two databases look alike: one covergroup passes for two. -/
theorem C134_refuted : ¬ ∀ cfg, TextFormat cfg → ∀ (d e : Scope) (r s : Rpt), build id d = .ok r → build id e = .ok s →
    textOf (report cfg r ⟨"", []⟩).out = textOf (report cfg s ⟨"", []⟩).out → r.covergroups.length = s.covergroups.length := by
  intro h
  have h1 : ∃ r, build id (Ex.bareDb ["a : 0.00%\nTYPE b"]) = .ok r ∧ r.covergroups.length = 1 ∧
      textOf (report (textCfg 2 true true) r ⟨"", []⟩).out = "TYPE a : 0.00%\nTYPE b : 0.00%\n".toList :=
    ⟨_, rfl, rfl, by decide +kernel⟩
  have h2 : ∃ r, build id (Ex.bareDb ["a", "b"]) = .ok r ∧ r.covergroups.length = 2 ∧
      textOf (report (textCfg 2 true true) r ⟨"", []⟩).out = "TYPE a : 0.00%\nTYPE b : 0.00%\n".toList :=
    ⟨_, rfl, rfl, by decide +kernel⟩
  obtain ⟨r, r1, r2, r3⟩ := h1
  obtain ⟨s, s1, s2, s3⟩ := h2
  have := h (textCfg 2 true true) (Or.inl ⟨_, _, _, rfl⟩) _ _ r s r1 s1 (r3.trans s3.symm)
  omega

end Verif
