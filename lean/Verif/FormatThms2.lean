import Verif.FormatThms
import Verif.ReportThms2
/-!
# JSON reports and printed percentages (C30, C66, C67)
-/

namespace Verif
open Report Format PyNum Spec

/-! ## JSON -/

namespace Spec
/-- What a report says about a coverpoint, apart from its name. -/
structure CpView where
  coverage : Rat
  bins : List (String × Int)
  ignoreBins : List (String × Int)
  illegalBins : List (String × Int)
  deriving DecidableEq

/-- What a report says about a group, apart from names of coverpoints and from crosses. -/
inductive GroupView where
  | mk (name : String) (coverage : Rat) (coverpoints : List CpView) (groups : List GroupView)

def binView (l : List RBin) : List (String × Int) := l.map (fun b => (b.name, b.count))

/-- A JSON list of bins; an absent member is an empty list. -/
def jBinView (l : Option (List JBin)) : List (String × Int) := (l.getD []).map (fun b => (b.name, b.count))

mutual
/-- View of a group of the report. -/
def viewR : RCg → GroupView
  | ⟨name, _, coverage, _, cps, _, cgs⟩ =>
    .mk name coverage (cps.map (fun c => ⟨c.coverage, binView c.bins, binView c.ignoreBins, binView c.illegalBins⟩)) (viewRL cgs)
termination_by structural g => g
def viewRL : List RCg → List GroupView
  | [] => []
  | g :: t => viewR g :: viewRL t
termination_by structural l => l
end

mutual
/-- View of a group of the JSON document. -/
def viewJ : JCg → GroupView
  | ⟨name, coverage, cps, _, cgs⟩ =>
    .mk name coverage ((cps.getD []).map (fun c => ⟨c.coverage, jBinView c.bins, jBinView c.ignorebins, jBinView c.illegalbins⟩)) (viewJO cgs)
termination_by structural g => g
def viewJO : Option (List JCg) → List GroupView
  | none => []
  | some l => viewJL l
termination_by structural l => l
def viewJL : List JCg → List GroupView
  | [] => []
  | g :: t => viewJ g :: viewJL t
termination_by structural l => l
end

mutual
/-- All crosses of a group, at any depth. -/
def crossesOf : RCg → List RCross
  | ⟨_, _, _, _, _, crs, cgs⟩ => crs ++ crossesOfL cgs
termination_by structural g => g
def crossesOfL : List RCg → List RCross
  | [] => []
  | g :: t => crossesOf g ++ crossesOfL t
termination_by structural l => l
end

end Spec

theorem viewJO_someIfNonempty (l : List JCg) : viewJO (someIfNonempty l) = viewJL l := by
  cases l with
  | nil => rfl
  | cons a t => simp [someIfNonempty, viewJO]

theorem getD_someIfNonempty {α : Type} (l : List α) : (someIfNonempty l).getD [] = l := by
  cases l with
  | nil => rfl
  | cons a t => simp [someIfNonempty]

theorem jBinView_jBins (l : List RBin) : jBinView (jBins l) = binView l := by
  cases l with
  | nil => rfl
  | cons a t => simp [jBins, jBinView, binView, Function.comp_def]

mutual
theorem jCg_spec : ∀ g : RCg, (crossesOf g = [] → ∃ j, jCg true g = .ok j ∧ viewJ j = viewR g) ∧
    (crossesOf g ≠ [] → jCg true g = .error .attributeError)
  | ⟨name, inst, coverage, w, cps, crs, cgs⟩ => by
    obtain ⟨h1, h2⟩ := jCgs_spec cgs
    constructor
    · intro h
      rw [crossesOf, List.append_eq_nil_iff] at h
      obtain ⟨hc, hg⟩ := h
      obtain ⟨js, hj, hv⟩ := h1 hg
      subst hc
      refine ⟨⟨name, coverage, someIfNonempty (cps.map (jCp true)), someIfNonempty [], someIfNonempty js⟩, ?_, ?_⟩
      · rw [jCg, hj]; rfl
      · rw [viewJ, viewR, viewJO_someIfNonempty, getD_someIfNonempty, hv, List.map_map]
        simp [Function.comp_def, jCp, jBinView_jBins]
    · intro h
      rw [crossesOf] at h
      rw [jCg]
      cases crs with
      | cons a t => rw [List.mapM_cons]; rfl
      | nil =>
        rw [h2 (by simpa using h)]; rfl
termination_by structural g => g
theorem jCgs_spec : ∀ l : List RCg, (crossesOfL l = [] → ∃ j, jCgs true l = .ok j ∧ viewJL j = viewRL l) ∧
    (crossesOfL l ≠ [] → jCgs true l = .error .attributeError)
  | [] => ⟨fun _ => ⟨[], rfl, rfl⟩, fun h => absurd rfl h⟩
  | g :: t => by
    obtain ⟨h1, h2⟩ := jCg_spec g
    obtain ⟨h3, h4⟩ := jCgs_spec t
    constructor
    · intro h
      rw [crossesOfL, List.append_eq_nil_iff] at h
      obtain ⟨j, hj, hv⟩ := h1 h.1
      obtain ⟨js, hjs, hvs⟩ := h3 h.2
      refine ⟨j :: js, ?_, ?_⟩
      · rw [jCgs, hj, hjs]; rfl
      · rw [viewJL, viewRL, hv, hvs]
    · intro h
      rw [jCgs]
      by_cases hg : crossesOf g = []
      · obtain ⟨j, hj, _⟩ := h1 hg
        rw [hj, h4 (by rw [crossesOfL, hg] at h; simpa using h)]; rfl
      · rw [h2 hg]; rfl
termination_by structural l => l
end

/-- **C30**, what holds: a JSON report (with details) is produced exactly when the coverage report can
be built and contains no cross at any depth; the document then shows the overall figure and every
covergroup and cover-instance, nested as in the report, with name, coverage, and the coverage and
bins of its coverpoints.  Missing: databases with crosses, and the names of coverpoints
(`C30_json_crosses_refuted`, `C30_json_names_refuted`). -/
theorem C30_json_partial (rd : Rat → Rat) (db : Scope) :
    (∀ r, build rd db = .ok r → crossesOfL r.covergroups = [] →
      ∃ j, jReport rd true db = .ok j ∧ j.coverage = r.coverage ∧ viewJO j.covergroups = viewRL r.covergroups) ∧
    (∀ r, build rd db = .ok r → crossesOfL r.covergroups ≠ [] → jReport rd true db = .error .attributeError) ∧
    (∀ e, build rd db = .error e → jReport rd true db = .error e) := by
  refine ⟨fun r hr hc => ?_, fun r hr hc => ?_, fun e he => ?_⟩
  · obtain ⟨js, hj, hv⟩ := (jCgs_spec r.covergroups).1 hc
    refine ⟨⟨r.coverage, someIfNonempty js⟩, ?_, rfl, ?_⟩
    · unfold jReport; rw [hr]; show (do let cgs ← jCgs true r.covergroups; _) = _; rw [hj]; rfl
    · rw [viewJO_someIfNonempty, hv]
  · unfold jReport; rw [hr]; show (do let cgs ← jCgs true r.covergroups; _) = _
    rw [(jCgs_spec r.covergroups).2 hc]; rfl
  · unfold jReport; rw [he]; rfl

/-- The full claim of **C30**. -/
def C30_claim : Prop := ∀ (db : Scope) (r : Rpt), build id db = .ok r →
  ∃ j, jReport id true db = .ok j ∧ viewJO j.covergroups = viewRL r.covergroups ∧
    ∀ gv ∈ (r.covergroups.zip (j.covergroups.getD [])),
      (gv.2.coverpoints.getD []).map (·.name) = gv.1.coverpoints.map (fun c => some c.name)

namespace Ex
/-- A covergroup with one coverpoint and a cover-instance. -/
def jdb : Scope := { emptyDb with children := [mkInstance "i" SrcInfo.none 1 (some ⟨"du", SrcInfo.none, 1⟩)
  [mkCovergroup "cg" SrcInfo.none 1 [rcp, mkCoverInst "ci" SrcInfo.none 1 [rcp, rcq]]]] }

theorem build_jdb : build id jdb = .ok (pRpt id jdb) := by
  rw [build_ok]
  refine ⟨?_, rfl⟩
  have h : ∀ i ∈ kids ST.INSTANCE jdb, (∀ s ∈ kids ST.COVERGROUP i, ∀ g ∈ groupTree s,
    (∀ c ∈ kids ST.COVERPOINT g, ∀ k ∈ [CT.CVGBIN, CT.IGNOREBIN, CT.ILLEGALBIN], ∀ i ∈ itemsOfKind k c, i.atLeast ≠ none)
      ∧ (∀ c ∈ kids ST.CROSS g, ∀ i ∈ itemsOfKind CT.CVGBIN c, i.atLeast ≠ none)) ∧
    weightSum (kids ST.COVERGROUP i) ≠ 0 := by decide
  exact h
end Ex

example : build id Ex.jdb = .ok (pRpt id Ex.jdb) ∧ crossesOfL (pRpt id Ex.jdb).covergroups = [] := ⟨Ex.build_jdb, by decide +kernel⟩

/-- **C30** fails: no JSON report for a database with a cross. -/
theorem C30_json_crosses_refuted : ∃ db r, build id db = .ok r ∧ ∀ j, jReport id true db ≠ .ok j := by
  refine ⟨Ex.rdb, Ex.rrpt, Ex.build_rdb, fun j => ?_⟩
  rw [(C30_json_partial id Ex.rdb).2.1 _ Ex.build_rdb (by decide +kernel)]
  exact fun h => by cases h

/-- **C30** fails: no coverpoint in any JSON report carries a name. -/
theorem C30_json_names_refuted (details : Bool) (c : RCp) : (jCp details c).name = none := by
  unfold jCp; split <;> rfl

theorem C30_json_refuted : ¬ C30_claim := by
  intro h
  obtain ⟨j, hj, _⟩ := h Ex.rdb Ex.rrpt Ex.build_rdb
  rw [(C30_json_partial id Ex.rdb).2.1 _ Ex.build_rdb (by decide +kernel)] at hj
  cases hj

/-! ## Printed percentages -/

theorem decVal_append_zeros {d m : Nat} (hd : 0 < d) (k : Nat) :
    decVal (fixedNatL d m ++ List.replicate k '0') = decVal (fixedNatL d m) := by
  unfold decVal fixedNatL
  rw [if_neg (by omega), List.append_assoc, List.takeWhile_append_of_pos (natL_no_dot _), List.dropWhile_append_of_pos (natL_no_dot _),
    List.takeWhile_append_of_pos (natL_no_dot _), List.dropWhile_append_of_pos (natL_no_dot _)]
  simp only [List.cons_append]
  rw [List.takeWhile_cons_of_neg (by simp), List.dropWhile_cons_of_neg (by simp), List.takeWhile_cons_of_neg (by simp),
    List.dropWhile_cons_of_neg (by simp)]
  simp only [List.append_nil, List.drop_succ_cons, List.drop_zero, List.length_append, List.length_replicate]
  have e : Nat.ofDigitChars 10 (padL d (m % 10 ^ d) ++ List.replicate k '0') 0
      = 10 ^ k * Nat.ofDigitChars 10 (padL d (m % 10 ^ d)) 0 := by
    rw [Nat.ofDigitChars_append, Nat.ofDigitChars_replicate_zero]
  rw [e, pow_add]
  congr 1
  have h1 : (10 : Rat) ^ k ≠ 0 := by positivity
  have h2 : (10 : Rat) ^ (padL d (m % 10 ^ d)).length ≠ 0 := by positivity
  push_cast
  field_simp

theorem decVal_wholeL {x : Rat} (hx : 0 ≤ x) : decVal (wholeL x) = (roundHalfEven x : Rat) := by
  have hnn : 0 ≤ roundHalfEven x := by
    have := roundHalfEven_mono (x := ((0 : Int) : Rat)) (y := x) (by simpa using hx)
    rwa [roundHalfEven_int] at this
  unfold wholeL
  obtain ⟨n, hn⟩ := Int.eq_ofNat_of_zero_le hnn
  rw [hn]
  show decVal (natL n ++ ".000000".toList) = _
  unfold decVal
  rw [List.takeWhile_append_of_pos (natL_no_dot _), List.dropWhile_append_of_pos (natL_no_dot _)]
  have h1 : List.takeWhile (fun c => decide (c ≠ '.')) ".000000".toList = [] := by decide
  have h2 : (List.dropWhile (fun c => decide (c ≠ '.')) ".000000".toList).drop 1 = "000000".toList := by decide
  have h3 : Nat.ofDigitChars 10 "000000".toList 0 = 0 := by decide
  rw [h1, h2]
  simp only
  rw [h3, List.append_nil, show Nat.ofDigitChars 10 (natL n) 0 = n from Nat.ofDigitChars_ten_toDigits]
  simp

/-- **C66.** The printed percentage of a non-negative figure differs from it by at most half a unit of
the last place that is rounded to: the chosen number of decimals for `TextCoverageReportFormatter`,
two decimals for covergroups and whole percents for coverpoints and crosses in the `txt` format. -/
theorem C66_printed_percentage {x : Rat} (hx : 0 ≤ x) (n : Nat) (d o : Bool) :
    |decVal ((textCfg n d o).groupPct x).toList - x| ≤ 1 / 2 / 10 ^ n ∧
    |decVal ((textCfg n d o).leafPct x).toList - x| ≤ 1 / 2 / 10 ^ n ∧
    |decVal ((rptCfg d o).groupPct x).toList - x| ≤ 1 / 200 ∧
    |decVal ((rptCfg d o).leafPct x).toList - x| ≤ 1 / 2 := by
  simp only [textCfg, rptCfg, String.toList_ofList]
  refine ⟨decVal_fixedL hx, decVal_fixedL hx, ?_, ?_⟩
  · have e : decVal (fixedL 2 x ++ "0000".toList) = decVal (fixedL 2 x) := by
      unfold fixedL
      rw [if_neg (not_lt.2 hx)]
      exact decVal_append_zeros (by decide) 4
    rw [e]
    exact le_trans (decVal_fixedL hx) (by norm_num)
  · rw [decVal_wholeL hx]; exact roundHalfEven_err x

example : ((textCfg 2 true true).groupPct (200 / 3)) = "66.67" ∧ ((rptCfg true true).groupPct (200 / 3)) = "66.670000" ∧
    ((rptCfg true true).leafPct (200 / 3)) = "67.000000" := by decide +kernel

/-- Rounding up to an even integer from at most half below. -/
theorem roundHalfEven_eq_top {x : Rat} {z : Int} (hz : z % 2 = 0) (hx : x ≤ z) :
    roundHalfEven x = z ↔ (z : Rat) - 1 / 2 ≤ x := by
  have hh : roundHalfEven ((z : Rat) - 1 / 2) = z := by
    have hf : ⌊(z : Rat) - 1 / 2⌋ = z - 1 := by
      rw [Int.floor_eq_iff]; push_cast; constructor <;> linarith
    unfold roundHalfEven
    simp only [hf]
    push_cast
    rw [if_neg (by linarith), if_neg (by linarith), if_neg (by omega)]
    omega
  constructor
  · intro h
    have := roundHalfEven_err x
    rw [h, abs_le] at this
    linarith
  · intro h
    have h1 := roundHalfEven_mono h
    have h2 := roundHalfEven_mono hx
    rw [hh] at h1
    rw [roundHalfEven_int] at h2
    omega

theorem fixedNatL_injective {d m m' : Nat} (h : fixedNatL d m = fixedNatL d m') : m = m' := by
  have := congrArg decVal h
  rw [decVal_fixedNatL, decVal_fixedNatL, div_left_inj' (by positivity)] at this
  exact_mod_cast this

theorem fixedL_eq_hundred {d : Nat} {x : Rat} (h0 : 0 ≤ x) (h1 : x ≤ 100) :
    fixedL d x = fixedL d 100 ↔ 100 - 1 / 2 / 10 ^ d ≤ x := by
  have hp : (0 : Rat) < 10 ^ d := by positivity
  have hnn : 0 ≤ roundHalfEven (x * 10 ^ d) := by
    have := roundHalfEven_mono (x := ((0 : Int) : Rat)) (y := x * 10 ^ d) (by push_cast; positivity)
    rwa [roundHalfEven_int] at this
  have e100 : roundHalfEven ((100 : Rat) * 10 ^ d) = 100 * 10 ^ d := by
    have := roundHalfEven_int (100 * 10 ^ d)
    push_cast at this; exact this
  have hle : x * 10 ^ d ≤ ((100 * 10 ^ d : Int) : Rat) := by
    push_cast; exact mul_le_mul_of_nonneg_right h1 hp.le
  have key := roundHalfEven_eq_top (x := x * 10 ^ d) (z := 100 * 10 ^ d) (by rw [Int.mul_emod]; simp) hle
  have : fixedL d x = fixedL d 100 ↔ roundHalfEven (x * 10 ^ d) = 100 * 10 ^ d := by
    unfold fixedL
    rw [if_neg (not_lt.2 h0), if_neg (by norm_num), List.nil_append, List.nil_append, abs_of_nonneg h0, abs_of_nonneg (by norm_num), e100]
    constructor
    · intro h
      have := fixedNatL_injective h
      have h100 : (0 : Int) ≤ 100 * 10 ^ d := by positivity
      omega
    · intro h; rw [h]
  rw [this, key]
  push_cast
  constructor
  · intro h
    have : (100 - 1 / 2 / 10 ^ d) * 10 ^ d ≤ x * 10 ^ d := by
      rw [sub_mul, div_mul_cancel₀ _ hp.ne']; exact h
    exact le_of_mul_le_mul_right this hp
  · intro h
    have := mul_le_mul_of_nonneg_right h hp.le
    rw [sub_mul, div_mul_cancel₀ _ hp.ne'] at this
    exact this

theorem share_top {t h : Nat} (ht : 0 < t) (hh : h ≤ t) (d : Nat) :
    100 - 1 / 2 / 10 ^ d ≤ 100 * (h : Rat) / (t : Rat) ↔ 200 * 10 ^ d * (t - h) ≤ t := by
  have htp : (0 : Rat) < t := by exact_mod_cast ht
  have hp : (0 : Rat) < 10 ^ d := by positivity
  have e : ((t - h : Nat) : Rat) = (t : Rat) - h := by push_cast [Nat.cast_sub hh]; ring
  have : (200 * 10 ^ d * (t - h) ≤ t) ↔ 200 * 10 ^ d * ((t : Rat) - h) ≤ t := by
    rw [← e]; exact_mod_cast Iff.rfl
  rw [this, le_div_iff₀ htp]
  constructor
  · intro hx
    have h3 := mul_le_mul_of_nonneg_right hx (show (0 : Rat) ≤ 2 * 10 ^ d by positivity)
    have h4 : (100 - 1 / 2 / 10 ^ d) * (t : Rat) * (2 * 10 ^ d) = 200 * 10 ^ d * t - t := by field_simp; ring
    rw [h4] at h3
    linarith
  · intro hx
    have h4 : (100 - 1 / 2 / 10 ^ d) * (t : Rat) * (2 * 10 ^ d) = 200 * 10 ^ d * t - t := by field_simp; ring
    have : (100 - 1 / 2 / 10 ^ d) * (t : Rat) * (2 * 10 ^ d) ≤ 100 * h * (2 * 10 ^ d) := by rw [h4]; linarith
    exact le_of_mul_le_mul_right this (by positivity)

theorem wholeL_eq_hundred {x : Rat} (h1 : x ≤ 100) : wholeL x = wholeL 100 ↔ 100 - 1 / 2 / 10 ^ 0 ≤ x := by
  have e100 : roundHalfEven (100 : Rat) = 100 := roundHalfEven_int 100
  have key := roundHalfEven_eq_top (x := x) (z := 100) (by decide) (by simpa using h1)
  have : wholeL x = wholeL 100 ↔ roundHalfEven x = 100 := by
    unfold wholeL
    rw [e100, List.append_left_inj]
    constructor
    · intro h
      exact strInt_injective (congrArg String.ofList h)
    · intro h; rw [h]
  rw [this, key]
  norm_num

/-- The full claim of **C67** for one way of printing: a coverpoint printed like a figure of 100% has reached all its bins. -/
def C67_claim (pct : Rat → String) : Prop :=
  ∀ (s : Scope) (rc : RCp), buildCoverpoint id s = .ok rc → pct rc.coverage = pct 100 →
    ∀ i ∈ itemsOfKind CT.CVGBIN s, reached i

theorem hitShare_print {P : Rat → Prop} {d : Nat} (s : Scope)
    (hP : ∀ x, 0 ≤ x → x ≤ 100 → (P x ↔ 100 - 1 / 2 / 10 ^ d ≤ x)) :
    P (hitShare s) ↔ 0 < numBins s ∧ 200 * 10 ^ d * (numBins s - numReached s) ≤ numBins s := by
  rw [hP _ (hitShare_nonneg s) (hitShare_le s)]
  by_cases h : numBins s = 0
  · simp only [hitShare, h, if_true, lt_irrefl, false_and, iff_false, not_le]
    have : (1 : Rat) / 2 / 10 ^ d ≤ 1 / 2 := by
      apply div_le_self (by norm_num)
      exact one_le_pow₀ (by norm_num)
    linarith
  · have hp : 0 < numBins s := Nat.pos_of_ne_zero h
    simp only [hitShare, h, if_false]
    rw [share_top hp (numReached_le s)]
    simp [hp]

theorem all_reached_of_eq {s : Scope} (h : numReached s = numBins s) : ∀ i ∈ itemsOfKind CT.CVGBIN s, reached i := by
  have := List.countP_eq_length.1 h
  simpa using this

/-- **C67**, exact conditions.  A coverpoint with `t > 0` ordinary bins of which `h` have reached their
threshold is printed as 100% with `n` decimals exactly when `200 * 10^n * (t - h) ≤ t`, and in the
`txt` format exactly when `200 * (t - h) ≤ t`.  So 100% is printed only for fully covered coverpoints
as long as there are fewer than `200 * 10^n` (200 in the `txt` format) bins.  Missing: larger
coverpoints (`C67_text_refuted`, `C67_txt_refuted`). -/
theorem C67_printed_hundred_partial (s : Scope) (rc : RCp) (hb : buildCoverpoint id s = .ok rc) (n : Nat) (d o : Bool) :
    ((textCfg n d o).leafPct rc.coverage = (textCfg n d o).leafPct 100 ↔
      0 < numBins s ∧ 200 * 10 ^ n * (numBins s - numReached s) ≤ numBins s) ∧
    ((rptCfg d o).leafPct rc.coverage = (rptCfg d o).leafPct 100 ↔
      0 < numBins s ∧ 200 * (numBins s - numReached s) ≤ numBins s) ∧
    (numBins s < 200 * 10 ^ n → (textCfg n d o).leafPct rc.coverage = (textCfg n d o).leafPct 100 →
      ∀ i ∈ itemsOfKind CT.CVGBIN s, reached i) ∧
    (numBins s < 200 → (rptCfg d o).leafPct rc.coverage = (rptCfg d o).leafPct 100 →
      ∀ i ∈ itemsOfKind CT.CVGBIN s, reached i) := by
  obtain ⟨_, rfl⟩ := (buildCoverpoint_ok id s rc).1 hb
  simp only [pCp, leafCov_id]
  have inj : ∀ a b : List Char, String.ofList a = String.ofList b ↔ a = b := fun a b =>
    ⟨fun h => by have := congrArg String.toList h; simpa [String.toList_ofList] using this, fun h => by rw [h]⟩
  have a1 : ((textCfg n d o).leafPct (hitShare s) = (textCfg n d o).leafPct 100 ↔
      0 < numBins s ∧ 200 * 10 ^ n * (numBins s - numReached s) ≤ numBins s) :=
    hitShare_print (P := fun x => (textCfg n d o).leafPct x = (textCfg n d o).leafPct 100) s
      (fun x h0 h1 => (inj _ _).trans (fixedL_eq_hundred h0 h1))
  have a2 : ((rptCfg d o).leafPct (hitShare s) = (rptCfg d o).leafPct 100 ↔
      0 < numBins s ∧ 200 * (numBins s - numReached s) ≤ numBins s) := by
    have := hitShare_print (P := fun x => (rptCfg d o).leafPct x = (rptCfg d o).leafPct 100) (d := 0) s
      (fun x _ h1 => (inj _ _).trans (wholeL_eq_hundred h1))
    simpa using this
  have full : ∀ k, numBins s < k → k * (numBins s - numReached s) ≤ numBins s → numReached s = numBins s := by
    intro k h1 h2
    have := numReached_le s
    by_contra hne
    have : 1 ≤ numBins s - numReached s := by omega
    have := Nat.mul_le_mul_left k this
    omega
  exact ⟨a1, a2, fun hlt hpr => all_reached_of_eq (full _ hlt (a1.1 hpr).2),
    fun hlt hpr => all_reached_of_eq (full _ hlt (a2.1 hpr).2)⟩

/-- A coverpoint with `h` hit bins and one unhit bin. -/
def Ex.almost (h : Nat) : Scope :=
  mkCoverpoint "cp" SrcInfo.none 1 (List.replicate h (mkBin "a" CT.CVGBIN 1 1) ++ [mkBin "z" CT.CVGBIN 1 0])

theorem Ex.almost_items (h : Nat) : itemsOfKind CT.CVGBIN (Ex.almost h)
    = List.replicate h (mkBin "a" CT.CVGBIN 1 1) ++ [mkBin "z" CT.CVGBIN 1 0] := by
  unfold itemsOfKind Ex.almost mkCoverpoint
  have h1 : maskHit CT.CVGBIN CT.CVGBIN = true := by decide
  simp [List.filter_append, List.filter_replicate, mkBin, h1, List.filter]

theorem Ex.almost_ok (h : Nat) : buildCoverpoint id (Ex.almost h) = .ok (pCp id (Ex.almost h)) := by
  rw [buildCoverpoint_ok]
  refine ⟨?_, rfl⟩
  intro k _ i hi
  have : i ∈ List.replicate h (mkBin "a" CT.CVGBIN 1 1) ++ [mkBin "z" CT.CVGBIN 1 0] := (List.mem_filter.1 hi).1
  rcases List.mem_append.1 this with h1 | h1
  · rw [List.eq_of_mem_replicate h1]; simp [mkBin]
  · simp at h1; rw [h1]; simp [mkBin]

theorem Ex.almost_bins (h : Nat) : numBins (Ex.almost h) = h + 1 := by
  unfold numBins; rw [Ex.almost_items]; simp

theorem Ex.almost_reached (h : Nat) : numReached (Ex.almost h) = h := by
  unfold numReached
  rw [Ex.almost_items, List.countP_append, List.countP_replicate]
  have h1 : decide (reached (mkBin "a" CT.CVGBIN 1 1)) = true := by decide
  have h2 : decide (reached (mkBin "z" CT.CVGBIN 1 0)) = false := by decide
  rw [h1]; simp [h2]

theorem Ex.almost_not (h : Nat) : ¬ ∀ i ∈ itemsOfKind CT.CVGBIN (Ex.almost h), reached i := by
  intro hall
  have := hall (mkBin "z" CT.CVGBIN 1 0) (by rw [Ex.almost_items]; simp)
  exact absurd this (by decide)

/-- **C67** fails for every number of decimals: one of `200 * 10^n` bins is not hit, 100% is printed. -/
theorem C67_text_refuted (n : Nat) (d o : Bool) : ¬ C67_claim (textCfg n d o).leafPct := by
  intro h
  refine Ex.almost_not (200 * 10 ^ n - 1) (h _ _ (Ex.almost_ok _) ?_)
  rw [(C67_printed_hundred_partial _ _ (Ex.almost_ok _) n d o).1, Ex.almost_bins, Ex.almost_reached]
  have : 0 < 10 ^ n := by positivity
  refine ⟨by omega, ?_⟩
  rw [Nat.add_sub_cancel_left]
  omega

/-- **C67** fails for the `txt` format: 199 of 200 bins are printed as 100%. -/
theorem C67_txt_refuted (d o : Bool) : ¬ C67_claim (rptCfg d o).leafPct := by
  intro h
  refine Ex.almost_not 199 (h _ _ (Ex.almost_ok _) ?_)
  rw [(C67_printed_hundred_partial _ _ (Ex.almost_ok _) 0 d o).2.1, Ex.almost_bins, Ex.almost_reached]
  decide

end Verif
