import Verif.FormatSpec
import Verif.ReportThms2
/-!
# Properties C28, C29, C30 (and C66, C67: printed percentages)
-/

namespace Verif
open Spec Report Format PyNum

/-! ## Layout -/

theorem dropLast4_enter (s : String) : dropLast4 (s ++ "    ") = s := by
  unfold dropLast4
  rw [String.toList_append, List.length_append]
  rw [show ("    ".toList).length = 4 from rfl, Nat.add_sub_cancel, List.take_left', String.ofList_toList]
  rfl

mutual
theorem Spec.Outline.lines_succ (d : Nat) : ∀ o : Outline,
    o.lines (d + 1) = (o.lines d).map (fun l => (l.1 + 1, l.2))
  | .node h ks => by
    rw [Outline.lines, Outline.lines, List.map_cons, Outline.linesL_succ (d + 1) ks]
termination_by structural o => o
theorem Spec.Outline.linesL_succ (d : Nat) : ∀ l : List Outline,
    Outline.linesL (d + 1) l = (Outline.linesL d l).map (fun l => (l.1 + 1, l.2))
  | [] => rfl
  | o :: t => by
    rw [Outline.linesL, Outline.linesL, List.map_append, Outline.lines_succ d o, Outline.linesL_succ d t]
termination_by structural l => l
end

theorem Spec.Outline.linesL_append (d : Nat) (a b : List Outline) :
    Outline.linesL d (a ++ b) = Outline.linesL d a ++ Outline.linesL d b := by
  induction a with
  | nil => rfl
  | cons o t ih => rw [List.cons_append, Outline.linesL, Outline.linesL, ih, List.append_assoc]

theorem indent_succ (d : Nat) : indent (d + 1) = "    " ++ indent d := by
  unfold indent
  rw [show 4 * (d + 1) = 4 + 4 * d from by omega, List.replicate_add, String.ofList_append]
  rfl

theorem printed_enter (ind : String) (d : Nat) (t : String) : printed (ind ++ "    ") (d, t) = printed ind (d + 1, t) := by
  unfold printed
  rw [indent_succ]
  simp only [String.append_assoc]

/-- Printing a list of outlines in a state. -/
def put (w : W) (l : List Outline) : W := { w with out := w.out ++ (Outline.linesL 0 l).map (printed w.ind) }

theorem put_append (w : W) (a b : List Outline) : put (put w a) b = put w (a ++ b) := by
  simp [put, Outline.linesL_append]

theorem put_nil (w : W) : put w [] = w := by cases w; simp [put, Outline.linesL]

theorem writeln_put (w : W) (s : String) : writeln w s = put w [.node s []] := by
  simp [writeln, put, Outline.linesL, Outline.lines, printed, indent]

theorem exit_put (w : W) (l : List Outline) (h : String) :
    exit (put (enter (writeln w h)) l) = put w [.node h l] := by
  cases w with
  | mk ind out =>
    simp only [exit, put, enter, writeln, dropLast4_enter, Outline.linesL, Outline.lines, List.append_nil, List.map_cons,
      W.mk.injEq, true_and]
    rw [Outline.linesL_succ, List.map_map, List.append_assoc]
    congr 1
    rw [List.singleton_append]
    congr 1
    · simp [printed, indent]
    · apply List.map_congr_left
      rintro ⟨d, t⟩ _
      exact printed_enter ind d t

theorem foldl_put {α : Type} (f : W → α → W) (g : α → List Outline) (h : ∀ w a, f w a = put w (g a)) (l : List α) (w : W) :
    l.foldl f w = put w (l.flatMap g) := by
  induction l generalizing w with
  | nil => simp [put_nil]
  | cons a t ih => rw [List.foldl_cons, h, ih, put_append, List.flatMap_cons]

/-- The order produced by `report_bins`. -/
def hitOrder (byHit : Bool) (l : List RBin) : List RBin :=
  if byHit then l.filter (·.hit) ++ l.filter (fun b => !b.hit) else l

theorem reportBins_put (cfg : Cfg) (w : W) (l : List RBin) :
    reportBins cfg w l = put w ((hitOrder cfg.orderBinsByHit l).map binOutline) := by
  unfold reportBins hitOrder
  have key : ∀ (p : RBin → Bool) (l : List RBin) (w : W),
      l.foldl (fun w b => if p b then writeln w (binText b) else w) w = put w ((l.filter p).map binOutline) := by
    intro p l
    induction l with
    | nil => intro w; simp [put_nil]
    | cons a t ih =>
      intro w
      rw [List.foldl_cons, List.filter_cons]
      split
      · rw [ih, writeln_put, put_append]; rfl
      · exact ih w
  split
  · simp only
    rw [key (fun b => b.hit)]
    have e : (fun (w : W) (b : RBin) => if b.hit then w else writeln w (binText b))
        = (fun w b => if (!b.hit) = true then writeln w (binText b) else w) := by
      funext w b; cases b.hit <;> simp
    rw [e, key (fun b => !b.hit), put_append, List.map_append]
  · have := key (fun _ => true) l w
    simpa using this

theorem binOrder_hitOrder (byHit : Bool) : BinOrder byHit (hitOrder byHit) := by
  cases byHit with
  | false => exact ⟨fun l => List.Perm.refl _, fun _ => rfl, fun _ => rfl, by simp, fun _ _ => rfl⟩
  | true =>
    refine ⟨fun l => ?_, fun l => ?_, fun l => ?_, fun _ l => ?_, by simp⟩
    · exact List.filter_append_perm (fun b : RBin => b.hit) l
    · simp [hitOrder, List.filter_append, List.filter_filter]
    · simp [hitOrder, List.filter_append, List.filter_filter]
    · simp only [hitOrder, if_true]
      rw [List.pairwise_append]
      refine ⟨?_, ?_, ?_⟩
      · rw [List.pairwise_filter]
        exact List.Pairwise.imp_of_mem (fun {a b} _ _ _ ha _ _ => ha) (List.pairwise_of_forall (R := fun _ _ => True) (fun _ _ => trivial) )
      · rw [List.pairwise_filter]
        exact List.Pairwise.imp_of_mem (fun {a b} _ _ _ _ hb hb' => absurd hb' (by simpa using hb)) (List.pairwise_of_forall (R := fun _ _ => True) (fun _ _ => trivial))
      · intro a ha b _ _
        exact (List.mem_filter.1 ha).2

theorem reportCp_put (cfg : Cfg) (w : W) (c : RCp) :
    reportCp cfg w c = put w (cpOutline cfg (hitOrder cfg.orderBinsByHit) c) := by
  unfold reportCp cpOutline
  have hh : "CVP " ++ c.name ++ " : " ++ cfg.leafPct c.coverage ++ "%" = heading "CVP" c.name (cfg.leafPct c.coverage) := by
    unfold heading; rw [show "CVP " = "CVP" ++ " " from rfl]
  rw [hh]
  have opt : ∀ (w : W) (t : String) (l : List RBin),
      (if l.length > 0 then exit (reportBins cfg (enter (writeln w t)) l) else w)
        = put w (binList (hitOrder cfg.orderBinsByHit) t true l) := by
    intro w t l
    unfold binList
    cases l with
    | nil => simp [put_nil]
    | cons a l => simp [reportBins_put, exit_put]
  cases hd : cfg.details with
  | false => simp [writeln_put]
  | true =>
    simp only [if_true]
    rw [opt, opt, reportBins_put, exit_put, writeln_put]
    simp only [put_append]
    simp [binList]

theorem reportCross_put (cfg : Cfg) (w : W) (c : RCross) :
    reportCross cfg w c = put w (crossOutline cfg (hitOrder cfg.orderBinsByHit) c) := by
  unfold reportCross crossOutline
  have hh : "CROSS " ++ c.name ++ " : " ++ cfg.leafPct c.coverage ++ "%" = heading "CROSS" c.name (cfg.leafPct c.coverage) := by
    unfold heading; rw [show "CROSS " = "CROSS" ++ " " from rfl]
  rw [hh]
  cases hd : cfg.details with
  | false => simp [writeln_put]
  | true =>
    simp only [if_true]
    rw [reportBins_put, exit_put, writeln_put]
    simp only [put_append]
    simp [binList]

mutual
theorem reportCg_put (cfg : Cfg) (b : Bool) : ∀ (w : W) (g : RCg),
    reportCg cfg b w g = put w [groupOutline cfg (hitOrder cfg.orderBinsByHit) (if b then "INST" else "TYPE") g]
  | w, ⟨name, inst, coverage, weight, cps, crs, cgs⟩ => by
    rw [reportCg, groupOutline]
    rw [foldl_put _ _ (reportCp_put cfg), foldl_put _ _ (reportCross_put cfg), reportCgs_put cfg _ cgs]
    simp only [put_append]
    rw [exit_put]
    rfl
termination_by structural _ g => g
theorem reportCgs_put (cfg : Cfg) : ∀ (w : W) (l : List RCg),
    reportCgs cfg w l = put w (groupOutlines cfg (hitOrder cfg.orderBinsByHit) l)
  | w, [] => by simp [reportCgs, groupOutlines, put_nil]
  | w, g :: t => by
    rw [reportCgs, groupOutlines, reportCg_put cfg true w g, reportCgs_put cfg _ t, put_append]
    rfl
termination_by structural _ l => l
end

theorem report_put (cfg : Cfg) (r : Rpt) (w : W) :
    report cfg r w = put w (reportOutline cfg (hitOrder cfg.orderBinsByHit) r) := by
  unfold report reportOutline
  rw [foldl_put _ (fun g => [groupOutline cfg (hitOrder cfg.orderBinsByHit) "TYPE" g])]
  · rw [List.map_eq_flatMap]
  · intro w g; exact reportCg_put cfg false w g

/-- **C28, C29.** A text report writes exactly the lines of the report's outline, each indented by
four blanks per level below the initial indentation, and restores the indentation.  With ordering
by hit, bins are listed hit ones first, otherwise in the order of the report; in both cases each
class keeps its order and no bin is lost or repeated. -/
theorem C28_text_layout (cfg : Cfg) (r : Rpt) (w : W) : ∃ order, BinOrder cfg.orderBinsByHit order ∧
    (report cfg r w).out = w.out ++ (Outline.linesL 0 (reportOutline cfg order r)).map (printed w.ind) ∧
    (report cfg r w).ind = w.ind := by
  refine ⟨_, binOrder_hitOrder _, ?_, ?_⟩ <;> rw [report_put] <;> rfl


theorem lines_binOutline (d : Nat) (l : List RBin) :
    Outline.linesL d (l.map binOutline) = l.map (fun b => (d, b.name ++ " : " ++ strInt b.count)) := by
  induction l with
  | nil => rfl
  | cons a t ih => simp [Outline.linesL, binOutline, Outline.lines, ih]

/-- **C29.** With ordering by hit switched on, the lines printed for a list of bins are those of a
rearrangement of the list in which all hit bins come before all other bins and each class keeps its order. -/
theorem C29_order_by_hit (cfg : Cfg) (h : cfg.orderBinsByHit = true) (w : W) (bins : List RBin) :
    ∃ l : List RBin, l.Perm bins ∧ l.filter (·.hit) = bins.filter (·.hit) ∧
      l.filter (fun b => !b.hit) = bins.filter (fun b => !b.hit) ∧
      l.Pairwise (fun a b => b.hit = true → a.hit = true) ∧
      (reportBins cfg w bins).out = w.out ++ l.map (fun b => w.ind ++ (b.name ++ " : " ++ strInt b.count) ++ "\n") := by
  have ho := binOrder_hitOrder cfg.orderBinsByHit
  refine ⟨hitOrder cfg.orderBinsByHit bins, ho.perm _, ho.hits _, ho.others _, ho.sorted h _, ?_⟩
  rw [reportBins_put, put, lines_binOutline, List.map_map]
  simp [printed, indent, Function.comp_def]

theorem linesL_flatMap (d : Nat) {α : Type} (f : α → List Outline) (l : List α) :
    Outline.linesL d (l.flatMap f) = l.flatMap (fun a => Outline.linesL d (f a)) := by
  induction l with
  | nil => rfl
  | cons a t ih => rw [List.flatMap_cons, List.flatMap_cons, Outline.linesL_append, ih]

theorem binList_perm {o o' : List RBin → List RBin} (h : ∀ l, (o l).Perm (o' l)) (d : Nat) (t : String) (b : Bool) (l : List RBin) :
    (Outline.linesL d (binList o t b l)).Perm (Outline.linesL d (binList o' t b l)) := by
  unfold binList
  split
  · exact List.Perm.refl _
  · simp only [Outline.linesL, Outline.lines, List.append_nil, lines_binOutline]
    exact List.Perm.cons _ ((h l).map _)

theorem cpOutline_perm (cfg : Cfg) {o o' : List RBin → List RBin} (h : ∀ l, (o l).Perm (o' l)) (d : Nat) (c : RCp) :
    (Outline.linesL d (cpOutline cfg o c)).Perm (Outline.linesL d (cpOutline cfg o' c)) := by
  unfold cpOutline
  rw [Outline.linesL, Outline.linesL]
  apply List.Perm.append_left
  split
  · simp only [Outline.linesL_append]
    exact ((binList_perm h _ _ _ _).append (binList_perm h _ _ _ _)).append (binList_perm h _ _ _ _)
  · exact List.Perm.refl _

theorem crossOutline_perm (cfg : Cfg) {o o' : List RBin → List RBin} (h : ∀ l, (o l).Perm (o' l)) (d : Nat) (c : RCross) :
    (Outline.linesL d (crossOutline cfg o c)).Perm (Outline.linesL d (crossOutline cfg o' c)) := by
  unfold crossOutline
  rw [Outline.linesL, Outline.linesL]
  apply List.Perm.append_left
  split
  · exact binList_perm h _ _ _ _
  · exact List.Perm.refl _

theorem flatMap_perm {α β : Type} {f g : α → List β} (l : List α) (h : ∀ a, (f a).Perm (g a)) :
    (l.flatMap f).Perm (l.flatMap g) := by
  induction l with
  | nil => exact List.Perm.refl _
  | cons a t ih => exact (h a).append ih

mutual
theorem groupOutline_perm (cfg : Cfg) {o o' : List RBin → List RBin} (h : ∀ l, (o l).Perm (o' l)) (d : Nat) (k : String) :
    ∀ g : RCg, ((groupOutline cfg o k g).lines d).Perm ((groupOutline cfg o' k g).lines d)
  | ⟨name, inst, coverage, weight, cps, crs, cgs⟩ => by
    rw [groupOutline, groupOutline, Outline.lines, Outline.lines]
    apply List.Perm.cons
    simp only [Outline.linesL_append, linesL_flatMap]
    exact ((flatMap_perm _ (cpOutline_perm cfg h (d + 1))).append
      (flatMap_perm _ (crossOutline_perm cfg h (d + 1)))).append (groupOutlines_perm cfg h (d + 1) cgs)
termination_by structural g => g
theorem groupOutlines_perm (cfg : Cfg) {o o' : List RBin → List RBin} (h : ∀ l, (o l).Perm (o' l)) (d : Nat) :
    ∀ l : List RCg, (Outline.linesL d (groupOutlines cfg o l)).Perm (Outline.linesL d (groupOutlines cfg o' l))
  | [] => List.Perm.refl _
  | g :: t => by
    rw [groupOutlines, groupOutlines, Outline.linesL, Outline.linesL]
    exact (groupOutline_perm cfg h d "INST" g).append (groupOutlines_perm cfg h d t)
termination_by structural l => l
end

mutual
theorem groupOutline_flag (d b b' : Bool) (g l : Rat → String) (o : List RBin → List RBin) (k : String) :
    ∀ c : RCg, groupOutline ⟨d, b, g, l⟩ o k c = groupOutline ⟨d, b', g, l⟩ o k c
  | ⟨name, inst, coverage, weight, cps, crs, cgs⟩ => by
    rw [groupOutline, groupOutline, groupOutlines_flag d b b' g l o cgs]; rfl
termination_by structural c => c
theorem groupOutlines_flag (d b b' : Bool) (g l : Rat → String) (o : List RBin → List RBin) :
    ∀ c : List RCg, groupOutlines ⟨d, b, g, l⟩ o c = groupOutlines ⟨d, b', g, l⟩ o c
  | [] => rfl
  | c :: t => by
    rw [groupOutlines, groupOutlines, groupOutline_flag d b b' g l o _ c, groupOutlines_flag d b b' g l o t]
termination_by structural c => c
end

/-- **C29**, whole reports: switching ordering by hit on or off only permutes the printed lines. -/
theorem C29_same_lines (details : Bool) (g l : Rat → String) (r : Rpt) (ind : String) :
    (report ⟨details, true, g, l⟩ r ⟨ind, []⟩).out.Perm (report ⟨details, false, g, l⟩ r ⟨ind, []⟩).out := by
  rw [report_put, report_put]
  simp only [put, List.nil_append]
  apply List.Perm.map
  unfold reportOutline
  rw [List.map_eq_flatMap, List.map_eq_flatMap, linesL_flatMap, linesL_flatMap]
  apply flatMap_perm
  intro a
  simp only [Outline.linesL, List.append_nil]
  have hp : ∀ l, (hitOrder true l).Perm (hitOrder false l) := fun l =>
    ((binOrder_hitOrder true).perm l).trans ((binOrder_hitOrder false).perm l).symm
  have := groupOutline_perm ⟨details, true, g, l⟩ hp 0 "TYPE" a
  rwa [groupOutline_flag details true false g l (hitOrder false)] at this

namespace Ex
/-- A small report with all kinds of items. -/
def frpt : Rpt := ⟨[⟨"cg", "cg", 50, 1, [⟨"cp", 50, 1, [⟨"a", 1, 0⟩, ⟨"b", 2, 3⟩], [⟨"i", 1, 1⟩], []⟩],
  [⟨"cr", 0, 1, [⟨"x", 1, 0⟩]⟩], [⟨"ci", "ci", 0, 1, [], [], []⟩]⟩], [], 50⟩
end Ex

example : (report (textCfg 2 true true) Ex.frpt ⟨"", []⟩).out =
    ["TYPE cg : 50.00%\n", "    CVP cp : 50.00%\n", "    Bins:\n", "        b : 3\n", "        a : 0\n",
     "    IgnoreBins:\n", "        i : 1\n", "    CROSS cr : 0.00%\n", "    Bins:\n", "        x : 0\n", "    INST ci : 0.00%\n"] := by
  decide +kernel

/-! ## Number of lines and text -/

theorem items_cp (cfg : Cfg) (hd : cfg.details = false) (o : List RBin → List RBin) (d : Nat) (l : List RCp) :
    (Outline.linesL d (l.flatMap (cpOutline cfg o))).length = l.length := by
  induction l with
  | nil => rfl
  | cons a t ih => rw [List.flatMap_cons, Outline.linesL_append]; simp [cpOutline, hd, Outline.linesL, Outline.lines, ih]

theorem items_cross (cfg : Cfg) (hd : cfg.details = false) (o : List RBin → List RBin) (d : Nat) (l : List RCross) :
    (Outline.linesL d (l.flatMap (crossOutline cfg o))).length = l.length := by
  induction l with
  | nil => rfl
  | cons a t ih => rw [List.flatMap_cons, Outline.linesL_append]; simp [crossOutline, hd, Outline.linesL, Outline.lines, ih]

mutual
theorem items_group (cfg : Cfg) (hd : cfg.details = false) (o : List RBin → List RBin) (d : Nat) (k : String) :
    ∀ g : RCg, ((groupOutline cfg o k g).lines d).length = groupItems g
  | ⟨name, inst, coverage, weight, cps, crs, cgs⟩ => by
    rw [groupOutline, groupItems, Outline.lines, Outline.linesL_append, Outline.linesL_append]
    simp only [List.length_cons, List.length_append, items_cp cfg hd, items_cross cfg hd, items_groups cfg hd o (d + 1) cgs]
    omega
termination_by structural g => g
theorem items_groups (cfg : Cfg) (hd : cfg.details = false) (o : List RBin → List RBin) (d : Nat) :
    ∀ l : List RCg, (Outline.linesL d (groupOutlines cfg o l)).length = groupItemsL l
  | [] => rfl
  | g :: t => by
    rw [groupOutlines, groupItemsL, Outline.linesL, List.length_append, items_group cfg hd o d "INST" g, items_groups cfg hd o d t]
termination_by structural l => l
end

theorem groupItemsL_sum (l : List RCg) : groupItemsL l = (l.map groupItems).sum := by
  induction l with
  | nil => rfl
  | cons a t ih => rw [groupItemsL, ih]; rfl

/-- **C28.** Without details there is exactly one line per covergroup, cover-instance, coverpoint and cross. -/
theorem C28_line_count (cfg : Cfg) (hd : cfg.details = false) (r : Rpt) (ind : String) :
    (report cfg r ⟨ind, []⟩).out.length = (r.covergroups.map groupItems).sum := by
  rw [report_put]
  simp only [put, List.nil_append, List.length_map]
  unfold reportOutline
  generalize r.covergroups = l
  induction l with
  | nil => rfl
  | cons a t ih => rw [List.map_cons, Outline.linesL, List.length_append, ih, items_group cfg hd]; rfl

example : (report (textCfg 2 false false) Ex.frpt ⟨"", []⟩).out.length = 4 := by decide +kernel

theorem linesOf_append_newline {t : List Char} (ht : '\n' ∉ t) (rest : List Char) :
    linesOf (t ++ '\n' :: rest) = t :: linesOf rest := by
  induction t with
  | nil => simp [linesOf]
  | cons c t ih =>
    have hc : c ≠ '\n' := by rintro rfl; exact ht (by simp)
    have := ih (fun h => ht (by simp [h]))
    rw [List.cons_append, linesOf, if_neg hc, this]

/-- The text written by the formatter. -/
def textOf (out : List String) : List Char := out.flatMap String.toList

mutual
/-- All headings of an outline. -/
def Spec.Outline.heads : Outline → List String
  | .node h ks => h :: Outline.headsL ks
termination_by structural o => o
def Spec.Outline.headsL : List Outline → List String
  | [] => []
  | o :: t => Outline.heads o ++ Outline.headsL t
termination_by structural l => l
end

mutual
theorem Spec.Outline.lines_heads (d : Nat) : ∀ o : Outline, (o.lines d).map (·.2) = o.heads
  | .node h ks => by rw [Outline.lines, Outline.heads, List.map_cons, Outline.linesL_heads (d + 1) ks]
termination_by structural o => o
theorem Spec.Outline.linesL_heads (d : Nat) : ∀ l : List Outline, (Outline.linesL d l).map (·.2) = Outline.headsL l
  | [] => rfl
  | o :: t => by rw [Outline.linesL, Outline.headsL, List.map_append, Outline.lines_heads d o, Outline.linesL_heads d t]
termination_by structural l => l
end

/-- Printed lines come back when the text is split at newlines, provided no heading contains one. -/
theorem linesOf_printed (ind : String) (hi : '\n' ∉ ind.toList) (l : List (Nat × String))
    (hl : ∀ x ∈ l, '\n' ∉ x.2.toList) :
    linesOf (textOf (l.map (printed ind))) = l.map (fun x => ind.toList ++ List.replicate (4 * x.1) ' ' ++ x.2.toList) := by
  induction l with
  | nil => rfl
  | cons a t ih =>
    have h1 : textOf ((a :: t).map (printed ind))
        = (ind.toList ++ List.replicate (4 * a.1) ' ' ++ a.2.toList) ++ '\n' :: textOf (t.map (printed ind)) := by
      simp [textOf, printed, indent, String.toList_append]
    rw [h1, linesOf_append_newline, ih (fun x hx => hl x (by simp [hx])), List.map_cons]
    simp only [List.mem_append, not_or]
    refine ⟨⟨hi, ?_⟩, hl a (by simp)⟩
    intro h
    have := List.eq_of_mem_replicate h
    exact absurd this (by decide)

/-- No newline in a string. -/
def OneLine (s : String) : Prop := '\n' ∉ s.toList

theorem OneLine.append {a b : String} (ha : OneLine a) (hb : OneLine b) : OneLine (a ++ b) := by
  unfold OneLine at *; rw [String.toList_append, List.mem_append]; exact not_or.2 ⟨ha, hb⟩

theorem oneLine_intL (z : Int) : '\n' ∉ intL z := by
  intro h
  cases z with
  | ofNat n => exact absurd (natL_digit h) (by decide)
  | negSucc n =>
    rcases List.mem_cons.1 h with h | h
    · exact absurd h (by decide)
    · exact absurd (natL_digit h) (by decide)

theorem oneLine_strInt (z : Int) : OneLine (strInt z) := by
  unfold OneLine strInt; rw [String.toList_ofList]; exact oneLine_intL z

theorem oneLine_natL (n : Nat) : '\n' ∉ natL n := fun h => absurd (natL_digit h) (by decide)

theorem oneLine_fixedL (d : Nat) (x : Rat) : '\n' ∉ fixedL d x := by
  unfold fixedL fixedNatL padL
  simp only [List.mem_append, not_or]
  refine ⟨?_, oneLine_natL _, ?_⟩
  · split <;> decide
  · split
    · simp
    · simp only [List.mem_cons, List.mem_append, not_or]
      refine ⟨by decide, ?_, oneLine_natL _⟩
      intro h
      exact absurd (List.eq_of_mem_replicate h) (by decide)

/-- The percentages of both formatters contain no newline. -/
def OneLineCfg (cfg : Cfg) : Prop := ∀ x, OneLine (cfg.groupPct x) ∧ OneLine (cfg.leafPct x)

theorem oneLineCfg_text (n : Nat) (d o : Bool) : OneLineCfg (textCfg n d o) := by
  intro x
  simp only [OneLine, textCfg, String.toList_ofList]
  exact ⟨oneLine_fixedL _ _, oneLine_fixedL _ _⟩

theorem oneLineCfg_rpt (d o : Bool) : OneLineCfg (rptCfg d o) := by
  intro x
  simp only [OneLine, rptCfg, String.toList_ofList, wholeL, List.mem_append, not_or]
  exact ⟨⟨oneLine_fixedL _ _, by decide⟩, oneLine_intL _, by decide⟩

theorem oneLine_heading {k n p : String} (hk : OneLine k) (hn : OneLine n) (hp : OneLine p) : OneLine (heading k n p) := by
  have h1 : OneLine " " := by unfold OneLine; decide
  have h2 : OneLine " : " := by unfold OneLine; decide
  have h3 : OneLine "%" := by unfold OneLine; decide
  exact ((((hk.append h1).append hn).append h2).append hp).append h3

theorem Spec.Outline.headsL_append (a b : List Outline) : Outline.headsL (a ++ b) = Outline.headsL a ++ Outline.headsL b := by
  induction a with
  | nil => rfl
  | cons o t ih => rw [List.cons_append, Outline.headsL, Outline.headsL, ih, List.append_assoc]

theorem headsL_flatMap {α : Type} (f : α → List Outline) (l : List α) :
    Outline.headsL (l.flatMap f) = l.flatMap (fun a => Outline.headsL (f a)) := by
  induction l with
  | nil => rfl
  | cons a t ih => rw [List.flatMap_cons, List.flatMap_cons, Outline.headsL_append, ih]

theorem heads_bins (l : List RBin) : Outline.headsL (l.map binOutline) = l.map (fun b => b.name ++ " : " ++ strInt b.count) := by
  induction l with
  | nil => rfl
  | cons a t ih => simp [Outline.headsL, binOutline, Outline.heads, ih]

theorem oneLine_binList {o : List RBin → List RBin} (ho : ∀ l, (o l).Perm l) {t : String} (ht : OneLine t) (b : Bool) {l : List RBin}
    (hl : ∀ x ∈ l, OneLine x.name) : ∀ h ∈ Outline.headsL (binList o t b l), OneLine h := by
  unfold binList
  have h2 : OneLine " : " := by unfold OneLine; decide
  split
  · intro h hh; simp [Outline.headsL] at hh
  · simp only [Outline.headsL, Outline.heads, heads_bins, List.append_nil, List.mem_cons, List.mem_map, forall_eq_or_imp,
      forall_exists_index, and_imp, forall_apply_eq_imp_iff₂]
    exact ⟨ht, fun x hx => ((hl x ((ho l).mem_iff.1 hx)).append h2).append (oneLine_strInt _)⟩

theorem oneLine_cp {cfg : Cfg} (hc : OneLineCfg cfg) {o : List RBin → List RBin} (ho : ∀ l, (o l).Perm l) {c : RCp}
    (hn : OneLine c.name) (hb : ∀ b ∈ c.bins ++ c.ignoreBins ++ c.illegalBins, OneLine b.name) :
    ∀ h ∈ Outline.headsL (cpOutline cfg o c), OneLine h := by
  unfold cpOutline
  intro h hh
  rw [Outline.headsL, Outline.heads, Outline.headsL] at hh
  rcases List.mem_append.1 hh with hh | hh
  · simp only [List.mem_singleton] at hh
    rw [hh]; exact oneLine_heading (by unfold OneLine; decide) hn (hc _).2
  · split at hh
    · rw [Outline.headsL_append, Outline.headsL_append] at hh
      simp only [List.mem_append] at hh hb
      rcases hh with (hh | hh) | hh
      · exact oneLine_binList ho (by unfold OneLine; decide) _ (fun x hx => hb x (Or.inl (Or.inl hx))) _ hh
      · exact oneLine_binList ho (by unfold OneLine; decide) _ (fun x hx => hb x (Or.inl (Or.inr hx))) _ hh
      · exact oneLine_binList ho (by unfold OneLine; decide) _ (fun x hx => hb x (Or.inr hx)) _ hh
    · simp [Outline.headsL] at hh

theorem oneLine_cross {cfg : Cfg} (hc : OneLineCfg cfg) {o : List RBin → List RBin} (ho : ∀ l, (o l).Perm l) {c : RCross}
    (hn : OneLine c.name) (hb : ∀ b ∈ c.bins, OneLine b.name) :
    ∀ h ∈ Outline.headsL (crossOutline cfg o c), OneLine h := by
  unfold crossOutline
  intro h hh
  rw [Outline.headsL, Outline.heads, Outline.headsL] at hh
  rcases List.mem_append.1 hh with hh | hh
  · simp only [List.mem_singleton] at hh
    rw [hh]; exact oneLine_heading (by unfold OneLine; decide) hn (hc _).2
  · split at hh
    · exact oneLine_binList ho (by unfold OneLine; decide) _ hb _ hh
    · simp [Outline.headsL] at hh

mutual
theorem oneLine_group {cfg : Cfg} (hc : OneLineCfg cfg) {o : List RBin → List RBin} (ho : ∀ l, (o l).Perm l) {k : String} (hk : OneLine k) :
    ∀ g : RCg, (∀ n ∈ groupNames g, OneLine n) → ∀ h ∈ (groupOutline cfg o k g).heads, OneLine h
  | ⟨name, inst, coverage, weight, cps, crs, cgs⟩, hn, h, hh => by
    rw [groupOutline, Outline.heads, Outline.headsL_append, Outline.headsL_append, headsL_flatMap, headsL_flatMap] at hh
    rw [groupNames] at hn
    simp only [List.mem_cons, List.mem_append, List.mem_flatMap] at hh hn
    rcases hh with hh | (hh | hh) | hh
    · rw [hh]; exact oneLine_heading hk (hn _ (Or.inl rfl)) (hc _).1
    · obtain ⟨c, hcm, hh⟩ := hh
      refine oneLine_cp hc ho (hn _ (Or.inr (Or.inl (Or.inl ⟨c, hcm, Or.inl rfl⟩)))) ?_ h hh
      intro b hb
      exact hn _ (Or.inr (Or.inl (Or.inl ⟨c, hcm, Or.inr (List.mem_map.2 ⟨b, hb, rfl⟩)⟩)))
    · obtain ⟨c, hcm, hh⟩ := hh
      refine oneLine_cross hc ho (hn _ (Or.inr (Or.inl (Or.inr ⟨c, hcm, Or.inl rfl⟩)))) ?_ h hh
      intro b hb
      exact hn _ (Or.inr (Or.inl (Or.inr ⟨c, hcm, Or.inr (List.mem_map.2 ⟨b, hb, rfl⟩)⟩)))
    · exact oneLine_groups hc ho cgs (fun n hm => hn n (Or.inr (Or.inr hm))) h hh
termination_by structural g => g
theorem oneLine_groups {cfg : Cfg} (hc : OneLineCfg cfg) {o : List RBin → List RBin} (ho : ∀ l, (o l).Perm l) :
    ∀ l : List RCg, (∀ n ∈ groupNamesL l, OneLine n) → ∀ h ∈ Outline.headsL (groupOutlines cfg o l), OneLine h
  | [], _, h, hh => by simp [groupOutlines, Outline.headsL] at hh
  | g :: t, hn, h, hh => by
    rw [groupOutlines, Outline.headsL] at hh
    rw [groupNamesL] at hn
    rcases List.mem_append.1 hh with hh | hh
    · exact oneLine_group hc ho (by unfold OneLine; decide) g (fun n hm => hn n (List.mem_append_left _ hm)) h hh
    · exact oneLine_groups hc ho t (fun n hm => hn n (List.mem_append_right _ hm)) h hh
termination_by structural l => l
end

theorem text_lines_hitOrder {cfg : Cfg} (hc : OneLineCfg cfg) (r : Rpt)
    (hn : ∀ g ∈ r.covergroups, ∀ n ∈ groupNames g, OneLine n) :
    linesOf (textOf (report cfg r ⟨"", []⟩).out) =
      (Outline.linesL 0 (reportOutline cfg (hitOrder cfg.orderBinsByHit) r)).map (fun l => List.replicate (4 * l.1) ' ' ++ l.2.toList) := by
  rw [report_put]
  simp only [put, List.nil_append]
  rw [linesOf_printed "" (by decide)]
  · simp
  · intro x hx
    have : x.2 ∈ Outline.headsL (reportOutline cfg (hitOrder cfg.orderBinsByHit) r) := by
      rw [← Outline.linesL_heads 0]; exact List.mem_map.2 ⟨x, hx, rfl⟩
    unfold reportOutline at this
    rw [List.map_eq_flatMap, headsL_flatMap, List.mem_flatMap] at this
    obtain ⟨g, hg, hh⟩ := this
    simp only [Outline.headsL, List.append_nil] at hh
    exact oneLine_group hc (binOrder_hitOrder _).perm (by unfold OneLine; decide) g (hn g hg) _ hh

/-- **C28**, the text: when no name contains a newline, splitting the text at newlines gives exactly
the lines of the outline, indented by four blanks per level. -/
theorem C28_text_lines {cfg : Cfg} (hc : OneLineCfg cfg) (r : Rpt)
    (hn : ∀ g ∈ r.covergroups, ∀ n ∈ groupNames g, OneLine n) :
    ∃ order, BinOrder cfg.orderBinsByHit order ∧
      linesOf (textOf (report cfg r ⟨"", []⟩).out) =
        (Outline.linesL 0 (reportOutline cfg order r)).map (fun l => List.replicate (4 * l.1) ' ' ++ l.2.toList) := by
  exact ⟨hitOrder cfg.orderBinsByHit, binOrder_hitOrder _, text_lines_hitOrder hc r hn⟩

example : OneLineCfg (rptCfg true true) ∧ (∀ g ∈ Ex.frpt.covergroups, ∀ n ∈ groupNames g, OneLine n) := by
  refine ⟨oneLineCfg_rpt _ _, ?_⟩
  show ∀ g ∈ Ex.frpt.covergroups, ∀ n ∈ groupNames g, '\n' ∉ n.toList
  decide

end Verif
