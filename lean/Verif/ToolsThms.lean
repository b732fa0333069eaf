import Verif.ToolsSpec
/-!
# Properties of the registry, the commands and the command line: C59–C62, C74–C77
-/

namespace Verif
namespace Tools
open Cmd

/-! ## C59: the registry -/

section
variable {D : Type}

theorem sortNames_pairwise {l : List String} (h : l.Nodup) : (Rgy.sortNames l).Pairwise (· < ·) := by
  have h1 : (Rgy.sortNames l).Pairwise (fun a b => decide (a ≤ b) = true) :=
    List.pairwise_mergeSort (fun a b c hab hbc => by simp only [decide_eq_true_eq] at *; exact le_trans hab hbc)
      (fun a b => by simp only [Bool.or_eq_true, decide_eq_true_eq]; exact le_total a b) l
  have h2 : (Rgy.sortNames l).Nodup := (List.mergeSort_perm l _).nodup_iff.2 h
  exact (h1.and h2).imp (fun ⟨a, b⟩ => lt_of_le_of_ne (by simpa using a) b)

theorem mem_sortNames {l : List String} {x : String} : x ∈ Rgy.sortNames l ↔ x ∈ l := List.mem_mergeSort

theorem nodup_set {α : Type} {d : Dict α} (h : d.keys.Nodup) (k : String) (v : α) : (d.set k v).keys.Nodup := by
  rw [Dict.keys_set]
  split
  · exact h
  · rename_i hk
    rw [List.nodup_append]
    refine ⟨h, by simp, ?_⟩
    rintro a ha b hb rfl
    simp at hb
    exact hk (hb ▸ ha)

theorem run_concat (ops : List (Spec.Reg D)) (o : Spec.Reg D) :
    runReg (ops ++ [o]) = match o with | .db d => (runReg ops).addDatabaseFormat d | .rpt d => (runReg ops).addReportFormat d := by
  unfold runReg; rw [List.foldl_append]; cases o <;> rfl

theorem run_nodup (ops : List (Spec.Reg D)) : (runReg ops).dbs.keys.Nodup ∧ (runReg ops).rpts.keys.Nodup := by
  induction ops using List.reverseRecOn with
  | nil => exact ⟨List.nodup_nil, List.nodup_nil⟩
  | append_singleton t o ih =>
    rw [run_concat]
    cases o with
    | db d => exact ⟨nodup_set ih.1 _ _, ih.2⟩
    | rpt d => exact ⟨ih.1, nodup_set ih.2 _ _⟩

theorem run_get_db (ops : List (Spec.Reg D)) (fmt : String) (d : DbDesc D) :
    (runReg ops).dbs.get? fmt = some d ↔ Spec.IsLast (fun o => ∃ d', o = .db d' ∧ d'.name = fmt) ops (.db d) := by
  induction ops using List.reverseRecOn with
  | nil =>
    constructor
    · intro h; cases h
    · rintro ⟨pre, post, h, _⟩; simp at h
  | append_singleton t o ih =>
    have key : ∀ (hno : ¬ ∃ d', o = .db d' ∧ d'.name = fmt),
        (Spec.IsLast (fun o => ∃ d', o = .db d' ∧ d'.name = fmt) t (.db d) ↔
          Spec.IsLast (fun o => ∃ d', o = .db d' ∧ d'.name = fmt) (t ++ [o]) (.db d)) := by
      intro hno
      constructor
      · rintro ⟨pre, post, rfl, hp, hl⟩
        refine ⟨pre, post ++ [o], by simp, hp, ?_⟩
        intro b hb
        rcases List.mem_append.1 hb with h | h
        · exact hl b h
        · rw [List.mem_singleton.1 h]; exact hno
      · rintro ⟨pre, post, he, hp, hl⟩
        rcases List.eq_nil_or_concat post with rfl | ⟨post', b, rfl⟩
        · have := (List.append_inj' he (by simp)).2
          simp only [List.cons.injEq, and_true] at this
          subst this
          exact absurd hp hno
        · rw [List.concat_eq_append, show pre ++ Spec.Reg.db d :: (post' ++ [b]) = (pre ++ Spec.Reg.db d :: post') ++ [b] by simp] at he
          have := (List.append_inj' he (by simp)).1
          exact ⟨pre, post', this, hp, fun x hx => hl x (by simp [hx])⟩
    rw [run_concat]
    cases o with
    | rpt r => rw [← key (by rintro ⟨_, h, _⟩; cases h)]; exact ih
    | db r =>
      show ((runReg t).dbs.set r.name r).get? fmt = some d ↔ _
      rw [Dict.get?_set]
      by_cases h : r.name = fmt
      · rw [if_pos h]
        constructor
        · intro e; cases e; exact ⟨t, [], rfl, ⟨_, rfl, h⟩, by simp⟩
        · rintro ⟨pre, post, he, hp, hl⟩
          rcases List.eq_nil_or_concat post with rfl | ⟨post', b, rfl⟩
          · have := (List.append_inj' he (by simp)).2
            simp only [List.cons.injEq, and_true, Spec.Reg.db.injEq] at this
            rw [this]
          · rw [List.concat_eq_append, show pre ++ Spec.Reg.db d :: (post' ++ [b]) = (pre ++ Spec.Reg.db d :: post') ++ [b] by simp] at he
            have := (List.append_inj' he (by simp)).2
            simp only [List.cons.injEq, and_true] at this
            exact absurd ⟨r, this.symm, h⟩ (hl b (by simp))
      · rw [if_neg h, ← key (by rintro ⟨_, h', h''⟩; cases h'; exact h h'')]
        exact ih

theorem run_get_rpt (ops : List (Spec.Reg D)) (fmt : String) (d : RptDesc D) :
    (runReg ops).rpts.get? fmt = some d ↔ Spec.IsLast (fun o => ∃ d', o = .rpt d' ∧ d'.name = fmt) ops (.rpt d) := by
  induction ops using List.reverseRecOn with
  | nil =>
    constructor
    · intro h; cases h
    · rintro ⟨pre, post, h, _⟩; simp at h
  | append_singleton t o ih =>
    have key : ∀ (hno : ¬ ∃ d', o = .rpt d' ∧ d'.name = fmt),
        (Spec.IsLast (fun o => ∃ d', o = .rpt d' ∧ d'.name = fmt) t (.rpt d) ↔
          Spec.IsLast (fun o => ∃ d', o = .rpt d' ∧ d'.name = fmt) (t ++ [o]) (.rpt d)) := by
      intro hno
      constructor
      · rintro ⟨pre, post, rfl, hp, hl⟩
        refine ⟨pre, post ++ [o], by simp, hp, ?_⟩
        intro b hb
        rcases List.mem_append.1 hb with h | h
        · exact hl b h
        · rw [List.mem_singleton.1 h]; exact hno
      · rintro ⟨pre, post, he, hp, hl⟩
        rcases List.eq_nil_or_concat post with rfl | ⟨post', b, rfl⟩
        · have := (List.append_inj' he (by simp)).2
          simp only [List.cons.injEq, and_true] at this
          subst this
          exact absurd hp hno
        · rw [List.concat_eq_append, show pre ++ Spec.Reg.rpt d :: (post' ++ [b]) = (pre ++ Spec.Reg.rpt d :: post') ++ [b] by simp] at he
          have := (List.append_inj' he (by simp)).1
          exact ⟨pre, post', this, hp, fun x hx => hl x (by simp [hx])⟩
    rw [run_concat]
    cases o with
    | db r => rw [← key (by rintro ⟨_, h, _⟩; cases h)]; exact ih
    | rpt r =>
      show ((runReg t).rpts.set r.name r).get? fmt = some d ↔ _
      rw [Dict.get?_set]
      by_cases h : r.name = fmt
      · rw [if_pos h]
        constructor
        · intro e; cases e; exact ⟨t, [], rfl, ⟨_, rfl, h⟩, by simp⟩
        · rintro ⟨pre, post, he, hp, hl⟩
          rcases List.eq_nil_or_concat post with rfl | ⟨post', b, rfl⟩
          · have := (List.append_inj' he (by simp)).2
            simp only [List.cons.injEq, and_true, Spec.Reg.rpt.injEq] at this
            rw [this]
          · rw [List.concat_eq_append, show pre ++ Spec.Reg.rpt d :: (post' ++ [b]) = (pre ++ Spec.Reg.rpt d :: post') ++ [b] by simp] at he
            have := (List.append_inj' he (by simp)).2
            simp only [List.cons.injEq, and_true] at this
            exact absurd ⟨r, this.symm, h⟩ (hl b (by simp))
      · rw [if_neg h, ← key (by rintro ⟨_, h', h''⟩; cases h'; exact h h'')]
        exact ih

theorem run_mem_db (ops : List (Spec.Reg D)) (fmt : String) :
    fmt ∈ (runReg ops).dbs.keys ↔ ∃ d, Spec.Reg.db d ∈ ops ∧ d.name = fmt := by
  induction ops using List.reverseRecOn with
  | nil => simp [runReg, Rgy.init, Dict.keys]
  | append_singleton t o ih =>
    rw [run_concat]
    cases o with
    | rpt r =>
      show fmt ∈ (runReg t).dbs.keys ↔ _
      rw [ih]; simp
    | db r =>
      show fmt ∈ ((runReg t).dbs.set r.name r).keys ↔ _
      rw [← Dict.contains_iff, Dict.contains, Dict.get?_set]
      by_cases h : r.name = fmt
      · simp only [if_pos h, Option.isSome_some, true_iff]
        exact ⟨r, by simp, h⟩
      · rw [if_neg h, ← Dict.contains, Dict.contains_iff, ih]
        constructor
        · rintro ⟨d, hd, e⟩; exact ⟨d, by simp [hd], e⟩
        · rintro ⟨d, hd, e⟩
          rcases List.mem_append.1 hd with h' | h'
          · exact ⟨d, h', e⟩
          · simp only [List.mem_singleton, Spec.Reg.db.injEq] at h'
            exact absurd (h' ▸ e) h

theorem run_mem_rpt (ops : List (Spec.Reg D)) (fmt : String) :
    fmt ∈ (runReg ops).rpts.keys ↔ ∃ d, Spec.Reg.rpt d ∈ ops ∧ d.name = fmt := by
  induction ops using List.reverseRecOn with
  | nil => simp [runReg, Rgy.init, Dict.keys]
  | append_singleton t o ih =>
    rw [run_concat]
    cases o with
    | db r =>
      show fmt ∈ (runReg t).rpts.keys ↔ _
      rw [ih]; simp
    | rpt r =>
      show fmt ∈ ((runReg t).rpts.set r.name r).keys ↔ _
      rw [← Dict.contains_iff, Dict.contains, Dict.get?_set]
      by_cases h : r.name = fmt
      · simp only [if_pos h, Option.isSome_some, true_iff]
        exact ⟨r, by simp, h⟩
      · rw [if_neg h, ← Dict.contains, Dict.contains_iff, ih]
        constructor
        · rintro ⟨d, hd, e⟩; exact ⟨d, by simp [hd], e⟩
        · rintro ⟨d, hd, e⟩
          rcases List.mem_append.1 hd with h' | h'
          · exact ⟨d, h', e⟩
          · simp only [List.mem_singleton, Spec.Reg.rpt.injEq] at h'
            exact absurd (h' ▸ e) h

theorem getE_iff {α : Type} {d : Dict α} {k : String} {v : α} : d.getE k = .ok v ↔ d.get? k = some v := by
  unfold Dict.getE; cases d.get? k <;> simp

theorem getE_error {α : Type} {d : Dict α} {k : String} : d.getE k = .error .keyError ↔ k ∉ d.keys := by
  rw [← Dict.get?_eq_none]; unfold Dict.getE; cases d.get? k <;> simp

/-- **C59** for database formats. -/
theorem C59_database_formats (ops : List (Spec.Reg D)) (fmt : String) :
    ((runReg ops).hasDatabaseFormat fmt = true ↔ ∃ d, Spec.Reg.db d ∈ ops ∧ d.name = fmt) ∧
    (∀ d, (runReg ops).getDatabaseDesc fmt = .ok d ↔
      Spec.IsLast (fun o => ∃ d', o = .db d' ∧ d'.name = fmt) ops (.db d)) ∧
    ((runReg ops).getDatabaseDesc fmt = .error .keyError ↔ ¬ ∃ d, Spec.Reg.db d ∈ ops ∧ d.name = fmt) ∧
    (runReg ops).getDatabaseFormats.Pairwise (· < ·) ∧
    (fmt ∈ (runReg ops).getDatabaseFormats ↔ ∃ d, Spec.Reg.db d ∈ ops ∧ d.name = fmt) := by
  refine ⟨?_, ?_, ?_, sortNames_pairwise (run_nodup ops).1, ?_⟩
  · rw [← run_mem_db]; exact Dict.contains_iff _ _
  · intro d; rw [← run_get_db]; exact getE_iff
  · rw [← run_mem_db]; exact getE_error
  · rw [← run_mem_db]; exact mem_sortNames

/-- **C59** for report formats. -/
theorem C59_report_formats (ops : List (Spec.Reg D)) (fmt : String) :
    ((runReg ops).hasReportFormat fmt = true ↔ ∃ d, Spec.Reg.rpt d ∈ ops ∧ d.name = fmt) ∧
    (∀ d, (runReg ops).getReportDesc fmt = .ok d ↔
      Spec.IsLast (fun o => ∃ d', o = .rpt d' ∧ d'.name = fmt) ops (.rpt d)) ∧
    ((runReg ops).getReportDesc fmt = .error .keyError ↔ ¬ ∃ d, Spec.Reg.rpt d ∈ ops ∧ d.name = fmt) ∧
    (runReg ops).getReportFormats.Pairwise (· < ·) ∧
    (fmt ∈ (runReg ops).getReportFormats ↔ ∃ d, Spec.Reg.rpt d ∈ ops ∧ d.name = fmt) := by
  refine ⟨?_, ?_, ?_, sortNames_pairwise (run_nodup ops).2, ?_⟩
  · rw [← run_mem_rpt]; exact Dict.contains_iff _ _
  · intro d; rw [← run_get_rpt]; exact getE_iff
  · rw [← run_mem_rpt]; exact getE_error
  · rw [← run_mem_rpt]; exact mem_sortNames

end

/-- Two descriptors under one name, and another name. -/
def exIf (b : Bool) : DbIf Nat := ⟨fun _ => if b then .ok 7 else .error .valueError, .ok 0, .ok (fun n => ([n.toUInt8], .ok ()))⟩
def exOps : List (Spec.Reg Nat) :=
  [.db ⟨"xml", 6, "first", exIf true⟩, .rpt ⟨"xml", 1, "report", ⟨fun n => ([n.toUInt8], .ok ()), fun _ => .ok ()⟩⟩,
    .db ⟨"bin", 6, "other", exIf true⟩, .db ⟨"xml", 6, "second", exIf false⟩]

example : ((runReg exOps).getDatabaseDesc "xml").map (·.description) = .ok "second" ∧
    (runReg exOps).dbs.keys = ["xml", "bin"] ∧ (runReg exOps).hasDatabaseFormat "txt" = false ∧
    ((runReg exOps).getDatabaseDesc "txt").map (·.description) = .error .keyError := by decide +kernel

example : Rgy.sortNames ["xml", "bin"] = ["bin", "xml"] := by
  have h : ("xml" ≤ "bin") = False := eq_false (by decide)
  simp [Rgy.sortNames, List.mergeSort, List.MergeSort.Internal.splitInTwo, h]

/-! ## C60: plus-arguments -/

/-- Decision form of `Spec.Plus`. -/
def plusB (a : String) : Bool := a.toList.head? == some '+'

theorem plusB_iff (a : String) : plusB a = true ↔ Spec.Plus a := by
  unfold plusB Spec.Plus
  cases a.toList with
  | nil => simp
  | cons c t => simp

theorem splitArgs_eq (args : List String) (s : Split) (h : ∀ a ∈ args, a ≠ "") :
    args.foldlM splitStep s = .ok ⟨s.argv ++ args.filter (fun a => !plusB a), s.plusargs ++ args.filter plusB⟩ := by
  induction args generalizing s with
  | nil => simp; rfl
  | cons a t ih =>
    have ha : a.toList ≠ [] := fun e => h a (by simp) (String.toList_eq_nil_iff.1 e)
    have ht : ∀ a ∈ t, a ≠ "" := fun x hx => h x (List.mem_cons_of_mem _ hx)
    rw [List.foldlM_cons]
    cases hl : a.toList with
    | nil => exact absurd hl ha
    | cons c r =>
      by_cases hc : c = '+'
      · subst hc
        have hp : plusB a = true := by simp [plusB, hl]
        have : splitStep s a = .ok { s with plusargs := s.plusargs ++ [a] } := by simp [splitStep, hl]
        rw [this]
        show t.foldlM splitStep _ = _
        rw [ih _ ht]
        simp [hp]
      · have hp : plusB a = false := by simp [plusB, hl, hc]
        have : splitStep s a = .ok { s with argv := s.argv ++ [a] } := by simp [splitStep, hl, hc]
        rw [this]
        show t.foldlM splitStep _ = _
        rw [ih _ ht]
        simp [hp]

theorem splitArgs_empty (args : List String) (s : Split) (h : "" ∈ args) : args.foldlM splitStep s = .error .indexError := by
  induction args generalizing s with
  | nil => cases h
  | cons a t ih =>
    rw [List.foldlM_cons]
    by_cases ha : a = ""
    · subst ha; rfl
    · have ht : "" ∈ t := by
        rcases List.mem_cons.1 h with h | h
        · exact absurd h.symm ha
        · exact h
      have : ∃ s', splitStep s a = .ok s' := by
        unfold splitStep
        cases hl : a.toList with
        | nil => exact absurd (String.toList_eq_nil_iff.1 hl) ha
        | cons c r => by_cases hc : c = '+' <;> simp [hc]
      obtain ⟨s', hs⟩ := this
      rw [hs]
      exact ih s' ht

/-- **C60, partial.** Missing: empty arguments (see `C60_empty_refuted`).  For all other argument vectors the
plus-arguments and the rest keep their order, are told apart by their first character, and together are the given arguments. -/
theorem C60_split_partial (args : List String) (h : ∀ a ∈ args, a ≠ "") :
    ∃ s, splitArgs args = .ok s ∧ s.plusargs.Sublist args ∧ s.argv.Sublist args ∧ (s.plusargs ++ s.argv).Perm args ∧
      (∀ a ∈ s.plusargs, Spec.Plus a) ∧ ∀ a ∈ s.argv, ¬ Spec.Plus a := by
  refine ⟨_, splitArgs_eq args ⟨[], []⟩ h, ?_⟩
  simp only [List.nil_append]
  refine ⟨List.filter_sublist, List.filter_sublist, List.filter_append_perm _ _, ?_, ?_⟩
  · intro a ha; exact (plusB_iff a).1 (List.mem_filter.1 ha).2
  · intro a ha hp
    have := (List.mem_filter.1 ha).2
    rw [(plusB_iff a).2 hp] at this
    cases this

example : splitArgs ["merge", "+a", "-o", "x", "+b"] = .ok ⟨["merge", "-o", "x"], ["+a", "+b"]⟩ := by decide +kernel

/-- The full C60 fails: an empty argument (also a legal value of an option) ends the program with `IndexError`. -/
theorem C60_empty_refuted (args : List String) (h : "" ∈ args) : splitArgs args = .error .indexError :=
  splitArgs_empty args ⟨[], []⟩ h

example : "" ∈ ["merge", "-o", "", "a.xml"] := by simp

/-! ## C61: unknown formats -/

section
variable {D : Type}

/-- **C61** for `merge`: nothing in the world changes, not even the log. -/
theorem C61_merge (rgy : Rgy D) (mrg : D → List D → Except Err D) (a : MergeArgs) (w : World)
    (h : rgy.hasDatabaseFormat (a.inputFormat.getD "xml") = false ∨ rgy.hasDatabaseFormat (a.outputFormat.getD "xml") = false) :
    mergeCmd rgy mrg a w = (.error .userError, w) := by
  unfold mergeCmd
  by_cases hi : rgy.hasDatabaseFormat (a.inputFormat.getD "xml") = true
  · have ho : rgy.hasDatabaseFormat (a.outputFormat.getD "xml") = false := by
      rcases h with h | h
      · rw [hi] at h; cases h
      · exact h
    simp [hi, ho]
  · simp [hi]

/-- **C61** for `convert`. -/
theorem C61_convert (rgy : Rgy D) (mrg : D → List D → Except Err D) (a : ConvertArgs) (w : World)
    (h : rgy.hasDatabaseFormat (a.inputFormat.getD "xml") = false ∨ rgy.hasDatabaseFormat (a.outputFormat.getD "xml") = false) :
    convertCmd rgy mrg a w = (.error .userError, w) := by
  unfold convertCmd
  by_cases hi : rgy.hasDatabaseFormat (a.inputFormat.getD "xml") = true
  · have ho : rgy.hasDatabaseFormat (a.outputFormat.getD "xml") = false := by
      rcases h with h | h
      · rw [hi] at h; cases h
      · exact h
    simp [hi, ho]
  · simp [hi]

/-- **C61** for `report`. -/
theorem C61_report (rgy : Rgy D) (a : ReportArgs) (w : World)
    (h : rgy.hasDatabaseFormat (a.inputFormat.getD "xml") = false ∨ rgy.hasReportFormat (a.outputFormat.getD "txt") = false) :
    reportCmd rgy a w = (.error .userError, w) := by
  unfold reportCmd
  simp only [defaultDatabase, defaultReport]
  by_cases hi : rgy.hasDatabaseFormat (a.inputFormat.getD "xml") = true
  · have ho : rgy.hasReportFormat (a.outputFormat.getD "txt") = false := by
      rcases h with h | h
      · rw [hi] at h; cases h
      · exact h
    simp [hi, ho]
  · simp [hi]

example : (runReg exOps).hasDatabaseFormat "ucdb" = false ∧ (runReg exOps).hasDatabaseFormat "xml" = true := by decide +kernel

/-! ## C74: when the output is written -/

theorem writeDb_eq (f : DbIf D) (path : String) (d : D) (w : World) :
    writeDb f path d w = match f.write with
      | .error e => (.error e, w)
      | .ok wr =>
        if w.writable path then
          ((wr d).2, { w with files := fun p => if p = path then some (wr d).1 else w.files p, log := w.log ++ [.write path] })
        else (.error .userError, w) := by
  unfold writeDb
  cases hw : f.write with
  | error e => rfl
  | ok wr =>
    rw [Cmd.lift_ok]
    by_cases h : w.writable path = true
    · have : openWrite path w = (.ok (), _) := if_pos h
      rw [Cmd.bind_ok this]
      simp only [h, if_true, emit]
      congr 2
      funext p
      by_cases hp : p = path <;> simp [hp]
    · have : openWrite path w = (.error .userError, w) := if_neg h
      rw [Cmd.bind_error this]
      simp [h]

namespace Spec

/-- The descriptor the registry holds for a format. -/
def Registered (rgy : Rgy D) (fmt : String) (d : DbDesc D) : Prop := rgy.dbs.get? fmt = some d

/-- The merge of the inputs found in the world: what the command is to write, and with which format. -/
structure Merged (rgy : Rgy D) (mrg : D → List D → Except Err D) (inF outF : String) (inputs : List String)
    (files : String → Option Bytes) (o : DbDesc D) (res : D) : Prop where
  out : Registered rgy outF o
  merged : ∃ i dbs new, Registered rgy inF i ∧ Reads i.fmtIf files inputs dbs ∧ o.fmtIf.create = .ok new ∧ mrg new dbs = .ok res

/-- The world after `text` was written to `path`. -/
def Written (w : World) (reads : List String) (path : String) (text : Bytes) : World :=
  { w with files := fun p => if p = path then some text else w.files p, log := w.log ++ reads.map Event.read ++ [.write path] }

end Spec

theorem getDesc_ok {rgy : Rgy D} {fmt : String} {d : DbDesc D} (h : rgy.getDatabaseDesc fmt = .ok d) : rgy.dbs.get? fmt = some d :=
  getE_iff.1 h

theorem wrap_lift {α : Type} (x : Except Err α) (w : World) :
    wrap (lift x) w = match x with | .ok a => (.ok a, w) | .error _ => (.error .userError, w) := by
  unfold wrap lift; cases x <;> rfl

/-- How `merge` ends: it fails having only read, or it has merged all inputs and writes. -/
theorem merge_ends (rgy : Rgy D) (mrg : D → List D → Except Err D) (a : MergeArgs) (w : World) :
    (∃ e w', mergeCmd rgy mrg a w = (.error e, w') ∧ Spec.OnlyRead w w' ∧
      ((∀ o res, ¬ Spec.Merged rgy mrg (a.inputFormat.getD "xml") (a.outputFormat.getD "xml") a.db w.files o res) ∨
        ∃ o res, Spec.Merged rgy mrg (a.inputFormat.getD "xml") (a.outputFormat.getD "xml") a.db w.files o res ∧
          ((∃ e, o.fmtIf.write = .error e) ∨ w.writable a.out = false))) ∨
    ∃ o res wr, Spec.Merged rgy mrg (a.inputFormat.getD "xml") (a.outputFormat.getD "xml") a.db w.files o res ∧
      o.fmtIf.write = .ok wr ∧ w.writable a.out = true ∧ mergeCmd rgy mrg a w = ((wr res).2, Spec.Written w a.db a.out (wr res).1) := by
  have hrefl : Spec.OnlyRead w w := ⟨[], by simp⟩
  cases hi : rgy.dbs.get? (a.inputFormat.getD "xml") with
  | none =>
    refine .inl ⟨_, _, C61_merge rgy mrg a w (.inl ?_), hrefl, .inl ?_⟩
    · simp [Rgy.hasDatabaseFormat, Dict.contains, hi]
    · rintro o res ⟨_, i, dbs, new, h, _⟩
      unfold Spec.Registered at h
      rw [hi] at h; cases h
  | some i =>
    cases ho : rgy.dbs.get? (a.outputFormat.getD "xml") with
    | none =>
      refine .inl ⟨_, _, C61_merge rgy mrg a w (.inr ?_), hrefl, .inl ?_⟩
      · simp [Rgy.hasDatabaseFormat, Dict.contains, ho]
      · rintro o res ⟨h, _⟩
        unfold Spec.Registered at h
        rw [ho] at h; cases h
    | some o =>
      have hi1 : rgy.hasDatabaseFormat (a.inputFormat.getD "xml") = true := by simp [Rgy.hasDatabaseFormat, Dict.contains, hi]
      have ho1 : rgy.hasDatabaseFormat (a.outputFormat.getD "xml") = true := by simp [Rgy.hasDatabaseFormat, Dict.contains, ho]
      have hi2 : rgy.getDatabaseDesc (a.inputFormat.getD "xml") = .ok i := getE_iff.2 hi
      have ho2 : rgy.getDatabaseDesc (a.outputFormat.getD "xml") = .ok o := getE_iff.2 ho
      have hrun : mergeCmd rgy mrg a w = (do
          let dbs ← a.db.mapM (fun p => wrap (readFile i.fmtIf p))
          let out ← lift o.fmtIf.create
          let res ← wrap (lift (mrg out dbs))
          writeDb o.fmtIf a.out res : Cmd Unit) w := by
        unfold mergeCmd
        simp only [hi1, ho1, Bool.not_true, Bool.false_eq_true, if_false]
        rw [Cmd.bind_ok (a := i) (w' := w) (by rw [hi2]; rfl), Cmd.bind_ok (a := o) (w' := w) (by rw [ho2]; rfl)]
      rcases mapM_read i.fmtIf a.db w with ⟨dbs, h1, h2⟩ | ⟨⟨p, hp, e, he⟩, w', h1, h2⟩
      · rw [Cmd.bind_ok h2] at hrun
        cases hc : o.fmtIf.create with
        | error e =>
          rw [Cmd.bind_error (by rw [hc]; rfl)] at hrun
          refine .inl ⟨_, _, hrun, ⟨a.db, rfl⟩, .inl ?_⟩
          rintro o' res ⟨h, _, _, _, _, _, h', _⟩
          unfold Spec.Registered at h
          rw [ho] at h; cases h
          rw [hc] at h'; cases h'
        | ok new =>
          rw [Cmd.bind_ok (by rw [hc]; rfl)] at hrun
          cases hm : mrg new dbs with
          | error e =>
            rw [Cmd.bind_error (by rw [wrap_lift, hm])] at hrun
            refine .inl ⟨_, _, hrun, ⟨a.db, rfl⟩, .inl ?_⟩
            rintro o' res ⟨h, i', dbs', new', hi', hd', h', h''⟩
            unfold Spec.Registered at h hi'
            rw [ho] at h; cases h
            rw [hi] at hi'; cases hi'
            rw [hc] at h'; cases h'
            rw [reads_unique hd' h1, hm] at h''
            cases h''
          | ok res =>
            rw [Cmd.bind_ok (by rw [wrap_lift, hm])] at hrun
            have hmerged : Spec.Merged rgy mrg (a.inputFormat.getD "xml") (a.outputFormat.getD "xml") a.db w.files o res :=
              ⟨ho, i, dbs, new, hi, h1, hc, hm⟩
            rw [writeDb_eq] at hrun
            cases hw : o.fmtIf.write with
            | error e =>
              rw [hw] at hrun
              exact .inl ⟨_, _, hrun, ⟨a.db, rfl⟩, .inr ⟨o, res, hmerged, .inl ⟨e, hw⟩⟩⟩
            | ok wr =>
              rw [hw] at hrun
              by_cases hp : w.writable a.out = true
              · refine .inr ⟨o, res, wr, hmerged, hw, hp, ?_⟩
                rw [hrun]
                simp [hp, Spec.Written]
              · refine .inl ⟨.userError, _, ?_, ⟨a.db, rfl⟩, .inr ⟨o, res, hmerged, .inr (by simpa using hp)⟩⟩
                rw [hrun]
                simp [hp]
      · rw [Cmd.bind_error h2] at hrun
        refine .inl ⟨_, _, hrun, h1, .inl ?_⟩
        rintro o' res ⟨_, i', dbs', _, hi', hd', _⟩
        unfold Spec.Registered at hi'
        rw [hi] at hi'; cases hi'
        exact reads_no_error hd' hp he

theorem merged_unique {rgy : Rgy D} {mrg : D → List D → Except Err D} {inF outF : String} {inputs : List String}
    {files : String → Option Bytes} {o o' : DbDesc D} {res res' : D} (h : Spec.Merged rgy mrg inF outF inputs files o res)
    (h' : Spec.Merged rgy mrg inF outF inputs files o' res') : o' = o ∧ res' = res := by
  obtain ⟨ho, i, dbs, new, hi, hd, hc, hm⟩ := h
  obtain ⟨ho', i', dbs', new', hi', hd', hc', hm'⟩ := h'
  unfold Spec.Registered at *
  rw [ho] at ho'; cases ho'
  rw [hi] at hi'; cases hi'
  rw [hc] at hc'; cases hc'
  rw [reads_unique hd' hd, hm] at hm'
  cases hm'
  exact ⟨rfl, rfl⟩

/-- **C74** (success). `merge` succeeds exactly if all inputs can be read and merged and the output format writes the
result without an exception; then the output file holds what the format writes for the merge of the inputs, and
no other file has changed. -/
theorem C74_merge_success (rgy : Rgy D) (mrg : D → List D → Except Err D) (a : MergeArgs) (w w' : World) :
    mergeCmd rgy mrg a w = (.ok (), w') ↔
      ∃ o res wr text, Spec.Merged rgy mrg (a.inputFormat.getD "xml") (a.outputFormat.getD "xml") a.db w.files o res ∧
        o.fmtIf.write = .ok wr ∧ w.writable a.out = true ∧ wr res = (text, .ok ()) ∧ w' = Spec.Written w a.db a.out text := by
  constructor
  · intro h
    rcases merge_ends rgy mrg a w with ⟨e, w1, h1, _⟩ | ⟨o, res, wr, h1, h2, h3, h4⟩
    · rw [h] at h1; cases h1
    · rw [h] at h4
      refine ⟨o, res, wr, (wr res).1, h1, h2, h3, ?_, ?_⟩
      · rw [Prod.ext_iff]; exact ⟨rfl, (congrArg Prod.fst h4).symm⟩
      · exact congrArg Prod.snd h4
  · rintro ⟨o, res, wr, text, h1, h2, h3, h4, rfl⟩
    rcases merge_ends rgy mrg a w with ⟨e, w1, _, _, h | ⟨o', res', hm, h | h⟩⟩ | ⟨o', res', wr', h1', h2', _, h4'⟩
    · exact absurd h1 (h o res)
    · obtain ⟨e, he⟩ := h
      rw [(merged_unique h1 hm).1, h2] at he; cases he
    · rw [h3] at h; cases h
    · obtain ⟨rfl, rfl⟩ := merged_unique h1 h1'
      rw [h2] at h2'; cases h2'
      rw [h4', h4]

/-- **C74** (failure). If `merge` fails, either nothing but reading has happened, or all inputs were merged and
writing the result failed; files other than the output are unchanged in any case. -/
theorem C74_merge_failure (rgy : Rgy D) (mrg : D → List D → Except Err D) (a : MergeArgs) (w w' : World) (e : Err)
    (h : mergeCmd rgy mrg a w = (.error e, w')) :
    (Spec.OnlyRead w w' ∨ ∃ o res wr, Spec.Merged rgy mrg (a.inputFormat.getD "xml") (a.outputFormat.getD "xml") a.db w.files o res ∧
      o.fmtIf.write = .ok wr ∧ (wr res).2 = .error e ∧ w' = Spec.Written w a.db a.out (wr res).1) ∧
    ∀ p, p ≠ a.out → w'.files p = w.files p := by
  rcases merge_ends rgy mrg a w with ⟨e1, w1, h1, h2, _⟩ | ⟨o, res, wr, h1, h2, _, h4⟩
  · rw [h] at h1; cases h1
    refine ⟨.inl h2, ?_⟩
    obtain ⟨ps, rfl⟩ := h2
    exact fun _ _ => rfl
  · rw [h] at h4
    have he : (wr res).2 = .error e := (congrArg Prod.fst h4).symm
    have hw : w' = Spec.Written w a.db a.out (wr res).1 := congrArg Prod.snd h4
    refine ⟨.inr ⟨o, res, wr, h1, h2, he, hw⟩, ?_⟩
    intro p hp
    rw [hw]
    simp [Spec.Written, hp]

/-- `convert` is `merge` with one input, except that errors of the merge itself are passed on unwrapped. -/
theorem convert_eq_merge (rgy : Rgy D) (mrg : D → List D → Except Err D) (a : ConvertArgs) (w : World) :
    (convertCmd rgy mrg a w).2 = (mergeCmd rgy mrg ⟨a.inputFormat, a.outputFormat, [a.input], a.out⟩ w).2 ∧
    ((convertCmd rgy mrg a w).1 = .ok () ↔ (mergeCmd rgy mrg ⟨a.inputFormat, a.outputFormat, [a.input], a.out⟩ w).1 = .ok ()) := by
  cases hi : rgy.hasDatabaseFormat (a.inputFormat.getD "xml") with
  | false =>
    rw [C61_convert rgy mrg a w (.inl hi), C61_merge rgy mrg ⟨a.inputFormat, a.outputFormat, [a.input], a.out⟩ w (.inl hi)]
    simp
  | true =>
    cases ho : rgy.hasDatabaseFormat (a.outputFormat.getD "xml") with
    | false =>
      rw [C61_convert rgy mrg a w (.inr ho), C61_merge rgy mrg ⟨a.inputFormat, a.outputFormat, [a.input], a.out⟩ w (.inr ho)]
      simp
    | true =>
      unfold convertCmd mergeCmd
      simp only [hi, ho, Bool.not_true, Bool.false_eq_true, if_false, List.mapM_cons, List.mapM_nil, bind_assoc, pure_bind]
      cases hi2 : rgy.getDatabaseDesc (a.inputFormat.getD "xml") with
      | error e => rw [Cmd.lift_error, Cmd.lift_error]; simp
      | ok i =>
        rw [Cmd.lift_ok, Cmd.lift_ok]
        cases ho2 : rgy.getDatabaseDesc (a.outputFormat.getD "xml") with
        | error e => rw [Cmd.lift_error, Cmd.lift_error]; simp
        | ok o =>
          rw [Cmd.lift_ok, Cmd.lift_ok]
          rcases hr : wrap (readFile i.fmtIf a.input) w with ⟨_ | d, w1⟩
          · rw [Cmd.bind_error hr, Cmd.bind_error hr]; simp
          · rw [Cmd.bind_ok hr, Cmd.bind_ok hr]
            cases hc : o.fmtIf.create with
            | error e => rw [Cmd.lift_error, Cmd.lift_error]; simp
            | ok new =>
              rw [Cmd.lift_ok, Cmd.lift_ok]
              cases hm : mrg new [d] with
              | error e =>
                rw [Cmd.lift_error, Cmd.bind_error (e := .userError) (w' := w1) (by rw [wrap_lift])]; simp
              | ok res => rw [Cmd.lift_ok, Cmd.bind_ok (a := res) (w' := w1) (by rw [wrap_lift])]; simp

/-- **C74** for `convert`. -/
theorem C74_convert_success (rgy : Rgy D) (mrg : D → List D → Except Err D) (a : ConvertArgs) (w w' : World) :
    convertCmd rgy mrg a w = (.ok (), w') ↔
      ∃ o res wr text, Spec.Merged rgy mrg (a.inputFormat.getD "xml") (a.outputFormat.getD "xml") [a.input] w.files o res ∧
        o.fmtIf.write = .ok wr ∧ w.writable a.out = true ∧ wr res = (text, .ok ()) ∧ w' = Spec.Written w [a.input] a.out text := by
  rw [← C74_merge_success rgy mrg ⟨a.inputFormat, a.outputFormat, [a.input], a.out⟩ w w']
  obtain ⟨h1, h2⟩ := convert_eq_merge rgy mrg a w
  rw [Prod.ext_iff, Prod.ext_iff, h1, h2]

theorem C74_convert_failure (rgy : Rgy D) (mrg : D → List D → Except Err D) (a : ConvertArgs) (w w' : World) (e : Err)
    (h : convertCmd rgy mrg a w = (.error e, w')) :
    (Spec.OnlyRead w w' ∨ ∃ o res wr e', Spec.Merged rgy mrg (a.inputFormat.getD "xml") (a.outputFormat.getD "xml") [a.input] w.files o res ∧
      o.fmtIf.write = .ok wr ∧ (wr res).2 = .error e' ∧ w' = Spec.Written w [a.input] a.out (wr res).1) ∧
    ∀ p, p ≠ a.out → w'.files p = w.files p := by
  obtain ⟨h1, h2⟩ := convert_eq_merge rgy mrg a w
  rcases hm : mergeCmd rgy mrg ⟨a.inputFormat, a.outputFormat, [a.input], a.out⟩ w with ⟨r, w1⟩
  rw [hm, h] at h1 h2
  simp only at h1 h2
  subst h1
  cases r with
  | ok u => exact absurd (h2.2 rfl) (by simp)
  | error e' =>
    obtain ⟨h3, h4⟩ := C74_merge_failure rgy mrg _ w w' e' hm
    refine ⟨?_, h4⟩
    rcases h3 with h3 | ⟨o, res, wr, x1, x2, x3, x4⟩
    · exact .inl h3
    · exact .inr ⟨o, res, wr, e', x1, x2, x3, x4⟩

/-- **C74** for `report`: no file other than the given output path, and nothing below it, is changed; if the input
cannot be read nothing but reading happens. -/
theorem C74_report (rgy : Rgy D) (a : ReportArgs) (w : World) :
    (∀ p, a.out ≠ some p → (∀ q, a.out = some q → ¬ (q ++ "/").toList <+: p.toList) →
      (reportCmd rgy a w).2.files p = w.files p) ∧
    (∀ i e, Spec.Registered rgy (a.inputFormat.getD "xml") i → i.fmtIf.read (w.files a.db) = .error e →
      ∃ e', (reportCmd rgy a w).1 = .error e' ∧ Spec.OnlyRead w (reportCmd rgy a w).2) := by
  have hrefl : Spec.OnlyRead w w := ⟨[], by simp⟩
  cases hi : rgy.dbs.get? (a.inputFormat.getD "xml") with
  | none =>
    rw [C61_report rgy a w (.inl (by simp [Rgy.hasDatabaseFormat, Dict.contains, hi]))]
    exact ⟨fun _ _ _ => rfl, fun _ _ _ _ => ⟨_, rfl, hrefl⟩⟩
  | some i =>
    cases ho : rgy.rpts.get? (a.outputFormat.getD "txt") with
    | none =>
      rw [C61_report rgy a w (.inr (by simp [Rgy.hasReportFormat, Dict.contains, ho]))]
      exact ⟨fun _ _ _ => rfl, fun _ _ _ _ => ⟨_, rfl, hrefl⟩⟩
    | some o =>
      have hi1 : rgy.hasDatabaseFormat (a.inputFormat.getD "xml") = true := by simp [Rgy.hasDatabaseFormat, Dict.contains, hi]
      have ho1 : rgy.hasReportFormat (a.outputFormat.getD "txt") = true := by simp [Rgy.hasReportFormat, Dict.contains, ho]
      have hi2 : rgy.getDatabaseDesc (a.inputFormat.getD "xml") = .ok i := getE_iff.2 hi
      have ho2 : rgy.getReportDesc (a.outputFormat.getD "txt") = .ok o := getE_iff.2 ho
      unfold reportCmd
      simp only [defaultDatabase, defaultReport, hi1, ho1, Bool.not_true, Bool.false_eq_true, if_false]
      rw [Cmd.bind_ok (a := i) (w' := w) (by rw [hi2]; rfl), Cmd.bind_ok (a := o) (w' := w) (by rw [ho2]; rfl)]
      cases hr : i.fmtIf.read (w.files a.db) with
      | error e =>
        rw [Cmd.bind_error (show readFile i.fmtIf a.db w = (.error e, _) by unfold readFile; rw [hr])]
        exact ⟨fun _ _ _ => rfl, fun _ _ _ _ => ⟨_, rfl, [a.db], rfl⟩⟩
      | ok d =>
        rw [Cmd.bind_ok (show readFile i.fmtIf a.db w = (.ok d, _) by unfold readFile; rw [hr])]
        refine ⟨?_, fun i' e' h h' => ?_⟩
        · intro p hp hq
          cases hout : a.out with
          | none =>
            simp only []
            split <;> rfl
          | some q =>
            rw [hout] at hp hq
            have hpq : p ≠ q := fun e => hp (e ▸ rfl)
            have hpre : ¬ (q ++ "/").toList <+: p.toList := hq q rfl
            simp only []
            split
            · rw [Cmd.bind_def]
              unfold openWrite
              by_cases hwr : w.writable q = true <;> simp [hwr, emit, hpq]
            · split
              · unfold reportIntoDir
                split
                · simp only [Cmd.bind_def, rmtree, makedirs, emitDir]
                  have hb : (q ++ "/").toList.isPrefixOf p.toList = false := by
                    cases hc : (q ++ "/").toList.isPrefixOf p.toList with
                    | false => rfl
                    | true => exact absurd (List.isPrefixOf_iff_prefix.1 hc) hpre
                  rcases o.fmtIf.reportDir d with _ | _ <;> simpa using fun h => absurd h (by simpa using hpre)
                · split <;> rfl
              · rfl
        · unfold Spec.Registered at h
          rw [hi] at h; cases h
          rw [hr] at h'; cases h'

/-! ## C75: what happens to an existing output file -/

/-- The full C75: a failing command leaves the output file as it was. -/
def Spec.OutputSafe (rgy : Rgy D) (mrg : D → List D → Except Err D) : Prop :=
  ∀ (a : MergeArgs) (w w' : World) (e : Err), mergeCmd rgy mrg a w = (.error e, w') → w'.files a.out = w.files a.out

/-- **C75, partial.** Missing: an exception while the output is written (the file was truncated before).  For every
other failure the output file is as before. -/
theorem C75_output_kept_partial (rgy : Rgy D) (mrg : D → List D → Except Err D) (a : MergeArgs) (w w' : World) (e : Err)
    (h : mergeCmd rgy mrg a w = (.error e, w'))
    (hw : ∀ o res wr, Spec.Merged rgy mrg (a.inputFormat.getD "xml") (a.outputFormat.getD "xml") a.db w.files o res →
      o.fmtIf.write = .ok wr → (wr res).2 = .ok ()) : w'.files a.out = w.files a.out := by
  rcases (C74_merge_failure rgy mrg a w w' e h).1 with ⟨ps, rfl⟩ | ⟨o, res, wr, h1, h2, h3, _⟩
  · rfl
  · rw [hw o res wr h1 h2] at h3; cases h3

/-- The exact extent of C75: it holds for all arguments and files iff no merge result makes the writer raise, or
the file written so far happens to equal the old one. -/
theorem C75_lost_iff (rgy : Rgy D) (mrg : D → List D → Except Err D) (a : MergeArgs) (w : World) :
    (∃ e w', mergeCmd rgy mrg a w = (.error e, w') ∧ w'.files a.out ≠ w.files a.out) ↔
      ∃ o res wr e, Spec.Merged rgy mrg (a.inputFormat.getD "xml") (a.outputFormat.getD "xml") a.db w.files o res ∧
        o.fmtIf.write = .ok wr ∧ w.writable a.out = true ∧ (wr res).2 = .error e ∧ w.files a.out ≠ some (wr res).1 := by
  constructor
  · rintro ⟨e, w', h, hne⟩
    rcases merge_ends rgy mrg a w with ⟨e1, w1, h1, ⟨ps, rfl⟩, _⟩ | ⟨o, res, wr, h1, h2, h3, h4⟩
    · rw [h] at h1; cases h1; exact absurd rfl hne
    · rw [h] at h4
      refine ⟨o, res, wr, e, h1, h2, h3, (congrArg Prod.fst h4).symm, ?_⟩
      have hw : w' = _ := congrArg Prod.snd h4
      subst hw
      intro hc
      apply hne
      simp [Spec.Written, hc]
  · rintro ⟨o, res, wr, e, h1, h2, h3, h4, h5⟩
    rcases merge_ends rgy mrg a w with ⟨e1, w1, _, _, h | ⟨o', res', hm, h | h⟩⟩ | ⟨o', res', wr', h1', h2', _, h4'⟩
    · exact absurd h1 (h o res)
    · obtain ⟨e, he⟩ := h
      rw [(merged_unique h1 hm).1, h2] at he; cases he
    · rw [h3] at h; cases h
    · obtain ⟨rfl, rfl⟩ := merged_unique h1 h1'
      rw [h2] at h2'; cases h2'
      refine ⟨e, _, by rw [h4', h4], ?_⟩
      simp only [Spec.Written, if_true]
      exact fun hc => h5 hc.symm

end

/-! ## C76: the exit status -/

/-- The full C76: a failing command makes the process end with a status other than 0. -/
def Spec.FailureSignalled : Prop := ∀ (parse : List String → Option (List String → Cmd Unit)) (message : Err → Bytes)
  (args : List String) (w : World) (s : Split) (func : List String → Cmd Unit) (e : Err) (w' : World),
  splitArgs args = .ok s → parse s.argv = some func → func s.plusargs w = (.error e, w') →
  (main parse message args w).1.status ≠ 0

/-- C76 fails for every command and every failure: the status is 0. -/
theorem C76_status_always_zero (parse : List String → Option (List String → Cmd Unit)) (message : Err → Bytes)
    (args : List String) (w : World) (s : Split) (func : List String → Cmd Unit) (hs : splitArgs args = .ok s)
    (hp : parse s.argv = some func) : (main parse message args w).1.status = 0 := by
  unfold main
  simp only [hs, hp]
  rcases func s.plusargs w with ⟨_ | _, _⟩ <;> rfl

theorem C76_exit_status_refuted : ¬ Spec.FailureSignalled := by
  intro h
  exact h (fun _ => some (fun _ => fail .userError)) (fun _ => []) ["merge"] ⟨fun _ => none, fun _ => false, fun _ => true, [], []⟩
    ⟨["merge"], []⟩ (fun _ => fail .userError) .userError _ (by decide +kernel) rfl rfl rfl

/-- **C76, partial.** What is signalled: usage errors and exceptions outside the command. Missing: failures of the command. -/
theorem C76_exit_status_partial (parse : List String → Option (List String → Cmd Unit)) (message : Err → Bytes)
    (args : List String) (w : World) :
    (main parse message args w).1.status ≠ 0 ↔ "" ∈ args ∨ ∃ s, splitArgs args = .ok s ∧ parse s.argv = none := by
  by_cases he : "" ∈ args
  · have := C60_empty_refuted args he
    simp [main, this, he, Exit.status]
  · obtain ⟨s, hs, _⟩ := C60_split_partial args (fun a ha e => he (e ▸ ha))
    cases hp : parse s.argv with
    | none => simp [main, hs, hp, Exit.status]
    | some func =>
      simp only [he, false_or]
      rw [C76_status_always_zero parse message args w s func hs hp]
      simp only [ne_eq, not_true, false_iff]
      rintro ⟨s', h1, h2⟩
      rw [hs] at h1; cases h1
      rw [hp] at h2; cases h2

example : splitArgs ["merge", "+x"] = .ok ⟨["merge"], ["+x"]⟩ := by decide +kernel

/-! ## C77: listings -/

theorem maxWidth_spec (l : List String) : (∀ f ∈ l, f.length ≤ maxWidth l) ∧ (l = [] ∨ ∃ f ∈ l, f.length = maxWidth l) := by
  have key : ∀ (l : List String) (m : Nat), (m ≤ l.foldl (fun m f => if f.length > m then f.length else m) m) ∧
      (∀ f ∈ l, f.length ≤ l.foldl (fun m f => if f.length > m then f.length else m) m) ∧
      (l.foldl (fun m f => if f.length > m then f.length else m) m = m ∨
        ∃ f ∈ l, f.length = l.foldl (fun m f => if f.length > m then f.length else m) m) := by
    intro l
    induction l with
    | nil => intro m; simp
    | cons a t ih =>
      intro m
      simp only [List.foldl_cons]
      by_cases h : a.length > m
      · simp only [h, if_true]
        obtain ⟨h1, h2, h3⟩ := ih a.length
        refine ⟨by omega, ?_, ?_⟩
        · intro f hf
          rcases List.mem_cons.1 hf with rfl | hf
          · exact h1
          · exact h2 f hf
        · right
          rcases h3 with h3 | ⟨f, hf, e⟩
          · exact ⟨a, by simp, h3.symm⟩
          · exact ⟨f, by simp [hf], e⟩
      · simp only [h, if_false]
        obtain ⟨h1, h2, h3⟩ := ih m
        refine ⟨h1, ?_, ?_⟩
        · intro f hf
          rcases List.mem_cons.1 hf with rfl | hf
          · omega
          · exact h2 f hf
        · rcases h3 with h3 | ⟨f, hf, e⟩
          · exact .inl h3
          · exact .inr ⟨f, by simp [hf], e⟩
  obtain ⟨_, h2, h3⟩ := key l 0
  refine ⟨h2, ?_⟩
  cases l with
  | nil => exact .inl rfl
  | cons a t =>
    right
    rcases h3 with h3 | h3
    · refine ⟨a, by simp, ?_⟩
      have := h2 a (by simp)
      unfold maxWidth
      omega
    · exact h3

namespace Spec
/-- A line of a listing: the name, spaces up to column `n`, the separator and the description. -/
def Line (n : Nat) (name descr line : String) : Prop :=
  ∃ pad : List Char, (∀ c ∈ pad, c = ' ') ∧ line.toList = name.toList ++ pad ++ " - ".toList ++ descr.toList ∧
    (name.toList ++ pad).length = n
end Spec

theorem listLine_spec {n : Nat} {fmt descr : String} (h : fmt.length ≤ n) : Spec.Line n fmt descr (listLine n fmt descr) := by
  refine ⟨List.replicate (n - fmt.length) ' ', fun c hc => (List.mem_replicate.1 hc).2, ?_, ?_⟩
  · unfold listLine
    by_cases hl : fmt.length < n
    · simp [hl]
    · have : n - fmt.length = 0 := by omega
      simp [hl, this]
  · have : fmt.toList.length = fmt.length := String.length_toList
    simp only [List.length_append, List.length_replicate, this]
    omega

/-- **C77** for database formats: never fails; one line per format, sorted by name, with the description last registered, all
descriptions starting in the same column, which is the smallest possible one. -/
theorem C77_list_db_formats {D : Type} (ops : List (Spec.Reg D)) :
    ∃ (lines : List String) (n : Nat), listDbFormats (runReg ops) = .ok lines ∧
      List.Forall₂ (fun f line => ∃ d, Spec.IsLast (fun o => ∃ d', o = .db d' ∧ d'.name = f) ops (.db d) ∧
        Spec.Line n f d.description line) (runReg ops).getDatabaseFormats lines ∧
      (ops.any (fun o => match o with | .db _ => true | _ => false) = true → ∃ d, Spec.Reg.db d ∈ ops ∧ d.name.length = n) := by
  have hmem : ∀ f ∈ (runReg ops).getDatabaseFormats, f ∈ (runReg ops).dbs.keys := fun f hf => mem_sortNames.1 hf
  obtain ⟨hw1, hw2⟩ := maxWidth_spec (runReg ops).getDatabaseFormats
  have key : ∀ l : List String, (∀ f ∈ l, f ∈ (runReg ops).getDatabaseFormats) → ∃ lines,
      l.mapM (fun f => do
        let d ← (runReg ops).getDatabaseDesc f
        pure (listLine (maxWidth (runReg ops).getDatabaseFormats) f d.description) : String → Except Err String) = .ok lines ∧
      List.Forall₂ (fun f line => ∃ d, Spec.IsLast (fun o => ∃ d', o = .db d' ∧ d'.name = f) ops (.db d) ∧
        Spec.Line (maxWidth (runReg ops).getDatabaseFormats) f d.description line) l lines := by
    intro l
    induction l with
    | nil => intro _; exact ⟨[], rfl, .nil⟩
    | cons f t ih =>
      intro hl
      obtain ⟨lines, h1, h2⟩ := ih (fun x hx => hl x (List.mem_cons_of_mem _ hx))
      have hf := hl f (by simp)
      obtain ⟨d, hd⟩ := Option.isSome_iff_exists.1 ((Dict.contains_iff _ _).2 (hmem f hf) : ((runReg ops).dbs.get? f).isSome = true)
      refine ⟨listLine (maxWidth (runReg ops).getDatabaseFormats) f d.description :: lines, ?_, .cons ⟨d, (run_get_db ops f d).1 hd, listLine_spec (hw1 f hf)⟩ h2⟩
      rw [List.mapM_cons, h1]
      have : (runReg ops).getDatabaseDesc f = .ok d := getE_iff.2 hd
      rw [this]; rfl
  obtain ⟨lines, h1, h2⟩ := key _ (fun _ h => h)
  refine ⟨lines, _, h1, h2, ?_⟩
  intro hany
  obtain ⟨o, ho, hb⟩ := List.any_eq_true.1 hany
  cases o with
  | rpt r => cases hb
  | db r =>
    have hr : r.name ∈ (runReg ops).getDatabaseFormats := mem_sortNames.2 ((run_mem_db ops r.name).2 ⟨r, ho, rfl⟩)
    rcases hw2 with e | ⟨f, hf, e⟩
    · rw [e] at hr; cases hr
    · obtain ⟨d, hd, rfl⟩ := (run_mem_db ops f).1 (hmem f hf)
      exact ⟨d, hd, e⟩

/-- **C77** for report formats. -/
theorem C77_list_report_formats {D : Type} (ops : List (Spec.Reg D)) :
    ∃ (lines : List String) (n : Nat), listReportFormats (runReg ops) = .ok lines ∧
      List.Forall₂ (fun f line => ∃ d, Spec.IsLast (fun o => ∃ d', o = .rpt d' ∧ d'.name = f) ops (.rpt d) ∧
        Spec.Line n f d.description line) (runReg ops).getReportFormats lines ∧
      (ops.any (fun o => match o with | .rpt _ => true | _ => false) = true → ∃ d, Spec.Reg.rpt d ∈ ops ∧ d.name.length = n) := by
  have hmem : ∀ f ∈ (runReg ops).getReportFormats, f ∈ (runReg ops).rpts.keys := fun f hf => mem_sortNames.1 hf
  obtain ⟨hw1, hw2⟩ := maxWidth_spec (runReg ops).getReportFormats
  have key : ∀ l : List String, (∀ f ∈ l, f ∈ (runReg ops).getReportFormats) → ∃ lines,
      l.mapM (fun f => do
        let d ← (runReg ops).getReportDesc f
        pure (listLine (maxWidth (runReg ops).getReportFormats) f d.description) : String → Except Err String) = .ok lines ∧
      List.Forall₂ (fun f line => ∃ d, Spec.IsLast (fun o => ∃ d', o = .rpt d' ∧ d'.name = f) ops (.rpt d) ∧
        Spec.Line (maxWidth (runReg ops).getReportFormats) f d.description line) l lines := by
    intro l
    induction l with
    | nil => intro _; exact ⟨[], rfl, .nil⟩
    | cons f t ih =>
      intro hl
      obtain ⟨lines, h1, h2⟩ := ih (fun x hx => hl x (List.mem_cons_of_mem _ hx))
      have hf := hl f (by simp)
      obtain ⟨d, hd⟩ := Option.isSome_iff_exists.1 ((Dict.contains_iff _ _).2 (hmem f hf) : ((runReg ops).rpts.get? f).isSome = true)
      refine ⟨listLine (maxWidth (runReg ops).getReportFormats) f d.description :: lines, ?_, .cons ⟨d, (run_get_rpt ops f d).1 hd, listLine_spec (hw1 f hf)⟩ h2⟩
      rw [List.mapM_cons, h1]
      have : (runReg ops).getReportDesc f = .ok d := getE_iff.2 hd
      rw [this]; rfl
  obtain ⟨lines, h1, h2⟩ := key _ (fun _ h => h)
  refine ⟨lines, _, h1, h2, ?_⟩
  intro hany
  obtain ⟨o, ho, hb⟩ := List.any_eq_true.1 hany
  cases o with
  | db r => cases hb
  | rpt r =>
    have hr : r.name ∈ (runReg ops).getReportFormats := mem_sortNames.2 ((run_mem_rpt ops r.name).2 ⟨r, ho, rfl⟩)
    rcases hw2 with e | ⟨f, hf, e⟩
    · rw [e] at hr; cases hr
    · obtain ⟨d, hd, rfl⟩ := (run_mem_rpt ops f).1 (hmem f hf)
      exact ⟨d, hd, e⟩

example : listLine 7 "xml" "Supports" = "xml     - Supports" := by decide +kernel

/-! ## C62: compressed files -/

/-- **C62.** With both modules installed. -/
theorem C62_open_file (content : Bytes) :
    (openFile ⟨true, true⟩ content = some .gzip ↔ ∃ rest, content = 0x1f :: 0x8b :: rest) ∧
    (openFile ⟨true, true⟩ content = some .lz4 ↔ ∃ rest, content = 0x04 :: 0x22 :: 0x4d :: 0x18 :: rest) ∧
    (openFile ⟨true, true⟩ content = some .plain ↔ (¬ ∃ rest, content = 0x1f :: 0x8b :: rest) ∧
      ¬ ∃ rest, content = 0x04 :: 0x22 :: 0x4d :: 0x18 :: rest) := by
  unfold openFile
  rcases content with _ | ⟨a, _ | ⟨b, _ | ⟨c, _ | ⟨d, r⟩⟩⟩⟩
  · simp
  · simp
  · by_cases h1 : a = 0x1f <;> by_cases h2 : b = 0x8b <;> simp [h1, h2]
  · by_cases h1 : a = 0x1f <;> by_cases h2 : b = 0x8b <;> simp [h1, h2]
  · by_cases h1 : a = 0x1f
    · subst h1
      by_cases h2 : b = 0x8b <;> simp [h2]
    · by_cases h3 : a = 0x04
      · subst h3
        by_cases h4 : b = 0x22 <;> by_cases h5 : c = 0x4d <;> by_cases h6 : d = 0x18 <;> simp [h4, h5, h6]
      · simp [h1, h3]

/-- A compressed file is never opened as plain text, whatever modules are missing; without the module there is no file object at all. -/
theorem C62_missing_module (m : Modules) (content : Bytes) :
    (openFile m content = some .plain ↔ openFile ⟨true, true⟩ content = some .plain) ∧
    (openFile m content = none ↔ (openFile ⟨true, true⟩ content = some .gzip ∧ m.gzip = false) ∨
      (openFile ⟨true, true⟩ content = some .lz4 ∧ m.lz4 = false)) := by
  unfold openFile
  obtain ⟨g, l⟩ := m
  by_cases h1 : content.take 2 = [0x1f, 0x8b]
  · cases g <;> simp [h1]
  · by_cases h2 : content.take 2 = [0x04, 0x22] ∧ (content.drop 2).take 2 = [0x4d, 0x18]
    · cases l <;> simp [h2]
    · simp only [h1, h2, if_false]; simp

example : openFile ⟨true, true⟩ [0x1f, 0x8b, 8, 0] = some .gzip ∧ openFile ⟨true, true⟩ [0x04, 0x22, 0x4d, 0x18, 1] = some .lz4 ∧
    openFile ⟨true, true⟩ [0x04, 0x22, 0x4d] = some .plain ∧ openFile ⟨true, true⟩ [] = some .plain := by decide +kernel

end Tools
end Verif
