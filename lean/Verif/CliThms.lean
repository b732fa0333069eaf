import Verif.Cli
import Verif.Assoc
import Verif.ToolsThms
/-!
# Command lines (C116)
-/

namespace Verif
namespace Cli
open Tools

/-! ## Specification -/

/-- An option as it is given on a command line: in the form `--out x` or, `joined`, in the form `--out=x`. -/
structure _root_.Verif.Spec.Given where
  opt : Opt
  str : Word
  joined : Bool
  value : Word
  deriving Repr, DecidableEq

/-- A word that does not look like an option. -/
def _root_.Verif.Spec.PlainWord (w : Word) : Prop := w = ['-'] ∨ w.head? ≠ some '-'

instance (w : Word) : Decidable (Spec.PlainWord w) := inferInstanceAs (Decidable (_ ∨ _))

/-- The option is one of the parser's, in one of its spellings; a value in a word of its own does not look like an option. -/
def _root_.Verif.Spec.Given.Ok (p : Parser) (g : Spec.Given) : Prop :=
  g.opt ∈ p.opts ∧ g.str ∈ g.opt.strings ∧ (g.joined = false → Spec.PlainWord g.value)

instance (p : Parser) (g : Spec.Given) : Decidable (g.Ok p) := inferInstanceAs (Decidable (_ ∧ _ ∧ (_ → _)))

/-- An item of a command line after the name of the command: an option with its value, or a file name. -/
inductive _root_.Verif.Spec.CliItem where
  | given (g : Spec.Given)
  | word (w : Word)
  deriving Repr, DecidableEq

def _root_.Verif.Spec.CliItem.Ok (p : Parser) : Spec.CliItem → Prop
  | .given g => g.Ok p
  | .word w => Spec.PlainWord w

instance (p : Parser) (i : Spec.CliItem) : Decidable (i.Ok p) := by
  cases i <;> (unfold Spec.CliItem.Ok; infer_instance)

/-- The words of an item. -/
def _root_.Verif.Spec.CliItem.words : Spec.CliItem → List Word
  | .given g => if g.joined then [g.str ++ '=' :: g.value] else [g.str, g.value]
  | .word w => [w]

/-- The command line. -/
def _root_.Verif.Spec.cliLine (name : String) (l : List Spec.CliItem) : List String :=
  name :: (l.flatMap Spec.CliItem.words).map String.ofList

/-- The file names in order. -/
def _root_.Verif.Spec.cliFiles (l : List Spec.CliItem) : List Word :=
  l.filterMap (fun i => match i with | .word w => some w | .given _ => none)

/-- The options in order. -/
def _root_.Verif.Spec.cliGivens (l : List Spec.CliItem) : List Spec.Given :=
  l.filterMap (fun i => match i with | .given g => some g | .word _ => none)

/-- The value of an option: that of its last occurrence, whatever the spelling. -/
def _root_.Verif.Spec.cliValue (l : List Spec.CliItem) (dest : String) : Option String :=
  (((Spec.cliGivens l).filter (fun g => g.opt.dest == dest)).getLast?).map (fun g => String.ofList g.value)

/-- All file names stand together. -/
def _root_.Verif.Spec.cliTogether (l : List Spec.CliItem) : Prop :=
  ∃ (pre : List Spec.Given) (files : List Word) (post : List Spec.Given), l = pre.map Spec.CliItem.given ++ files.map Spec.CliItem.word ++ post.map Spec.CliItem.given

/-! ## Classification of the words -/

/-- What the proofs need of a parser; true of the five parsers (`wf_*`). -/
structure WF (p : Parser) : Prop where
  find : ∀ o ∈ p.opts, ∀ s ∈ o.strings, Cli.find p.table s = some (.store o)
  dash : ∀ o ∈ p.opts, ∀ s ∈ o.strings, s.head? = some '-' ∧ s ≠ ['-', '-'] ∧ 2 ≤ s.length
  eq : ∀ e ∈ p.table, '=' ∉ e.1
  pos : ∀ q, p.pos = some q → ∀ o ∈ p.opts, o.dest ≠ q.dest

theorem wf_convert : WF convertParser := ⟨by decide, by decide, by decide, by decide⟩
theorem wf_merge : WF mergeParser := ⟨by decide, by decide, by decide, by decide⟩
theorem wf_report : WF reportParser := ⟨by decide, by decide, by decide, by decide⟩

theorem find_none {m : List (Word × Action)} (h : ∀ e ∈ m, '=' ∉ e.1) {s : Word} (hs : '=' ∈ s) : find m s = none := by
  unfold find
  rw [List.find?_eq_none.2]
  · rfl
  intro e he
  simp only [beq_iff_eq]
  rintro rfl
  exact h e he hs

theorem partEq_joined {s v : Word} (h : '=' ∉ s) : partEq (s ++ '=' :: v) = (s, some v) := by
  have h1 : ∀ c ∈ s, (c != '=') = true := by
    intro c hc
    simp only [bne_iff_ne, ne_eq]
    rintro rfl
    exact h hc
  unfold partEq
  rw [List.takeWhile_append_of_pos h1, List.dropWhile_append_of_pos h1]
  simp

/-- The classification of an item. -/
def cwords : Spec.CliItem → List (Word × Cls)
  | .given g =>
    if g.joined then [(g.str ++ '=' :: g.value, .opt ⟨some (.store g.opt), g.str, some (true, g.value)⟩)]
    else [(g.str, .opt ⟨some (.store g.opt), g.str, none⟩), (g.value, .arg)]
  | .word w => [(w, .arg)]

theorem parseOptional_plain {m : List (Word × Action)} (hm : find m ['-'] = none) {w : Word} (h : Spec.PlainWord w) :
    parseOptional m w = some .arg := by
  rcases h with rfl | h
  · simp [parseOptional, hm]
  · cases w with
    | nil => rfl
    | cons c r =>
      have : c ≠ '-' := by simpa using h
      simp [parseOptional, this]

theorem parseOptional_str {m : List (Word × Action)} {s : Word} {a : Action} (h : find m s = some a) (h1 : s.head? = some '-') :
    parseOptional m s = some (.opt ⟨some a, s, none⟩) := by
  cases s with
  | nil => simp at h1
  | cons c r =>
    have : c = '-' := by simpa using h1
    subst this
    simp [parseOptional, h]

theorem parseOptional_joined {m : List (Word × Action)} (hm : ∀ e ∈ m, '=' ∉ e.1) {s v : Word} {a : Action} (h : find m s = some a)
    (h1 : s.head? = some '-') (h2 : '=' ∉ s) :
    parseOptional m (s ++ '=' :: v) = some (.opt ⟨some a, s, some (true, v)⟩) := by
  cases s with
  | nil => simp at h1
  | cons c r =>
    have : c = '-' := by simpa using h1
    subst this
    have h3 := find_none hm (s := '-' :: r ++ '=' :: v) (by simp)
    have h4 := partEq_joined (s := '-' :: r) (v := v) h2
    simp only [List.cons_append] at h3 h4 ⊢
    simp [parseOptional, h3, h4, h]

theorem plain_ne_dashes {w : Word} (h : Spec.PlainWord w) : w ≠ ['-', '-'] := by
  rintro rfl
  rcases h with h | h <;> simp at h

theorem find_dash {p : Parser} (hp : WF p) : find p.table ['-'] = none := by
  unfold find
  rw [List.find?_eq_none.2]
  · rfl
  intro e he
  simp only [beq_iff_eq]
  intro h
  unfold Parser.table at he
  simp only [List.mem_cons, List.mem_flatMap, List.mem_map] at he
  rcases he with rfl | rfl | ⟨o, ho, s, hs, rfl⟩
  · simp at h
  · simp at h
  · have := (hp.dash o ho s hs).2.2
    simp only at h
    rw [h] at this
    simp at this

theorem mem_table {p : Parser} {o : Opt} {s : Word} (ho : o ∈ p.opts) (hs : s ∈ o.strings) : (s, Action.store o) ∈ p.table := by
  unfold Parser.table
  simp only [List.mem_cons, List.mem_flatMap, List.mem_map]
  exact Or.inr (Or.inr ⟨o, ho, s, hs, rfl⟩)

theorem classify_cons {m : List (Word × Action)} {w : Word} {t : List Word} {c : Cls} {r : List (Word × Cls)} (hw : w ≠ ['-', '-'])
    (h1 : parseOptional m w = some c) (h2 : classify m t = some r) : classify m (w :: t) = some ((w, c) :: r) := by
  simp [classify, hw, h1, h2]

theorem classify_line {p : Parser} (hp : WF p) : ∀ l : List Spec.CliItem, (∀ i ∈ l, i.Ok p) →
    classify p.table (l.flatMap Spec.CliItem.words) = some (l.flatMap cwords)
  | [], _ => rfl
  | i :: t, h => by
    have ih := classify_line hp t (fun j hj => h j (List.mem_cons_of_mem _ hj))
    have hi := h i (List.mem_cons_self ..)
    simp only [List.flatMap_cons]
    cases i with
    | word w =>
      exact classify_cons (plain_ne_dashes hi) (parseOptional_plain (find_dash hp) hi) ih
    | given g =>
      obtain ⟨h1, h2, h3⟩ := hi
      have hd := hp.dash _ h1 _ h2
      have he := hp.eq _ (mem_table h1 h2)
      have hf := hp.find _ h1 _ h2
      cases hj : g.joined with
      | true =>
        simp only [Spec.CliItem.words, cwords, hj, if_true, List.singleton_append]
        refine classify_cons ?_ (parseOptional_joined hp.eq hf hd.1 he) ih
        intro h
        have : '=' ∈ (['-', '-'] : Word) := h ▸ (by simp)
        simp at this
      | false =>
        simp only [Spec.CliItem.words, cwords, hj, Bool.false_eq_true, if_false, List.cons_append, List.nil_append]
        exact classify_cons hd.2.1 (parseOptional_str hf hd.1)
          (classify_cons (plain_ne_dashes (h3 hj)) (parseOptional_plain (find_dash hp) (h3 hj)) ih)

/-! ## The main loop -/

theorem length_cwords (i : Spec.CliItem) : 1 ≤ (cwords i).length := by
  cases i with
  | word w => simp [cwords]
  | given g => cases hj : g.joined <;> simp [cwords, hj]

/-- All options stored. -/
def storeAll (ns : Dict (List Word)) (l : List Spec.CliItem) : Dict (List Word) :=
  (Spec.cliGivens l).foldl (fun ns g => ns.set g.opt.dest [g.value]) ns

theorem loop_given {p : Parser} {g : Spec.Given} {n : Nat} {pos : Option Positional} {ns : Dict (List Word)} {ex : List Word}
    {r : List (Word × Cls)} :
    loop p (n + 1) pos ns ex (cwords (.given g) ++ r) = loop p n pos (ns.set g.opt.dest [g.value]) ex r := by
  cases hj : g.joined with
  | true =>
    simp only [cwords, hj, if_true, List.singleton_append]
    simp [loop, round, Cls.isOpt, consumeOptional]
  | false =>
    simp only [cwords, hj, Bool.false_eq_true, if_false, List.cons_append, List.nil_append]
    simp [loop, round, Cls.isOpt, consumeOptional, nextArg]

/-- Without givens nothing is an option. -/
theorem words_only (ws : List Word) : (ws.map Spec.CliItem.word).flatMap cwords = ws.map (fun w => (w, Cls.arg)) := by
  induction ws with
  | nil => rfl
  | cons w t ih => simp [cwords] at ih ⊢; exact ih

/-- The leading file names. -/
theorem leading (l : List Spec.CliItem) : ∃ (ws : List Word) (rest : List Spec.CliItem), l = ws.map Spec.CliItem.word ++ rest ∧ (rest = [] ∨ ∃ g t, rest = .given g :: t) := by
  induction l with
  | nil => exact ⟨[], [], rfl, Or.inl rfl⟩
  | cons i t ih =>
    cases i with
    | given g => exact ⟨[], _, rfl, Or.inr ⟨g, t, rfl⟩⟩
    | word w =>
      obtain ⟨ws, rest, h1, h2⟩ := ih
      exact ⟨w :: ws, rest, by simp [h1], h2⟩

theorem cwords_given_head (g : Spec.Given) : ∃ w t r, cwords (.given g) = (w, Cls.opt t) :: r := by
  cases hj : g.joined with
  | true => exact ⟨_, _, _, by simp only [cwords, hj, if_true]; rfl⟩
  | false => exact ⟨_, _, _, by simp only [cwords, hj, Bool.false_eq_true, if_false]; rfl⟩

theorem take_run (ws : List Word) {rest : List Spec.CliItem} (h : rest = [] ∨ ∃ g t, rest = .given g :: t) :
    ((ws.map (fun w => (w, Cls.arg))) ++ rest.flatMap cwords).takeWhile (fun e => !e.2.isOpt) = ws.map (fun w => (w, Cls.arg)) ∧
    ((ws.map (fun w => (w, Cls.arg))) ++ rest.flatMap cwords).dropWhile (fun e => !e.2.isOpt) = rest.flatMap cwords := by
  have h1 : ∀ e ∈ ws.map (fun w => (w, Cls.arg)), (!e.2.isOpt) = true := by
    intro e he
    obtain ⟨w, _, rfl⟩ := List.mem_map.1 he
    rfl
  rw [List.takeWhile_append_of_pos h1, List.dropWhile_append_of_pos h1]
  rcases h with rfl | ⟨g, t, rfl⟩
  · simp
  · obtain ⟨w, tu, r, e⟩ := cwords_given_head g
    simp [List.flatMap_cons, e, Cls.isOpt]

theorem givens_words (ws : List Word) (l : List Spec.CliItem) :
    Spec.cliGivens (ws.map Spec.CliItem.word ++ l) = Spec.cliGivens l := by
  unfold Spec.cliGivens
  rw [List.filterMap_append, List.filterMap_map, List.filterMap_eq_nil_iff.2]
  · rfl
  · intro a _; rfl

theorem files_words (ws : List Word) (l : List Spec.CliItem) :
    Spec.cliFiles (ws.map Spec.CliItem.word ++ l) = ws ++ Spec.cliFiles l := by
  unfold Spec.cliFiles
  rw [List.filterMap_append, List.filterMap_map]
  congr 1
  induction ws with
  | nil => rfl
  | cons w t ih => simp only [List.filterMap_cons, Function.comp]; simp

/-- After the positional argument has been consumed. -/
theorem loop_none (p : Parser) : ∀ (n : Nat) (l : List Spec.CliItem) (ns : Dict (List Word)) (ex : List Word),
    (l.flatMap cwords).length ≤ n →
    loop p n none ns ex (l.flatMap cwords) = finish p.opts none (storeAll ns l) (ex ++ Spec.cliFiles l)
  | 0, l, ns, ex, h => by
    cases l with
    | nil => simp [loop, storeAll, Spec.cliGivens, Spec.cliFiles]
    | cons i t =>
      have := length_cwords i
      simp only [List.flatMap_cons, List.length_append] at h
      omega
  | n + 1, l, ns, ex, h => by
    obtain ⟨ws, rest, rfl, hr⟩ := leading l
    rcases hr with rfl | ⟨g, t, rfl⟩
    · rw [List.append_nil, words_only]
      have h0 : ((ws.map (fun w => (w, Cls.arg))).any (fun e => e.2.isOpt)) = false := by
        simp [Cls.isOpt]
      have hg := givens_words ws []
      have hf := files_words ws []
      rw [List.append_nil] at hg hf
      simp only [loop, round, takePos, h0, storeAll, hg, hf]
      simp [Spec.cliGivens, Spec.cliFiles, Function.comp_def]
    · rw [List.flatMap_append, words_only] at h ⊢
      obtain ⟨w, tu, r, e⟩ := cwords_given_head g
      cases ws with
      | nil =>
        simp only [List.map_nil, List.nil_append, List.flatMap_cons, List.length_append] at h ⊢
        have := length_cwords (.given g)
        rw [loop_given, loop_none p n t _ _ (by omega)]
        rfl
      | cons v vs =>
        have h1 : (((v :: vs).map (fun w => (w, Cls.arg)) ++ (Spec.CliItem.given g :: t).flatMap cwords).any (fun e => e.2.isOpt)) = true := by
          simp [List.flatMap_cons, e, Cls.isOpt]
        have h2 := take_run (v :: vs) (rest := .given g :: t) (Or.inr ⟨g, t, rfl⟩)
        have hs : storeAll ns ((v :: vs).map Spec.CliItem.word ++ Spec.CliItem.given g :: t) = storeAll ns (.given g :: t) := by
          unfold storeAll; rw [givens_words]
        rw [hs, files_words]
        simp only [loop, round, h1, if_true]
        simp only [List.map_cons, List.cons_append, takePos, Option.bind_none] at h2 ⊢
        simp only [h2.1, h2.2]
        rw [loop_none p n (.given g :: t) ns _ (by simp at h ⊢; omega)]
        simp [Function.comp_def]

theorem storeAll_givens (ns : Dict (List Word)) (pre : List Spec.Given) (l : List Spec.CliItem) :
    storeAll ns (pre.map Spec.CliItem.given ++ l) = storeAll (storeAll ns (pre.map Spec.CliItem.given)) l := by
  unfold storeAll Spec.cliGivens
  rw [List.filterMap_append, List.foldl_append]

/-- Options in front are consumed one by one. -/
theorem loop_pre (p : Parser) (pos : Option Positional) (ex : List Word) (l : List Spec.CliItem) :
    ∀ (pre : List Spec.Given) (n : Nat) (ns : Dict (List Word)), ((pre.map Spec.CliItem.given ++ l).flatMap cwords).length ≤ n →
    ∃ m, (l.flatMap cwords).length ≤ m ∧
      loop p n pos ns ex ((pre.map Spec.CliItem.given ++ l).flatMap cwords) =
      loop p m pos (storeAll ns (pre.map Spec.CliItem.given)) ex (l.flatMap cwords)
  | [], n, ns, h => ⟨n, h, rfl⟩
  | g :: t, 0, ns, h => by
    have := length_cwords (.given g)
    simp only [List.map_cons, List.cons_append, List.flatMap_cons, List.length_append] at h
    omega
  | g :: t, n + 1, ns, h => by
    have := length_cwords (.given g)
    simp only [List.map_cons, List.cons_append, List.flatMap_cons, List.length_append] at h ⊢
    rw [loop_given]
    exact loop_pre p pos ex l t n _ (by omega)

/-- The options in front. -/
theorem front (l : List Spec.CliItem) : ∃ (pre : List Spec.Given) (rest : List Spec.CliItem),
    l = pre.map Spec.CliItem.given ++ rest ∧ (rest = [] ∨ ∃ w t, rest = .word w :: t) := by
  induction l with
  | nil => exact ⟨[], [], rfl, Or.inl rfl⟩
  | cons i t ih =>
    cases i with
    | word w => exact ⟨[], _, rfl, Or.inr ⟨w, t, rfl⟩⟩
    | given g =>
      obtain ⟨pre, rest, h1, h2⟩ := ih
      exact ⟨g :: pre, rest, by simp [h1], h2⟩

/-- The positional argument with `nargs="+"` takes the file names that stand together. -/
theorem takePos_many {q : Positional} (hq : q.nargs = .many) {w : Word} {ws : List Word} (hw : ∀ v ∈ w :: ws, Spec.PlainWord v)
    {rest : List Spec.CliItem} (hr : rest = [] ∨ ∃ g t, rest = .given g :: t) :
    takePos (some q) ((w :: ws).map (fun w => (w, Cls.arg)) ++ rest.flatMap cwords) = some (q.dest, w :: ws, rest.flatMap cwords) := by
  have h := take_run ws hr
  have he : (['-', '-'] : Word) ∉ w :: ws := fun hm => plain_ne_dashes (hw _ hm) rfl
  simp only [takePos, consumePos, Option.bind_some, List.map_cons, List.cons_append, List.dropWhile_cons, List.takeWhile_cons, hq]
  simp only [reduceCtorEq, decide_false, Bool.false_eq_true, if_false, h.1, h.2, List.map_nil, List.nil_append, List.map_map]
  rw [show List.map ((fun x => x.1) ∘ fun w => (w, Cls.arg)) ws = ws by simp [Function.comp_def]]
  rw [List.erase_of_not_mem he]
  rfl

/-- Without `nargs` it takes one file name. -/
theorem takePos_one {q : Positional} (hq : q.nargs = .one) {w : Word} (hw : Spec.PlainWord w) (rest : List Spec.CliItem) :
    takePos (some q) ((w, Cls.arg) :: rest.flatMap cwords) = some (q.dest, [w], rest.flatMap cwords) := by
  have he : (['-', '-'] : Word) ∉ [w] := fun hm => plain_ne_dashes hw (List.mem_singleton.1 hm).symm
  have hh : ∀ r : List Spec.CliItem, (r.flatMap cwords).takeWhile (fun e => decide (e.2 = Cls.dashes)) = [] ∧
      (r.flatMap cwords).dropWhile (fun e => decide (e.2 = Cls.dashes)) = r.flatMap cwords := by
    intro r
    cases r with
    | nil => exact ⟨rfl, rfl⟩
    | cons i t =>
      cases i with
      | word v => simp [cwords]
      | given g => obtain ⟨a, b, c, e⟩ := cwords_given_head g; simp [e]
  simp only [takePos, consumePos, Option.bind_some, List.dropWhile_cons, List.takeWhile_cons, hq]
  simp only [reduceCtorEq, decide_false, Bool.false_eq_true, if_false, (hh rest).1, (hh rest).2, List.map_nil, List.nil_append]
  rw [List.erase_of_not_mem he]
  rfl

/-- The first file name: what the positional argument takes, and what is left. -/
theorem loop_word (p : Parser) {q : Positional} {n : Nat} {ns : Dict (List Word)} {ex : List Word} {w : Word} {l : List (Word × Cls)} {vs : List Word}
    {rest : List Spec.CliItem} (ht : takePos (some q) ((w, Cls.arg) :: l) = some (q.dest, vs, rest.flatMap cwords))
    (hn : (rest.flatMap cwords).length ≤ n) (ho : l.any (fun e => e.2.isOpt) = (rest.flatMap cwords).any (fun e => e.2.isOpt)) :
    loop p (n + 1) (some q) ns ex ((w, Cls.arg) :: l) = finish p.opts none (storeAll (ns.set q.dest vs) rest) (ex ++ Spec.cliFiles rest) := by
  rw [← loop_none p n rest _ _ hn]
  cases h : l.any (fun e => e.2.isOpt) with
  | true =>
    have h1 : (((w, Cls.arg) :: l).any (fun e => e.2.isOpt)) = true := by simp [h]
    simp only [loop, round, h1, if_true, ht]
  | false =>
    have h1 : (((w, Cls.arg) :: l).any (fun e => e.2.isOpt)) = false := by rw [List.any_cons, h]; rfl
    simp only [loop, round, h1, Bool.false_eq_true, if_false, ht]
    rw [h] at ho
    have h2 : takePos none (rest.flatMap cwords) = none := rfl
    cases n with
    | zero =>
      have : rest.flatMap cwords = [] := List.length_eq_zero_iff.1 (by omega)
      simp [loop, this]
    | succ n => simp only [loop, round, ← ho, Bool.false_eq_true, if_false, h2]

/-! ## What the namespace says -/

theorem get?_store (gs : List Spec.Given) (ns : Dict (List Word)) (d : String) :
    (gs.foldl (fun ns g => ns.set g.opt.dest [g.value]) ns).get? d =
    match (gs.filter (fun g => g.opt.dest == d)).getLast? with
    | some g => some [g.value]
    | none => ns.get? d := by
  induction gs using List.reverseRecOn with
  | nil => rfl
  | append_singleton t g ih =>
    rw [List.foldl_append, List.foldl_cons, List.foldl_nil, Dict.get?_set, List.filter_append]
    by_cases h : g.opt.dest = d
    · simp [h]
    · simp [h, ih]

/-- Every required option is given. -/
def _root_.Verif.Spec.cliRequired (p : Parser) (l : List Spec.CliItem) : Prop :=
  ∀ o ∈ p.opts, o.required = true → (Spec.cliValue l o.dest).isSome

/-- How many file names the command takes, and how. -/
def _root_.Verif.Spec.cliShape (n : NArgs) (l : List Spec.CliItem) : Prop :=
  match n with
  | .one => (Spec.cliFiles l).length = 1
  | .many => Spec.cliFiles l ≠ [] ∧ Spec.cliTogether l

theorem value_eq (l : List Spec.CliItem) (d : String) {gs : List Spec.Given} (h : Spec.cliGivens l = gs) :
    Spec.cliValue l d = ((gs.filter (fun g => g.opt.dest == d)).getLast?).map (fun g => String.ofList g.value) := by
  subst h; rfl

theorem givens_given (gs : List Spec.Given) (l : List Spec.CliItem) :
    Spec.cliGivens (gs.map Spec.CliItem.given ++ l) = gs ++ Spec.cliGivens l := by
  unfold Spec.cliGivens
  rw [List.filterMap_append, List.filterMap_map]
  congr 1
  induction gs with
  | nil => rfl
  | cons w t ih => simp only [List.filterMap_cons, Function.comp]; simp

theorem files_given (gs : List Spec.Given) (l : List Spec.CliItem) :
    Spec.cliFiles (gs.map Spec.CliItem.given ++ l) = Spec.cliFiles l := by
  unfold Spec.cliFiles
  rw [List.filterMap_append, List.filterMap_map, List.filterMap_eq_nil_iff.2]
  · rfl
  · intro a _; rfl

theorem files_nil {l : List Spec.CliItem} (h : Spec.cliFiles l = []) : ∃ gs : List Spec.Given, l = gs.map Spec.CliItem.given := by
  obtain ⟨gs, rest, rfl, hr⟩ := front l
  rcases hr with rfl | ⟨w, t, rfl⟩
  · exact ⟨gs, by simp⟩
  · rw [files_given] at h; simp [Spec.cliFiles] at h

/-- The decomposition of a command line that has a file name: options, the words taken by the positional argument, the rest. -/
theorem parse_words {p : Parser} (hp : WF p) {q : Positional} (hq : p.pos = some q) {l : List Spec.CliItem} (hok : ∀ i ∈ l, i.Ok p)
    (hne : Spec.cliFiles l ≠ []) : ∃ (pre : List Spec.Given) (vs : List Word) (rest : List Spec.CliItem),
      l = pre.map Spec.CliItem.given ++ vs.map Spec.CliItem.word ++ rest ∧ vs ≠ [] ∧
      (q.nargs = .one → vs.length = 1) ∧ (q.nargs = .many → rest = [] ∨ ∃ g t, rest = .given g :: t) ∧
      parseKnown p (l.flatMap Spec.CliItem.words) =
        finish p.opts none (storeAll ((storeAll [] (pre.map Spec.CliItem.given)).set q.dest vs) rest) (Spec.cliFiles rest) := by
  obtain ⟨pre, tail, rfl, ht⟩ := front l
  rcases ht with rfl | ⟨w, t, rfl⟩
  · exact absurd (by rw [files_given]; rfl) hne
  unfold parseKnown
  rw [classify_line hp _ hok, hq]
  obtain ⟨m, hm, he⟩ := loop_pre p (some q) [] (.word w :: t) pre _ [] (le_refl _)
  simp only [he]
  have hw : Spec.PlainWord w := hok (.word w) (by simp)
  have hlen : ((Spec.CliItem.word w :: t).flatMap cwords).length = (t.flatMap cwords).length + 1 := by
    simp [List.flatMap_cons, cwords]
  obtain ⟨k, rfl⟩ : ∃ k, m = k + 1 := ⟨m - 1, by omega⟩
  rw [hlen] at hm
  cases hn : q.nargs with
  | one =>
    refine ⟨pre, [w], t, by simp, by simp, fun _ => rfl, by simp, ?_⟩
    have h1 := loop_word p (n := k) (ns := storeAll [] (pre.map Spec.CliItem.given)) (ex := []) (takePos_one hn hw t) (by omega) rfl
    simpa [List.flatMap_cons, cwords] using h1
  | many =>
    obtain ⟨ws, rest, rfl, hr⟩ := leading t
    have hws : ∀ v ∈ w :: ws, Spec.PlainWord v := by
      intro v hv
      refine hok (.word v) ?_
      rcases List.mem_cons.1 hv with rfl | hv
      · simp
      · simp [hv]
    refine ⟨pre, w :: ws, rest, by simp, by simp, by simp, fun _ => hr, ?_⟩
    have h0 := takePos_many hn hws hr
    simp only [List.map_cons, List.cons_append] at h0
    have h1 := loop_word p (n := k) (ns := storeAll [] (pre.map Spec.CliItem.given)) (ex := []) h0
      (by rw [List.flatMap_append, List.length_append] at hm; omega) (by simp [Cls.isOpt])
    have h2 : (Spec.CliItem.word w :: (ws.map Spec.CliItem.word ++ rest)).flatMap cwords =
        (w, Cls.arg) :: (ws.map (fun w => (w, Cls.arg)) ++ rest.flatMap cwords) := by
      rw [List.flatMap_cons, List.flatMap_append, words_only]; rfl
    rw [h2]
    simpa using h1

/-- Without a file name. -/
theorem parse_no_words {p : Parser} (hp : WF p) {q : Positional} (hq : p.pos = some q) {l : List Spec.CliItem} (hok : ∀ i ∈ l, i.Ok p)
    (hne : Spec.cliFiles l = []) : parseKnown p (l.flatMap Spec.CliItem.words) = .usage := by
  obtain ⟨gs, rfl⟩ := files_nil hne
  unfold parseKnown
  rw [classify_line hp _ hok, hq]
  obtain ⟨m, hm, he⟩ := loop_pre p (some q) [] [] gs _ [] (le_refl _)
  rw [List.append_nil] at he
  simp only [he]
  cases m with
  | zero => simp [loop, finish]
  | succ n => simp [loop, round, finish, takePos, consumePos]

/-- The parsers with a positional argument, exactly. -/
theorem parse_exact {p : Parser} (hp : WF p) {q : Positional} (hq : p.pos = some q) {l : List Spec.CliItem} (hok : ∀ i ∈ l, i.Ok p) :
    (Spec.cliShape q.nargs l ∧ Spec.cliRequired p l → ∃ ns, parseKnown p (l.flatMap Spec.CliItem.words) = .done ns [] ∧
      ns.get? q.dest = some (Spec.cliFiles l) ∧ ∀ o ∈ p.opts, optVal ns o.dest = Spec.cliValue l o.dest) ∧
    (¬ (Spec.cliShape q.nargs l ∧ Spec.cliRequired p l) → parseKnown p (l.flatMap Spec.CliItem.words) = .usage ∨
      ∃ ns ex, ex ≠ [] ∧ parseKnown p (l.flatMap Spec.CliItem.words) = .done ns ex) := by
  by_cases hne : Spec.cliFiles l = []
  · constructor
    · rintro ⟨h, _⟩
      exfalso
      unfold Spec.cliShape at h
      cases hn : q.nargs with
      | one => rw [hn] at h; simp [hne] at h
      | many => rw [hn] at h; exact h.1 hne
    · exact fun _ => Or.inl (parse_no_words hp hq hok hne)
  obtain ⟨pre, vs, rest, hl, hvs, h1, h2, he⟩ := parse_words hp hq hok hne
  set ns := storeAll ((storeAll [] (pre.map Spec.CliItem.given)).set q.dest vs) rest with hns
  have hG : Spec.cliGivens l = pre ++ Spec.cliGivens rest := by
    rw [hl, List.append_assoc, givens_given, givens_words]
  have hF : Spec.cliFiles l = vs ++ Spec.cliFiles rest := by
    rw [hl, List.append_assoc, files_given, files_words]
  have hP : Spec.cliGivens (pre.map Spec.CliItem.given) = pre := by
    have := givens_given pre []
    simpa [Spec.cliGivens] using this
  have hmem : ∀ g ∈ Spec.cliGivens l, g.opt ∈ p.opts := by
    intro g hg
    unfold Spec.cliGivens at hg
    obtain ⟨i, hi, hig⟩ := List.mem_filterMap.1 hg
    cases i with
    | word w => simp at hig
    | given g' => simp at hig; subst hig; exact (hok _ hi).1
  have hget : ∀ d, d ≠ q.dest → ns.get? d = (((Spec.cliGivens l).filter (fun g => g.opt.dest == d)).getLast?).map (fun g => [g.value]) := by
    intro d hd
    rw [hns]
    unfold storeAll
    rw [get?_store, Dict.get?_set, if_neg (fun h => hd h.symm), hP, get?_store, hG, List.filter_append]
    cases h : ((Spec.cliGivens rest).filter (fun g => g.opt.dest == d)).getLast? with
    | some g => simp [List.getLast?_append, h]
    | none => rw [List.getLast?_append, h]; cases (pre.filter (fun g => g.opt.dest == d)).getLast? <;> rfl
  have hgetq : ns.get? q.dest = some vs := by
    rw [hns]
    unfold storeAll
    have : (Spec.cliGivens rest).filter (fun g => g.opt.dest == q.dest) = [] := by
      rw [List.filter_eq_nil_iff]
      intro g hg
      have := hp.pos q hq g.opt (hmem g (by rw [hG]; exact List.mem_append_right _ hg))
      simpa using this
    rw [get?_store, this, Dict.get?_set, if_pos rfl]
    rfl
  have hval : ∀ o ∈ p.opts, optVal ns o.dest = Spec.cliValue l o.dest := by
    intro o ho
    unfold optVal Spec.cliValue
    rw [hget _ (hp.pos q hq o ho)]
    cases ((Spec.cliGivens l).filter (fun g => g.opt.dest == o.dest)).getLast? <;> rfl
  have hreq : (p.opts.any (fun o => o.required && !ns.contains o.dest)) = false ↔ Spec.cliRequired p l := by
    rw [List.any_eq_false]
    unfold Spec.cliRequired
    refine forall₂_congr (fun o ho => ?_)
    have : ns.contains o.dest = (Spec.cliValue l o.dest).isSome := by
      unfold Dict.contains Spec.cliValue
      rw [hget _ (hp.pos q hq o ho)]
      cases ((Spec.cliGivens l).filter (fun g => g.opt.dest == o.dest)).getLast? <;> rfl
    rw [this]
    cases o.required <;> cases (Spec.cliValue l o.dest).isSome <;> simp
  have hshape : Spec.cliShape q.nargs l ↔ Spec.cliFiles rest = [] := by
    unfold Spec.cliShape
    cases hn : q.nargs with
    | one =>
      have := h1 hn
      simp only [hF, List.length_append, this]
      rw [← List.length_eq_zero_iff]; omega
    | many =>
      constructor
      · rintro ⟨_, a, b, c, hab⟩
        rcases h2 hn with rfl | ⟨g, t, rfl⟩
        · rfl
        rw [hl] at hab
        -- options, file names and options again, twice
        have hsplit : ∀ (pre a : List Spec.Given) (vs b : List Word) (r : List Spec.CliItem) (c : List Spec.Given), vs ≠ [] →
            pre.map Spec.CliItem.given ++ vs.map Spec.CliItem.word ++ Spec.CliItem.given g :: r =
            a.map Spec.CliItem.given ++ b.map Spec.CliItem.word ++ c.map Spec.CliItem.given → Spec.cliFiles r = [] := by
          intro pre
          induction pre with
          | nil =>
            intro a vs b r c hv h
            cases a with
            | cons a1 at' =>
              cases vs with
              | nil => exact absurd rfl hv
              | cons v vt => simp at h
            | nil =>
              simp only [List.map_nil, List.nil_append] at h
              have key : ∀ (vs b : List Word), vs.map Spec.CliItem.word ++ Spec.CliItem.given g :: r = b.map Spec.CliItem.word ++ c.map Spec.CliItem.given →
                  Spec.cliFiles r = [] := by
                intro vs
                induction vs with
                | nil =>
                  intro b h
                  cases b with
                  | nil =>
                    simp only [List.map_nil, List.nil_append] at h
                    cases c with
                    | nil => simp at h
                    | cons c1 ct =>
                      simp only [List.map_cons, List.cons.injEq] at h
                      rw [h.2]
                      have := files_given ct []
                      simpa [Spec.cliFiles] using this
                  | cons b1 bt => simp at h
                | cons v vt ih =>
                  intro b h
                  cases b with
                  | nil =>
                    cases c with
                    | nil => simp at h
                    | cons c1 ct => simp at h
                  | cons b1 bt =>
                    simp only [List.map_cons, List.cons_append, List.cons.injEq] at h
                    exact ih bt h.2
              exact key vs b h
          | cons g1 pt ih =>
            intro a vs b r c hv h
            cases a with
            | cons a1 at' =>
              simp only [List.map_cons, List.cons_append, List.cons.injEq] at h
              exact ih at' vs b r c hv h.2
            | nil =>
              cases b with
              | cons b1 bt => simp at h
              | nil =>
                cases c with
                | nil => simp at h
                | cons c1 ct =>
                  -- all options
                  exfalso
                  have hc := congrArg Spec.cliFiles h
                  rw [List.append_assoc, files_given, files_words] at hc
                  simp only [List.map_nil, List.nil_append] at hc
                  have := files_given (c1 :: ct) []
                  rw [List.append_nil] at this
                  rw [this] at hc
                  simp [Spec.cliFiles] at hc
                  exact hv hc.1
        have := hsplit pre a vs b t c hvs hab
        simpa [Spec.cliFiles] using this
      · intro h
        obtain ⟨gs, rfl⟩ := files_nil h
        exact ⟨hne, pre, vs, gs, hl⟩
  constructor
  · rintro ⟨hs, hr⟩
    have hs' := hshape.1 hs
    refine ⟨ns, ?_, ?_, hval⟩
    · rw [he, hs']
      unfold finish
      rw [hreq.2 hr]
      rfl
    · rw [hgetq, hF, hs', List.append_nil]
  · intro h
    rw [he]
    unfold finish
    cases hr : (p.opts.any (fun o => o.required && !ns.contains o.dest)) with
    | true => exact Or.inl rfl
    | false =>
      refine Or.inr ⟨ns, Spec.cliFiles rest, ?_, rfl⟩
      intro h'
      exact h ⟨hshape.2 h', hreq.1 hr⟩

/-! ## The top level -/

/-- The top-level parser never finds an option ambiguous. -/
theorem classify_top (ws : List Word) : ∃ r, classify (Parser.mk [] none).table ws = some r ∧ r.map (·.1) = ws := by
  induction ws with
  | nil => exact ⟨[], rfl, rfl⟩
  | cons w t ih =>
    obtain ⟨r, h1, h2⟩ := ih
    by_cases hd : w = ['-', '-']
    · exact ⟨_, by rw [classify, if_pos hd], by simp [Function.comp_def]⟩
    suffices h : ∃ c, parseOptional (Parser.mk [] none).table w = some c by
      obtain ⟨c, hc⟩ := h
      exact ⟨_, classify_cons hd hc h1, by simp [h2]⟩
    cases w with
    | nil => exact ⟨_, rfl⟩
    | cons c v =>
      by_cases hc : c = '-'
      swap
      · exact ⟨.arg, by simp [parseOptional, hc]⟩
      subst hc
      unfold parseOptional
      simp only [ne_eq, not_true_eq_false, if_false]
      cases find (Parser.mk [] none).table ('-' :: v) with
      | some a => exact ⟨_, rfl⟩
      | none =>
        simp only
        by_cases hv : v = []
        · exact ⟨_, by rw [if_pos hv]⟩
        rw [if_neg hv]
        have hlen : (optionTuples (Parser.mk [] none).table ('-' :: v)).length ≤ 1 := by
          cases v with
          | nil => exact absurd rfl hv
          | cons d u =>
            by_cases hdd : d = '-'
            · subst hdd
              simp only [optionTuples, List.length_map]
              have : (partEq ('-' :: '-' :: u)).1 = '-' :: '-' :: u.takeWhile (· != '=') := by simp [partEq]
              rw [this]
              simp only [Parser.table, List.flatMap_nil, List.filter_cons, List.filter_nil]
              have h0 : ('-' :: '-' :: u.takeWhile (· != '=')).isPrefixOf "-h".toList = false := by
                simp [List.isPrefixOf]
              rw [h0]
              simp only [Bool.false_eq_true, if_false]
              split <;> simp
            · simp only [optionTuples, Parser.table, List.flatMap_nil, List.filterMap_cons, List.filterMap_nil]
              have h0 : ('-' :: d :: u).isPrefixOf "--help".toList = false := by
                simp [List.isPrefixOf, hdd]
              have h3 : ("--help".toList == ['-', d]) = false := by simp
              rw [h0, h3]
              simp only [Bool.false_eq_true, if_false]
              split <;> simp
        cases hp : (partEq ('-' :: v)).2 with
        | some a =>
          cases hf : find (Parser.mk [] none).table (partEq ('-' :: v)).1 with
          | some b => exact ⟨_, rfl⟩
          | none =>
            match ho : optionTuples (Parser.mk [] none).table ('-' :: v), hlen with
            | [], _ => dsimp only; split_ifs <;> exact ⟨_, rfl⟩
            | [t], _ => exact ⟨_, rfl⟩
            | _ :: _ :: _, h => simp at h
        | none =>
          match ho : optionTuples (Parser.mk [] none).table ('-' :: v), hlen with
          | [], _ => dsimp only; split_ifs <;> exact ⟨_, rfl⟩
          | [t], _ => exact ⟨_, rfl⟩
          | _ :: _ :: _, h => simp at h

/-- The name of the command first: all further words go to its parser. -/
theorem parseArgs_cmd {name : String} (hn : name.toList.head? ≠ some '-') (ws : List Word) :
    parseArgs (name :: ws.map String.ofList) = runSub [] name.toList ws := by
  unfold parseArgs
  obtain ⟨r, h1, h2⟩ := classify_top ws
  have hp : parseOptional (Parser.mk [] none).table name.toList = some .arg :=
    parseOptional_plain (by decide) (Or.inr hn)
  have hd : name.toList ≠ ['-', '-'] := by intro h; rw [h] at hn; simp at hn
  have hm : (ws.map String.ofList).map String.toList = ws := by simp [Function.comp_def]
  rw [List.map_cons, hm, classify_cons hd hp h1]
  simp [loopTop, h2]

/-! ## C116: command lines -/

theorem required_out {p : Parser} {l : List Spec.CliItem} (h1 : ∀ o ∈ p.opts, o.required = true → o.dest = "out")
    (h2 : ∃ o ∈ p.opts, o.required = true) : Spec.cliRequired p l ↔ (Spec.cliValue l "out").isSome = true := by
  constructor
  · intro h
    obtain ⟨o, ho, hr⟩ := h2
    rw [← h1 o ho hr]
    exact h o ho hr
  · intro h o ho hr
    rw [h1 o ho hr]
    exact h

/-- **C116, partial: `merge`.** Missing: file names that do not stand together (`C116_order_refuted`), and the option `--libucis`, which is accepted but
ignored (`C116_libucis_refuted`).  A `merge` command line made of options in any documented spelling and order and of file names that
stand together runs the command with the last value of each option and with the files in order. -/
theorem C116_merge_partial {l : List Spec.CliItem} (hok : ∀ i ∈ l, i.Ok mergeParser) {out : String} (ho : Spec.cliValue l "out" = some out)
    (hf : Spec.cliFiles l ≠ []) (ht : Spec.cliTogether l) :
    parseArgs (Spec.cliLine "merge" l) =
      .run (.merge ⟨Spec.cliValue l "input_format", Spec.cliValue l "output_format", (Spec.cliFiles l).map String.ofList, out⟩ (Spec.cliValue l "libucis")) := by
  unfold Spec.cliLine
  rw [parseArgs_cmd (by decide)]
  obtain ⟨ns, h1, h2, h3⟩ := (parse_exact wf_merge rfl hok).1 ⟨⟨hf, ht⟩, (required_out (by decide) (by decide)).2 (by rw [ho]; rfl)⟩
  have e1 := h3 inFmtOpt (by decide)
  have e2 := h3 outFmtOpt (by decide)
  have e3 := h3 libOpt (by decide)
  have e4 := h3 outOpt (by decide)
  have hs : subparser "merge".toList = some (mergeParser, fun ns => .merge ⟨optVal ns "input_format", optVal ns "output_format", posVal ns "db", (optVal ns "out").getD ""⟩ (optVal ns "libucis")) := by
    rfl
  simp only [runSub, hs, h1, List.append_nil, if_true]
  rw [show optVal ns "input_format" = _ from e1, show optVal ns "output_format" = _ from e2, show optVal ns "libucis" = _ from e3,
    show optVal ns "out" = _ from e4]
  have : outOpt.dest = "out" := rfl
  rw [this, ho]
  unfold posVal
  rw [show ns.get? "db" = _ from h2]
  rfl

/-- The options of the commands, each with its two spellings and the name under which its value is kept. -/
def _root_.Verif.Spec.outOption : List String × String := (["--out", "-o"], "out")
def _root_.Verif.Spec.formatOptions : List (List String × String) :=
  [(["--input-format", "-if"], "input_format"), (["--output-format", "-of"], "output_format")]
def _root_.Verif.Spec.libOption : List String × String := (["--libucis", "-l"], "libucis")

/-- **C116, the options** that the theorems on command lines are about. -/
theorem C116_options :
    convertParser.opts.map (fun o => (o.strings.map String.ofList, o.dest)) = Spec.outOption :: Spec.formatOptions ∧
    mergeParser.opts.map (fun o => (o.strings.map String.ofList, o.dest)) = Spec.outOption :: Spec.formatOptions ++ [Spec.libOption] ∧
    reportParser.opts.map (fun o => (o.strings.map String.ofList, o.dest)) = Spec.outOption :: Spec.formatOptions := by
  decide

/-- All other `merge` command lines of options and file names end with a usage message and status 2. -/
theorem C116_merge_rejected {l : List Spec.CliItem} (hok : ∀ i ∈ l, i.Ok mergeParser)
    (h : ¬ ((Spec.cliValue l "out").isSome ∧ Spec.cliFiles l ≠ [] ∧ Spec.cliTogether l)) : parseArgs (Spec.cliLine "merge" l) = .usage := by
  unfold Spec.cliLine
  rw [parseArgs_cmd (by decide)]
  have hs : subparser "merge".toList = some (mergeParser, fun ns => .merge ⟨optVal ns "input_format", optVal ns "output_format", posVal ns "db", (optVal ns "out").getD ""⟩ (optVal ns "libucis")) := by
    rfl
  have := (parse_exact wf_merge rfl hok).2 (by
    rintro ⟨⟨h1, h2⟩, h3⟩
    exact h ⟨(required_out (by decide) (by decide)).1 h3, h1, h2⟩)
  rcases this with h1 | ⟨ns, ex, h1, h2⟩
  · simp only [runSub, hs, h1]
  · simp only [runSub, hs, h2, List.nil_append, if_neg h1]

/-- **C116, `convert`.** The command line is accepted exactly if it has one file name and the option `--out`. -/
theorem C116_convert {l : List Spec.CliItem} (hok : ∀ i ∈ l, i.Ok convertParser) {out : String} (ho : Spec.cliValue l "out" = some out)
    {f : Word} (hf : Spec.cliFiles l = [f]) :
    parseArgs (Spec.cliLine "convert" l) =
      .run (.convert ⟨Spec.cliValue l "input_format", Spec.cliValue l "output_format", String.ofList f, out⟩) := by
  unfold Spec.cliLine
  rw [parseArgs_cmd (by decide)]
  obtain ⟨ns, h1, h2, h3⟩ := (parse_exact wf_convert rfl hok).1 ⟨by show _ = 1; rw [hf]; rfl, (required_out (by decide) (by decide)).2 (by rw [ho]; rfl)⟩
  have hs : subparser "convert".toList = some (convertParser, fun ns => .convert ⟨optVal ns "input_format", optVal ns "output_format", (posVal ns "input").headD "", (optVal ns "out").getD ""⟩) := by
    rfl
  simp only [runSub, hs, h1, List.append_nil, if_true]
  rw [show optVal ns "input_format" = _ from h3 inFmtOpt (by decide), show optVal ns "output_format" = _ from h3 outFmtOpt (by decide),
    show optVal ns "out" = _ from h3 outOpt (by decide)]
  have : outOpt.dest = "out" := rfl
  rw [this, ho]
  unfold posVal
  rw [show ns.get? "input" = _ from h2, hf]
  rfl

/-- All other `convert` command lines are rejected. -/
theorem C116_convert_rejected {l : List Spec.CliItem} (hok : ∀ i ∈ l, i.Ok convertParser)
    (h : ¬ ((Spec.cliValue l "out").isSome ∧ (Spec.cliFiles l).length = 1)) : parseArgs (Spec.cliLine "convert" l) = .usage := by
  unfold Spec.cliLine
  rw [parseArgs_cmd (by decide)]
  have hs : subparser "convert".toList = some (convertParser, fun ns => .convert ⟨optVal ns "input_format", optVal ns "output_format", (posVal ns "input").headD "", (optVal ns "out").getD ""⟩) := by
    rfl
  have := (parse_exact wf_convert rfl hok).2 (by
    rintro ⟨h1, h3⟩
    exact h ⟨(required_out (by decide) (by decide)).1 h3, h1⟩)
  rcases this with h1 | ⟨ns, ex, h1, h2⟩
  · simp only [runSub, hs, h1]
  · simp only [runSub, hs, h2, List.nil_append, if_neg h1]

theorem required_report (l : List Spec.CliItem) : Spec.cliRequired reportParser l := by
  intro o ho hr
  exfalso
  revert o
  decide

/-- **C116, `report`.** The command line is accepted exactly if it has one file name; without `--out` the report goes to standard output. -/
theorem C116_report {l : List Spec.CliItem} (hok : ∀ i ∈ l, i.Ok reportParser) {f : Word} (hf : Spec.cliFiles l = [f]) :
    parseArgs (Spec.cliLine "report" l) =
      .run (.report ⟨Spec.cliValue l "input_format", Spec.cliValue l "output_format", String.ofList f, Spec.cliValue l "out"⟩) := by
  unfold Spec.cliLine
  rw [parseArgs_cmd (by decide)]
  obtain ⟨ns, h1, h2, h3⟩ := (parse_exact wf_report rfl hok).1 ⟨by show _ = 1; rw [hf]; rfl, required_report l⟩
  have hs : subparser "report".toList = some (reportParser, fun ns => .report ⟨optVal ns "input_format", optVal ns "output_format", (posVal ns "db").headD "", optVal ns "out"⟩) := by
    rfl
  simp only [runSub, hs, h1, List.append_nil, if_true]
  rw [show optVal ns "input_format" = _ from h3 inFmtOpt (by decide), show optVal ns "output_format" = _ from h3 outFmtOpt (by decide),
    show optVal ns "out" = _ from h3 outOptReport (by decide)]
  unfold posVal
  rw [show ns.get? "db" = _ from h2, hf]
  rfl

/-- All other `report` command lines are rejected. -/
theorem C116_report_rejected {l : List Spec.CliItem} (hok : ∀ i ∈ l, i.Ok reportParser) (h : (Spec.cliFiles l).length ≠ 1) :
    parseArgs (Spec.cliLine "report" l) = .usage := by
  unfold Spec.cliLine
  rw [parseArgs_cmd (by decide)]
  have hs : subparser "report".toList = some (reportParser, fun ns => .report ⟨optVal ns "input_format", optVal ns "output_format", (posVal ns "db").headD "", optVal ns "out"⟩) := by
    rfl
  have := (parse_exact wf_report rfl hok).2 (by
    rintro ⟨h1, h3⟩
    exact h h1)
  rcases this with h1 | ⟨ns, ex, h1, h2⟩
  · simp only [runSub, hs, h1]
  · simp only [runSub, hs, h2, List.nil_append, if_neg h1]

theorem wf_list : WF listParser := ⟨by decide, by decide, by decide, by decide⟩

/-- **C116, the listings.** They take no arguments. -/
theorem C116_list (files : List Word) (hw : ∀ f ∈ files, Spec.PlainWord f) :
    parseArgs (Spec.cliLine "list-db-formats" (files.map .word)) = (if files = [] then .run .listDb else .usage) ∧
    parseArgs (Spec.cliLine "list-rpt-formats" (files.map .word)) = (if files = [] then .run .listRpt else .usage) := by
  have h : parseKnown listParser ((files.map Spec.CliItem.word).flatMap Spec.CliItem.words) = .done [] files := by
    unfold parseKnown
    rw [classify_line wf_list _ (by
      intro i hi
      obtain ⟨f, hf, rfl⟩ := List.mem_map.1 hi
      exact hw f hf)]
    have h1 := givens_words files []
    have h2 := files_words files []
    rw [List.append_nil] at h1 h2
    have h3 := loop_none listParser _ (files.map Spec.CliItem.word) [] [] (le_refl _)
    simp only [storeAll, h1, h2] at h3
    rw [show listParser.pos = none from rfl]
    simp only [h3]
    simp [finish, listParser, Spec.cliGivens, Spec.cliFiles]
  unfold Spec.cliLine
  rw [parseArgs_cmd (by decide), parseArgs_cmd (by decide)]
  have s1 : subparser "list-db-formats".toList = some (listParser, fun _ => .listDb) := rfl
  have s2 : subparser "list-rpt-formats".toList = some (listParser, fun _ => .listRpt) := rfl
  simp only [runSub, s1, s2, h, List.nil_append]
  exact ⟨trivial, trivial⟩

example : ∀ f ∈ ["x".toList], Spec.PlainWord f := by decide

/-! ### Examples and refutations -/

namespace Ex

def gOut : Spec.Given := ⟨outOpt, "-o".toList, false, "out.xml".toList⟩
def gFmt : Spec.Given := ⟨inFmtOpt, "--input-format".toList, true, "yaml".toList⟩
def gLib (v : String) : Spec.Given := ⟨libOpt, "-l".toList, false, v.toList⟩

/-- `merge --input-format=yaml a.yaml b.yaml -o out.xml` -/
def line : List Spec.CliItem := [.given gFmt, .word "a.yaml".toList, .word "b.yaml".toList, .given gOut]

example : Spec.cliLine "merge" line = ["merge", "--input-format=yaml", "a.yaml", "b.yaml", "-o", "out.xml"] := by decide

example : (∀ i ∈ line, i.Ok mergeParser) ∧ Spec.cliValue line "out" = some "out.xml" ∧ Spec.cliFiles line ≠ [] ∧ Spec.cliTogether line :=
  ⟨by decide, by decide, by decide, [gFmt], ["a.yaml".toList, "b.yaml".toList], [gOut], rfl⟩

/-- `convert a.xml -o out.xml -o out.xml`: the last value counts. -/
def line1 : List Spec.CliItem := [.word "a.xml".toList, .given gOut, .given gOut]

example : (∀ i ∈ line1, i.Ok convertParser) ∧ Spec.cliValue line1 "out" = some "out.xml" ∧ Spec.cliFiles line1 = ["a.xml".toList] :=
  ⟨by decide, by decide, by decide⟩

/-- `report a.xml --out=r.txt` -/
def line2 : List Spec.CliItem := [.word "a.xml".toList, .given ⟨outOptReport, "--out".toList, true, "r.txt".toList⟩]

example : (∀ i ∈ line2, i.Ok reportParser) ∧ Spec.cliFiles line2 = ["a.xml".toList] := ⟨by decide, by decide⟩

/-- `merge a.yaml -o out.xml b.yaml` -/
def split : List Spec.CliItem := [.word "a.yaml".toList, .given gOut, .word "b.yaml".toList]

example : (∀ i ∈ split, i.Ok mergeParser) ∧
    ¬ ((Spec.cliValue split "out").isSome ∧ Spec.cliFiles split ≠ [] ∧ Spec.cliTogether split) := by
  refine ⟨by decide, ?_⟩
  rintro ⟨_, _, pre, fs, post, h⟩
  cases pre with
  | cons a t => simp [split] at h
  | nil =>
    cases fs with
    | nil => cases post <;> simp [split] at h
    | cons f1 ft =>
      cases ft with
      | cons f2 ft => simp [split] at h
      | nil =>
        cases post with
        | nil => simp [split] at h
        | cons p1 pt =>
          cases pt with
          | nil => simp [split] at h
          | cons p2 pt => simp [split] at h

end Ex

/-- The order of options and file names matters: `merge a.yaml b.yaml -o out.xml` is accepted, `merge a.yaml -o out.xml b.yaml` is not. -/
theorem C116_order_refuted : ¬ ∀ l l' : List Spec.CliItem, (∀ i ∈ l, i.Ok mergeParser) → l.Perm l' → Spec.cliFiles l = Spec.cliFiles l' →
    parseArgs (Spec.cliLine "merge" l) = parseArgs (Spec.cliLine "merge" l') := by
  intro h
  have h1 := h [.word "a.yaml".toList, .word "b.yaml".toList, .given Ex.gOut] Ex.split (by decide)
    ((List.Perm.swap _ _ []).cons _) (by decide)
  have h2 : parseArgs (Spec.cliLine "merge" Ex.split) = .usage := by rfl
  rw [h2] at h1
  have h3 := C116_merge_partial (l := [.word "a.yaml".toList, .word "b.yaml".toList, .given Ex.gOut]) (out := "out.xml") (by decide) (by decide) (by decide)
    ⟨[], ["a.yaml".toList, "b.yaml".toList], [Ex.gOut], rfl⟩
  rw [h3] at h1
  cases h1

/-- A value written directly behind `-of` is not the output format: the option `-o` takes it, with the letter `f` in front.  (The forms `-of xml`
and `-of=xml` are fine, see `C116_merge_partial`.) -/
theorem C116_glued_format (v : Word) (hv : v ≠ []) (he : '=' ∉ v) :
    parseOptional mergeParser.table ("-of".toList ++ v) = some (.opt ⟨some (.store outOpt), "-o".toList, some (false, 'f' :: v)⟩) := by
  obtain ⟨c, r, rfl⟩ : ∃ c r, v = c :: r := by
    cases v with
    | nil => exact absurd rfl hv
    | cons c r => exact ⟨c, r, rfl⟩
  have hc : c ≠ '=' := fun h => he (by simp [h])
  have h1 : ∀ x ∈ ('-' :: 'o' :: 'f' :: c :: r), (x != '=') = true := by
    intro x hx
    simp only [bne_iff_ne, ne_eq]
    rintro rfl
    simp at hx
    exact he (by simpa using hx)
  have h2 : (partEq ('-' :: 'o' :: 'f' :: c :: r)).2 = none := by
    unfold partEq
    rw [List.dropWhile_eq_nil_iff.2 h1]
  show parseOptional mergeParser.table ('-' :: 'o' :: 'f' :: c :: r) = _
  have h3 : find mergeParser.table ('-' :: 'o' :: 'f' :: c :: r) = none := by
    simp [find, mergeParser, Parser.table, outOpt, inFmtOpt, outFmtOpt, libOpt]
  have h4 : optionTuples mergeParser.table ('-' :: 'o' :: 'f' :: c :: r) = [⟨some (.store outOpt), "-o".toList, some (false, 'f' :: c :: r)⟩] := by
    simp [optionTuples, mergeParser, Parser.table, outOpt, inFmtOpt, outFmtOpt, libOpt, List.isPrefixOf]
  simp [parseOptional, h2, h3, h4]

example : parseArgs ["merge", "-ofyaml", "a.xml"] = .run (.merge ⟨none, none, ["a.xml"], "fyaml"⟩ none) := rfl

/-- For the other commands, and for `merge` as long as the file names stay together, the order of the items does not matter if no
option is given twice. -/
theorem C116_order {l l' : List Spec.CliItem} (hp : l.Perm l') (hd : ((Spec.cliGivens l).map (fun g => g.opt.dest)).Nodup) (d : String) :
    Spec.cliValue l d = Spec.cliValue l' d := by
  have hg : (Spec.cliGivens l).Perm (Spec.cliGivens l') := hp.filterMap _
  have hf := hg.filter (fun g => g.opt.dest == d)
  unfold Spec.cliValue
  have hlen : ((Spec.cliGivens l).filter (fun g => g.opt.dest == d)).length ≤ 1 := by
    by_contra hc
    have h2 : (((Spec.cliGivens l).filter (fun g => g.opt.dest == d)).map (fun g => g.opt.dest)).Nodup :=
      hd.sublist (List.filter_sublist.map _)
    have h3 : ∀ a ∈ (Spec.cliGivens l).filter (fun g => g.opt.dest == d), a.opt.dest = d := by
      intro a ha
      simpa using (List.mem_filter.1 ha).2
    generalize (Spec.cliGivens l).filter (fun g => g.opt.dest == d) = L at hc h2 h3
    match L, hc, h2, h3 with
    | a :: b :: t, _, h2, h3 => simp [h3 a (by simp), h3 b (by simp)] at h2
    | [], h, _, _ => simp at h
    | [_], h, _, _ => simp at h
  generalize (Spec.cliGivens l).filter (fun g => g.opt.dest == d) = L at hlen hf ⊢
  match L, hlen, hf with
  | [], _, hf => rw [List.nil_perm.1 hf]
  | [a], _, hf => rw [List.singleton_perm.1 hf]
  | _ :: _ :: _, h, _ => simp at h

example : Ex.line.Perm Ex.line.reverse ∧ ((Spec.cliGivens Ex.line).map (fun g => g.opt.dest)).Nodup := ⟨Ex.line.reverse_perm.symm, by decide⟩

/-! ### The program -/

/-- **C116, the program.** Plus-arguments may stand anywhere; the rest of the command line is parsed.  If it is a command, the command is run and the process
ends with status 0; an exception of the command is printed. -/
theorem C116_program (x : Ext) (usage : Bytes) (message : Err → Bytes) {args : List String} (hne : "" ∉ args) {c : Command}
    (h : parseArgs (args.filter (fun a => a.toList.head? != some '+')) = .run c) (w : World) :
    ucisMain x usage message args w =
      match runCommand x c w with
      | (.ok _, w') => (.ok, w')
      | (.error e, w') => (.ok, { w' with stdout := w'.stdout ++ message e }) := by
  have hs := splitArgs_eq args ⟨[], []⟩ (fun a ha e => hne (e ▸ ha))
  have h' : parseArgs (args.filter (fun a => !plusB a)) = .run c := h
  unfold ucisMain Tools.main splitArgs
  rw [hs]
  simp only [List.nil_append, h']
  cases runCommand x c w with
  | mk r w' => cases r <;> rfl

example : "" ∉ ["merge", "+define", "a.xml", "-o", "out.xml"] ∧
    ∃ c, parseArgs (["merge", "+define", "a.xml", "-o", "out.xml"].filter (fun a => a.toList.head? != some '+')) = .run c :=
  ⟨by decide, _, rfl⟩

/-- Otherwise nothing is read or written; with a usage error the status is 2, after a help text it is 0. -/
theorem C116_program_rejected (x : Ext) (usage : Bytes) (message : Err → Bytes) {args : List String} (hne : "" ∉ args)
    (h : ∀ c, parseArgs (args.filter (fun a => a.toList.head? != some '+')) ≠ .run c) (w : World) :
    (ucisMain x usage message args w).2.files = w.files ∧ (ucisMain x usage message args w).2.log = w.log ∧
    ((ucisMain x usage message args w).1 = .usage ∧ parseArgs (args.filter (fun a => a.toList.head? != some '+')) = .usage ∨
     (ucisMain x usage message args w).1 = .ok ∧ parseArgs (args.filter (fun a => a.toList.head? != some '+')) = .help) := by
  have hs := splitArgs_eq args ⟨[], []⟩ (fun a ha e => hne (e ▸ ha))
  have he : (args.filter (fun a => !plusB a)) = args.filter (fun a => a.toList.head? != some '+') := rfl
  unfold ucisMain Tools.main splitArgs
  rw [hs]
  simp only [List.nil_append, he]
  cases hp : parseArgs (args.filter (fun a => a.toList.head? != some '+')) with
  | run c => exact absurd hp (h c)
  | help => exact ⟨rfl, rfl, Or.inr ⟨rfl, rfl⟩⟩
  | usage => exact ⟨rfl, rfl, Or.inl ⟨rfl, rfl⟩⟩

example : "" ∉ ["merge", "a.xml"] ∧ ∀ c, parseArgs (["merge", "a.xml"].filter (fun a => a.toList.head? != some '+')) ≠ .run c := by
  refine ⟨by decide, fun c h => ?_⟩
  have : parseArgs (["merge", "a.xml"].filter (fun a => a.toList.head? != some '+')) = .usage := rfl
  rw [this] at h
  cases h

/-- The library named with `--libucis` makes no difference at all. -/
theorem C116_libucis_ignored (x : Ext) (a : MergeArgs) (v v' : Option String) (w : World) :
    runCommand x (.merge a v) w = runCommand x (.merge a v') w := rfl

/-- `merge -o out.xml -l v files` -/
def Spec.libLine (v : Word) (files : List Word) : List String :=
  Spec.cliLine "merge" ([.given Ex.gOut, .given (Ex.gLib (String.ofList v))] ++ files.map .word)

/-- An option without any effect: whatever the formats do, the value of `--libucis` never makes a difference. -/
theorem C116_libucis_refuted : ¬ ∃ (x : Ext) (usage : Bytes) (message : Err → Bytes) (w : World) (files : List Word) (v v' : Word),
    (∀ f ∈ v :: v' :: files, Spec.PlainWord f ∧ f ≠ [] ∧ f.head? ≠ some '+') ∧ files ≠ [] ∧
    ucisMain x usage message (Spec.libLine v files) w ≠ ucisMain x usage message (Spec.libLine v' files) w := by
  rintro ⟨x, usage, message, w, files, v, v', hw, hne, h⟩
  apply h
  have key : ∀ u ∈ [v, v'], ucisMain x usage message (Spec.libLine u files) w =
      match runCommand x (.merge ⟨none, none, files.map String.ofList, "out.xml"⟩ none) w with
      | (.ok _, w') => (.ok, w')
      | (.error e, w') => (.ok, { w' with stdout := w'.stdout ++ message e }) := by
    intro u hu
    have hu' : u ∈ v :: v' :: files := by
      rcases List.mem_cons.1 hu with rfl | hu
      · simp
      · rw [List.mem_singleton.1 hu]; simp
    have hwords : Spec.libLine u files = "merge" :: "-o" :: "out.xml" :: "-l" :: String.ofList u :: files.map String.ofList := by
      unfold Spec.libLine Spec.cliLine
      rw [List.flatMap_append, show (files.map Spec.CliItem.word).flatMap Spec.CliItem.words = files by
        rw [List.flatMap_map]; simp [Spec.CliItem.words]]
      simp [Spec.CliItem.words, Ex.gOut, Ex.gLib]
    have hall : ∀ f ∈ u :: files, String.ofList f ≠ "" ∧ (String.ofList f).toList.head? ≠ some '+' := by
      intro f hf
      have hm : f ∈ v :: v' :: files := by
        rcases List.mem_cons.1 hf with rfl | hf
        · exact hu'
        · simp [hf]
      obtain ⟨_, h1, h2⟩ := hw f hm
      refine ⟨fun e => h1 ?_, by simpa using h2⟩
      have := congrArg String.toList e
      simpa using this
    have hfil : (Spec.libLine u files).filter (fun a => a.toList.head? != some '+') = Spec.libLine u files := by
      rw [List.filter_eq_self, hwords]
      intro a ha
      simp only [List.mem_cons, List.mem_map] at ha
      rcases ha with rfl | rfl | rfl | rfl | rfl | ⟨f, hf, rfl⟩
      · decide
      · decide
      · decide
      · decide
      · simpa using (hall u (by simp)).2
      · simpa using (hall f (by simp [hf])).2
    have hemp : "" ∉ Spec.libLine u files := by
      rw [hwords]
      intro ha
      simp only [List.mem_cons, List.mem_map] at ha
      rcases ha with h | h | h | h | h | ⟨f, hf, h⟩
      · simp at h
      · simp at h
      · simp at h
      · simp at h
      · exact (hall u (by simp)).1 h.symm
      · exact (hall f (by simp [hf])).1 h
    have hlt : (String.ofList u).toList = u := by simp
    have hl : Spec.cliGivens ([.given Ex.gOut, .given (Ex.gLib (String.ofList u))] ++ files.map .word) = [Ex.gOut, Ex.gLib (String.ofList u)] := by
      have h1 := givens_words files []
      rw [List.append_nil] at h1
      have h2 := givens_given [Ex.gOut, Ex.gLib (String.ofList u)] (files.map .word)
      rw [h1] at h2
      exact h2
    have hfl : Spec.cliFiles ([.given Ex.gOut, .given (Ex.gLib (String.ofList u))] ++ files.map .word) = files := by
      have h1 := files_words files []
      rw [List.append_nil] at h1
      have h2 := files_given [Ex.gOut, Ex.gLib (String.ofList u)] (files.map .word)
      rw [h1] at h2
      simpa [Spec.cliFiles] using h2
    have hp := C116_merge_partial (l := [.given Ex.gOut, .given (Ex.gLib (String.ofList u))] ++ files.map .word) (out := "out.xml") (by
        intro i hi
        simp only [List.cons_append, List.nil_append, List.mem_cons, List.mem_map] at hi
        rcases hi with rfl | rfl | ⟨f, hf, rfl⟩
        · decide
        · exact ⟨by show libOpt ∈ _; decide, by show "-l".toList ∈ libOpt.strings; decide, fun _ => by
            show Spec.PlainWord (String.ofList u).toList
            rw [hlt]; exact (hw u hu').1⟩
        · exact (hw f (by simp [hf])).1)
      (by rw [value_eq _ _ hl]; rfl)
      (by rw [hfl]; exact hne) ⟨[Ex.gOut, Ex.gLib (String.ofList u)], files, [], by simp⟩
    rw [value_eq _ _ hl, value_eq _ _ hl, hfl] at hp
    have := C116_program x usage message hemp (by rw [hfil]; exact hp) w
    rw [this]
    rfl
  rw [key v (by simp), key v' (by simp)]

end Cli
end Verif
