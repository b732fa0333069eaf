import Mathlib.Data.List.Infix
import Mathlib.Data.List.Forall2
/-!
# The script that adds license notices (C125)

`scripts/update_copyright.py`.  Files are sequences of characters; a directory is a list of entries in the order of `os.listdir`.

Simplifications: a file either can be decoded as a whole or cannot be decoded at all; writing never fails; no links.
-/

namespace Verif
namespace Notice

/-- What a file holds: text, or bytes that cannot be decoded. -/
abbrev Text := List Char

/-- The entries of a directory, in the order of `os.listdir`. -/
inductive Entries where
  | nil
  | file (name : String) (text : Option Text) (rest : Entries)
  | dir (name : String) (sub : Entries) (rest : Entries)

/-- Exceptions: opening a directory as a file (`IsADirectoryError`), text that cannot be decoded (`UnicodeDecodeError`). -/
inductive Fail where
  | isDir
  | notText
deriving DecidableEq

/-- The lines of `copyright`, `update_copyright.py:4-19`. -/
def noticeLines : List String :=
  ["# Licensed to the Apache Software Foundation (ASF) under one",
   "# or more contributor license agreements.  See the NOTICE file",
   "# distributed with this work for additional information",
   "# regarding copyright ownership.  The ASF licenses this file",
   "# to you under the Apache License, Version 2.0 (the",
   "# \"License\"); you may not use this file except in compliance",
   "# with the License.  You may obtain a copy of the License at",
   "#",
   "#  http://www.apache.org/licenses/LICENSE-2.0",
   "#",
   "# Unless required by applicable law or agreed to in writing,",
   "# software distributed under the License is distributed on an",
   "# \"AS IS\" BASIS, WITHOUT WARRANTIES OR CONDITIONS OF ANY",
   "# KIND, either express or implied.  See the License for the",
   "# specific language governing permissions and limitations",
   "# under the License."]

/-- `copyright`, `update_copyright.py:3-20`: begins and ends with a line end. -/
def notice : Text := '\n' :: noticeLines.flatMap (fun l => l.toList ++ ['\n'])

/-- Reading in text mode, `update_copyright.py:29`, `open(..., "r")`: every line end becomes `\n` (universal newlines). -/
def newlines : Text → Text
  | [] => []
  | '\r' :: '\n' :: t => '\n' :: newlines t
  | '\r' :: t => '\n' :: newlines t
  | c :: t => c :: newlines t

/-- `fp.readline()`, `update_copyright.py:33`: the characters up to and including the next line end, and what follows. -/
def readline : Text → Text × Text
  | [] => ([], [])
  | c :: t => if c = '\n' then ([c], t) else let r := readline t; (c :: r.1, r.2)

/-- `line.find(w) != -1`, `update_copyright.py:38`. -/
def finds (w : Text) : Text → Bool
  | [] => w.isPrefixOf []
  | c :: t => w.isPrefixOf (c :: t) || finds w t

/-- The loop, `update_copyright.py:32-40`, with `n` lines to go. -/
def scan : Nat → Text → Bool
  | 0, _ => false
  | n + 1, s =>
    let r := readline s
    if r.1 = [] then false
    else if finds "Copyright".toList r.1 || finds "Licensed".toList r.1 then true
    else scan n r.2

/-- What is written to a file without notice, `update_copyright.py:43-52`. -/
def added (s : Text) : Text := notice ++ ['\n'] ++ s

/-- `l.endswith(".py")`, `update_copyright.py:26`. -/
def pyName (l : String) : Bool := ".py".toList.isSuffixOf l.toList

/-- `process_dir`, `update_copyright.py:24-55`: the entries afterwards, the names printed, and the exception.  After an exception the
remaining entries are as before. -/
def processDir : Entries → Entries × List String × Option Fail
  | .nil => (.nil, [], none)
  | .file l s rest =>
    if pyName l then
      match s with
      | none => (.file l none rest, [], some .notText)
      | some s =>
        if scan 32 (newlines s) then
          let r := processDir rest
          (.file l (some s) r.1, r.2.1, r.2.2)
        else
          let r := processDir rest
          (.file l (some (added (newlines s))) r.1, l :: r.2.1, r.2.2)
    else
      let r := processDir rest
      (.file l s r.1, r.2.1, r.2.2)
  | .dir l sub rest =>
    if pyName l then (.dir l sub rest, [], some .isDir)
    else
      let a := processDir sub
      match a.2.2 with
      | some e => (.dir l a.1 rest, a.2.1, some e)
      | none =>
        let r := processDir rest
        (.dir l a.1 r.1, a.2.1 ++ r.2.1, r.2.2)

end Notice

/-! ## Specification -/

namespace Spec
open Notice

/-- One of the two words occurs before the 32nd line end. -/
def HasNotice (s : Text) : Prop :=
  ∃ pre w post, s = pre ++ w ++ post ∧ (w = "Copyright".toList ∨ w = "Licensed".toList) ∧ pre.count '\n' < 32

/-- The files below a directory: path and contents. -/
def filesBelow (p : List String) : Entries → List (List String × Option Text)
  | .nil => []
  | .file l s rest => (p ++ [l], s) :: filesBelow p rest
  | .dir l sub rest => filesBelow (p ++ [l]) sub ++ filesBelow p rest

/-- The directories below a directory. -/
def dirsBelow (p : List String) : Entries → List (List String)
  | .nil => []
  | .file _ _ rest => dirsBelow p rest
  | .dir l sub rest => (p ++ [l]) :: (dirsBelow (p ++ [l]) sub ++ dirsBelow p rest)

/-- The last part of a path ends with `.py`. -/
def IsPy (p : List String) : Prop := ∃ q l, p = q ++ [l] ∧ ".py".toList <:+ l.toList

/-- The contents a file may have afterwards. -/
def Handled (a b : List String × Option Text) : Prop :=
  a.1 = b.1 ∧ ((IsPy a.1 ∧ ∃ s, a.2 = some s ∧ ¬ HasNotice (newlines s) ∧ b.2 = some (notice ++ '\n' :: newlines s)) ∨
    ((¬ IsPy a.1 ∨ ∃ s, a.2 = some s ∧ HasNotice (newlines s)) ∧ b.2 = a.2))

end Spec

namespace Notice
open Spec

theorem finds_iff (w s : Text) : finds w s = true ↔ w <:+: s := by
  induction s with
  | nil => simp [finds, List.isPrefixOf_iff_prefix]
  | cons c t ih => rw [finds, Bool.or_eq_true, ih, List.isPrefixOf_iff_prefix, List.infix_cons_iff]

theorem readline_append (s : Text) : (readline s).1 ++ (readline s).2 = s := by
  induction s with
  | nil => rfl
  | cons c t ih =>
    unfold readline
    split
    · rfl
    · simp [ih]

theorem readline_nil {s : Text} (h : (readline s).1 = []) : s = [] := by
  cases s with
  | nil => rfl
  | cons c t =>
    unfold readline at h
    split at h <;> simp at h

/-- A line is the text before the first line end, with it. -/
theorem readline_shape (s : Text) : (∃ l, (readline s).1 = l ++ ['\n'] ∧ '\n' ∉ l) ∨ ((readline s).1 = s ∧ (readline s).2 = [] ∧ '\n' ∉ s) := by
  induction s with
  | nil => exact .inr ⟨rfl, rfl, by simp⟩
  | cons c t ih =>
    unfold readline
    split
    · rename_i h
      exact .inl ⟨[], by simp [h], by simp⟩
    · rename_i h
      rcases ih with ⟨l, h1, h2⟩ | ⟨h1, h2, h3⟩
      · exact .inl ⟨c :: l, by simp [h1], by simp [h2, Ne.symm h]⟩
      · exact .inr ⟨by simp [h1], by simp [h2], by simp [h3, Ne.symm h]⟩

/-- Before the end of a line there is no line end. -/
theorem line_pre {s pre rest : Text} (h : (readline s).1 = pre ++ rest) (hr : rest ≠ []) : '\n' ∉ pre := by
  rcases readline_shape s with ⟨l, h1, h2⟩ | ⟨h1, _, h3⟩
  · rw [h] at h1
    rcases List.eq_nil_or_concat rest with rfl | ⟨r, c, rfl⟩
    · exact absurd rfl hr
    · rw [List.concat_eq_append, ← List.append_assoc] at h1
      have := List.append_inj_left' h1 rfl
      intro hn
      exact h2 (this ▸ List.mem_append_left _ hn)
  · rw [h1] at h
    intro hn
    exact h3 (h ▸ List.mem_append_left _ hn)

/-- A word without line end is in the first line or in the rest. -/
theorem split_word {s pre w post : Text} (hw : '\n' ∉ w) (h : s = pre ++ w ++ post) :
    (∃ y, (readline s).1 = pre ++ w ++ y) ∨ ∃ l x, (readline s).1 = l ++ ['\n'] ∧ '\n' ∉ l ∧ (readline s).2 = x ++ w ++ post ∧ pre = (readline s).1 ++ x := by
  have e := readline_append s
  rcases readline_shape s with ⟨l, h1, h2⟩ | ⟨h1, h2, h3⟩
  · have h' : (readline s).1 ++ (readline s).2 = pre ++ (w ++ post) := by rw [e, h, List.append_assoc]
    rcases List.append_eq_append_iff.1 h' with ⟨x, e1, e2⟩ | ⟨x, e1, e2⟩
    · exact .inr ⟨l, x, h1, h2, by rw [e2, List.append_assoc], e1⟩
    · rcases List.append_eq_append_iff.1 e2 with ⟨y, e3, e4⟩ | ⟨y, e3, e4⟩
      · exact .inl ⟨y, by rw [e1, e3, List.append_assoc]⟩
      · rcases List.eq_nil_or_concat x with rfl | ⟨x', c, rfl⟩
        · refine .inr ⟨l, [], h1, h2, ?_, by simp at e1 ⊢; exact e1.symm⟩
          simp at e3 e4 ⊢
          rw [e3, e4]
        · exfalso
          rw [h1, List.concat_eq_append, ← List.append_assoc] at e1
          have := List.append_inj_right' e1 rfl
          simp at this
          subst this
          exact hw (by rw [e3]; simp)
  · exact .inl ⟨post, by rw [h1, h]⟩

/-- One of the two words. -/
def Word (w : Text) : Prop := w = "Copyright".toList ∨ w = "Licensed".toList

theorem word_ok {w : Text} (h : Word w) : '\n' ∉ w ∧ w ≠ [] := by rcases h with rfl | rfl <;> decide

theorem scan_iff (n : Nat) (s : Text) :
    scan n s = true ↔ ∃ pre w post, s = pre ++ w ++ post ∧ Word w ∧ pre.count '\n' < n := by
  induction n generalizing s with
  | zero => simp [scan]
  | succ n ih =>
    have hf : (finds "Copyright".toList (readline s).1 || finds "Licensed".toList (readline s).1) = true ↔ ∃ w, Word w ∧ w <:+: (readline s).1 := by
      rw [Bool.or_eq_true, finds_iff, finds_iff]
      constructor
      · rintro (h | h)
        · exact ⟨_, .inl rfl, h⟩
        · exact ⟨_, .inr rfl, h⟩
      · rintro ⟨w, rfl | rfl, h⟩
        · exact .inl h
        · exact .inr h
    unfold scan
    simp only
    split
    · rename_i h0
      have := readline_nil h0
      subst this
      constructor
      · intro h; cases h
      · rintro ⟨pre, w, post, h, hw, _⟩
        have := (word_ok hw).2
        simp at h
        exact absurd h.2.1 this
    · split
      · rename_i h1
        refine iff_of_true rfl ?_
        obtain ⟨w, hw, x, y, h⟩ := hf.1 h1
        refine ⟨x, w, y ++ (readline s).2, ?_, hw, ?_⟩
        · rw [← List.append_assoc, h, readline_append]
        · rw [List.count_eq_zero.2 (line_pre (rest := w ++ y) (by rw [← h, List.append_assoc]) (by simp [(word_ok hw).2]))]
          omega
      · rename_i h1
        rw [ih]
        constructor
        · rintro ⟨pre, w, post, h, hw, hc⟩
          rcases readline_shape s with ⟨l, h2, h3⟩ | ⟨_, h2, _⟩
          · refine ⟨(readline s).1 ++ pre, w, post, ?_, hw, ?_⟩
            · rw [List.append_assoc, List.append_assoc, ← List.append_assoc pre, ← h, readline_append]
            · rw [List.count_append, h2, List.count_append, List.count_eq_zero.2 h3]
              simp
              omega
          · rw [h2] at h
            simp at h
            exact absurd h.2.1 (word_ok hw).2
        · rintro ⟨pre, w, post, h, hw, hc⟩
          rcases split_word (word_ok hw).1 h with ⟨y, h2⟩ | ⟨l, x, h2, h3, h4, h5⟩
          · exact absurd (hf.2 ⟨w, hw, pre, y, h2.symm⟩) h1
          · refine ⟨x, w, post, h4, hw, ?_⟩
            rw [h5, List.count_append, h2, List.count_append, List.count_eq_zero.2 h3] at hc
            simp at hc
            omega

theorem scan_notice (s : Text) : scan 32 s = true ↔ HasNotice s := scan_iff 32 s

theorem notice_words : ∃ a b, notice = a ++ "Licensed".toList ++ b ∧ a.count '\n' < 32 := by
  refine ⟨"\n# ".toList, " to the Apache Software Foundation (ASF) under one".toList ++ ['\n'] ++
    (noticeLines.drop 1).flatMap (fun l => l.toList ++ ['\n']), ?_, by decide⟩
  have h : ∀ t : Text, '\n' :: (("# Licensed to the Apache Software Foundation (ASF) under one".toList ++ ['\n']) ++ t) =
      "\n# ".toList ++ "Licensed".toList ++ (" to the Apache Software Foundation (ASF) under one".toList ++ ['\n'] ++ t) := by
    intro t
    have h1 : '\n' :: "# Licensed to the Apache Software Foundation (ASF) under one".toList =
      "\n# ".toList ++ "Licensed".toList ++ " to the Apache Software Foundation (ASF) under one".toList := by decide +kernel
    rw [← List.cons_append, ← List.cons_append, h1]
    simp only [List.append_assoc]
  unfold notice noticeLines
  rw [List.flatMap_cons]
  exact h _

/-- Text with a notice added has a notice. -/
theorem added_has (s : Text) : HasNotice (added s) := by
  obtain ⟨a, b, h, hc⟩ := notice_words
  unfold added
  rw [h]
  exact ⟨a, "Licensed".toList, b ++ ['\n'] ++ s, by simp, .inr rfl, hc⟩

theorem newlines_clean (s : Text) : '\r' ∉ newlines s := by
  fun_induction newlines s with
  | case1 => simp
  | case2 t ih => simpa using ih
  | case3 t _ ih => simpa using ih
  | case4 c t _ h ih =>
    rw [List.mem_cons, not_or]
    exact ⟨fun e => h e.symm, ih⟩

theorem newlines_id {s : Text} (h : '\r' ∉ s) : newlines s = s := by
  induction s with
  | nil => rfl
  | cons c t ih =>
    rw [List.mem_cons, not_or] at h
    rw [newlines, ih h.2]
    · rintro t' rfl; exact absurd rfl h.1
    · rintro rfl; exact absurd rfl h.1

theorem notice_clean : '\r' ∉ notice := by
  have h : ∀ l ∈ noticeLines, '\r' ∉ l.toList := by decide +kernel
  unfold notice
  rw [List.mem_cons, List.mem_flatMap]
  rintro (h1 | ⟨l, hl, h1⟩)
  · revert h1; decide
  · rcases List.mem_append.1 h1 with h1 | h1
    · exact h l hl h1
    · revert h1; decide

theorem added_clean (s : Text) : '\r' ∉ added (newlines s) := by
  unfold added
  simp only [List.mem_append, not_or]
  exact ⟨⟨notice_clean, by decide⟩, newlines_clean s⟩

/-- A file is never taken for one without notice twice. -/
theorem scan_added (s : Text) : scan 32 (newlines (added (newlines s))) = true := by
  rw [newlines_id (added_clean s), scan_notice]
  exact added_has _

theorem isPy_append (p : List String) (l : String) : IsPy (p ++ [l]) ↔ pyName l = true := by
  unfold IsPy pyName
  rw [List.isSuffixOf_iff_suffix]
  constructor
  · rintro ⟨q, m, h, hm⟩
    obtain ⟨_, h⟩ := List.append_inj' h rfl
    cases h
    exact hm
  · exact fun h => ⟨p, l, rfl, h⟩

/-! ## C125 -/

/-- **C125.** If the script ends, every Python file without a notice has the notice in front of its text; all other files, all names and
directories are as before. -/
theorem C125_result {t : Entries} (h : (processDir t).2.2 = none) (p : List String) :
    List.Forall₂ Handled (filesBelow p t) (filesBelow p (processDir t).1) ∧ dirsBelow p (processDir t).1 = dirsBelow p t := by
  induction t generalizing p with
  | nil => exact ⟨.nil, rfl⟩
  | file l s rest ih =>
    unfold processDir at h ⊢
    split at h <;> rename_i hl
    · cases s with
      | none => cases h
      | some s =>
        simp only [hl, if_true] at h ⊢
        split at h <;> rename_i hs
        · obtain ⟨h1, h2⟩ := ih h p
          simp only [hs, if_true]
          exact ⟨.cons ⟨rfl, .inr ⟨.inr ⟨s, rfl, (scan_notice _).1 hs⟩, rfl⟩⟩ h1, h2⟩
        · obtain ⟨h1, h2⟩ := ih h p
          simp only [hs]
          refine ⟨.cons ⟨rfl, .inl ⟨(isPy_append p l).2 hl, s, rfl, fun hn => hs ((scan_notice _).2 hn), ?_⟩⟩ h1, h2⟩
          simp [added]
    · obtain ⟨h1, h2⟩ := ih h p
      simp only [hl]
      exact ⟨.cons ⟨rfl, .inr ⟨.inl (fun hp => hl ((isPy_append p l).1 hp)), rfl⟩⟩ h1, h2⟩
  | dir l sub rest ih1 ih2 =>
    unfold processDir at h ⊢
    split at h <;> rename_i hl
    · cases h
    · simp only [hl] at h ⊢
      cases ha : (processDir sub).2.2 with
      | some e => simp [ha] at h
      | none =>
        simp only [ha] at h ⊢
        obtain ⟨h1, h2⟩ := ih1 ha (p ++ [l])
        obtain ⟨h3, h4⟩ := ih2 h p
        refine ⟨List.rel_append h1 h3, ?_⟩
        show (p ++ [l]) :: (dirsBelow (p ++ [l]) _ ++ dirsBelow p _) = _
        rw [h2, h4]
        rfl

/-- **C125.** The script fails exactly if a directory has a name like a Python file, or a Python file cannot be decoded. -/
theorem C125_fails_iff (t : Entries) (p : List String) :
    (processDir t).2.2 ≠ none ↔ (∃ d ∈ dirsBelow p t, IsPy d) ∨ ∃ f ∈ filesBelow p t, IsPy f.1 ∧ f.2 = none := by
  induction t generalizing p with
  | nil => simp [processDir, dirsBelow, filesBelow]
  | file l s rest ih =>
    unfold processDir
    simp only [dirsBelow, filesBelow, List.mem_cons, exists_eq_or_imp, isPy_append]
    split <;> rename_i hl
    · cases s with
      | none => simp [hl]
      | some s =>
        simp only
        split <;> simp [ih p]
    · simp only [ih p, hl]
      simp
  | dir l sub rest ih1 ih2 =>
    unfold processDir
    simp only [dirsBelow, filesBelow, List.mem_cons, List.mem_append, exists_eq_or_imp, isPy_append]
    split <;> rename_i hl
    · simp [hl]
    · cases ha : (processDir sub).2.2 with
      | some e =>
        have := (ih1 (p ++ [l])).1 (by rw [ha]; simp)
        simp only [ne_eq, reduceCtorEq, not_false_eq_true, true_iff]
        rcases this with ⟨d, h1, h2⟩ | ⟨f, h1, h2⟩
        · exact .inl (.inr ⟨d, .inl h1, h2⟩)
        · exact .inr ⟨f, .inl h1, h2⟩
      | none =>
        have h0 := mt (ih1 (p ++ [l])).2 (by rw [ha]; simp)
        rw [not_or] at h0
        rw [ih2 p]
        constructor
        · rintro (⟨d, h1, h2⟩ | ⟨f, h1, h2⟩)
          · exact .inl (.inr ⟨d, .inr h1, h2⟩)
          · exact .inr ⟨f, .inr h1, h2⟩
        · rintro ((h | ⟨d, h1 | h1, h2⟩) | ⟨f, h1 | h1, h2⟩)
          · exact absurd h hl
          · exact absurd ⟨d, h1, h2⟩ h0.1
          · exact .inl ⟨d, h1, h2⟩
          · exact absurd ⟨f, h1, h2⟩ h0.2
          · exact .inr ⟨f, h1, h2⟩

/-- **C125.** Even if it fails, the script leaves every file either as it was or with the notice in front of its text. -/
theorem C125_never_lost (t : Entries) (p : List String) :
    List.Forall₂ (fun a b => a = b ∨ Handled a b) (filesBelow p t) (filesBelow p (processDir t).1) := by
  have refl : ∀ l : List (List String × Option Text), List.Forall₂ (fun a b => a = b ∨ Handled a b) l l :=
    fun l => List.forall₂_same.2 (fun _ _ => .inl rfl)
  induction t generalizing p with
  | nil => exact .nil
  | file l s rest ih =>
    unfold processDir
    split <;> rename_i hl
    · cases s with
      | none => exact refl _
      | some s =>
        simp only
        split <;> rename_i hs
        · exact .cons (.inl rfl) (ih p)
        · refine .cons (.inr ⟨rfl, .inl ⟨(isPy_append p l).2 hl, s, rfl, fun hn => hs ((scan_notice _).2 hn), ?_⟩⟩) (ih p)
          simp [added]
    · exact .cons (.inl rfl) (ih p)
  | dir l sub rest ih1 ih2 =>
    unfold processDir
    split <;> rename_i hl
    · exact refl _
    · cases ha : (processDir sub).2.2 with
      | some e => simp only [ha]; exact List.rel_append (ih1 (p ++ [l])) (refl _)
      | none => simp only [ha]; exact List.rel_append (ih1 (p ++ [l])) (ih2 p)

/-- **C125.** Running the script again does nothing: nothing is changed, and no file is named. -/
theorem C125_again {t : Entries} (h : (processDir t).2.2 = none) : processDir (processDir t).1 = ((processDir t).1, [], none) := by
  induction t with
  | nil => rfl
  | file l s rest ih =>
    unfold processDir at h
    split at h <;> rename_i hl
    · cases s with
      | none => cases h
      | some s =>
        simp only at h
        split at h <;> rename_i hs
        · have e : (processDir (.file l (some s) rest)).1 = .file l (some s) (processDir rest).1 := by
            rw [processDir]; simp [hl, hs]
          rw [e, processDir]
          simp [hl, hs, ih h]
        · have e : (processDir (.file l (some s) rest)).1 = .file l (some (added (newlines s))) (processDir rest).1 := by
            rw [processDir]; simp [hl, hs]
          rw [e, processDir]
          simp [hl, scan_added, ih h]
    · have e : (processDir (.file l s rest)).1 = .file l s (processDir rest).1 := by
        rw [processDir.eq_def]; simp [hl]
      rw [e, processDir.eq_def]
      simp [hl, ih h]
  | dir l sub rest ih1 ih2 =>
    unfold processDir at h
    split at h <;> rename_i hl
    · cases h
    · cases ha : (processDir sub).2.2 with
      | some e => simp [ha] at h
      | none =>
        simp only [ha] at h
        have e : (processDir (.dir l sub rest)).1 = .dir l (processDir sub).1 (processDir rest).1 := by
          rw [processDir]; simp [hl, ha]
        rw [e, processDir]
        simp [hl, ih1 ha, ih2 h]

open Classical in
/-- **C125.** The names printed are those of the files that are changed, in order. -/
theorem C125_names {t : Entries} (h : (processDir t).2.2 = none) (p : List String) :
    (processDir t).2.1 = ((filesBelow p t).filter (fun f => decide (IsPy f.1 ∧ ∃ s, f.2 = some s ∧ ¬ HasNotice (newlines s)))).map
      (fun f => f.1.getLast?.getD "") := by
  induction t generalizing p with
  | nil => rfl
  | file l s rest ih =>
    unfold processDir at h ⊢
    split at h <;> rename_i hl
    · cases s with
      | none => cases h
      | some s =>
        simp only [hl, if_true] at h ⊢
        split at h <;> rename_i hs
        · simp only [hs, if_true]
          rw [ih h p, filesBelow, List.filter_cons_of_neg]
          simpa using fun _ => (scan_notice _).1 hs
        · have hn : ¬ HasNotice (newlines s) := fun hn => hs ((scan_notice _).2 hn)
          rw [if_neg hs, filesBelow, List.filter_cons_of_pos (by simpa using ⟨(isPy_append p l).2 hl, hn⟩), List.map_cons]
          simp [ih h p]
    · simp only [hl]
      rw [filesBelow, List.filter_cons_of_neg (by simpa using fun hp => absurd ((isPy_append p l).1 hp) hl)]
      exact ih h p
  | dir l sub rest ih1 ih2 =>
    unfold processDir at h ⊢
    split at h <;> rename_i hl
    · cases h
    · simp only [hl] at h ⊢
      cases ha : (processDir sub).2.2 with
      | some e => simp [ha] at h
      | none =>
        simp only [ha] at h ⊢
        rw [filesBelow, List.filter_append, List.map_append, ← ih1 ha (p ++ [l]), ← ih2 h p]
        rfl

/-- A sample directory: a file without notice, one with, one of another type, and a directory. -/
def exDir : Entries :=
  .file "a.py" (some "x = 1\r\n".toList) (.file "b.py" (some "# Copyright\ny = 2\r\n".toList) (.dir "sub" (.file "c.py" (some []) .nil)
    (.file "d.txt" none .nil)))

/-- `C125_result` and `C125_again` apply: two files are named. -/
example : (processDir exDir).2 = (["a.py", "c.py"], none) := by decide +kernel
/-- `C125_fails_iff`: a file that cannot be decoded, after one that is changed. -/
example : (processDir (.file "a.py" (some "x".toList) (.file "b.py" none (.file "c.py" (some "x".toList) .nil)))).2 = (["a.py"], some .notText) := by
  decide +kernel

/-- **C125**, full claim: the text of a file that is changed is still there as it was. -/
def C125_kept_claim : Prop := ∀ (t : Entries) (p : List String), (processDir t).2.2 = none →
  List.Forall₂ (fun a b => ∀ s, a.2 = some s → ∃ s', b.2 = some s' ∧ s <:+ s') (filesBelow p t) (filesBelow p (processDir t).1)

/-- **C125** fails for files with other line ends: they are replaced. -/
theorem C125_kept_refuted : ¬ C125_kept_claim := by
  intro h
  have h0 : '\r' ∈ "x\r\n".toList := by decide
  have h4 : scan 32 (newlines "x\r\n".toList) = false := by decide +kernel
  generalize "x\r\n".toList = s at h0 h4
  have h3 : pyName "a.py" = true := by decide +kernel
  have hp : processDir (.file "a.py" (some s) .nil) = (.file "a.py" (some (added (newlines s))) .nil, ["a.py"], none) := by
    rw [processDir.eq_def]
    simp [h3, h4, processDir]
  have := h (.file "a.py" (some s) .nil) [] (by rw [hp])
  rw [hp] at this
  cases this with
  | cons h _ =>
    obtain ⟨s', h1, h2⟩ := h _ rfl
    have e : added (newlines s) = s' := Option.some.inj h1
    have := h2.subset h0
    rw [← e] at this
    exact added_clean _ this

/-- **C125**, what holds: text that has `\n` as line ends only is kept.  Missing: other line ends (`C125_kept_refuted`). -/
theorem C125_kept_partial {t : Entries} (h : (processDir t).2.2 = none) (p : List String)
    (hr : ∀ f ∈ filesBelow p t, ∀ s, f.2 = some s → '\r' ∉ s) :
    List.Forall₂ (fun a b => ∀ s, a.2 = some s → ∃ s', b.2 = some s' ∧ s <:+ s') (filesBelow p t) (filesBelow p (processDir t).1) := by
  have key : ∀ {l m : List (List String × Option Text)}, List.Forall₂ Handled l m → (∀ f ∈ l, ∀ s, f.2 = some s → '\r' ∉ s) →
      List.Forall₂ (fun a b => ∀ s, a.2 = some s → ∃ s', b.2 = some s' ∧ s <:+ s') l m := by
    intro l m hl hc
    induction hl with
    | nil => exact .nil
    | @cons a b l m hab _ ih =>
      refine .cons ?_ (ih (fun f hf => hc f (by simp [hf])))
      intro s hs
      rcases hab.2 with ⟨_, s0, h1, _, h2⟩ | ⟨_, h2⟩
      · rw [hs] at h1
        cases h1
        rw [newlines_id (hc a (by simp) s hs)] at h2
        exact ⟨_, h2, ⟨notice ++ ['\n'], by simp⟩⟩
      · exact ⟨s, by rw [h2, hs], List.suffix_refl _⟩
  exact key (C125_result h p).1 hr

/-- **C125** fails for executable files: the line that names the interpreter is no longer the first one. -/
theorem C125_interpreter_refuted : ∃ s : Text, "#!".toList <+: s ∧
    (processDir (.file "run.py" (some s) .nil)).1 = .file "run.py" (some (added s)) .nil ∧ ¬ "#!".toList <+: added s := by
  have h1 : pyName "run.py" = true := by decide +kernel
  have h2 : scan 32 "#!/usr/bin/env python3\n".toList = false := by decide +kernel
  have h3 : newlines "#!/usr/bin/env python3\n".toList = "#!/usr/bin/env python3\n".toList := by decide +kernel
  have h4 : ∀ t, ¬ "#!".toList <+: added t := by
    rintro t ⟨r, h⟩
    rw [added, notice, List.cons_append, List.cons_append] at h
    have := List.head_eq_of_cons_eq h
    revert this
    decide
  have h5 : "#!".toList <+: "#!/usr/bin/env python3\n".toList := by decide
  generalize "#!/usr/bin/env python3\n".toList = s at h2 h3 h5
  refine ⟨s, h5, ?_, h4 s⟩
  rw [processDir.eq_def]
  simp [h1, h3, h2, processDir]

end Notice
end Verif
