import Verif.XmlReadClosed
/-!
# Property C110: which parts of an XML document matter

`doc/source/reference/xml_interchange.rst` says which options the reader uses.  Here: the exact list of elements and attributes that the
reader uses.  Options are not in it.
-/

namespace Verif

namespace Spec
open Xml

/-- The elements and attributes that matter for reading. -/
def readTable : List (String × List String) := [
  ("sourceFiles", ["fileName", "id"]),
  ("historyNodes", ["logicalName", "physicalName", "kind", "testStatus", "simtime", "timeunit", "runCwd", "cpuTime", "seed", "cmd", "args",
    "compulsory", "date", "userName", "cost", "toolCategory", "vendorId", "vendorTool", "vendorToolVersion", "sameTests", "comment"]),
  ("instanceCoverages", ["name", "moduleName"]),
  ("id", ["file", "line", "inlineCount"]),
  ("covergroupCoverage", []),
  ("cgInstance", ["name"]),
  ("cgId", ["cgName"]),
  ("coverpoint", ["name"]),
  ("coverpointBin", ["name", "type"]),
  ("sequence", []),
  ("range", []),
  ("contents", ["coverageCount"]),
  ("cross", ["name"]),
  ("crossExpr", []),
  ("crossBin", ["name"])]

def usedTag (t : String) : Bool := readTable.any (fun p => p.1 == t)
def usedAttrs (t : String) : List String := ((readTable.find? (fun p => p.1 == t)).map (·.2)).getD []

mutual
/-- Some element in the tree matters. -/
def hasUsed : Elem → Bool
  | ⟨t, _, _, ch⟩ => usedTag t || hasUsedL ch
termination_by structural e => e
def hasUsedL : List Elem → Bool
  | [] => false
  | e :: r => hasUsed e || hasUsedL r
termination_by structural l => l
end

mutual
/-- The document reduced to what matters: attributes not in the table are dropped, text outside `crossExpr` is dropped, and elements in which
nothing matters are dropped. -/
def prune : Elem → Elem
  | ⟨t, as, tx, ch⟩ => ⟨t, as.filter (fun p => decide (p.1 ∈ usedAttrs t)), if t = "crossExpr" then tx else none, pruneL ch⟩
termination_by structural e => e
def pruneL : List Elem → List Elem
  | [] => []
  | e :: r => if hasUsed e then prune e :: pruneL r else pruneL r
termination_by structural l => l
end

mutual
/-- The attribute `a` of all elements with tag `t` removed. -/
def dropAttr (t a : String) : Elem → Elem
  | ⟨tag, as, tx, ch⟩ => ⟨tag, if tag = t then as.filter (fun p => p.1 ≠ a) else as, tx, dropAttrL t a ch⟩
termination_by structural e => e
def dropAttrL (t a : String) : List Elem → List Elem
  | [] => []
  | e :: r => dropAttr t a e :: dropAttrL t a r
termination_by structural l => l
end

mutual
/-- All elements with tag `t` renamed to something unknown. -/
def dropTag (t : String) : Elem → Elem
  | ⟨tag, as, tx, ch⟩ => ⟨if tag = t then "unknown" else tag, as, tx, dropTagL t ch⟩
termination_by structural e => e
def dropTagL (t : String) : List Elem → List Elem
  | [] => []
  | e :: r => dropTag t e :: dropTagL t r
termination_by structural l => l
end

mutual
/-- The attributes of all `options` elements replaced. -/
def setOptions (as : List (String × String)) : Elem → Elem
  | ⟨tag, as', tx, ch⟩ => ⟨tag, if tag = "options" then as else as', tx, setOptionsL as ch⟩
termination_by structural e => e
def setOptionsL (as : List (String × String)) : List Elem → List Elem
  | [] => []
  | e :: r => setOptions as e :: setOptionsL as r
termination_by structural l => l
end

end Spec

namespace Xml
open Spec PyNum

/-! ## Iteration and pruning -/

mutual
theorem iter_unused {t : String} (ht : usedTag t = true) : ∀ e : Elem, hasUsed e = false → iter t e = []
  | ⟨tag, as, tx, ch⟩, h => by
    rw [hasUsed, Bool.or_eq_false_iff] at h
    have hne : tag ≠ t := by rintro rfl; rw [ht] at h; exact absurd h.1 (by decide)
    rw [iter, if_neg hne, iterL_unused ht ch h.2]
theorem iterL_unused {t : String} (ht : usedTag t = true) : ∀ l : List Elem, hasUsedL l = false → iterL t l = []
  | [], _ => rfl
  | e :: r, h => by
    rw [hasUsedL, Bool.or_eq_false_iff] at h
    rw [iterL, iter_unused ht e h.1, iterL_unused ht r h.2]; rfl
end

mutual
theorem iter_prune {t : String} (ht : usedTag t = true) : ∀ e : Elem, iter t (prune e) = (iter t e).map prune
  | ⟨tag, as, tx, ch⟩ => by
    have h := iterL_prune ht ch
    rw [prune, iter, iter]
    by_cases hc : tag = t
    · rw [if_pos hc, if_pos hc, List.map_cons, prune, h]
    · rw [if_neg hc, if_neg hc, h]
theorem iterL_prune {t : String} (ht : usedTag t = true) : ∀ l : List Elem, iterL t (pruneL l) = (iterL t l).map prune
  | [] => rfl
  | e :: r => by
    have h := iterL_prune ht r
    rw [pruneL, iterL, List.map_append]
    by_cases hu : hasUsed e = true
    · rw [if_pos hu, iterL, iter_prune ht e, h]
    · rw [if_neg hu, h, iter_unused ht e (by simpa using hu)]; rfl
end

mutual
theorem tag_of_iter {t : String} : ∀ (e x : Elem), x ∈ iter t e → x.tag = t
  | ⟨tag, as, tx, ch⟩, x, h => by
    rw [iter] at h
    by_cases hc : tag = t
    · rw [if_pos hc, List.mem_cons] at h
      rcases h with rfl | h
      · exact hc
      · exact tag_of_iterL ch x h
    · rw [if_neg hc] at h
      exact tag_of_iterL ch x h
theorem tag_of_iterL {t : String} : ∀ (l : List Elem) (x : Elem), x ∈ iterL t l → x.tag = t
  | [], x, h => by simp [iterL] at h
  | e :: r, x, h => by
    rw [iterL, List.mem_append] at h
    rcases h with h | h
    · exact tag_of_iter e x h
    · exact tag_of_iterL r x h
end

theorem get?_filter {α : Type} (p : String → Bool) (d : Dict α) (k : String) (h : p k = true) :
    Dict.get? (d.filter (fun e => p e.1)) k = Dict.get? d k := by
  induction d with
  | nil => rfl
  | cons x t ih =>
    by_cases hx : p x.1 = true
    · rw [List.filter_cons_of_pos (by simpa using hx)]
      simp only [Dict.get?] at ih ⊢
      split <;> simp_all
    · rw [List.filter_cons_of_neg (by simpa using hx), ih]
      have hne : x.1 ≠ k := by rintro rfl; exact hx h
      simp [Dict.get?, hne]

theorem prune_tag (e : Elem) : (prune e).tag = e.tag := by cases e; rw [prune]

theorem prune_get {e : Elem} {n : String} (h : n ∈ usedAttrs e.tag) : (prune e).get n = e.get n := by
  obtain ⟨t, as, tx, ch⟩ := e
  rw [prune]
  exact get?_filter (fun s => decide (s ∈ usedAttrs t)) as n (by simpa using h)

theorem prune_getE {e : Elem} {n : String} (h : n ∈ usedAttrs e.tag) : (prune e).getE n = e.getE n := by
  have := prune_get h
  unfold Elem.get at this
  unfold Elem.getE Dict.getE
  rw [this]

theorem prune_getD {e : Elem} {n d : String} (h : n ∈ usedAttrs e.tag) : (prune e).getD n d = e.getD n d := by
  unfold Elem.getD; rw [prune_get h]

theorem prune_getInt {e : Elem} {n : String} (h : n ∈ usedAttrs e.tag) : (prune e).getInt n = e.getInt n := by
  unfold Elem.getInt; rw [prune_getE h]

theorem mapM_map_congr {α β : Type} {f : α → Except Err β} {g : α → α} {l : List α} (h : ∀ x ∈ l, f (g x) = f x) :
    (l.map g).mapM f = l.mapM f := by
  induction l with
  | nil => rfl
  | cons a t ih =>
    rw [List.map_cons, List.mapM_cons, List.mapM_cons, h a (by simp), ih (fun x hx => h x (by simp [hx]))]

theorem foldlM_map_congr {α σ : Type} {f : σ → α → Except Err σ} {g : α → α} {l : List α} (h : ∀ s, ∀ x ∈ l, f s (g x) = f s x) (s : σ) :
    (l.map g).foldlM f s = l.foldlM f s := by
  induction l generalizing s with
  | nil => rfl
  | cons a t ih =>
    rw [List.map_cons, List.foldlM_cons, List.foldlM_cons, h s a (by simp)]
    cases f s a with
    | error e => rfl
    | ok s' => exact ih (fun s x hx => h s x (by simp [hx])) s'

theorem mapM_iter_prune {β : Type} {f : Elem → Except Err β} {t : String} (ht : usedTag t = true) (h : ∀ x, x.tag = t → f (prune x) = f x) (e : Elem) :
    (iter t (prune e)).mapM f = (iter t e).mapM f := by
  rw [iter_prune ht]
  exact mapM_map_congr (fun x hx => h x (tag_of_iter e x hx))

theorem foldlM_iter_prune {σ : Type} {f : σ → Elem → Except Err σ} {t : String} (ht : usedTag t = true)
    (h : ∀ s x, x.tag = t → f s (prune x) = f s x) (e : Elem) (s : σ) :
    (iter t (prune e)).foldlM f s = (iter t e).foldlM f s := by
  rw [iter_prune ht]
  exact foldlM_map_congr (fun s x hx => h s x (tag_of_iter e x hx)) s

theorem nextE_prune {t : String} (ht : usedTag t = true) (e : Elem) : nextE (prune e) t = (nextE e t).map prune := by
  unfold nextE
  rw [iter_prune ht]
  cases iter t e <;> rfl

theorem nextE_tag {t : String} {e x : Elem} (h : nextE e t = .ok x) : x.tag = t := by
  unfold nextE at h
  cases hi : iter t e with
  | nil => rw [hi] at h; exact absurd h (by simp)
  | cons a r =>
    rw [hi] at h
    obtain rfl := Except.ok.inj h
    exact tag_of_iter e a (by rw [hi]; simp)

theorem next?_prune {t : String} (ht : usedTag t = true) (e : Elem) : next? (prune e) t = (next? e t).map prune := by
  unfold next?
  rw [iter_prune ht, List.head?_map]

theorem next?_tag {t : String} {e x : Elem} (h : next? e t = some x) : x.tag = t := by
  unfold next? at h
  exact tag_of_iter e x (List.mem_of_head? h)

/-! ## The reader and pruning -/

theorem count_prune {x : Except Err Elem} (h : ∀ c, x = .ok c → c.tag = "contents") :
    ((x.map prune) >>= fun c => c.getInt "coverageCount") = (x >>= fun c => c.getInt "coverageCount") := by
  cases x with
  | error e => rfl
  | ok c => exact prune_getInt (by rw [h c rfl]; decide)

theorem contentsE_prune (e : Elem) : contentsE (prune e) = (contentsE e).map prune := by
  unfold contentsE
  rw [next?_prune (by decide), next?_prune (by decide)]
  cases next? e "sequence" with
  | some s => exact nextE_prune (by decide) s
  | none =>
    cases next? e "range" with
    | some r => exact nextE_prune (by decide) r
    | none => rfl

theorem contentsE_tag {e c : Elem} (h : contentsE e = .ok c) : c.tag = "contents" := by
  unfold contentsE at h
  cases hs : next? e "sequence" with
  | some s => rw [hs] at h; exact nextE_tag h
  | none =>
    cases hr : next? e "range" with
    | some r => rw [hs, hr] at h; exact nextE_tag h
    | none => rw [hs, hr] at h; exact absurd h (by simp)

theorem readBin_prune (e : Elem) (h : e.tag = "coverpointBin") : readBin (prune e) = readBin e := by
  unfold readBin
  rw [contentsE_prune, prune_getD (by rw [h]; decide), prune_getD (by rw [h]; decide)]
  cases hc : contentsE e with
  | error x => rfl
  | ok c =>
    have hi : (prune c).getInt "coverageCount" = c.getInt "coverageCount" := prune_getInt (by rw [contentsE_tag hc]; decide)
    change (do
      let kind ← readKind (e.getD "type" "default")
      let count ← (prune c).getInt "coverageCount"
      pure (mkBin (e.getD "name" "<unknown>") kind 1 count)) = _
    rw [hi]; rfl

theorem readCrossBin_prune (e : Elem) (h : e.tag = "crossBin") : readCrossBin (prune e) = readCrossBin e := by
  unfold readCrossBin
  rw [nextE_prune (by decide), prune_getD (by rw [h]; decide)]
  cases hc : nextE e "contents" with
  | error x => rfl
  | ok c =>
    have hi : (prune c).getInt "coverageCount" = c.getInt "coverageCount" := prune_getInt (by rw [nextE_tag hc]; decide)
    show (do let count ← (prune c).getInt "coverageCount"; _) = _
    rw [hi]; rfl

theorem exprName_prune (e : Elem) (h : e.tag = "crossExpr") : exprName (prune e) = exprName e := by
  obtain ⟨t, as, tx, ch⟩ := e
  simp only at h
  subst h
  unfold exprName
  rw [prune]
  simp

theorem resolve_prune (known : List String) (e : Elem) : resolve known (prune e) = resolve known e := by
  unfold resolve
  exact mapM_iter_prune (by decide) (fun x hx => by rw [exprName_prune x hx]) e

theorem readCp_prune (st : IState) (e : Elem) (h : e.tag = "coverpoint") : readCp st (prune e) = readCp st e := by
  unfold readCp
  rw [prune_getD (by rw [h]; decide), mapM_iter_prune (by decide) readBin_prune]

theorem readCr_prune (st : IState) (e : Elem) (h : e.tag = "cross") : readCr st (prune e) = readCr st e := by
  unfold readCr
  rw [prune_getD (by rw [h]; decide), mapM_iter_prune (by decide) readCrossBin_prune, resolve_prune, resolve_prune]

theorem readCgInst_prune (st : GState) (e : Elem) (h : e.tag = "cgInstance") : readCgInst st (prune e) = readCgInst st e := by
  unfold readCgInst
  rw [prune_getD (by rw [h]; decide), foldlM_iter_prune (by decide) readCp_prune]
  cases (iter "coverpoint" e).foldlM readCp { slots := [], cpM := st.cpM, crM := st.crM, kids := [], known := [] } with
  | error x => rfl
  | ok s1 =>
    show (do let s2 ← (iter "cross" (prune e)).foldlM readCr s1; _) = _
    rw [foldlM_iter_prune (by decide) readCr_prune]; rfl

theorem typeName_prune (e : Elem) : typeName (prune e) = typeName e := by
  unfold typeName
  rw [next?_prune (by decide)]
  cases hn : next? e "cgId" with
  | none => rfl
  | some i => exact prune_getD (by rw [next?_tag hn]; decide)

theorem readCovergroups_prune (e : Elem) : readCovergroups (prune e) = readCovergroups e := by
  unfold readCovergroups
  rw [groupTypes_closed, groupTypes_closed, iter_prune (by decide), List.map_map,
    show typeName ∘ prune = typeName from funext typeName_prune]
  rw [List.mapM_map, List.mapM_map]
  congr 1
  funext n
  simp only [Function.comp_apply, List.filter_map]
  have hf : ((fun e => decide (typeName e = n)) ∘ prune) = (fun e => decide (typeName e = n)) := by
    funext x; simp [typeName_prune]
  rw [hf]
  unfold readCovergroup
  rw [foldlM_map_congr (fun s x hx => readCgInst_prune s x (tag_of_iter e x (List.mem_filter.1 hx).1))]

theorem readStatementId_prune (files : List Int) (e : Elem) (h : e.tag = "id") : readStatementId files (prune e) = readStatementId files e := by
  unfold readStatementId
  rw [prune_getInt (by rw [h]; decide), prune_getInt (by rw [h]; decide), prune_getInt (by rw [h]; decide)]

theorem readInstance_prune (files : List Int) (tops : List Scope) (e : Elem) (h : e.tag = "instanceCoverages") :
    readInstance files tops (prune e) = readInstance files tops e := by
  unfold readInstance
  rw [prune_getE (by rw [h]; decide), prune_getD (by rw [h]; decide), mapM_iter_prune (by decide) (readStatementId_prune files),
    mapM_iter_prune (by decide) (fun x _ => readCovergroups_prune x)]

theorem readFile_prune (e : Elem) (h : e.tag = "sourceFiles") : readFile (prune e) = readFile e := by
  unfold readFile
  rw [prune_get (by rw [h]; decide), prune_get (by rw [h]; decide)]

theorem readHist_prune (flt : FloatText) (e : Elem) (h : e.tag = "historyNodes") : readHist flt (prune e) = readHist flt e := by
  have hg : ∀ n, n ∈ usedAttrs "historyNodes" → (prune e).get n = e.get n := fun n hn => prune_get (by rw [h]; exact hn)
  have hE : ∀ n, n ∈ usedAttrs "historyNodes" → (prune e).getE n = e.getE n := fun n hn => prune_getE (by rw [h]; exact hn)
  unfold readHist floatIf intIf dateOf
  rw [hE "testStatus" (by decide), hE "toolCategory" (by decide), hE "vendorId" (by decide), hE "vendorTool" (by decide),
    hE "vendorToolVersion" (by decide), hg "simtime" (by decide), hg "cpuTime" (by decide), hg "date" (by decide), hg "cost" (by decide),
    hg "sameTests" (by decide), hg "logicalName" (by decide), hg "physicalName" (by decide), hg "kind" (by decide), hg "timeunit" (by decide),
    hg "runCwd" (by decide), hg "seed" (by decide), hg "cmd" (by decide), hg "args" (by decide), hg "compulsory" (by decide),
    hg "userName" (by decide), hg "comment" (by decide)]

/-- **C110**: reading depends only on what the table lists: the document reduced to it is read as the document itself, with the same error if
there is one. -/
theorem C110_read (flt : FloatText) (d : Elem) : read flt (prune d) = read flt d := by
  unfold read
  rw [mapM_iter_prune (by decide) readFile_prune, mapM_iter_prune (by decide) (readHist_prune flt)]
  cases (iter "sourceFiles" d).mapM readFile with
  | error x => rfl
  | ok files =>
    have ht := foldlM_iter_prune (t := "instanceCoverages") (by decide) (readInstance_prune (files.map Prod.fst)) d []
    cases (iter "historyNodes" d).mapM (readHist flt) with
    | error x => rfl
    | ok hist =>
      change (do
        let tops ← (iter "instanceCoverages" (prune d)).foldlM (readInstance (files.map Prod.fst)) []
        pure _) = _
      rw [ht]; rfl

/-- **C110**: two documents that agree on what the table lists are read alike. -/
theorem C110_same (flt : FloatText) (d d' : Elem) (h : prune d = prune d') : read flt d = read flt d' := by
  rw [← C110_read flt d, h, C110_read]

mutual
theorem hasUsed_setOptions (as : List (String × String)) : ∀ e, hasUsed (setOptions as e) = hasUsed e
  | ⟨t, as', tx, ch⟩ => by rw [setOptions, hasUsed, hasUsed, hasUsedL_setOptions as ch]
theorem hasUsedL_setOptions (as : List (String × String)) : ∀ l, hasUsedL (setOptionsL as l) = hasUsedL l
  | [] => rfl
  | e :: r => by rw [setOptionsL, hasUsedL, hasUsedL, hasUsed_setOptions as e, hasUsedL_setOptions as r]
end

mutual
theorem prune_setOptions (as : List (String × String)) : ∀ e, prune (setOptions as e) = prune e
  | ⟨t, as', tx, ch⟩ => by
    rw [setOptions, prune, prune, pruneL_setOptions as ch]
    by_cases h : t = "options"
    · subst h
      have hu : usedAttrs "options" = [] := by decide
      simp [hu]
    · rw [if_neg h]
theorem pruneL_setOptions (as : List (String × String)) : ∀ l, pruneL (setOptionsL as l) = pruneL l
  | [] => rfl
  | e :: r => by rw [setOptionsL, pruneL, pruneL, hasUsed_setOptions, prune_setOptions as e, pruneL_setOptions as r]
end

/-- **C110**: options do not matter at all, in particular not `weight`, `at_least`, `per_instance` and `merge_instances`, whatever elements they
are given for. -/
theorem C110_options (flt : FloatText) (as : List (String × String)) (d : Elem) : read flt (setOptions as d) = read flt d :=
  C110_same flt _ _ (prune_setOptions as d)

/-- The documentation's claim (`xml_interchange.rst`, "Coverage Instance Options", "Coverpoint Bins"): these options have an influence. -/
def C110_options_claim : Prop := ∀ o ∈ ["weight", "at_least", "per_instance", "merge_instances"],
  ∃ flt d v v', read flt (setOptions [(o, v)] d) ≠ read flt (setOptions [(o, v')] d)

/-- **C110**: the documented influence of options does not exist. -/
theorem C110_options_refuted : ¬ C110_options_claim := by
  intro h
  obtain ⟨flt, d, v, v', hne⟩ := h "weight" (by simp)
  exact hne (by rw [C110_options, C110_options])

/-! ## Everything in the table matters -/

namespace Ex
/-- Every number reads as 5. -/
def usedFlt : FloatText := ⟨fun _ => "", fun _ => some 5⟩

/-- A document with a history node having every attribute of the table. -/
def usedHist : Elem := ⟨"UCIS", [], none, [⟨"historyNodes", [("logicalName", "l"), ("physicalName", "p"), ("kind", "k"), ("testStatus", "true"), ("simtime", "5"),
  ("timeunit", "ns"), ("runCwd", "/"), ("cpuTime", "5"), ("seed", "s"), ("cmd", "c"), ("args", "a"), ("compulsory", "1"),
  ("date", "2020-02-02T00:00:00"), ("userName", "u"), ("cost", "5"), ("toolCategory", "t"), ("vendorId", "v"), ("vendorTool", "w"),
  ("vendorToolVersion", "x"), ("sameTests", "3"), ("comment", "y")], none, []⟩]⟩

def usedContents (n : String) : Elem := ⟨"contents", [("coverageCount", n)], none, []⟩

/-- A document with every other element and attribute of the table. -/
def usedDoc : Elem := ⟨"UCIS", [], none, [
  ⟨"sourceFiles", [("fileName", "f.v"), ("id", "1")], none, []⟩,
  ⟨"instanceCoverages", [("name", "i"), ("moduleName", "m")], none, [
    ⟨"id", [("file", "1"), ("line", "2"), ("inlineCount", "3")], none, []⟩,
    ⟨"covergroupCoverage", [], none, [⟨"cgInstance", [("name", "ci")], none, [
      ⟨"options", [("weight", "7")], none, []⟩,
      ⟨"cgId", [("cgName", "cg")], none, []⟩,
      ⟨"coverpoint", [("name", "cp")], none, [
        ⟨"coverpointBin", [("name", "a"), ("type", "ignore")], none, [⟨"sequence", [], none, [usedContents "3"]⟩, ⟨"range", [], none, [usedContents "4"]⟩]⟩,
        ⟨"coverpointBin", [("name", "b"), ("type", "bins")], none, [⟨"range", [], none, [usedContents "4"]⟩]⟩]⟩,
      ⟨"cross", [("name", "cr")], none, [⟨"crossExpr", [], some " cp ", []⟩, ⟨"crossBin", [("name", "<a>")], none, [usedContents "5"]⟩]⟩]⟩]⟩]⟩]⟩

/-- A number for a text; the start value and the separators below only serve to make different results give different numbers. -/
def strNum (n : Nat) (s : String) : Nat := s.toList.foldl (fun a c => a * 1000 + c.toNat) (n * 1000 + 1)
def optNum (n : Nat) : Option String → Nat
  | none => n * 1000 + 2
  | some s => strNum n s
def intNum (n : Nat) (i : Int) : Nat := n * 1000 + (i + 10).toNat

mutual
def scopeNum (n : Nat) : Scope → Nat
  | ⟨t, nm, _, w, d, c, ch, is⟩ =>
    scopesNum (is.foldl (fun a i => intNum (strNum (a * 1000 + i.kind) i.name) i.count)
      ((c.getD []).foldl strNum (optNum (strNum (intNum (n * 1000 + t) w) nm) (d.map (·.name))))) ch
termination_by structural s => s
def scopesNum (n : Nat) : List Scope → Nat
  | [] => n * 1000 + 3
  | s :: t => scopesNum (scopeNum n s) t
termination_by structural l => l
end

/-- A number computed from the result of reading: different numbers mean different results. -/
def usedNum (r : Except Err Database) : Nat :=
  match r with
  | .error _ => 0
  | .ok d => (d.hist.foldl (fun a h => [h.status, h.simTime.num, h.cpuTime.num, h.cost.num, h.sameTests].foldl intNum
      ([h.logicalName, h.physicalName, h.kind, h.timeUnit, h.runCwd, h.seed, h.cmd, h.args, h.compulsory, h.userName,
        some h.toolCategory, some h.vendorId, some h.vendorTool, some h.vendorToolVersion, h.comment].foldl optNum a))
      (d.files.foldl optNum (scopeNum 1 d.root))) % 1000000007

def usedFor (t : String) : Elem := if t = "historyNodes" then usedHist else usedDoc
def usedBase (t : String) : Nat := if t = "historyNodes" then 923236678 else 724584684

theorem usedBase_eq (t : String) : usedNum (read usedFlt (usedFor t)) = usedBase t := by
  have h1 : usedNum (read usedFlt usedHist) = 923236678 := by decide +kernel
  have h2 : usedNum (read usedFlt usedDoc) = 724584684 := by decide +kernel
  unfold usedFor usedBase
  by_cases h : t = "historyNodes"
  · rw [if_pos h, if_pos h, h1]
  · rw [if_neg h, if_neg h, h2]
end Ex

/-- **C110**: every attribute of the table matters: without it some document is read differently. -/
theorem C110_attributes_matter (t : String) (as : List String) (ht : (t, as) ∈ readTable) (a : String) (ha : a ∈ as) :
    ∃ flt d, read flt (dropAttr t a d) ≠ read flt d := by
  refine ⟨Ex.usedFlt, Ex.usedFor t, fun h => ?_⟩
  have h1 : readTable.all (fun p => p.2.all (fun a =>
      decide (Ex.usedNum (read Ex.usedFlt (dropAttr p.1 a (Ex.usedFor p.1))) ≠ Ex.usedBase p.1))) = true := by
    decide +kernel
  exact of_decide_eq_true (List.all_eq_true.1 (List.all_eq_true.1 h1 _ ht) a ha) (by rw [h, Ex.usedBase_eq])

/-- **C110**: every element of the table matters. -/
theorem C110_elements_matter (t : String) (as : List String) (ht : (t, as) ∈ readTable) : ∃ flt d, read flt (dropTag t d) ≠ read flt d := by
  by_cases hid : t = "id"
  · subst hid
    refine ⟨Ex.usedFlt, ⟨"UCIS", [], none, [⟨"instanceCoverages", [("name", "i")], none, [⟨"id", [], none, []⟩]⟩]⟩, fun h => ?_⟩
    have h1 : (read Ex.usedFlt (dropTag "id" ⟨"UCIS", [], none, [⟨"instanceCoverages", [("name", "i")], none, [⟨"id", [], none, []⟩]⟩]⟩)).isOk ≠
      (read Ex.usedFlt ⟨"UCIS", [], none, [⟨"instanceCoverages", [("name", "i")], none, [⟨"id", [], none, []⟩]⟩]⟩).isOk := by decide +kernel
    exact h1 (by rw [h])
  · refine ⟨Ex.usedFlt, Ex.usedFor t, fun h => ?_⟩
    have h1 : readTable.all (fun p => p.1 == "id" ||
        decide (Ex.usedNum (read Ex.usedFlt (dropTag p.1 (Ex.usedFor p.1))) ≠ Ex.usedBase p.1)) = true := by
      decide +kernel
    have h2 := List.all_eq_true.1 h1 _ ht
    simp only [Bool.or_eq_true, beq_iff_eq, hid, false_or] at h2
    exact of_decide_eq_true h2 (by rw [h, Ex.usedBase_eq])

/-- The document above is read, contains an `options` element, and its reduction does not. -/
example : (read Ex.usedFlt Ex.usedDoc).isOk = true ∧ (iter "options" Ex.usedDoc).length = 1 ∧ (iter "options" (prune Ex.usedDoc)).length = 0 := by
  decide +kernel

end Xml
end Verif
