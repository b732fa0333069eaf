import Verif.YamlSpec
/-!
# Validated YAML documents and their typed view

Every typed document is the view of a schema-valid document, so theorems about all typed documents
are theorems about all schema-valid documents.
-/

namespace Verif
namespace Yaml

/-- Optional members of a mapping. -/
def mem? (k : String) (o : Option Json) : List (String × Json) :=
  match o with
  | some j => [(k, j)]
  | none => []

def encBin (b : YBin) : Json := .obj [("name", .str b.name), ("count", .int b.count)]
def encBins (l : List YBin) : Json := .arr (l.map encBin)
def encCp (c : YCp) : Json :=
  .obj ([("name", .str c.name), ("bins", encBins c.bins)] ++ mem? "atleast" (c.atleast.map .int)
    ++ mem? "ignorebins" (c.ignorebins.map encBins) ++ mem? "illegalbins" (c.illegalbins.map encBins))
def encCross (c : YCross) : Json :=
  .obj ([("name", .str c.name), ("coverpoints", .arr (c.coverpoints.map .str))] ++ mem? "atleast" (c.atleast.map .int)
    ++ mem? "bins" (c.bins.map encBins))
def encInst (i : YInst) : Json :=
  .obj ([("name", .str i.name)] ++ mem? "coverpoints" (i.coverpoints.map (fun l => .arr (l.map encCp)))
    ++ mem? "crosses" (i.crosses.map (fun l => .arr (l.map encCross))))
def encCg (g : YCg) : Json :=
  .obj ([("name", .str g.name)] ++ mem? "weight" (g.weight.map .int)
    ++ mem? "instances" (g.instances.map (fun l => .arr (l.map encInst))))
def encDoc (d : YDoc) : Json :=
  .obj (mem? "coverage" (d.coverage.map (fun c => .obj (mem? "covergroups" (c.map (fun l => .arr (l.map encCg)))))))

theorem validItems_map {α : Type} {s : JSchema} {f : α → Json} {l : List α} (h : ∀ x ∈ l, validJ s (f x) = true) :
    validItems s (l.map f) = true := by
  induction l with
  | nil => simp [validItems]
  | cons a t ih => simp [validItems, h a (by simp), ih (fun x hx => h x (by simp [hx]))]

theorem map_dec_enc {α : Type} {f : α → Json} {g : Json → α} (h : ∀ x, g (f x) = x) (l : List α) :
    (l.map f).map g = l := by
  rw [List.map_map]
  exact (List.map_congr_left (fun x _ => h x)).trans (List.map_id l)

theorem decBin_encBin (b : YBin) : decBin (encBin b) = b := by
  simp [decBin, encBin, strOf, intOf, Json.prop, Dict.get?, asStr, asInt]

theorem valid_encBin (b : YBin) : validJ sBin (encBin b) = true := by
  simp [sBin, encBin, validJ, validProps, Dict.get?, Dict.contains]

theorem dec_encBins (l : List YBin) : (asArr (encBins l)).map decBin = l := map_dec_enc decBin_encBin l

theorem valid_encBins (l : List YBin) : validJ (.array sBin) (encBins l) = true := by
  simp only [encBins, validJ]
  exact validItems_map (fun b _ => valid_encBin b)

theorem decCp_encCp (c : YCp) : decCp (encCp c) = c := by
  obtain ⟨n, a, b, i, l⟩ := c
  cases a <;> cases i <;> cases l <;>
    simp [decCp, encCp, strOf, intOf, arrOf, Json.prop, Dict.get?, asStr, asInt, mem?, dec_encBins]

theorem valid_encCp (c : YCp) : validJ sCp (encCp c) = true := by
  obtain ⟨n, a, b, i, l⟩ := c
  cases a <;> cases i <;> cases l <;>
    simp [sCp, encCp, validJ, validProps, Dict.get?, Dict.contains, mem?, valid_encBins]

theorem dec_strs (l : List String) : (asArr (.arr (l.map Json.str))).map asStr = l := map_dec_enc (fun _ => rfl) l

theorem decCross_encCross (c : YCross) : decCross (encCross c) = c := by
  obtain ⟨n, a, p, b⟩ := c
  have hs : (asArr (.arr (p.map Json.str))).map asStr = p := dec_strs p
  cases a <;> cases b <;>
    simp [decCross, encCross, strOf, intOf, arrOf, Json.prop, mem?, Dict.get?, dec_encBins, hs, asInt] <;> rfl

theorem valid_encCross (c : YCross) : validJ sCross (encCross c) = true := by
  obtain ⟨n, a, p, b⟩ := c
  have : validItems .string (p.map Json.str) = true := validItems_map (fun x _ => by simp [validJ])
  cases a <;> cases b <;>
    simp [sCross, encCross, validJ, validProps, Dict.get?, Dict.contains, mem?, valid_encBins, this]

theorem decInst_encInst (i : YInst) : decInst (encInst i) = i := by
  obtain ⟨n, a, b⟩ := i
  cases a <;> cases b <;>
    simp only [decInst, encInst, strOf, intOf, arrOf, Json.prop, mem?] <;>
    simp [Dict.get?, asStr, asArr, Function.comp_def, decCp_encCp, decCross_encCross]

theorem valid_encInst (i : YInst) : validJ sInst (encInst i) = true := by
  obtain ⟨n, a, b⟩ := i
  have h1 (l : List YCp) : validItems sCp (l.map encCp) = true := validItems_map (fun x _ => valid_encCp x)
  have h2 (l : List YCross) : validItems sCross (l.map encCross) = true := validItems_map (fun x _ => valid_encCross x)
  cases a <;> cases b <;>
    simp [sInst, encInst, validJ, validProps, Dict.get?, Dict.contains, mem?, h1, h2]

theorem decCg_encCg (g : YCg) : decCg (encCg g) = g := by
  obtain ⟨n, a, b⟩ := g
  cases a <;> cases b <;>
    simp only [decCg, encCg, strOf, intOf, arrOf, Json.prop, mem?] <;>
    simp [Dict.get?, asStr, asArr, asInt, Function.comp_def, decInst_encInst]

theorem valid_encCg (g : YCg) : validJ sCg (encCg g) = true := by
  obtain ⟨n, a, b⟩ := g
  have h1 (l : List YInst) : validItems sInst (l.map encInst) = true := validItems_map (fun x _ => valid_encInst x)
  cases a <;> cases b <;>
    simp [sCg, encCg, validJ, validProps, Dict.get?, Dict.contains, mem?, h1]

/-- The typed view of a document loses nothing of it. -/
theorem decode_encode (d : YDoc) : decDoc (encDoc d) = d := by
  obtain ⟨c⟩ := d
  rcases c with _ | _ | l <;>
    simp [decDoc, encDoc, arrOf, Json.prop, Dict.get?, mem?, asArr, Function.comp_def, decCg_encCg]

/-- Every typed document has a schema-valid source. -/
theorem encode_valid (d : YDoc) : validJ sDoc (encDoc d) = true := by
  obtain ⟨c⟩ := d
  have h1 (l : List YCg) : validItems sCg (l.map encCg) = true := validItems_map (fun x _ => valid_encCg x)
  rcases c with _ | _ | l <;> simp [sDoc, encDoc, validJ, validProps, Dict.get?, mem?, h1]

/-! ## Validation accepts exactly the documents that have a content -/

open Spec

theorem validJ_string {j : Json} : validJ .string j = true ↔ ∃ s, j = .str s := by
  cases j <;> simp [validJ]

theorem validJ_integer {j : Json} : validJ .integer j = true ↔ ∃ z, j = .int z := by
  cases j <;> simp [validJ]

theorem validItems_iff {s : JSchema} {l : List Json} : validItems s l = true ↔ ∀ j ∈ l, validJ s j = true := by
  induction l with
  | nil => simp [validItems]
  | cons a t ih => simp [validItems, ih]

theorem validJ_array {s : JSchema} {j : Json} : validJ (.array s) j = true ↔ ∃ l, j = .arr l ∧ ∀ x ∈ l, validJ s x = true := by
  cases j <;> simp [validJ, validItems_iff]

theorem validProps_iff {ps : List (String × JSchema)} {m : List (String × Json)} :
    validProps ps m = true ↔ ∀ p ∈ ps, ∀ j, Dict.get? m p.1 = some j → validJ p.2 j = true := by
  induction ps with
  | nil => simp [validProps]
  | cons a t ih =>
    obtain ⟨k, s⟩ := a
    simp only [validProps, Bool.and_eq_true, ih, List.forall_mem_cons]
    cases Dict.get? m k <;> simp

theorem validJ_object {ps : List (String × JSchema)} {req : List String} {j : Json} :
    validJ (.object ps req) j = true ↔ IsMapping j ∧ (∀ k ∈ req, ∃ v, j.prop k = some v) ∧
      ∀ p ∈ ps, ∀ v, j.prop p.1 = some v → validJ p.2 v = true := by
  cases j with
  | obj m =>
    simp only [validJ, Bool.and_eq_true, validProps_iff, Json.prop, List.all_eq_true, Dict.contains, Option.isSome_iff_exists]
    constructor
    · rintro ⟨h1, h2⟩; exact ⟨⟨m, rfl⟩, h1, h2⟩
    · rintro ⟨_, h1, h2⟩; exact ⟨h1, h2⟩
  | _ => simp [validJ, IsMapping]

/-- Content of a member, as seen by the schema `s`. -/
structure Member {α : Type} (s : JSchema) (P : Option Json → α → Prop) : Prop where
  some : ∀ v, validJ s v = true ↔ ∃ a, P (some v) a
  none : ∀ a, ¬ P none a

theorem Member.opt {α : Type} {s : JSchema} {P : Option Json → α → Prop} (h : Member s P) {o : Option Json} :
    (∀ v, o = Option.some v → validJ s v = true) ↔ ∃ x, Opt P o x := by
  cases o with
  | none => exact ⟨fun _ => ⟨Option.none, rfl⟩, fun _ v e => nomatch e⟩
  | some v =>
    constructor
    · intro hv
      obtain ⟨a, ha⟩ := (h.some v).1 (hv v rfl)
      exact ⟨Option.some a, ha⟩
    · rintro ⟨_ | a, ha⟩ w e
      · cases ha
      · cases e; exact (h.some v).2 ⟨a, ha⟩

theorem Member.req {α : Type} {s : JSchema} {P : Option Json → α → Prop} (h : Member s P) {o : Option Json} :
    ((∃ v, o = Option.some v) ∧ ∀ v, o = Option.some v → validJ s v = true) ↔ ∃ a, P o a := by
  cases o with
  | none => exact ⟨fun hv => (by obtain ⟨⟨_, e⟩, _⟩ := hv; cases e), fun hv => (by obtain ⟨a, ha⟩ := hv; exact (h.none a ha).elim)⟩
  | some v =>
    rw [← h.some v]
    exact ⟨fun hv => hv.2 v rfl, fun hv => ⟨⟨v, rfl⟩, fun w e => by cases e; exact hv⟩⟩

theorem member_text : Member .string IsText :=
  ⟨fun v => by simp [validJ_string, IsText], fun _ h => nomatch h⟩

theorem member_int : Member .integer IsInt :=
  ⟨fun v => by simp [validJ_integer, IsInt], fun _ h => nomatch h⟩

theorem forall₂_valid {α : Type} {s : JSchema} {P : Json → α → Prop} (hp : ∀ j, validJ s j = true ↔ ∃ a, P j a)
    {js : List Json} {l : List α} (h : List.Forall₂ P js l) : ∀ x ∈ js, validJ s x = true := by
  induction h with
  | nil => intro x hx; cases hx
  | cons hab _ ih => exact List.forall_mem_cons.2 ⟨(hp _).2 ⟨_, hab⟩, ih⟩

theorem member_list {α : Type} {s : JSchema} {P : Json → α → Prop} (hp : ∀ j, validJ s j = true ↔ ∃ a, P j a) :
    Member (.array s) (IsList P) := by
  refine ⟨fun v => ?_, fun _ h => by obtain ⟨_, e, _⟩ := h; cases e⟩
  rw [validJ_array]
  constructor
  · rintro ⟨js, rfl, h⟩
    have : ∃ l, List.Forall₂ P js l := by
      induction js with
      | nil => exact ⟨[], .nil⟩
      | cons a t ih =>
        obtain ⟨l, hl⟩ := ih (fun x hx => h x (by simp [hx]))
        obtain ⟨b, hb⟩ := (hp a).1 (h a (by simp))
        exact ⟨b :: l, .cons hb hl⟩
    obtain ⟨l, hl⟩ := this
    exact ⟨l, js, rfl, hl⟩
  · rintro ⟨l, js, e, hl⟩
    cases e
    exact ⟨js, rfl, forall₂_valid hp hl⟩

theorem mapping_of_prop {j v : Json} {k : String} (h : j.prop k = some v) : IsMapping j := by
  cases j with
  | obj m => exact ⟨m, rfl⟩
  | _ => simp [Json.prop] at h

theorem valid_bin_iff (j : Json) : validJ sBin j = true ↔ ∃ b, SaysBin j b := by
  simp only [sBin, validJ_object, List.forall_mem_cons, List.not_mem_nil, false_implies, implies_true, and_true]
  constructor
  · rintro ⟨_, ⟨h1, h2⟩, h3, h4⟩
    obtain ⟨n, hn⟩ := member_text.req.1 ⟨h1, h3⟩
    obtain ⟨c, hc⟩ := member_int.req.1 ⟨h2, h4⟩
    exact ⟨⟨n, c⟩, hn, hc⟩
  · rintro ⟨b, hn, hc⟩
    obtain ⟨h1, h3⟩ := member_text.req.2 ⟨_, hn⟩
    obtain ⟨h2, h4⟩ := member_int.req.2 ⟨_, hc⟩
    exact ⟨mapping_of_prop hn, ⟨h1, h2⟩, h3, h4⟩

theorem valid_cp_iff (j : Json) : validJ sCp j = true ↔ ∃ b, SaysCp j b := by
  have mb := member_list valid_bin_iff
  simp only [sCp, validJ_object, List.forall_mem_cons, List.not_mem_nil, false_implies, implies_true, and_true]
  constructor
  · rintro ⟨_, ⟨h1, h2⟩, h3, h4, h5, h6, h7⟩
    obtain ⟨n, hn⟩ := member_text.req.1 ⟨h1, h3⟩
    obtain ⟨b, hb⟩ := mb.req.1 ⟨h2, h5⟩
    obtain ⟨a, ha⟩ := member_int.opt.1 h4
    obtain ⟨g, hg⟩ := mb.opt.1 h6
    obtain ⟨l, hl⟩ := mb.opt.1 h7
    exact ⟨⟨n, a, b, g, l⟩, hn, ha, hb, hg, hl⟩
  · rintro ⟨b, hn, ha, hb, hg, hl⟩
    obtain ⟨h1, h3⟩ := member_text.req.2 ⟨_, hn⟩
    obtain ⟨h2, h5⟩ := mb.req.2 ⟨_, hb⟩
    exact ⟨mapping_of_prop hn, ⟨h1, h2⟩, h3, member_int.opt.2 ⟨_, ha⟩, h5, mb.opt.2 ⟨_, hg⟩, mb.opt.2 ⟨_, hl⟩⟩

theorem valid_cross_iff (j : Json) : validJ sCross j = true ↔ ∃ b, SaysCross j b := by
  have mb := member_list valid_bin_iff
  have ms := member_list (s := .string) (P := fun j s => j = .str s) (fun j => validJ_string)
  simp only [sCross, validJ_object, List.forall_mem_cons, List.not_mem_nil, false_implies, implies_true, and_true]
  constructor
  · rintro ⟨_, ⟨h1, h2⟩, h3, h4, h5, h6⟩
    obtain ⟨n, hn⟩ := member_text.req.1 ⟨h1, h3⟩
    obtain ⟨c, hc⟩ := ms.req.1 ⟨h2, h5⟩
    obtain ⟨a, ha⟩ := member_int.opt.1 h4
    obtain ⟨b, hb⟩ := mb.opt.1 h6
    exact ⟨⟨n, a, c, b⟩, hn, ha, hc, hb⟩
  · rintro ⟨b, hn, ha, hc, hb⟩
    obtain ⟨h1, h3⟩ := member_text.req.2 ⟨_, hn⟩
    obtain ⟨h2, h5⟩ := ms.req.2 ⟨_, hc⟩
    exact ⟨mapping_of_prop hn, ⟨h1, h2⟩, h3, member_int.opt.2 ⟨_, ha⟩, h5, mb.opt.2 ⟨_, hb⟩⟩

theorem valid_inst_iff (j : Json) : validJ sInst j = true ↔ ∃ b, SaysInst j b := by
  have mc := member_list valid_cp_iff
  have mx := member_list valid_cross_iff
  simp only [sInst, validJ_object, List.forall_mem_cons, List.not_mem_nil, false_implies, implies_true, and_true]
  constructor
  · rintro ⟨_, h1, h3, h4, h5⟩
    obtain ⟨n, hn⟩ := member_text.req.1 ⟨h1, h3⟩
    obtain ⟨a, ha⟩ := mc.opt.1 h4
    obtain ⟨b, hb⟩ := mx.opt.1 h5
    exact ⟨⟨n, a, b⟩, hn, ha, hb⟩
  · rintro ⟨b, hn, ha, hb⟩
    obtain ⟨h1, h3⟩ := member_text.req.2 ⟨_, hn⟩
    exact ⟨mapping_of_prop hn, h1, h3, mc.opt.2 ⟨_, ha⟩, mx.opt.2 ⟨_, hb⟩⟩

theorem valid_cg_iff (j : Json) : validJ sCg j = true ↔ ∃ b, SaysCg j b := by
  have mi := member_list valid_inst_iff
  simp only [sCg, validJ_object, List.forall_mem_cons, List.not_mem_nil, false_implies, implies_true, and_true]
  constructor
  · rintro ⟨_, h1, h3, h4, h5⟩
    obtain ⟨n, hn⟩ := member_text.req.1 ⟨h1, h3⟩
    obtain ⟨a, ha⟩ := member_int.opt.1 h4
    obtain ⟨b, hb⟩ := mi.opt.1 h5
    exact ⟨⟨n, a, b⟩, hn, ha, hb⟩
  · rintro ⟨b, hn, ha, hb⟩
    obtain ⟨h1, h3⟩ := member_text.req.2 ⟨_, hn⟩
    exact ⟨mapping_of_prop hn, h1, h3, member_int.opt.2 ⟨_, ha⟩, mi.opt.2 ⟨_, hb⟩⟩

/-- Schema validation accepts exactly the documents that have a content. -/
theorem valid_iff_says (j : Json) : validJ sDoc j = true ↔ ∃ d, Says j d := by
  have mg := member_list valid_cg_iff
  have hm : Member (.object [("covergroups", .array sCg)] [])
      (fun o (c : Option (List YCg)) => ∃ j', o = some j' ∧ IsMapping j' ∧ Opt (IsList SaysCg) (j'.prop "covergroups") c) := by
    refine ⟨fun v => ?_, fun a h => by obtain ⟨_, e, _⟩ := h; cases e⟩
    simp only [validJ_object, List.forall_mem_cons, List.not_mem_nil, false_implies, implies_true, and_true, true_and]
    constructor
    · rintro ⟨h1, h2⟩
      obtain ⟨c, hc⟩ := mg.opt.1 h2
      exact ⟨c, v, rfl, h1, hc⟩
    · rintro ⟨c, v', e, h1, hc⟩
      cases e
      exact ⟨h1, mg.opt.2 ⟨c, hc⟩⟩
  simp only [sDoc, validJ_object (ps := [("coverage", _)]), List.forall_mem_cons, List.not_mem_nil, false_implies, implies_true,
    and_true, true_and]
  constructor
  · rintro ⟨h1, h2⟩
    obtain ⟨c, hc⟩ := hm.opt.1 h2
    exact ⟨⟨c⟩, h1, hc⟩
  · rintro ⟨d, h1, hc⟩
    exact ⟨h1, hm.opt.2 ⟨_, hc⟩⟩

theorem dec_list {α : Type} {P : Json → α → Prop} {f : Json → α} (h : ∀ j a, P j a → f j = a) {js : List Json} {l : List α}
    (hl : List.Forall₂ P js l) : js.map f = l := by
  induction hl with
  | nil => rfl
  | cons ha _ ih => rw [List.map_cons, h _ _ ha, ih]

theorem dec_text {j : Json} {k s : String} (h : IsText (j.prop k) s) : strOf j k = s := by
  simp [strOf, show j.prop k = some (.str s) from h, asStr]

theorem dec_int {j : Json} {k : String} {z : Int} (h : IsInt (j.prop k) z) : intOf j k = some z := by
  simp [intOf, show j.prop k = some (.int z) from h, asInt]

theorem dec_int? {j : Json} {k : String} {z : Option Int} (h : Opt IsInt (j.prop k) z) : intOf j k = z := by
  cases z with
  | none => simp [intOf, show j.prop k = none from h]
  | some z => exact dec_int h

theorem dec_arr {α : Type} {P : Json → α → Prop} {f : Json → α} (h : ∀ j a, P j a → f j = a) {j : Json} {k : String} {l : List α}
    (hl : IsList P (j.prop k) l) : (arrOf j k).map (·.map f) = some l := by
  obtain ⟨js, e, hl⟩ := hl
  simp [arrOf, e, asArr, dec_list h hl]

theorem dec_arr? {α : Type} {P : Json → α → Prop} {f : Json → α} (h : ∀ j a, P j a → f j = a) {j : Json} {k : String}
    {l : Option (List α)} (hl : Opt (IsList P) (j.prop k) l) : (arrOf j k).map (·.map f) = l := by
  cases l with
  | none => simp [arrOf, show j.prop k = none from hl]
  | some l => exact dec_arr h hl

theorem getD_map_map {α β : Type} (o : Option (List α)) (f : α → β) : (o.getD []).map f = (o.map (·.map f)).getD [] := by
  cases o <;> rfl

theorem dec_bin {j : Json} {b : YBin} (h : SaysBin j b) : decBin j = b := by
  simp [decBin, dec_text h.1, dec_int h.2]

theorem dec_cp {j : Json} {c : YCp} (h : SaysCp j c) : decCp j = c := by
  obtain ⟨h1, h2, h3, h4, h5⟩ := h
  have hb := fun j b => @dec_bin j b
  simp only [decCp, getD_map_map, dec_text h1, dec_int? h2, dec_arr hb h3, dec_arr? hb h4, dec_arr? hb h5, Option.getD_some]

theorem dec_cross {j : Json} {c : YCross} (h : SaysCross j c) : decCross j = c := by
  obtain ⟨h1, h2, h3, h4⟩ := h
  have hb := fun j b => @dec_bin j b
  simp only [decCross, getD_map_map, dec_text h1, dec_int? h2, dec_arr? hb h4,
    dec_arr (f := asStr) (fun j a (e : j = .str a) => by rw [e]; rfl) h3, Option.getD_some]

theorem dec_inst {j : Json} {c : YInst} (h : SaysInst j c) : decInst j = c := by
  obtain ⟨h1, h2, h3⟩ := h
  simp only [decInst, dec_text h1, dec_arr? (fun j b => @dec_cp j b) h2, dec_arr? (fun j b => @dec_cross j b) h3]

theorem dec_cg {j : Json} {c : YCg} (h : SaysCg j c) : decCg j = c := by
  obtain ⟨h1, h2, h3⟩ := h
  simp only [decCg, dec_text h1, dec_int? h2, dec_arr? (fun j b => @dec_inst j b) h3]

/-- The typed view is the content. -/
theorem dec_says {j : Json} {d : YDoc} (h : Says j d) : decDoc j = d := by
  obtain ⟨_, h⟩ := h
  obtain ⟨c⟩ := d
  cases c with
  | none => simp [decDoc, show j.prop "coverage" = none from h]
  | some c =>
    obtain ⟨j', e, _, hc⟩ := h
    simp [decDoc, e, dec_arr? (fun j b => @dec_cg j b) hc]

end Yaml
end Verif
