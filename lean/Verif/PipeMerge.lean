import Verif.PipelineThms
import Verif.MergeXmlThms
/-!
# Properties C79 and C80 for the `merge` command on XML files
-/

namespace Verif
namespace Tools

namespace Spec

/-- `doc` is the parsed content of a (possibly compressed) XML file. -/
def Holds (x : Ext) (content : Option Bytes) (doc : Xml.Elem) : Prop :=
  ∃ c text, content = some c ∧ x.parseXml text = .ok doc ∧
    ((openFile x.modules c = some .gzip ∧ x.gunzip c = .ok text) ∨ (openFile x.modules c = some .lz4 ∧ x.unlz4 c = .ok text) ∨
      (openFile x.modules c = some .plain ∧ text = c))

end Spec

theorem xmlRead_ok {x : Ext} {content : Option Bytes} {db : Database} :
    xmlRead x content = .ok db ↔ ∃ doc, Spec.Holds x content doc ∧ Xml.factoryRead x.env.flt doc = .ok db := by
  unfold Spec.Holds
  constructor
  · intro h
    cases content with
    | none => cases h
    | some c =>
      unfold xmlRead at h
      cases ho : openFile x.modules c with
      | none => simp only [ho] at h; cases h
      | some o =>
        simp only [ho] at h
        cases o with
        | gzip =>
          obtain ⟨text, h1, h⟩ := Ex.bind_ok.1 h
          obtain ⟨doc, h2, h⟩ := Ex.bind_ok.1 h
          exact ⟨doc, ⟨c, text, rfl, h2, .inl ⟨ho, h1⟩⟩, h⟩
        | lz4 =>
          obtain ⟨text, h1, h⟩ := Ex.bind_ok.1 h
          obtain ⟨doc, h2, h⟩ := Ex.bind_ok.1 h
          exact ⟨doc, ⟨c, text, rfl, h2, .inr (.inl ⟨ho, h1⟩)⟩, h⟩
        | plain =>
          have h : (x.parseXml c >>= fun doc => Xml.factoryRead x.env.flt doc) = .ok db := h
          obtain ⟨doc, h2, h⟩ := Ex.bind_ok.1 h
          exact ⟨doc, ⟨c, c, rfl, h2, .inr (.inr ⟨ho, rfl⟩)⟩, h⟩
  · rintro ⟨doc, ⟨c, text, rfl, h2, h⟩, h3⟩
    unfold xmlRead
    rcases h with ⟨ho, h1⟩ | ⟨ho, h1⟩ | ⟨ho, rfl⟩
    · simp only [ho, h1]
      exact Ex.bind_ok.2 ⟨text, rfl, Ex.bind_ok.2 ⟨doc, h2, h3⟩⟩
    · simp only [ho, h1]
      exact Ex.bind_ok.2 ⟨text, rfl, Ex.bind_ok.2 ⟨doc, h2, h3⟩⟩
    · simp only [ho]
      exact Ex.bind_ok.2 ⟨text, rfl, Ex.bind_ok.2 ⟨doc, h2, h3⟩⟩

theorem registered_xml (x : Ext) : Spec.Registered (defaultRgy x) "xml"
    ⟨"xml", 6, "Supports reading and writing UCIS XML interchange", xmlIf x⟩ := by
  unfold Spec.Registered; rw [defaultRgy_dbs]; rfl

theorem reads_all {D : Type} {f : DbIf D} {files : String → Option Bytes} {ps : List String}
    (h : ∀ p ∈ ps, ∃ d, f.read (files p) = .ok d) : ∃ dbs, Spec.Reads f files ps dbs := by
  induction ps with
  | nil => exact ⟨[], .nil⟩
  | cons p t ih =>
    obtain ⟨d, hd⟩ := h p List.mem_cons_self
    obtain ⟨dbs, hdbs⟩ := ih (fun p hp => h p (List.mem_cons_of_mem _ hp))
    exact ⟨d :: dbs, .cons hd hdbs⟩

theorem reads_mem {D : Type} {f : DbIf D} {files : String → Option Bytes} {ps : List String} {dbs : List D}
    (h : Spec.Reads f files ps dbs) {d : D} (hd : d ∈ dbs) : ∃ p ∈ ps, f.read (files p) = .ok d := by
  induction h with
  | nil => cases hd
  | @cons p d' _ _ h1 _ ih =>
    rcases List.mem_cons.1 hd with rfl | hd
    · exact ⟨p, List.mem_cons_self, h1⟩
    · obtain ⟨q, hq, h⟩ := ih hd
      exact ⟨q, List.mem_cons_of_mem _ hq, h⟩

/-- **C79** (command). `merge` on XML files that the library can read and in which no crossed name is blank succeeds if
the output can be opened, and the output can be read by the library.  (`PrintableDoc` holds of whatever an XML parser delivers.) -/
theorem C79_merge_command {x : Ext} (hf : Spec.Faithful x) {a : MergeArgs} {w : World}
    (hi : a.inputFormat.getD "xml" = "xml") (ho : a.outputFormat.getD "xml" = "xml") (hne : a.db ≠ []) (hw : w.writable a.out = true)
    (hr : ∀ p ∈ a.db, ∃ d, xmlRead x (w.files p) = .ok d)
    (hb : ∀ p ∈ a.db, ∀ doc, Spec.Holds x (w.files p) doc → Verif.Spec.PrintableDoc doc ∧ Verif.Spec.NoBlankCross doc) :
    ∃ w' db', ucisMerge x a w = (.ok (), w') ∧ xmlRead x (w'.files a.out) = .ok db' := by
  obtain ⟨dbs, hdbs⟩ := reads_all (f := xmlIf x) hr
  have hs : ∀ s ∈ dbs, ∃ doc, Xml.factoryRead x.env.flt doc = .ok s ∧ Verif.Spec.PrintableDoc doc ∧ Verif.Spec.NoBlankCross doc := by
    intro s hs
    obtain ⟨p, hp, h⟩ := reads_mem hdbs hs
    obtain ⟨doc, h1, h2⟩ := xmlRead_ok.1 h
    exact ⟨doc, h2, hb p hp doc h1⟩
  have hne' : dbs ≠ [] := by
    intro h
    rw [h] at hdbs
    exact hne (List.forall₂_nil_right_iff.1 hdbs)
  obtain ⟨out, doc, db', hm, h1, h2⟩ := C79_merged_stored hf.env hne' hs
  have hx : xmlWrite x out = (x.showXml doc, .ok ()) := xmlWrite_ok.2 ⟨doc, h1, rfl⟩
  refine ⟨Spec.Written w a.db a.out (x.showXml doc), db', (C74_merge_success _ _ a w _).2
    ⟨_, out, xmlWrite x, _, ⟨by rw [ho]; exact registered_xml x, _, dbs, _, by rw [hi]; exact registered_xml x, hdbs, rfl, hm⟩, rfl, hw, hx, rfl⟩, ?_⟩
  simp only [Spec.Written, if_true]
  rw [xmlRead_written hf hx, h2]

/-- **C80** (command). After a successful `merge` of XML files, the count of every bin at every coverpoint and cross of a
cover-instance in the output file is the sum of its counts in the input files. -/
theorem C80_merge_command {x : Ext} (hf : Spec.Faithful x) {a : MergeArgs} {w w' : World} {db' : Database}
    (hi : a.inputFormat.getD "xml" = "xml") (ho : a.outputFormat.getD "xml" = "xml")
    (hm : ucisMerge x a w = (.ok (), w')) (hr : xmlRead x (w'.files a.out) = .ok db')
    {dbs : List Database} (hd : List.Forall₂ (fun p d => xmlRead x (w.files p) = .ok d) a.db dbs)
    (hu : ∀ d ∈ dbs, Verif.Spec.UniqueNames d.root)
    {m : Nat} {p : Verif.Spec.Addr} (hp : Verif.Spec.InstLeaf m p) {k : Nat} (hk : Verif.Spec.IsKind k) (b : String) :
    Verif.Spec.total p k b db'.root = (dbs.map (fun s => Verif.Spec.total p k b s.root)).sum := by
  obtain ⟨o, res, wr, text, ⟨h1, i, dbs', new, h2, h3, h4, h5⟩, h6, _, h7, rfl⟩ := (C74_merge_success _ _ a w w').1 hm
  rw [ho] at h1
  rw [hi] at h2
  have e1 := (registered_xml x).symm.trans h1
  have e2 := (registered_xml x).symm.trans h2
  cases e1
  cases e2
  cases h4
  cases h6
  have := reads_unique (f := xmlIf x) h3 hd
  subst this
  simp only [Spec.Written, if_true] at hr
  rw [xmlRead_written hf h7] at hr
  refine C80_counts_through_files hf.env (flt := x.env.flt) (fun s hs => ?_) hu h5 hr hp hk b
  obtain ⟨q, _, h⟩ := reads_mem h3 hs
  obtain ⟨doc, _, h⟩ := xmlRead_ok.1 h
  exact ⟨doc, (factoryRead_ok.1 h).2⟩

/-! ## Examples -/

instance (doc : Xml.Elem) : Decidable (Verif.Spec.PrintableDoc doc) :=
  decidable_of_iff (∀ e ∈ Verif.Spec.preorder doc, (∀ p ∈ e.attrs, Verif.Spec.Printable p.2) ∧ ∀ t ∈ e.text.toList, Verif.Spec.Printable t) (by
    unfold Verif.Spec.PrintableDoc
    simp [Option.mem_def, eq_comm])
instance (doc : Xml.Elem) : Decidable (Verif.Spec.NoBlankCross doc) := by unfold Verif.Spec.NoBlankCross; infer_instance

theorem exPlain_doc : ∃ doc db, Xml.write Xml.exEnv2 exPlainDb = .ok doc ∧ Xml.factoryRead Xml.exEnv2.flt (Xml.reparse doc) = .ok db ∧
    Verif.Spec.PrintableDoc (Xml.Text.lay (some 0) doc) ∧ Verif.Spec.NoBlankCross (Xml.Text.lay (some 0) doc) := by
  obtain ⟨doc, hw⟩ := exists_of_isOk (x := Xml.write Xml.exEnv2 exPlainDb) (by decide +kernel)
  have h : (Xml.write Xml.exEnv2 exPlainDb).map (fun doc => (Xml.factoryRead Xml.exEnv2.flt (Xml.reparse doc)).isOk &&
      decide (Verif.Spec.PrintableDoc (Xml.Text.lay (some 0) doc) ∧ Verif.Spec.NoBlankCross (Xml.Text.lay (some 0) doc))) = .ok true := by decide +kernel
  rw [hw] at h
  have h := Except.ok.inj h
  rw [Bool.and_eq_true, decide_eq_true_iff] at h
  obtain ⟨db, hdb⟩ := exists_of_isOk h.1
  exact ⟨doc, db, hw, hdb, h.2⟩

/-- The hypotheses of `C79_merge_command` and `C80_merge_command` are met by two XML files with bins of all kinds and a cross. -/
example : ∃ (x : Ext) (a : MergeArgs) (w : World), Spec.Faithful x ∧ a.inputFormat.getD "xml" = "xml" ∧ a.outputFormat.getD "xml" = "xml" ∧
    a.db.length = 2 ∧ w.writable a.out = true ∧ (∀ p ∈ a.db, ∃ d, xmlRead x (w.files p) = .ok d) ∧
    ∀ p ∈ a.db, ∀ doc, Spec.Holds x (w.files p) doc → Verif.Spec.PrintableDoc doc ∧ Verif.Spec.NoBlankCross doc := by
  obtain ⟨doc, db, hw, hr, hp⟩ := exPlain_doc
  have hx : xmlWrite exFaithful exPlainDb = (exFaithful.showXml doc, .ok ()) := xmlWrite_ok.2 ⟨doc, hw, rfl⟩
  refine ⟨exFaithful, ⟨none, none, ["a", "b"], "c"⟩, { exWorld with files := fun _ => some (exFaithful.showXml doc) }, exFaithful_ok,
    rfl, rfl, rfl, rfl, fun p _ => ⟨db, ?_⟩, fun p _ doc' hd => ?_⟩
  · rw [xmlRead_written exFaithful_ok hx]
    unfold Xml.throughFile
    rw [show exFaithful.env = Xml.exEnv2 from rfl, hw]
    exact hr
  · obtain ⟨c, text, h1, h2, h3⟩ := hd
    cases h1
    have ht := Xml.Text.showDoc_text (Xml.write_textual exFaithful_ok.env.envOk hw)
    rw [show exFaithful.showXml doc = Spec.utf8 (Xml.Text.showDoc doc) from rfl] at h3
    rw [openFile_text _ ht] at h3
    rcases h3 with ⟨h, _⟩ | ⟨h, _⟩ | ⟨_, rfl⟩
    · cases h
    · cases h
    · rw [exFaithful_ok.parses _ _ ht] at h2
      cases h2
      exact hp

end Tools
end Verif
