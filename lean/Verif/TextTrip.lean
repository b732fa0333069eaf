import Verif.PipelineThms

/-! # C132: the text of a written XML file -/

namespace Verif
namespace Xml
open Spec

/-- A text stands for at most one element. -/
theorem C132_unique {d d' : Elem} {t : List Char} (h : DocText d t) (h' : DocText d' t) : d = d' :=
  Option.some.inj ((Text.parse_text h).symm.trans (Text.parse_text h'))

/-- **C132.** The text of a written document stands for one document; it is the one that was written with white space between its elements, and is validated
and read with the same result.  The text has no carriage return. -/
theorem C132_text {env : Env} (he : EnvOk env) {db : Database} {doc : Elem} (h : write env db = .ok doc) :
    '\r' ∉ Text.showDoc doc ∧ ∃ d, DocText d (Text.showDoc doc) ∧ (∀ d', DocText d' (Text.showDoc doc) → d' = d) ∧ LaidOut doc d ∧
      ∀ flt, factoryRead flt d = factoryRead flt (reparse doc) := by
  have ht := write_textual he h
  have hd := Text.showDoc_text ht
  have hl := Text.lay_laid (some 0) doc ht
  exact ⟨Text.doc_noCR hd, _, hd, fun d' h' => C132_unique h' hd, hl, fun flt => factoryRead_laid flt hl (write_crossLeaf he h)⟩

/-- Whatever text stands for the document with white space added: other ways of writing a character, of indenting, or of writing an empty element make no
difference to what is loaded. -/
theorem C132_any {env : Env} (he : EnvOk env) {db : Database} {doc d : Elem} {t : List Char} (h : write env db = .ok doc) (hl : LaidOut doc d)
    (hd : DocText d t) : Text.parse t = some d ∧ factoryRead env.flt d = throughFile env db := by
  refine ⟨Text.parse_text hd, ?_⟩
  rw [factoryRead_laid _ hl (write_crossLeaf he h), throughFile, h]
  rfl

/-- Two documents that can be written as text and have the same text are equal but for empty texts. -/
theorem C132_injective {d d' : Elem} (h : Textual d) (h' : Textual d') (he : Text.showDoc d = Text.showDoc d') :
    Text.lay (some 0) d = Text.lay (some 0) d' :=
  C132_unique (Text.showDoc_text h) (he ▸ Text.showDoc_text h')

end Xml

namespace Tools

/-- **C132** for files: a file that was written is read back as the document that was written. -/
theorem C132_file {x : Ext} (hf : Spec.Faithful x) {db : Database} {text : Bytes} (h : xmlWrite x db = (text, .ok ())) :
    ∃ d t, text = Spec.utf8 t ∧ Verif.Spec.DocText d t ∧ '\r' ∉ t ∧ openFile x.modules text = some .plain ∧ x.parseXml text = .ok d ∧
      xmlRead x (some text) = Xml.throughFile x.env db := by
  obtain ⟨doc, hw, rfl⟩ := xmlWrite_ok.1 h
  obtain ⟨d, t, _, ht, hs⟩ := hf.shows doc (Xml.write_textual hf.env.envOk hw)
  exact ⟨d, t, hs, ht, Xml.Text.doc_noCR ht, hs ▸ openFile_text _ ht, hs ▸ hf.parses d t ht, xmlRead_written hf h⟩

end Tools

/-! ## Examples -/

namespace Ex

/-- A database whose names hold markup characters, quotes, white space and a letter outside ASCII. -/
def oddDb : Database :=
  ⟨⟨0, "", ⟨none, 0, 0⟩, 1, none, none,
    [⟨ST.INSTANCE, "a<b & \"c\"\n\t\ré", ⟨none, 0, 0⟩, 1, none, none, [], []⟩], []⟩, [], []⟩

theorem oddDb_written : ∃ doc, Xml.write Xml.exEnv2 oddDb = .ok doc := exists_of_isOk (by decide +kernel)

example : ∃ doc d, Xml.write Xml.exEnv2 oddDb = .ok doc ∧ Xml.EnvOk Xml.exEnv2 ∧ Spec.DocText d (Xml.Text.showDoc doc) ∧ Spec.LaidOut doc d := by
  obtain ⟨doc, h⟩ := oddDb_written
  obtain ⟨_, d, h1, _, h2, _⟩ := Xml.C132_text Xml.exEnv2_good.envOk h
  exact ⟨doc, d, h, Xml.exEnv2_good.envOk, h1, h2⟩

example : ∃ text, Tools.Spec.Faithful Tools.exFaithful ∧ Tools.xmlWrite Tools.exFaithful oddDb = (text, .ok ()) := by
  obtain ⟨doc, h⟩ := oddDb_written
  exact ⟨_, Tools.exFaithful_ok, Tools.xmlWrite_ok.2 ⟨doc, h, rfl⟩⟩

/-- The text of a small document. -/
example : String.ofList (Xml.Text.showDoc ⟨"UCIS", [("a", "<\"&\n")], none, [⟨"b", [], some "x>\"y", []⟩, ⟨"c", [], none, []⟩]⟩) =
    "<UCIS xmlns:ucis=\"http://www.w3.org/2001/XMLSchema-instance\" a=\"&lt;&quot;&amp;&#10;\">\n  <b>x&gt;\"y</b>\n  <c/>\n</UCIS>\n" := by decide +kernel

/-- A parser changes white space that was not escaped in an attribute, and rejects a bare `&`, a repeated attribute and tags that do not match. -/
example : (Xml.Text.parse "<a b=\"x\ny\"/>".toList).map (·.attrs) = some [("b", "x y")] ∧
    (Xml.Text.parse "<a b='x&#10;&#x41;&apos;'\n/>".toList).map (·.attrs) = some [("b", "x\nA'")] ∧
    (Xml.Text.parse "<p:a>t<b/>u</p:a>".toList).map (fun e => (e.tag, e.text, e.children.length)) = some ("a", some "t", 1) ∧
    (Xml.Text.parse "<a b=\"x&y\"/>".toList).isNone ∧ (Xml.Text.parse "<a b=\"x\" b=\"y\"/>".toList).isNone ∧ (Xml.Text.parse "<a></b>".toList).isNone ∧
    (Xml.Text.parse "<a/><a/>".toList).isNone := by decide +kernel

/-- Unescaped, the name with a line end would not stand for the document. -/
example : ¬ Spec.DocText ⟨"a", [("b", "x\ny")], none, []⟩ "<a b=\"x\ny\"/>".toList := by
  intro h
  have h1 := congrArg (Option.map (·.attrs)) (Xml.Text.parse_text h)
  have h2 : (Xml.Text.parse "<a b=\"x\ny\"/>".toList).map (·.attrs) = some [("b", "x y")] := by decide +kernel
  rw [h2] at h1
  exact absurd h1 (by decide)

end Ex
end Verif
