import Verif.XmlTree

/-!
# The text of an XML document

`xml_writer.py:86` writes `tounicode(root, pretty_print=True)`, and `etree.parse` (`xml/__init__.py:51`, `xml_reader.py:58`) reads it back.  Here are
the characters in between: a parser for documents of elements, attributes, text, references to characters and the five predefined entities, and
name space declarations (no comments, processing instructions, CDATA sections, document types or default attributes; names of ASCII characters), and,
separately (`Spec.ElemText`), which texts XML 1.0 allows for an element.  The parser finds the element in each of them (`parse_text`).

Files are opened in text mode (`xml_factory.py:50`), so the parser sees no carriage return as a character of the text: Python has replaced it.
-/

namespace Verif

/-! ## Which texts stand for an element -/

namespace Spec
open Xml (Elem)

/-- White space between attributes and elements. -/
def BlankText (l : List Char) : Prop := ∀ c ∈ l, c = ' ' ∨ c = '\t' ∨ c = '\n'

/-- Digits with their values. -/
def decimalDigits : List (Char × Nat) := [('0', 0), ('1', 1), ('2', 2), ('3', 3), ('4', 4), ('5', 5), ('6', 6), ('7', 7), ('8', 8), ('9', 9)]
def hexDigits : List (Char × Nat) :=
  decimalDigits ++ [('a', 10), ('b', 11), ('c', 12), ('d', 13), ('e', 14), ('f', 15), ('A', 10), ('B', 11), ('C', 12), ('D', 13), ('E', 14), ('F', 15)]

/-- The digits of a number; leading zeros are allowed. -/
inductive Numeral (base : Nat) (digits : List (Char × Nat)) : Nat → List Char → Prop
  | one {c : Char} {d : Nat} : (c, d) ∈ digits → Numeral base digits d [c]
  | more {n d : Nat} {c : Char} {ds : List Char} : Numeral base digits n ds → (c, d) ∈ digits → Numeral base digits (n * base + d) (ds ++ [c])

/-- The predefined entities (XML 1.0, 4.6). -/
def predefined : List (List Char × Char) :=
  [(['l', 't'], '<'), (['g', 't'], '>'), (['a', 'm', 'p'], '&'), (['q', 'u', 'o', 't'], '"'), (['a', 'p', 'o', 's'], '\'')]

/-- How a character can be written in an attribute value between double quotes (`attr = true`) or in the text of an element: as itself unless it is
markup or would be changed by line-end handling (2.11) or the normalisation of attribute values (3.3.3), as an entity, or by its number. -/
inductive CharText (attr : Bool) : Char → List Char → Prop
  | plain {c : Char} : c ≠ '<' → c ≠ '&' → c ≠ '\r' → (attr = true → c ≠ '"' ∧ c ≠ '\t' ∧ c ≠ '\n') → CharText attr c [c]
  | entity {c : Char} {n : List Char} : (n, c) ∈ predefined → CharText attr c ('&' :: n ++ [';'])
  | decimal {c : Char} {ds : List Char} : Numeral 10 decimalDigits c.toNat ds → CharText attr c ('&' :: '#' :: ds ++ [';'])
  | hex {c : Char} {ds : List Char} : Numeral 16 hexDigits c.toNat ds → CharText attr c ('&' :: '#' :: 'x' :: ds ++ [';'])

/-- How characters can be written one after the other.  Only characters allowed in XML (2.2) can be written. -/
inductive StrText (attr : Bool) : List Char → List Char → Prop
  | nil : StrText attr [] []
  | cons {c : Char} {cs t u : List Char} : Xml.xmlChar c = true → CharText attr c t → StrText attr cs u → StrText attr (c :: cs) (t ++ u)

/-- Names of ASCII characters. -/
def NameText (n : List Char) : Prop := n ≠ [] ∧ ∀ c ∈ n, c.isAlphanum = true ∨ c = '_' ∨ c = ':' ∨ c = '-' ∨ c = '.'

/-- Names of name space declarations: `xmlns` and `xmlns:...`. -/
def declares (n : List Char) : Bool := ['x', 'm', 'l', 'n', 's'].isPrefixOf n

/-- The attributes of a start tag, each after white space; declarations of name spaces are not attributes of the element. -/
inductive AttrsText : List (String × String) → List Char → Prop
  | nil : AttrsText [] []
  | attr {n v : String} {as : List (String × String)} {ws t u : List Char} : ws ≠ [] → BlankText ws → NameText n.toList → declares n.toList = false →
      StrText true v.toList t → AttrsText as u → AttrsText ((n, v) :: as) (ws ++ (n.toList ++ '=' :: '"' :: (t ++ '"' :: u)))
  | decl {n v : List Char} {as : List (String × String)} {ws t u : List Char} : ws ≠ [] → BlankText ws → NameText n → declares n = true →
      StrText true v t → AttrsText as u → AttrsText as (ws ++ (n ++ '=' :: '"' :: (t ++ '"' :: u)))

/-- The name in the text is the tag, perhaps with a prefix, which the code removes (`xml/__init__.py:60-64`, `xml_reader.py:62-66`). -/
def TagText (tag : String) (tt : List Char) : Prop :=
  NameText tt ∧ ':' ∉ tag.toList ∧ (tt = tag.toList ∨ ∃ p, ':' ∉ p ∧ tt = p ++ ':' :: tag.toList)

mutual
/-- The element as an empty tag, or with start tag, text, children and end tag.  An element without characters before its first child has no text. -/
inductive ElemText : Elem → List Char → Prop
  | empty {tag : String} {as : List (String × String)} {tt u ws : List Char} : TagText tag tt → AttrsText as u → (as.map (·.1)).Nodup → BlankText ws →
      ElemText ⟨tag, as, none, []⟩ ('<' :: (tt ++ (u ++ (ws ++ ['/', '>']))))
  | full {tag : String} {as : List (String × String)} {s : List Char} {ch : List Elem} {tt u ws t v ws2 : List Char} : TagText tag tt → AttrsText as u →
      (as.map (·.1)).Nodup → BlankText ws → StrText false s t → KidsText ch v → BlankText ws2 →
      ElemText ⟨tag, as, if s = [] then none else some (String.ofList s), ch⟩
        ('<' :: (tt ++ (u ++ (ws ++ '>' :: (t ++ (v ++ '<' :: '/' :: (tt ++ (ws2 ++ ['>']))))))))
/-- Children, each followed by text that does not belong to an element of the tree (`tail` in lxml). -/
inductive KidsText : List Elem → List Char → Prop
  | nil : KidsText [] []
  | cons {e : Elem} {r : List Elem} {s t u v : List Char} : ElemText e t → StrText false s u → KidsText r v → KidsText (e :: r) (t ++ (u ++ v))
end

/-- A document: the root with white space after it. -/
def DocText (e : Elem) (t : List Char) : Prop := ∃ b ws, ElemText e b ∧ BlankText ws ∧ t = b ++ ws

end Spec

namespace Xml
namespace Text

/-! ## The parser -/

def space (c : Char) : Bool := c == ' ' || c == '\t' || c == '\n' || c == '\r'

def nameChar (c : Char) : Bool := c.isAlphanum || c == '_' || c == ':' || c == '-' || c == '.'

def decDigit (c : Char) : Option Nat := if c.isDigit then some (c.toNat - 48) else none

def hexDigit (c : Char) : Option Nat :=
  if c.isDigit then some (c.toNat - 48)
  else if 'a'.toNat ≤ c.toNat ∧ c.toNat ≤ 'f'.toNat then some (c.toNat - 87)
  else if 'A'.toNat ≤ c.toNat ∧ c.toNat ≤ 'F'.toNat then some (c.toNat - 55)
  else none

def numVal (base : Nat) (digit : Char → Option Nat) : List Char → Nat → Option Nat
  | [], n => some n
  | c :: t, n =>
    match digit c with
    | some d => numVal base digit t (n * base + d)
    | none => none

/-- A character from its number, if XML allows it. -/
def charOf (n : Nat) : Option Char :=
  if (Char.ofNat n).toNat = n ∧ xmlChar (Char.ofNat n) = true then some (Char.ofNat n) else none

/-- What stands between `&` and `;`. -/
def refChar : List Char → Option Char
  | ['l', 't'] => some '<'
  | ['g', 't'] => some '>'
  | ['a', 'm', 'p'] => some '&'
  | ['q', 'u', 'o', 't'] => some '"'
  | ['a', 'p', 'o', 's'] => some '\''
  | '#' :: 'x' :: ds => if ds.isEmpty then none else (numVal 16 hexDigit ds 0).bind charOf
  | '#' :: ds => if ds.isEmpty then none else (numVal 10 decDigit ds 0).bind charOf
  | _ => none

/-- Characters of an attribute value or of text, references replaced; the first argument holds an unfinished reference, reversed. -/
def dec (attr : Bool) : Option (List Char) → List Char → Option (List Char)
  | none, [] => some []
  | some _, [] => none
  | none, c :: t =>
    if c = '&' then dec attr (some []) t
    else if c = '<' ∨ xmlChar c = false then none
    else (dec attr none t).map ((if attr && space c then ' ' else c) :: ·)
  | some acc, c :: t =>
    if c = ';' then
      match refChar acc.reverse with
      | some x => (dec attr none t).map (x :: ·)
      | none => none
    else dec attr (some (c :: acc)) t

/-- Without the prefix. -/
def localName (s : List Char) : List Char :=
  match s.dropWhile (· != ':') with
  | _ :: t => t
  | [] => s

/-- The attributes up to the end of the tag. -/
def pAttrs : Nat → List Char → Option (List (String × String) × List Char)
  | 0, _ => none
  | n + 1, s =>
    match s.dropWhile space with
    | '/' :: r => some ([], '/' :: r)
    | '>' :: r => some ([], '>' :: r)
    | s' =>
      if s'.length = s.length ∨ (s'.takeWhile nameChar).isEmpty then none
      else
        match (s'.dropWhile nameChar).dropWhile space with
        | '=' :: r =>
          match r.dropWhile space with
          | q :: r =>
            if q = '"' ∨ q = '\'' then
              match r.dropWhile (· != q), dec true none (r.takeWhile (· != q)) with
              | _ :: r', some v =>
                match pAttrs n r' with
                | some (as, rest) =>
                  some (if ['x', 'm', 'l', 'n', 's'].isPrefixOf (s'.takeWhile nameChar) then as else (String.ofList (s'.takeWhile nameChar), String.ofList v) :: as, rest)
                | none => none
              | _, _ => none
            else none
          | [] => none
        | _ => none

/-- The end tag. -/
def pEnd (tt : List Char) : List Char → Option (List Char)
  | '<' :: '/' :: r =>
    if r.takeWhile nameChar = tt then
      match (r.dropWhile nameChar).dropWhile space with
      | '>' :: r' => some r'
      | _ => none
    else none
  | _ => none

mutual
/-- An element and what comes after it; the number bounds the depth of the recursion. -/
def pElem : Nat → List Char → Option (Elem × List Char)
  | n + 1, '<' :: s =>
    if (s.takeWhile nameChar).isEmpty then none
    else
      match pAttrs (s.length + 1) (s.dropWhile nameChar) with
      | some (as, '/' :: '>' :: r) =>
        if (as.map (·.1)).Nodup then some (⟨String.ofList (localName (s.takeWhile nameChar)), as, none, []⟩, r) else none
      | some (as, '>' :: r) =>
        if (as.map (·.1)).Nodup then
          match dec false none (r.takeWhile (· != '<')), pKids n (r.dropWhile (· != '<')) with
          | some tx, some (ch, r2) =>
            match pEnd (s.takeWhile nameChar) r2 with
            | some r3 => some (⟨String.ofList (localName (s.takeWhile nameChar)), as, if tx = [] then none else some (String.ofList tx), ch⟩, r3)
            | none => none
          | _, _ => none
        else none
      | _ => none
  | _, _ => none
/-- The children up to the end tag. -/
def pKids : Nat → List Char → Option (List Elem × List Char)
  | 0, _ => none
  | _ + 1, '<' :: '/' :: r => some ([], '<' :: '/' :: r)
  | n + 1, s =>
    match pElem n s with
    | some (e, r) =>
      match dec false none (r.takeWhile (· != '<')), pKids n (r.dropWhile (· != '<')) with
      | some _, some (es, r') => some (e :: es, r')
      | _, _ => none
    | none => none
end

/-- `etree.parse(file).getroot()`, with prefixes removed from tags. -/
def parse (t : List Char) : Option Elem :=
  match pElem t.length t with
  | some (e, r) => if r.all space then some e else none
  | none => none

end Text
end Xml
end Verif
