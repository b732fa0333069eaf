import Verif.PyNum
/-!
# XML element trees as the code sees them through lxml
-/

namespace Verif
namespace Xml

/-- An element: local tag (both writer and reader strip the name space, `xml_writer.py:78-82`,
`xml_reader.py:62-66`), attributes, text and child elements.  Comments and processing instructions
are not modelled. -/
structure Elem where
  tag : String
  attrs : List (String × String)
  text : Option String
  children : List Elem

mutual
/-- `e.iter(tag)`: the element and its descendants with the tag, in document order. -/
def iter (t : String) : Elem → List Elem
  | ⟨tag, as, tx, ch⟩ => if tag = t then ⟨tag, as, tx, ch⟩ :: iterL t ch else iterL t ch
termination_by structural e => e
def iterL (t : String) : List Elem → List Elem
  | [] => []
  | e :: r => iter t e ++ iterL t r
termination_by structural l => l
end

mutual
/-- Serialising and parsing again: an empty text becomes no text.  `pretty_print=True`
(`xml_writer.py:86`) adds white space between child elements; it becomes text of elements
that have children and tail text, neither of which the reader looks at. -/
def reparse : Elem → Elem
  | ⟨tag, as, tx, ch⟩ => ⟨tag, as, if tx = some "" then none else tx, reparseL ch⟩
termination_by structural e => e
def reparseL : List Elem → List Elem
  | [] => []
  | e :: r => reparse e :: reparseL r
termination_by structural l => l
end

/-- `e.get(name)` -/
def Elem.get (e : Elem) (n : String) : Option String := Dict.get? e.attrs n

/-- `e.attrib[name]` -/
def Elem.getE (e : Elem) (n : String) : Except Err String := Dict.getE e.attrs n

/-- `getAttr(node, name, default)`, `xml_reader.py:460-464`. -/
def Elem.getD (e : Elem) (n d : String) : String := (e.get n).getD d

/-- Characters lxml accepts in attribute values and text; others raise `ValueError`
("All strings must be XML compatible").  Lean characters contain no surrogates. -/
def xmlChar (c : Char) : Bool :=
  let n := c.toNat
  (decide (0x20 ≤ n) || decide (n = 9) || decide (n = 10) || decide (n = 13)) && decide (n ≠ 0xFFFE) && decide (n ≠ 0xFFFF)

def xmlStr (s : String) : Bool := s.toList.all xmlChar

/-- `e.set(name, val)` with lxml's check of the value. -/
def setA (n v : String) : Except Err (String × String) :=
  if xmlStr v then .ok (n, v) else .error .valueError

end Xml
end Verif
