import Verif.XmlTree
import Verif.DateTime
/-!
# Validation against an XML schema

The subset of XML Schema 1.0 that `ucis.xsd` uses, as `lxml.etree.XMLSchema.assertValid`
(`xml/__init__.py:33-70`) applies it: named complex types with attributes and a sequence of element
particles or choices, mixed content, and the simple types below.  Not modelled: implementation limits
of libxml2 on the length of numbers, attributes with a name space.
-/

namespace Verif
namespace Xsd
open Xml (Elem)

/-! ## Simple types -/

/-- White space of XML. -/
def xmlSpace (c : Char) : Bool := c == ' ' || c == '\t' || c == '\n' || c == '\r'

/-- `whiteSpace="collapse"` for values without inner white space. -/
def trim (l : List Char) : List Char := ((l.dropWhile xmlSpace).reverse.dropWhile xmlSpace).reverse

def digits (l : List Char) : Bool := !l.isEmpty && l.all Char.isDigit

/-- Value of a text of `xsd:integer`. -/
def integerVal (l : List Char) : Option Int :=
  match trim l with
  | '-' :: t => if digits t then some (-(Nat.ofDigitChars 10 t 0 : Int)) else none
  | '+' :: t => if digits t then some (Nat.ofDigitChars 10 t 0 : Int) else none
  | t => if digits t then some (Nat.ofDigitChars 10 t 0 : Int) else none

/-- An unsigned decimal number: digits with at most one point and at least one digit. -/
def unsignedDecimal (l : List Char) : Bool :=
  let a := l.takeWhile Char.isDigit
  match l.dropWhile Char.isDigit with
  | [] => !a.isEmpty
  | '.' :: t => t.all Char.isDigit && (!a.isEmpty || !t.isEmpty)
  | _ => false

def unsign : List Char → List Char
  | '-' :: t => t
  | '+' :: t => t
  | t => t

def isDecimal (l : List Char) : Bool := unsignedDecimal (unsign (trim l))

/-- A decimal number with an optional exponent, or one of the special values. -/
def isDouble (l : List Char) : Bool :=
  let t := trim l
  t == "INF".toList || t == "-INF".toList || t == "NaN".toList ||
  (let u := unsign t
   let mant := u.takeWhile (fun c => c != 'e' && c != 'E')
   match u.dropWhile (fun c => c != 'e' && c != 'E') with
   | [] => unsignedDecimal mant
   | _ :: x => unsignedDecimal mant && digits (unsign x))

/-- Two digits. -/
def dd : DateTime.Matcher := DateTime.m2 Char.isDigit Char.isDigit

/-- Fraction of a second and time zone. -/
def zoneOk : List Char → Bool
  | [] => true
  | ['Z'] => true
  | s :: t => (s == '+' || s == '-') &&
    (match DateTime.runFmt [.field dd, .lit ':', .field dd] t with
     | [([h, m], [])] => decide (h < 14 ∧ m < 60 ∨ h = 14 ∧ m = 0)
     | _ => false)

def fractionOk : List Char → Bool
  | '.' :: t => !(t.takeWhile Char.isDigit).isEmpty && zoneOk (t.dropWhile Char.isDigit)
  | t => zoneOk t

/-- Without the sign of the year. -/
def unminus : List Char → List Char
  | '-' :: t => t
  | t => t

/-- `xsd:dateTime`. -/
def isDateTime (l : List Char) : Bool :=
  let u := unminus (trim l)
  let y := u.takeWhile Char.isDigit
  let year := Nat.ofDigitChars 10 y 0
  decide (4 ≤ y.length) && (decide (y.length = 4) || y.head? != some '0') && year != 0 &&
  (match DateTime.runFmt [.lit '-', .field dd, .lit '-', .field dd, .lit 'T', .field dd, .lit ':', .field dd, .lit ':', .field dd]
      (u.dropWhile Char.isDigit) with
   | [([m, d, h, mi, s], r)] =>
     decide (1 ≤ m ∧ m ≤ 12 ∧ 1 ≤ d ∧ d ≤ DateTime.daysIn year m ∧ (h < 24 ∧ mi < 60 ∧ s < 60 ∨ h = 24 ∧ mi = 0 ∧ s = 0)) && fractionOk r
   | _ => false)

/-- The simple types in use. -/
inductive Simple where
  | str | integer | nonNeg | pos | bool | double | decimal | dateTime
  | enum (l : List String)
  deriving DecidableEq, Repr

def Simple.valid (t : Simple) (s : String) : Bool :=
  match t with
  | .str => true
  | .integer => (integerVal s.toList).isSome
  | .nonNeg => (match integerVal s.toList with | some z => decide (0 ≤ z) | none => false)
  | .pos => (match integerVal s.toList with | some z => decide (0 < z) | none => false)
  | .bool => [ "true", "false", "1", "0" ].contains (String.ofList (trim s.toList))
  | .double => isDouble s.toList
  | .decimal => isDecimal s.toList
  | .dateTime => isDateTime s.toList
  | .enum l => l.contains s

/-- Built-in types that elements are declared with. -/
def simpleOf (n : String) : Option Simple :=
  if n = "xsd:string" then some .str
  else if n = "xsd:integer" then some .integer
  else if n = "xsd:nonNegativeInteger" then some .nonNeg
  else none

/-! ## Complex types -/

structure AttrDecl where
  name : String
  type : Simple
  required : Bool

/-- An element particle: name, type, `minOccurs`, `maxOccurs`. -/
structure Occ where
  name : String
  type : String
  min : Nat
  max : Option Nat

structure CType where
  attrs : List AttrDecl
  /-- the sequence; each part is a choice of particles, an element particle is a choice of one -/
  parts : List (List Occ)
  mixed : Bool

structure Schema where
  types : List (String × CType)
  root : String
  rootType : String

def attrsOk (ct : CType) (as : List (String × String)) : Bool :=
  as.all (fun p => match ct.attrs.find? (fun d => d.name = p.1) with
    | some d => d.type.valid p.2
    | none => false) &&
  ct.attrs.all (fun d => !d.required || as.any (fun p => p.1 = d.name))

/-- A run of elements of one particle: types for the elements taken, and the tags left. -/
def matchOcc (o : Occ) (tags : List String) : Option (List String × List String) :=
  let n := (tags.takeWhile (fun t => t = o.name)).length
  if o.min ≤ n && (match o.max with | none => true | some m => decide (n ≤ m)) then some (List.replicate n o.type, tags.drop n) else none

/-- One part of a sequence.  The content models of the schema are deterministic, so the next tag
decides the alternative. -/
def matchPart (p : List Occ) (tags : List String) : Option (List String × List String) :=
  match p.find? (fun o => tags.head? = some o.name) with
  | some o => matchOcc o tags
  | none => if p.any (fun o => o.min = 0) then some ([], tags) else none

/-- Types for the children, if their tags fit the sequence. -/
def matchParts : List (List Occ) → List String → Option (List String)
  | [], tags => if tags = [] then some [] else none
  | p :: ps, tags =>
    match matchPart p tags with
    | none => none
    | some (ts, rest) => (matchParts ps rest).map (ts ++ ·)

/-- Text of an element with a complex type: anything if mixed, nothing if the content is empty, only
white space otherwise. -/
def textOk (ct : CType) (tx : Option String) : Bool :=
  ct.mixed || (if ct.parts.isEmpty then tx == none else (tx.getD "").toList.all xmlSpace)

mutual
/-- The element is valid for the type of that name. -/
def validE (S : Schema) : Elem → String → Bool
  | ⟨_, as, tx, ch⟩, ty =>
    match simpleOf ty with
    | some t => as.isEmpty && ch.isEmpty && t.valid (tx.getD "")
    | none =>
      match Dict.get? S.types ty with
      | none => false
      | some ct => attrsOk ct as && textOk ct tx &&
        (match matchParts ct.parts (ch.map (·.tag)) with
         | none => false
         | some tys => validL S ch tys)
termination_by structural e => e
def validL (S : Schema) : List Elem → List String → Bool
  | [], tys => tys.isEmpty
  | e :: r, tys =>
    match tys with
    | [] => false
    | ty :: ts => validE S e ty && validL S r ts
termination_by structural l => l
end

/-- `XMLSchema.assertValid(doc)`: the root is the global element and valid. -/
def valid (S : Schema) (doc : Elem) : Bool := doc.tag == S.root && validE S doc S.rootType

end Xsd
end Verif
