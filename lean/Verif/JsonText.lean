import Verif.JsonSchema
import Verif.XmlText

/-!
# The text of a JSON report

`json.dump(..., out, indent=4)` and `out.write("\n")` (`format_rpt_json.py:56-57`) as functions on characters; which texts stand for a JSON value
(RFC 8259), and a parser.  Property C133 is in `JsonTextThms.lean`.
-/

namespace Verif

/-! ## Which texts stand for a value -/

namespace Spec

/-- JSON values; numbers by their value. -/
inductive JVal where
  | null
  | bool (b : Bool)
  | num (q : Rat)
  | str (s : String)
  | arr (l : List JVal)
  | obj (m : List (String × JVal))

def JWs (l : List Char) : Prop := ∀ c ∈ l, c = ' ' ∨ c = '\t' ∨ c = '\n' ∨ c = '\r'

/-- Four hexadecimal digits of a number. -/
def Quad (n : Nat) (t : List Char) : Prop :=
  ∃ a b c d x y z w, t = [a, b, c, d] ∧ (a, x) ∈ hexDigits ∧ (b, y) ∈ hexDigits ∧ (c, z) ∈ hexDigits ∧ (d, w) ∈ hexDigits ∧ n = ((x * 16 + y) * 16 + z) * 16 + w

/-- The two-character escapes. -/
def shortEscapes : List (Char × Char) :=
  [('"', '"'), ('\\', '\\'), ('/', '/'), ('b', '\x08'), ('f', '\x0c'), ('n', '\n'), ('r', '\r'), ('t', '\t')]

/-- How a character can be written in a string: as itself unless it is a quote, a backslash or a control character, with a two-character escape, or by its
code units in UTF-16. -/
inductive JChar : Char → List Char → Prop
  | plain {c : Char} : c ≠ '"' → c ≠ '\\' → 32 ≤ c.toNat → JChar c [c]
  | short {e c : Char} : (e, c) ∈ shortEscapes → JChar c ['\\', e]
  | unit {c : Char} {t : List Char} : Quad c.toNat t → JChar c ('\\' :: 'u' :: t)
  | pair {c : Char} {h l : Nat} {t u : List Char} : 0xD800 ≤ h → h < 0xDC00 → 0xDC00 ≤ l → l < 0xE000 → c.toNat = 0x10000 + (h - 0xD800) * 0x400 + (l - 0xDC00) →
      Quad h t → Quad l u → JChar c ('\\' :: 'u' :: (t ++ '\\' :: 'u' :: u))

inductive JStr : List Char → List Char → Prop
  | nil : JStr [] []
  | cons {c : Char} {cs t u : List Char} : JChar c t → JStr cs u → JStr (c :: cs) (t ++ u)

def Digits (l : List Char) : Prop := l ≠ [] ∧ ∀ c ∈ l, c.isDigit = true

/-- Numbers: sign, integer part without leading zeros, fraction, exponent. -/
def NumberText (t : List Char) : Prop :=
  ∃ m i f e, t = m ++ (i ++ (f ++ e)) ∧ (m = [] ∨ m = ['-']) ∧ Digits i ∧ (i.head? = some '0' → i = ['0']) ∧ (f = [] ∨ ∃ d, f = '.' :: d ∧ Digits d) ∧
    (e = [] ∨ ∃ x s d, e = x :: (s ++ d) ∧ (x = 'e' ∨ x = 'E') ∧ (s = [] ∨ s = ['+'] ∨ s = ['-']) ∧ Digits d)

/-- The number that digits stand for. -/
def digitsValue (l : List Char) : Nat := l.foldl (fun a c => 10 * a + (c.toNat - 48)) 0

/-- The number that an exponent stands for. -/
def exponentValue : List Char → Option Int
  | [] => some 0
  | x :: r =>
    if x = 'e' ∨ x = 'E' then
      match r with
      | '-' :: d => some (-(digitsValue d : Int))
      | '+' :: d => some (digitsValue d)
      | d => some (digitsValue d)
    else none

/-- The number that an unsigned number text stands for: the digits before and after the point, times a power of ten. -/
def unsignedValue (t : List Char) : Option Rat :=
  match t.dropWhile Char.isDigit with
  | '.' :: r => (exponentValue (r.dropWhile Char.isDigit)).map fun e =>
      (digitsValue (t.takeWhile Char.isDigit ++ r.takeWhile Char.isDigit) : Rat) * (10 : Rat) ^ (e - ((r.takeWhile Char.isDigit).length : Int))
  | r => (exponentValue r).map fun e => (digitsValue (t.takeWhile Char.isDigit) : Rat) * (10 : Rat) ^ e

def decimalValue : List Char → Option Rat
  | '-' :: t => (unsignedValue t).map fun q => -q
  | t => unsignedValue t

/-- How `json.load` and others read a number: without point and exponent exactly, otherwise rounded by `rd` to what a float can be. -/
def numberValue (rd : Rat → Rat) (t : List Char) : Option Rat :=
  if t.any (fun c => c == '.' || c == 'e' || c == 'E') then (decimalValue t).map rd else decimalValue t

mutual
/-- The texts of a value; `val` gives the value of a number from its text. -/
inductive JText (val : List Char → Option Rat) : JVal → List Char → Prop
  | null : JText val .null ['n', 'u', 'l', 'l']
  | true : JText val (.bool true) ['t', 'r', 'u', 'e']
  | false : JText val (.bool false) ['f', 'a', 'l', 's', 'e']
  | num {q : Rat} {t : List Char} : NumberText t → val t = some q → JText val (.num q) t
  | str {s : String} {t : List Char} : JStr s.toList t → JText val (.str s) ('"' :: (t ++ ['"']))
  | arr0 {w : List Char} : JWs w → JText val (.arr []) ('[' :: (w ++ [']']))
  | arr {l : List JVal} {t : List Char} : JItems val l t → JText val (.arr l) ('[' :: (t ++ [']']))
  | obj0 {w : List Char} : JWs w → JText val (.obj []) ('{' :: (w ++ ['}']))
  | obj {m : List (String × JVal)} {t : List Char} : JMembers val m t → JText val (.obj m) ('{' :: (t ++ ['}']))
inductive JItems (val : List Char → Option Rat) : List JVal → List Char → Prop
  | last {v : JVal} {w t w2 : List Char} : JWs w → JText val v t → JWs w2 → JItems val [v] (w ++ (t ++ w2))
  | cons {v : JVal} {l : List JVal} {w t w2 u : List Char} : JWs w → JText val v t → JWs w2 → JItems val l u → JItems val (v :: l) (w ++ (t ++ (w2 ++ ',' :: u)))
inductive JMembers (val : List Char → Option Rat) : List (String × JVal) → List Char → Prop
  | last {k : String} {v : JVal} {w n w2 w3 t w4 : List Char} : JWs w → JStr k.toList n → JWs w2 → JWs w3 → JText val v t → JWs w4 →
      JMembers val [(k, v)] (w ++ ('"' :: (n ++ '"' :: (w2 ++ ':' :: (w3 ++ (t ++ w4))))))
  | cons {k : String} {v : JVal} {m : List (String × JVal)} {w n w2 w3 t w4 u : List Char} : JWs w → JStr k.toList n → JWs w2 → JWs w3 → JText val v t →
      JWs w4 → JMembers val m u → JMembers val ((k, v) :: m) (w ++ ('"' :: (n ++ '"' :: (w2 ++ ':' :: (w3 ++ (t ++ (w4 ++ ',' :: u)))))))
end

/-- A document: a value with white space around it. -/
def JDoc (val : List Char → Option Rat) (v : JVal) (t : List Char) : Prop := ∃ w b w2, JWs w ∧ JText val v b ∧ JWs w2 ∧ t = w ++ (b ++ w2)

end Spec

namespace JsonText
open Yaml (Json)
open Spec (JVal)

mutual
/-- The floats in a document. -/
def floats : Json → List Rat
  | .num q => [q]
  | .arr l => floatsL l
  | .obj m => floatsM m
  | .null => []
  | .bool _ => []
  | .int _ => []
  | .str _ => []
termination_by structural j => j
def floatsL : List Json → List Rat
  | [] => []
  | j :: l => floats j ++ floatsL l
termination_by structural l => l
def floatsM : List (String × Json) → List Rat
  | [] => []
  | (_, j) :: m => floats j ++ floatsM m
termination_by structural m => m
end

/-! ## A parser -/

def jws (c : Char) : Bool := c == ' ' || c == '\t' || c == '\n' || c == '\r'
def numChar (c : Char) : Bool := c.isDigit || c == '-' || c == '+' || c == '.' || c == 'e' || c == 'E'

/-- Where the reader of a string is. -/
inductive St where
  | plain
  | esc
  /-- Inside `\u`: digits to come, value so far, and the high surrogate before it. -/
  | hex (k acc : Nat) (hi : Option Nat)
  /-- After a high surrogate; `true` after the backslash that must follow. -/
  | high (h : Nat) (b : Bool)

def short (c : Char) : Option Char :=
  if c = '"' then some '"' else if c = '\\' then some '\\' else if c = '/' then some '/' else if c = 'b' then some '\x08' else if c = 'f' then some '\x0c'
  else if c = 'n' then some '\n' else if c = 'r' then some '\r' else if c = 't' then some '\t' else none

/-- The characters up to the closing quote. -/
def scan : St → List Char → Option (List Char × List Char)
  | _, [] => none
  | .plain, c :: r =>
    if c = '"' then some ([], r)
    else if c = '\\' then scan .esc r
    else if c.toNat < 32 then none
    else (scan .plain r).map fun p => (c :: p.1, p.2)
  | .esc, c :: r =>
    if c = 'u' then scan (.hex 4 0 none) r
    else
      match short c with
      | some x => (scan .plain r).map fun p => (x :: p.1, p.2)
      | none => none
  | .hex k acc hi, c :: r =>
    match Xml.Text.hexDigit c with
    | none => none
    | some d =>
      if 1 < k then scan (.hex (k - 1) (acc * 16 + d) hi) r
      else
        match hi with
        | none =>
          if 0xD800 ≤ acc * 16 + d ∧ acc * 16 + d < 0xDC00 then scan (.high (acc * 16 + d) false) r
          else if 0xDC00 ≤ acc * 16 + d ∧ acc * 16 + d < 0xE000 then none
          else (scan .plain r).map fun p => (Char.ofNat (acc * 16 + d) :: p.1, p.2)
        | some h =>
          if 0xDC00 ≤ acc * 16 + d ∧ acc * 16 + d < 0xE000 then
            (scan .plain r).map fun p => (Char.ofNat (0x10000 + (h - 0xD800) * 0x400 + (acc * 16 + d - 0xDC00)) :: p.1, p.2)
          else none
  | .high h false, c :: r => if c = '\\' then scan (.high h true) r else none
  | .high h true, c :: r => if c = 'u' then scan (.hex 4 0 (some h)) r else none

mutual
/-- A value at the start of the text, and what comes after it; the number bounds the depth of the recursion. -/
def pVal (val : List Char → Option Rat) : Nat → List Char → Option (JVal × List Char)
  | 0, _ => none
  | n + 1, s =>
    match s with
    | '"' :: r => (scan .plain r).map fun p => (.str (String.ofList p.1), p.2)
    | '[' :: r =>
      match r.dropWhile jws with
      | ']' :: r' => some (.arr [], r')
      | _ => (pItems val n r).map fun p => (.arr p.1, p.2)
    | '{' :: r =>
      match r.dropWhile jws with
      | '}' :: r' => some (.obj [], r')
      | _ => (pMembers val n r).map fun p => (.obj p.1, p.2)
    | 'n' :: 'u' :: 'l' :: 'l' :: r => some (.null, r)
    | 't' :: 'r' :: 'u' :: 'e' :: r => some (.bool true, r)
    | 'f' :: 'a' :: 'l' :: 's' :: 'e' :: r => some (.bool false, r)
    | s => (val (s.takeWhile numChar)).map fun q => (.num q, s.dropWhile numChar)
/-- The values up to the closing bracket. -/
def pItems (val : List Char → Option Rat) : Nat → List Char → Option (List JVal × List Char)
  | 0, _ => none
  | n + 1, s =>
    match pVal val n (s.dropWhile jws) with
    | none => none
    | some (v, r) =>
      match r.dropWhile jws with
      | ']' :: r' => some ([v], r')
      | ',' :: r' => (pItems val n r').map fun p => (v :: p.1, p.2)
      | _ => none
/-- The members up to the closing brace. -/
def pMembers (val : List Char → Option Rat) : Nat → List Char → Option (List (String × JVal) × List Char)
  | 0, _ => none
  | n + 1, s =>
    match s.dropWhile jws with
    | '"' :: r =>
      match scan .plain r with
      | none => none
      | some (k, r1) =>
        match r1.dropWhile jws with
        | ':' :: r2 =>
          match pVal val n (r2.dropWhile jws) with
          | none => none
          | some (v, r3) =>
            match r3.dropWhile jws with
            | '}' :: r' => some ([(String.ofList k, v)], r')
            | ',' :: r' => (pMembers val n r').map fun p => ((String.ofList k, v) :: p.1, p.2)
            | _ => none
        | _ => none
    | _ => none
end

/-- The value of a document. -/
def parse (val : List Char → Option Rat) (t : List Char) : Option JVal :=
  match pVal val (t.length + 1) (t.dropWhile jws) with
  | some (v, r) => if r.all jws then some v else none
  | none => none

/-! ## `json.dump(..., indent=4)` -/

def hexChar (d : Nat) : Char := ['0', '1', '2', '3', '4', '5', '6', '7', '8', '9', 'a', 'b', 'c', 'd', 'e', 'f'].getD d '0'

/-- `'\\u{:04x}'.format(n)` -/
def hex4 (n : Nat) : List Char := '\\' :: 'u' :: [hexChar (n / 4096), hexChar (n / 256 % 16), hexChar (n / 16 % 16), hexChar (n % 16)]

/-- One character in `json.encoder.py_encode_basestring_ascii` (`ensure_ascii` is on). -/
def escape (c : Char) : List Char :=
  if c = '"' then ['\\', '"']
  else if c = '\\' then ['\\', '\\']
  else if c = '\n' then ['\\', 'n']
  else if c = '\r' then ['\\', 'r']
  else if c = '\t' then ['\\', 't']
  else if c = '\x0c' then ['\\', 'f']
  else if c = '\x08' then ['\\', 'b']
  else if 32 ≤ c.toNat ∧ c.toNat < 127 then [c]
  else if c.toNat < 0x10000 then hex4 c.toNat
  else hex4 (0xD800 + (c.toNat - 0x10000) / 0x400) ++ hex4 (0xDC00 + (c.toNat - 0x10000) % 0x400)

def quoted (s : String) : List Char := '"' :: (s.toList.flatMap escape ++ ['"'])

def newLine (lv : Nat) : List Char := '\n' :: List.replicate (4 * lv) ' '

mutual
/-- A value at a level of indentation; `sh` is the text of a float. -/
def dump (sh : Rat → List Char) (lv : Nat) : Json → List Char
  | .null => ['n', 'u', 'l', 'l']
  | .bool true => ['t', 'r', 'u', 'e']
  | .bool false => ['f', 'a', 'l', 's', 'e']
  | .int z => (PyNum.strInt z).toList
  | .num q => sh q
  | .str s => quoted s
  | .arr [] => ['[', ']']
  | .arr (j :: l) => '[' :: (newLine (lv + 1) ++ (dump sh (lv + 1) j ++ dumpItems sh lv l) ++ [']'])
  | .obj [] => ['{', '}']
  | .obj ((k, j) :: m) => '{' :: (newLine (lv + 1) ++ (quoted k ++ ':' :: ' ' :: (dump sh (lv + 1) j ++ dumpMembers sh lv m)) ++ ['}'])
termination_by structural j => j
/-- The other items, and the line of the closing bracket. -/
def dumpItems (sh : Rat → List Char) (lv : Nat) : List Json → List Char
  | [] => newLine lv
  | j :: l => ',' :: (newLine (lv + 1) ++ (dump sh (lv + 1) j ++ dumpItems sh lv l))
termination_by structural l => l
def dumpMembers (sh : Rat → List Char) (lv : Nat) : List (String × Json) → List Char
  | [] => newLine lv
  | (k, j) :: m => ',' :: (newLine (lv + 1) ++ (quoted k ++ ':' :: ' ' :: (dump sh (lv + 1) j ++ dumpMembers sh lv m)))
termination_by structural m => m
end

/-- What the report command writes, `format_rpt_json.py:56-57`. -/
def reportText (sh : Rat → List Char) (j : Format.JRpt) : List Char := dump sh 0 (Format.encJRpt j) ++ ['\n']

mutual
/-- The value that is meant. -/
def toVal : Json → JVal
  | .null => .null
  | .bool b => .bool b
  | .int z => .num z
  | .num q => .num q
  | .str s => .str s
  | .arr l => .arr (toVals l)
  | .obj m => .obj (toMembers m)
termination_by structural j => j
def toVals : List Json → List JVal
  | [] => []
  | j :: l => toVal j :: toVals l
termination_by structural l => l
def toMembers : List (String × Json) → List (String × JVal)
  | [] => []
  | (k, j) :: m => (k, toVal j) :: toMembers m
termination_by structural m => m
end

end JsonText
end Verif
