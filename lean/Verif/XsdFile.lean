import Verif.UcisXsd
/-!
# The schema file itself

`UcisXsd` transcribes `src/ucis/xml/schema/ucis.xsd` type by type into the terms of `Xsd`.  Here the file
stands as the element tree an XML parser makes of it (comments and the white space between tags left
out), and `ofXml` reads a schema out of such a tree the way XML Schema 1.0 prescribes for the constructs
in use.  `ucisXsd_is_file` shows that the transcription is what the file says, so no declaration of the
schema can be wrong or missing in `UcisXsd`.
-/

namespace Verif
namespace Xsd
open Xml (Elem)

deriving instance DecidableEq for AttrDecl
deriving instance DecidableEq for Occ
deriving instance DecidableEq for CType
deriving instance DecidableEq for Schema

/-! ## Reading a schema (XML Schema 1.0, part 1, §3) -/

/-- An attribute of an element of the schema. -/
def attrOf (e : Elem) (k : String) : Option String := Dict.get? e.attrs k

/-- Built-in types that attributes are declared with. -/
def builtin (n : String) : Option Simple :=
  if n = "xsd:string" then some .str
  else if n = "xsd:integer" then some .integer
  else if n = "xsd:nonNegativeInteger" then some .nonNeg
  else if n = "xsd:positiveInteger" then some .pos
  else if n = "xsd:boolean" then some .bool
  else if n = "xsd:double" then some .double
  else if n = "xsd:decimal" then some .decimal
  else if n = "xsd:dateTime" then some .dateTime
  else none

/-- `<xsd:enumeration value="..."/>`. -/
def enumValue (e : Elem) : Option String := if e.tag = "xsd:enumeration" then attrOf e "value" else none

/-- The type of an attribute: `type="..."`, or an anonymous restriction of `xsd:string` to listed values. -/
def attrType (e : Elem) : Option Simple :=
  match attrOf e "type", e.children with
  | some t, [] => builtin t
  | none, [⟨"xsd:simpleType", [], none, [⟨"xsd:restriction", [("base", "xsd:string")], none, vs⟩]⟩] => (vs.mapM enumValue).map .enum
  | _, _ => none

/-- `<xsd:attribute name=... type=... use=.../>`.  A `default` does not matter for validity; an attribute
without `use` is optional. -/
def attrDecl (e : Elem) : Option AttrDecl :=
  if e.tag = "xsd:attribute" then
    match attrOf e "name", attrType e, attrOf e "use" with
    | some n, some t, some "required" => some ⟨n, t, true⟩
    | some n, some t, some "optional" => some ⟨n, t, false⟩
    | some n, some t, none => some ⟨n, t, false⟩
    | _, _, _ => none
  else none

/-- The attribute groups of the file: name and declarations. -/
def groupsOf (l : List Elem) : Option (Dict (List AttrDecl)) :=
  (l.filter (fun e => e.tag = "xsd:attributeGroup")).mapM (fun e =>
    match attrOf e "name", e.children.mapM attrDecl with
    | some n, some ds => some (n, ds)
    | _, _ => none)

/-- The declarations behind one child of a complex type. -/
def declsOf (gs : Dict (List AttrDecl)) (e : Elem) : Option (List AttrDecl) :=
  if e.tag = "xsd:attribute" then (attrDecl e).map (fun d => [d])
  else if e.tag = "xsd:attributeGroup" then (attrOf e "ref").bind (Dict.get? gs)
  else if e.tag = "xsd:sequence" then some []
  else none

/-- The value of a text of digits. -/
def natVal (s : String) : Option Nat := if digits s.toList then some (Nat.ofDigitChars 10 s.toList 0) else none

/-- `minOccurs`, one if absent. -/
def minOccurs (e : Elem) : Option Nat :=
  match attrOf e "minOccurs" with
  | none => some 1
  | some s => natVal s

/-- `maxOccurs`, one if absent; `none` inside stands for `unbounded`. -/
def maxOccurs (e : Elem) : Option (Option Nat) :=
  match attrOf e "maxOccurs" with
  | none => some (some 1)
  | some "unbounded" => some none
  | some s => (natVal s).map some

/-- `<xsd:element name=... type=... minOccurs=... maxOccurs=.../>`. -/
def occOf (e : Elem) : Option Occ :=
  if e.tag = "xsd:element" ∧ e.children.isEmpty then
    match attrOf e "name", attrOf e "type", minOccurs e, maxOccurs e with
    | some n, some t, some a, some b => some ⟨n, t, a, b⟩
    | _, _, _, _ => none
  else none

/-- One part of a sequence: an element, or a choice (that occurs once) of elements. -/
def partOf (e : Elem) : Option (List Occ) :=
  if e.tag = "xsd:choice" ∧ e.attrs = [] then e.children.mapM occOf
  else (occOf e).map (fun o => [o])

/-- The content model: the only `xsd:sequence` (that occurs once), or empty content. -/
def partsOf (l : List Elem) : Option (List (List Occ)) :=
  match l.filter (fun e => e.tag = "xsd:sequence") with
  | [] => some []
  | [s] => if s.attrs = [] then s.children.mapM partOf else none
  | _ => none

/-- `<xsd:complexType mixed=...>`. -/
def ctypeOf (gs : Dict (List AttrDecl)) (e : Elem) : Option CType :=
  if e.tag = "xsd:complexType" then
    match e.children.mapM (declsOf gs), partsOf e.children with
    | some ds, some ps => some ⟨ds.flatten, ps, attrOf e "mixed" = some "true"⟩
    | _, _ => none
  else none

/-- A global complex type with its name, or a global element with an anonymous type (kept under the name
of the element); `some none` for an attribute group. -/
def globalOf (gs : Dict (List AttrDecl)) (e : Elem) : Option (Option (String × CType)) :=
  if e.tag = "xsd:attributeGroup" then some none
  else if e.tag = "xsd:element" then
    match attrOf e "name", e.children with
    | some n, [c] => (ctypeOf gs c).map (fun t => some (n, t))
    | _, _ => none
  else
    match attrOf e "name", ctypeOf gs e with
    | some n, some t => some (some (n, t))
    | _, _ => none

/-- A schema without name space and with one global element. -/
def ofXml (doc : Elem) : Option Schema :=
  if doc.tag = "xsd:schema" ∧ attrOf doc "targetNamespace" = none then
    match groupsOf doc.children with
    | none => none
    | some gs =>
      match doc.children.mapM (globalOf gs), doc.children.filter (fun e => e.tag = "xsd:element") with
      | some ts, [r] => (attrOf r "name").map (fun n => ⟨ts.filterMap id, n, n⟩)
      | _, _ => none
  else none

/-! ## The file -/

/-- `ucis.xsd:11-16`. -/
def xsdNode1 : Elem :=
  ⟨"xsd:complexType", [("name", "NAME_VALUE")], none, [
    ⟨"xsd:sequence", [], none, [
      ⟨"xsd:element", [("name", "name"), ("type", "xsd:string")], none, []⟩,
      ⟨"xsd:element", [("name", "value"), ("type", "xsd:string")], none, []⟩]⟩]⟩

/-- `ucis.xsd:19-39`. -/
def xsdNode2 : Elem :=
  ⟨"xsd:complexType", [("name", "USER_ATTR"), ("mixed", "true")], none, [
    ⟨"xsd:attribute", [("name", "key"), ("type", "xsd:string"), ("use", "required")], none, []⟩,
    ⟨"xsd:attribute", [("name", "type"), ("use", "required")], none, [
      ⟨"xsd:simpleType", [], none, [
        ⟨"xsd:restriction", [("base", "xsd:string")], none, [
          ⟨"xsd:enumeration", [("value", "int")], none, []⟩,
          ⟨"xsd:enumeration", [("value", "float")], none, []⟩,
          ⟨"xsd:enumeration", [("value", "double")], none, []⟩,
          ⟨"xsd:enumeration", [("value", "str")], none, []⟩,
          ⟨"xsd:enumeration", [("value", "bits")], none, []⟩,
          ⟨"xsd:enumeration", [("value", "int64")], none, []⟩]⟩]⟩]⟩,
    ⟨"xsd:attribute", [("name", "len"), ("type", "xsd:integer")], none, []⟩]⟩

/-- `ucis.xsd:42-50`. -/
def xsdNode3 : Elem :=
  ⟨"xsd:complexType", [("name", "BIN_CONTENTS")], none, [
    ⟨"xsd:sequence", [], none, [
      ⟨"xsd:element", [("name", "historyNodeId"), ("type", "xsd:nonNegativeInteger"), ("minOccurs", "0"), ("maxOccurs", "unbounded")], none, []⟩]⟩,
    ⟨"xsd:attribute", [("name", "nameComponent"), ("type", "xsd:string")], none, []⟩,
    ⟨"xsd:attribute", [("name", "typeComponent"), ("type", "xsd:string")], none, []⟩,
    ⟨"xsd:attribute", [("name", "coverageCount"), ("type", "xsd:nonNegativeInteger"), ("use", "required")], none, []⟩]⟩

/-- `ucis.xsd:53-59`. -/
def xsdNode4 : Elem :=
  ⟨"xsd:attributeGroup", [("name", "binAttributes")], none, [
    ⟨"xsd:attribute", [("name", "alias"), ("type", "xsd:string")], none, []⟩,
    ⟨"xsd:attribute", [("name", "coverageCountGoal"), ("type", "xsd:nonNegativeInteger")], none, []⟩,
    ⟨"xsd:attribute", [("name", "excluded"), ("type", "xsd:boolean"), ("default", "false")], none, []⟩,
    ⟨"xsd:attribute", [("name", "excludedReason"), ("type", "xsd:string")], none, []⟩,
    ⟨"xsd:attribute", [("name", "weight"), ("type", "xsd:nonNegativeInteger"), ("default", "1")], none, []⟩]⟩

/-- `ucis.xsd:61-67`. -/
def xsdNode5 : Elem :=
  ⟨"xsd:complexType", [("name", "BIN")], none, [
    ⟨"xsd:sequence", [], none, [
      ⟨"xsd:element", [("name", "contents"), ("type", "BIN_CONTENTS")], none, []⟩,
      ⟨"xsd:element", [("name", "userAttr"), ("type", "USER_ATTR"), ("minOccurs", "0"), ("maxOccurs", "unbounded")], none, []⟩]⟩,
    ⟨"xsd:attributeGroup", [("ref", "binAttributes")], none, []⟩]⟩

/-- `ucis.xsd:69-74`. -/
def xsdNode6 : Elem :=
  ⟨"xsd:attributeGroup", [("name", "objAttributes")], none, [
    ⟨"xsd:attribute", [("name", "alias"), ("type", "xsd:string")], none, []⟩,
    ⟨"xsd:attribute", [("name", "excluded"), ("type", "xsd:boolean"), ("default", "false")], none, []⟩,
    ⟨"xsd:attribute", [("name", "excludedReason"), ("type", "xsd:string")], none, []⟩,
    ⟨"xsd:attribute", [("name", "weight"), ("type", "xsd:nonNegativeInteger"), ("default", "1")], none, []⟩]⟩

/-- `ucis.xsd:77-80`. -/
def xsdNode7 : Elem :=
  ⟨"xsd:attributeGroup", [("name", "metricAttributes")], none, [
    ⟨"xsd:attribute", [("name", "metricMode"), ("type", "xsd:string")], none, []⟩,
    ⟨"xsd:attribute", [("name", "weight"), ("type", "xsd:nonNegativeInteger"), ("default", "1")], none, []⟩]⟩

/-- `ucis.xsd:83-86`. -/
def xsdNode8 : Elem :=
  ⟨"xsd:complexType", [("name", "SOURCE_FILE")], none, [
    ⟨"xsd:attribute", [("name", "fileName"), ("type", "xsd:string"), ("use", "required")], none, []⟩,
    ⟨"xsd:attribute", [("name", "id"), ("type", "xsd:positiveInteger"), ("use", "required")], none, []⟩]⟩

/-- `ucis.xsd:89-117`. -/
def xsdNode9 : Elem :=
  ⟨"xsd:complexType", [("name", "HISTORY_NODE")], none, [
    ⟨"xsd:sequence", [], none, [
      ⟨"xsd:element", [("name", "userAttr"), ("type", "USER_ATTR"), ("minOccurs", "0"), ("maxOccurs", "unbounded")], none, []⟩]⟩,
    ⟨"xsd:attribute", [("name", "historyNodeId"), ("type", "xsd:nonNegativeInteger"), ("use", "required")], none, []⟩,
    ⟨"xsd:attribute", [("name", "parentId"), ("type", "xsd:nonNegativeInteger")], none, []⟩,
    ⟨"xsd:attribute", [("name", "logicalName"), ("type", "xsd:string"), ("use", "required")], none, []⟩,
    ⟨"xsd:attribute", [("name", "physicalName"), ("type", "xsd:string")], none, []⟩,
    ⟨"xsd:attribute", [("name", "kind"), ("type", "xsd:string")], none, []⟩,
    ⟨"xsd:attribute", [("name", "testStatus"), ("type", "xsd:boolean"), ("use", "required")], none, []⟩,
    ⟨"xsd:attribute", [("name", "simtime"), ("type", "xsd:double")], none, []⟩,
    ⟨"xsd:attribute", [("name", "timeunit"), ("type", "xsd:string")], none, []⟩,
    ⟨"xsd:attribute", [("name", "runCwd"), ("type", "xsd:string")], none, []⟩,
    ⟨"xsd:attribute", [("name", "cpuTime"), ("type", "xsd:double")], none, []⟩,
    ⟨"xsd:attribute", [("name", "seed"), ("type", "xsd:string")], none, []⟩,
    ⟨"xsd:attribute", [("name", "cmd"), ("type", "xsd:string")], none, []⟩,
    ⟨"xsd:attribute", [("name", "args"), ("type", "xsd:string")], none, []⟩,
    ⟨"xsd:attribute", [("name", "compulsory"), ("type", "xsd:string")], none, []⟩,
    ⟨"xsd:attribute", [("name", "date"), ("type", "xsd:dateTime"), ("use", "required")], none, []⟩,
    ⟨"xsd:attribute", [("name", "userName"), ("type", "xsd:string")], none, []⟩,
    ⟨"xsd:attribute", [("name", "cost"), ("type", "xsd:decimal")], none, []⟩,
    ⟨"xsd:attribute", [("name", "toolCategory"), ("type", "xsd:string"), ("use", "required")], none, []⟩,
    ⟨"xsd:attribute", [("name", "ucisVersion"), ("type", "xsd:string"), ("use", "required")], none, []⟩,
    ⟨"xsd:attribute", [("name", "vendorId"), ("type", "xsd:string"), ("use", "required")], none, []⟩,
    ⟨"xsd:attribute", [("name", "vendorTool"), ("type", "xsd:string"), ("use", "required")], none, []⟩,
    ⟨"xsd:attribute", [("name", "vendorToolVersion"), ("type", "xsd:string"), ("use", "required")], none, []⟩,
    ⟨"xsd:attribute", [("name", "sameTests"), ("type", "xsd:nonNegativeInteger")], none, []⟩,
    ⟨"xsd:attribute", [("name", "comment"), ("type", "xsd:string")], none, []⟩]⟩

/-- `ucis.xsd:120-124`. -/
def xsdNode10 : Elem :=
  ⟨"xsd:complexType", [("name", "DIMENSION")], none, [
    ⟨"xsd:attribute", [("name", "left"), ("type", "xsd:integer"), ("use", "required")], none, []⟩,
    ⟨"xsd:attribute", [("name", "right"), ("type", "xsd:integer"), ("use", "required")], none, []⟩,
    ⟨"xsd:attribute", [("name", "downto"), ("type", "xsd:boolean"), ("use", "required")], none, []⟩]⟩

/-- `ucis.xsd:126-132`. -/
def xsdNode11 : Elem :=
  ⟨"xsd:complexType", [("name", "TOGGLE")], none, [
    ⟨"xsd:sequence", [], none, [
      ⟨"xsd:element", [("name", "bin"), ("type", "BIN")], none, []⟩]⟩,
    ⟨"xsd:attribute", [("name", "from"), ("type", "xsd:string"), ("use", "required")], none, []⟩,
    ⟨"xsd:attribute", [("name", "to"), ("type", "xsd:string"), ("use", "required")], none, []⟩]⟩

/-- `ucis.xsd:135-144`. -/
def xsdNode12 : Elem :=
  ⟨"xsd:complexType", [("name", "TOGGLE_BIT")], none, [
    ⟨"xsd:sequence", [], none, [
      ⟨"xsd:element", [("name", "index"), ("type", "xsd:nonNegativeInteger"), ("minOccurs", "0"), ("maxOccurs", "unbounded")], none, []⟩,
      ⟨"xsd:element", [("name", "toggle"), ("type", "TOGGLE"), ("minOccurs", "1"), ("maxOccurs", "unbounded")], none, []⟩,
      ⟨"xsd:element", [("name", "userAttr"), ("type", "USER_ATTR"), ("minOccurs", "0"), ("maxOccurs", "unbounded")], none, []⟩]⟩,
    ⟨"xsd:attribute", [("name", "name"), ("type", "xsd:string"), ("use", "required")], none, []⟩,
    ⟨"xsd:attribute", [("name", "key"), ("type", "xsd:string"), ("use", "required")], none, []⟩,
    ⟨"xsd:attributeGroup", [("ref", "objAttributes")], none, []⟩]⟩

/-- `ucis.xsd:147-159`. -/
def xsdNode13 : Elem :=
  ⟨"xsd:complexType", [("name", "TOGGLE_OBJECT")], none, [
    ⟨"xsd:sequence", [], none, [
      ⟨"xsd:element", [("name", "dimension"), ("type", "DIMENSION"), ("minOccurs", "0"), ("maxOccurs", "unbounded")], none, []⟩,
      ⟨"xsd:element", [("name", "id"), ("type", "STATEMENT_ID")], none, []⟩,
      ⟨"xsd:element", [("name", "toggleBit"), ("type", "TOGGLE_BIT"), ("minOccurs", "1"), ("maxOccurs", "unbounded")], none, []⟩,
      ⟨"xsd:element", [("name", "userAttr"), ("type", "USER_ATTR"), ("minOccurs", "0"), ("maxOccurs", "unbounded")], none, []⟩]⟩,
    ⟨"xsd:attribute", [("name", "name"), ("type", "xsd:string"), ("use", "required")], none, []⟩,
    ⟨"xsd:attribute", [("name", "key"), ("type", "xsd:string"), ("use", "required")], none, []⟩,
    ⟨"xsd:attribute", [("name", "type"), ("type", "xsd:string")], none, []⟩,
    ⟨"xsd:attribute", [("name", "portDirection"), ("type", "xsd:string")], none, []⟩,
    ⟨"xsd:attributeGroup", [("ref", "objAttributes")], none, []⟩]⟩

/-- `ucis.xsd:162-167`. -/
def xsdNode14 : Elem :=
  ⟨"xsd:complexType", [("name", "METRIC_MODE")], none, [
    ⟨"xsd:sequence", [], none, [
      ⟨"xsd:element", [("name", "userAttr"), ("type", "USER_ATTR"), ("minOccurs", "0"), ("maxOccurs", "unbounded")], none, []⟩]⟩,
    ⟨"xsd:attribute", [("name", "metricMode"), ("type", "xsd:string"), ("use", "required")], none, []⟩]⟩

/-- `ucis.xsd:170-177`. -/
def xsdNode15 : Elem :=
  ⟨"xsd:complexType", [("name", "TOGGLE_COVERAGE")], none, [
    ⟨"xsd:sequence", [], none, [
      ⟨"xsd:element", [("name", "toggleObject"), ("type", "TOGGLE_OBJECT"), ("minOccurs", "0"), ("maxOccurs", "unbounded")], none, []⟩,
      ⟨"xsd:element", [("name", "metricMode"), ("type", "METRIC_MODE"), ("minOccurs", "0"), ("maxOccurs", "unbounded")], none, []⟩,
      ⟨"xsd:element", [("name", "userAttr"), ("type", "USER_ATTR"), ("minOccurs", "0"), ("maxOccurs", "unbounded")], none, []⟩]⟩,
    ⟨"xsd:attributeGroup", [("ref", "metricAttributes")], none, []⟩]⟩

/-- `ucis.xsd:180-183`. -/
def xsdNode16 : Elem :=
  ⟨"xsd:complexType", [("name", "LINE_ID")], none, [
    ⟨"xsd:attribute", [("name", "file"), ("type", "xsd:positiveInteger"), ("use", "required")], none, []⟩,
    ⟨"xsd:attribute", [("name", "line"), ("type", "xsd:positiveInteger"), ("use", "required")], none, []⟩]⟩

/-- `ucis.xsd:186-190`. -/
def xsdNode17 : Elem :=
  ⟨"xsd:complexType", [("name", "STATEMENT_ID")], none, [
    ⟨"xsd:attribute", [("name", "file"), ("type", "xsd:positiveInteger"), ("use", "required")], none, []⟩,
    ⟨"xsd:attribute", [("name", "line"), ("type", "xsd:positiveInteger"), ("use", "required")], none, []⟩,
    ⟨"xsd:attribute", [("name", "inlineCount"), ("type", "xsd:positiveInteger"), ("use", "required")], none, []⟩]⟩

/-- `ucis.xsd:193-200`. -/
def xsdNode18 : Elem :=
  ⟨"xsd:complexType", [("name", "STATEMENT")], none, [
    ⟨"xsd:sequence", [], none, [
      ⟨"xsd:element", [("name", "id"), ("type", "STATEMENT_ID")], none, []⟩,
      ⟨"xsd:element", [("name", "bin"), ("type", "BIN")], none, []⟩,
      ⟨"xsd:element", [("name", "userAttr"), ("type", "USER_ATTR"), ("minOccurs", "0"), ("maxOccurs", "unbounded")], none, []⟩]⟩,
    ⟨"xsd:attributeGroup", [("ref", "objAttributes")], none, []⟩]⟩

/-- `ucis.xsd:203-213`. -/
def xsdNode19 : Elem :=
  ⟨"xsd:complexType", [("name", "BLOCK")], none, [
    ⟨"xsd:sequence", [], none, [
      ⟨"xsd:element", [("name", "statementId"), ("type", "STATEMENT_ID"), ("minOccurs", "0"), ("maxOccurs", "unbounded")], none, []⟩,
      ⟨"xsd:element", [("name", "hierarchicalBlock"), ("type", "BLOCK"), ("minOccurs", "0"), ("maxOccurs", "unbounded")], none, []⟩,
      ⟨"xsd:element", [("name", "blockBin"), ("type", "BIN")], none, []⟩,
      ⟨"xsd:element", [("name", "blockId"), ("type", "STATEMENT_ID")], none, []⟩,
      ⟨"xsd:element", [("name", "userAttr"), ("type", "USER_ATTR"), ("minOccurs", "0"), ("maxOccurs", "unbounded")], none, []⟩]⟩,
    ⟨"xsd:attribute", [("name", "parentProcess"), ("type", "xsd:string")], none, []⟩,
    ⟨"xsd:attributeGroup", [("ref", "objAttributes")], none, []⟩]⟩

/-- `ucis.xsd:216-226`. -/
def xsdNode20 : Elem :=
  ⟨"xsd:complexType", [("name", "PROCESS_BLOCK")], none, [
    ⟨"xsd:sequence", [], none, [
      ⟨"xsd:element", [("name", "block"), ("type", "BLOCK"), ("minOccurs", "0"), ("maxOccurs", "unbounded")], none, []⟩,
      ⟨"xsd:element", [("name", "userAttr"), ("type", "USER_ATTR"), ("minOccurs", "0"), ("maxOccurs", "unbounded")], none, []⟩]⟩,
    ⟨"xsd:attribute", [("name", "processType"), ("type", "xsd:string"), ("use", "required")], none, []⟩,
    ⟨"xsd:attributeGroup", [("ref", "objAttributes")], none, []⟩]⟩

/-- `ucis.xsd:228-238`. -/
def xsdNode21 : Elem :=
  ⟨"xsd:complexType", [("name", "BLOCK_COVERAGE")], none, [
    ⟨"xsd:sequence", [], none, [
      ⟨"xsd:choice", [], none, [
        ⟨"xsd:element", [("name", "process"), ("type", "PROCESS_BLOCK"), ("minOccurs", "1"), ("maxOccurs", "unbounded")], none, []⟩,
        ⟨"xsd:element", [("name", "block"), ("type", "BLOCK"), ("minOccurs", "1"), ("maxOccurs", "unbounded")], none, []⟩,
        ⟨"xsd:element", [("name", "statement"), ("type", "STATEMENT"), ("minOccurs", "1"), ("maxOccurs", "unbounded")], none, []⟩]⟩,
      ⟨"xsd:element", [("name", "userAttr"), ("type", "USER_ATTR"), ("minOccurs", "0"), ("maxOccurs", "unbounded")], none, []⟩]⟩,
    ⟨"xsd:attributeGroup", [("ref", "metricAttributes")], none, []⟩]⟩

/-- `ucis.xsd:241-256`. -/
def xsdNode22 : Elem :=
  ⟨"xsd:complexType", [("name", "EXPR")], none, [
    ⟨"xsd:sequence", [], none, [
      ⟨"xsd:element", [("name", "id"), ("type", "STATEMENT_ID")], none, []⟩,
      ⟨"xsd:element", [("name", "subExpr"), ("type", "xsd:string"), ("minOccurs", "1"), ("maxOccurs", "unbounded")], none, []⟩,
      ⟨"xsd:element", [("name", "bin"), ("type", "BIN"), ("minOccurs", "1"), ("maxOccurs", "unbounded")], none, []⟩,
      ⟨"xsd:element", [("name", "hierarchicalExpr"), ("type", "EXPR"), ("minOccurs", "0"), ("maxOccurs", "unbounded")], none, []⟩,
      ⟨"xsd:element", [("name", "userAttr"), ("type", "USER_ATTR"), ("minOccurs", "0"), ("maxOccurs", "unbounded")], none, []⟩]⟩,
    ⟨"xsd:attribute", [("name", "name"), ("type", "xsd:string"), ("use", "required")], none, []⟩,
    ⟨"xsd:attribute", [("name", "key"), ("type", "xsd:string"), ("use", "required")], none, []⟩,
    ⟨"xsd:attribute", [("name", "exprString"), ("type", "xsd:string"), ("use", "required")], none, []⟩,
    ⟨"xsd:attribute", [("name", "index"), ("type", "xsd:nonNegativeInteger"), ("use", "required")], none, []⟩,
    ⟨"xsd:attribute", [("name", "width"), ("type", "xsd:nonNegativeInteger"), ("use", "required")], none, []⟩,
    ⟨"xsd:attribute", [("name", "statementType"), ("type", "xsd:string")], none, []⟩,
    ⟨"xsd:attributeGroup", [("ref", "objAttributes")], none, []⟩]⟩

/-- `ucis.xsd:259-265`. -/
def xsdNode23 : Elem :=
  ⟨"xsd:complexType", [("name", "CONDITION_COVERAGE")], none, [
    ⟨"xsd:sequence", [], none, [
      ⟨"xsd:element", [("name", "expr"), ("type", "EXPR"), ("minOccurs", "0"), ("maxOccurs", "unbounded")], none, []⟩,
      ⟨"xsd:element", [("name", "userAttr"), ("type", "USER_ATTR"), ("minOccurs", "0"), ("maxOccurs", "unbounded")], none, []⟩]⟩,
    ⟨"xsd:attributeGroup", [("ref", "metricAttributes")], none, []⟩]⟩

/-- `ucis.xsd:268-275`. -/
def xsdNode24 : Elem :=
  ⟨"xsd:complexType", [("name", "BRANCH")], none, [
    ⟨"xsd:sequence", [], none, [
      ⟨"xsd:element", [("name", "id"), ("type", "STATEMENT_ID")], none, []⟩,
      ⟨"xsd:element", [("name", "nestedBranch"), ("type", "BRANCH_STATEMENT"), ("minOccurs", "0"), ("maxOccurs", "unbounded")], none, []⟩,
      ⟨"xsd:element", [("name", "branchBin"), ("type", "BIN")], none, []⟩,
      ⟨"xsd:element", [("name", "userAttr"), ("type", "USER_ATTR"), ("minOccurs", "0"), ("maxOccurs", "unbounded")], none, []⟩]⟩]⟩

/-- `ucis.xsd:278-289`. -/
def xsdNode25 : Elem :=
  ⟨"xsd:complexType", [("name", "BRANCH_STATEMENT")], none, [
    ⟨"xsd:sequence", [], none, [
      ⟨"xsd:element", [("name", "id"), ("type", "STATEMENT_ID")], none, []⟩,
      ⟨"xsd:element", [("name", "branch"), ("type", "BRANCH"), ("minOccurs", "0"), ("maxOccurs", "unbounded")], none, []⟩,
      ⟨"xsd:element", [("name", "userAttr"), ("type", "USER_ATTR"), ("minOccurs", "0"), ("maxOccurs", "unbounded")], none, []⟩]⟩,
    ⟨"xsd:attribute", [("name", "branchExpr"), ("type", "xsd:string")], none, []⟩,
    ⟨"xsd:attribute", [("name", "statementType"), ("type", "xsd:string"), ("use", "required")], none, []⟩,
    ⟨"xsd:attributeGroup", [("ref", "objAttributes")], none, []⟩]⟩

/-- `ucis.xsd:291-299`. -/
def xsdNode26 : Elem :=
  ⟨"xsd:complexType", [("name", "BRANCH_COVERAGE")], none, [
    ⟨"xsd:sequence", [], none, [
      ⟨"xsd:element", [("name", "statement"), ("type", "BRANCH_STATEMENT"), ("minOccurs", "0"), ("maxOccurs", "unbounded")], none, []⟩,
      ⟨"xsd:element", [("name", "userAttr"), ("type", "USER_ATTR"), ("minOccurs", "0"), ("maxOccurs", "unbounded")], none, []⟩]⟩,
    ⟨"xsd:attributeGroup", [("ref", "metricAttributes")], none, []⟩]⟩

/-- `ucis.xsd:301-309`. -/
def xsdNode27 : Elem :=
  ⟨"xsd:complexType", [("name", "FSM_STATE")], none, [
    ⟨"xsd:sequence", [], none, [
      ⟨"xsd:element", [("name", "stateBin"), ("type", "BIN")], none, []⟩,
      ⟨"xsd:element", [("name", "userAttr"), ("type", "USER_ATTR"), ("minOccurs", "0"), ("maxOccurs", "unbounded")], none, []⟩]⟩,
    ⟨"xsd:attribute", [("name", "stateName"), ("type", "xsd:string")], none, []⟩,
    ⟨"xsd:attribute", [("name", "stateValue"), ("type", "xsd:string")], none, []⟩]⟩

/-- `ucis.xsd:311-319`. -/
def xsdNode28 : Elem :=
  ⟨"xsd:complexType", [("name", "FSM_TRANSITION")], none, [
    ⟨"xsd:sequence", [], none, [
      ⟨"xsd:element", [("name", "state"), ("type", "xsd:string"), ("minOccurs", "2"), ("maxOccurs", "unbounded")], none, []⟩,
      ⟨"xsd:element", [("name", "transitionBin"), ("type", "BIN")], none, []⟩,
      ⟨"xsd:element", [("name", "userAttr"), ("type", "USER_ATTR"), ("minOccurs", "0"), ("maxOccurs", "unbounded")], none, []⟩]⟩]⟩

/-- `ucis.xsd:321-334`. -/
def xsdNode29 : Elem :=
  ⟨"xsd:complexType", [("name", "FSM")], none, [
    ⟨"xsd:sequence", [], none, [
      ⟨"xsd:element", [("name", "state"), ("type", "FSM_STATE"), ("minOccurs", "0"), ("maxOccurs", "unbounded")], none, []⟩,
      ⟨"xsd:element", [("name", "stateTransition"), ("type", "FSM_TRANSITION"), ("minOccurs", "0"), ("maxOccurs", "unbounded")], none, []⟩,
      ⟨"xsd:element", [("name", "userAttr"), ("type", "USER_ATTR"), ("minOccurs", "0"), ("maxOccurs", "unbounded")], none, []⟩]⟩,
    ⟨"xsd:attribute", [("name", "name"), ("type", "xsd:string")], none, []⟩,
    ⟨"xsd:attribute", [("name", "type"), ("type", "xsd:string")], none, []⟩,
    ⟨"xsd:attribute", [("name", "width"), ("type", "xsd:positiveInteger")], none, []⟩,
    ⟨"xsd:attributeGroup", [("ref", "objAttributes")], none, []⟩]⟩

/-- `ucis.xsd:336-344`. -/
def xsdNode30 : Elem :=
  ⟨"xsd:complexType", [("name", "FSM_COVERAGE")], none, [
    ⟨"xsd:sequence", [], none, [
      ⟨"xsd:element", [("name", "fsm"), ("type", "FSM"), ("minOccurs", "0"), ("maxOccurs", "unbounded")], none, []⟩,
      ⟨"xsd:element", [("name", "userAttr"), ("type", "USER_ATTR"), ("minOccurs", "0"), ("maxOccurs", "unbounded")], none, []⟩]⟩,
    ⟨"xsd:attributeGroup", [("ref", "metricAttributes")], none, []⟩]⟩

/-- `ucis.xsd:346-371`. -/
def xsdNode31 : Elem :=
  ⟨"xsd:complexType", [("name", "ASSERTION")], none, [
    ⟨"xsd:sequence", [], none, [
      ⟨"xsd:element", [("name", "coverBin"), ("type", "BIN"), ("minOccurs", "0"), ("maxOccurs", "1")], none, []⟩,
      ⟨"xsd:element", [("name", "passBin"), ("type", "BIN"), ("minOccurs", "0"), ("maxOccurs", "1")], none, []⟩,
      ⟨"xsd:element", [("name", "failBin"), ("type", "BIN"), ("minOccurs", "0"), ("maxOccurs", "1")], none, []⟩,
      ⟨"xsd:element", [("name", "vacuousBin"), ("type", "BIN"), ("minOccurs", "0"), ("maxOccurs", "1")], none, []⟩,
      ⟨"xsd:element", [("name", "disabledBin"), ("type", "BIN"), ("minOccurs", "0"), ("maxOccurs", "1")], none, []⟩,
      ⟨"xsd:element", [("name", "attemptBin"), ("type", "BIN"), ("minOccurs", "0"), ("maxOccurs", "1")], none, []⟩,
      ⟨"xsd:element", [("name", "activeBin"), ("type", "BIN"), ("minOccurs", "0"), ("maxOccurs", "1")], none, []⟩,
      ⟨"xsd:element", [("name", "peakActiveBin"), ("type", "BIN"), ("minOccurs", "0"), ("maxOccurs", "1")], none, []⟩,
      ⟨"xsd:element", [("name", "userAttr"), ("type", "USER_ATTR"), ("minOccurs", "0"), ("maxOccurs", "unbounded")], none, []⟩]⟩,
    ⟨"xsd:attribute", [("name", "name"), ("type", "xsd:string"), ("use", "required")], none, []⟩,
    ⟨"xsd:attribute", [("name", "assertionKind"), ("type", "xsd:string"), ("use", "required")], none, []⟩,
    ⟨"xsd:attributeGroup", [("ref", "objAttributes")], none, []⟩]⟩

/-- `ucis.xsd:373-381`. -/
def xsdNode32 : Elem :=
  ⟨"xsd:complexType", [("name", "ASSERTION_COVERAGE")], none, [
    ⟨"xsd:sequence", [], none, [
      ⟨"xsd:element", [("name", "assertion"), ("type", "ASSERTION"), ("minOccurs", "0"), ("maxOccurs", "unbounded")], none, []⟩,
      ⟨"xsd:element", [("name", "userAttr"), ("type", "USER_ATTR"), ("minOccurs", "0"), ("maxOccurs", "unbounded")], none, []⟩]⟩,
    ⟨"xsd:attributeGroup", [("ref", "metricAttributes")], none, []⟩]⟩

/-- `ucis.xsd:383-389`. -/
def xsdNode33 : Elem :=
  ⟨"xsd:complexType", [("name", "SEQUENCE")], none, [
    ⟨"xsd:sequence", [], none, [
      ⟨"xsd:element", [("name", "contents"), ("type", "BIN_CONTENTS")], none, []⟩,
      ⟨"xsd:element", [("name", "seqValue"), ("type", "xsd:integer"), ("minOccurs", "1"), ("maxOccurs", "unbounded")], none, []⟩]⟩]⟩

/-- `ucis.xsd:392-398`. -/
def xsdNode34 : Elem :=
  ⟨"xsd:complexType", [("name", "RANGE_VALUE")], none, [
    ⟨"xsd:sequence", [], none, [
      ⟨"xsd:element", [("name", "contents"), ("type", "BIN_CONTENTS")], none, []⟩]⟩,
    ⟨"xsd:attribute", [("name", "from"), ("type", "xsd:integer"), ("use", "required")], none, []⟩,
    ⟨"xsd:attribute", [("name", "to"), ("type", "xsd:integer"), ("use", "required")], none, []⟩]⟩

/-- `ucis.xsd:401-430`. -/
def xsdNode35 : Elem :=
  ⟨"xsd:complexType", [("name", "COVERPOINT_BIN")], none, [
    ⟨"xsd:sequence", [], none, [
      ⟨"xsd:choice", [], none, [
        ⟨"xsd:element", [("name", "range"), ("type", "RANGE_VALUE"), ("minOccurs", "1"), ("maxOccurs", "unbounded")], none, []⟩,
        ⟨"xsd:element", [("name", "sequence"), ("type", "SEQUENCE"), ("minOccurs", "1"), ("maxOccurs", "unbounded")], none, []⟩]⟩,
      ⟨"xsd:element", [("name", "userAttr"), ("type", "USER_ATTR"), ("minOccurs", "0"), ("maxOccurs", "unbounded")], none, []⟩]⟩,
    ⟨"xsd:attribute", [("name", "alias"), ("type", "xsd:string")], none, []⟩,
    ⟨"xsd:attribute", [("name", "type"), ("use", "required")], none, [
      ⟨"xsd:simpleType", [], none, [
        ⟨"xsd:restriction", [("base", "xsd:string")], none, [
          ⟨"xsd:enumeration", [("value", "bins")], none, []⟩,
          ⟨"xsd:enumeration", [("value", "default")], none, []⟩,
          ⟨"xsd:enumeration", [("value", "ignore")], none, []⟩,
          ⟨"xsd:enumeration", [("value", "illegal")], none, []⟩]⟩]⟩]⟩,
    ⟨"xsd:attribute", [("name", "name"), ("type", "xsd:string"), ("use", "required")], none, []⟩,
    ⟨"xsd:attribute", [("name", "key"), ("type", "xsd:string"), ("use", "required")], none, []⟩]⟩

/-- `ucis.xsd:433-445`. -/
def xsdNode36 : Elem :=
  ⟨"xsd:complexType", [("name", "CROSS_BIN")], none, [
    ⟨"xsd:sequence", [], none, [
      ⟨"xsd:element", [("name", "index"), ("type", "xsd:integer"), ("minOccurs", "1"), ("maxOccurs", "unbounded")], none, []⟩,
      ⟨"xsd:element", [("name", "contents"), ("type", "BIN_CONTENTS")], none, []⟩,
      ⟨"xsd:element", [("name", "userAttr"), ("type", "USER_ATTR"), ("minOccurs", "0"), ("maxOccurs", "unbounded")], none, []⟩]⟩,
    ⟨"xsd:attribute", [("name", "type"), ("type", "xsd:string"), ("default", "default")], none, []⟩,
    ⟨"xsd:attribute", [("name", "alias"), ("type", "xsd:string")], none, []⟩,
    ⟨"xsd:attribute", [("name", "name"), ("type", "xsd:string"), ("use", "required")], none, []⟩,
    ⟨"xsd:attribute", [("name", "key"), ("type", "xsd:string"), ("use", "required")], none, []⟩]⟩

/-- `ucis.xsd:448-455`. -/
def xsdNode37 : Elem :=
  ⟨"xsd:complexType", [("name", "CROSS_OPTIONS")], none, [
    ⟨"xsd:attribute", [("name", "weight"), ("type", "xsd:nonNegativeInteger"), ("default", "1")], none, []⟩,
    ⟨"xsd:attribute", [("name", "goal"), ("type", "xsd:nonNegativeInteger"), ("default", "100")], none, []⟩,
    ⟨"xsd:attribute", [("name", "comment"), ("type", "xsd:string"), ("default", "")], none, []⟩,
    ⟨"xsd:attribute", [("name", "at_least"), ("type", "xsd:nonNegativeInteger"), ("default", "1")], none, []⟩,
    ⟨"xsd:attribute", [("name", "cross_num_print_missing"), ("type", "xsd:nonNegativeInteger"), ("default", "0")], none, []⟩]⟩

/-- `ucis.xsd:457-472`. -/
def xsdNode38 : Elem :=
  ⟨"xsd:complexType", [("name", "CROSS")], none, [
    ⟨"xsd:sequence", [], none, [
      ⟨"xsd:element", [("name", "options"), ("type", "CROSS_OPTIONS")], none, []⟩,
      ⟨"xsd:element", [("name", "crossExpr"), ("type", "xsd:string"), ("minOccurs", "0"), ("maxOccurs", "unbounded")], none, []⟩,
      ⟨"xsd:element", [("name", "crossBin"), ("type", "CROSS_BIN"), ("minOccurs", "0"), ("maxOccurs", "unbounded")], none, []⟩,
      ⟨"xsd:element", [("name", "userAttr"), ("type", "USER_ATTR"), ("minOccurs", "0"), ("maxOccurs", "unbounded")], none, []⟩]⟩,
    ⟨"xsd:attribute", [("name", "name"), ("type", "xsd:string"), ("use", "required")], none, []⟩,
    ⟨"xsd:attribute", [("name", "key"), ("type", "xsd:string"), ("use", "required")], none, []⟩,
    ⟨"xsd:attribute", [("name", "alias"), ("type", "xsd:string")], none, []⟩]⟩

/-- `ucis.xsd:474-481`. -/
def xsdNode39 : Elem :=
  ⟨"xsd:complexType", [("name", "COVERPOINT_OPTIONS")], none, [
    ⟨"xsd:attribute", [("name", "weight"), ("type", "xsd:nonNegativeInteger"), ("default", "1")], none, []⟩,
    ⟨"xsd:attribute", [("name", "goal"), ("type", "xsd:nonNegativeInteger"), ("default", "100")], none, []⟩,
    ⟨"xsd:attribute", [("name", "comment"), ("type", "xsd:string"), ("default", "")], none, []⟩,
    ⟨"xsd:attribute", [("name", "at_least"), ("type", "xsd:nonNegativeInteger"), ("default", "1")], none, []⟩,
    ⟨"xsd:attribute", [("name", "detect_overlap"), ("type", "xsd:boolean"), ("default", "false")], none, []⟩,
    ⟨"xsd:attribute", [("name", "auto_bin_max"), ("type", "xsd:nonNegativeInteger"), ("default", "64")], none, []⟩]⟩

/-- `ucis.xsd:483-495`. -/
def xsdNode40 : Elem :=
  ⟨"xsd:complexType", [("name", "COVERPOINT")], none, [
    ⟨"xsd:sequence", [], none, [
      ⟨"xsd:element", [("name", "options"), ("type", "COVERPOINT_OPTIONS")], none, []⟩,
      ⟨"xsd:element", [("name", "coverpointBin"), ("type", "COVERPOINT_BIN"), ("minOccurs", "1"), ("maxOccurs", "unbounded")], none, []⟩,
      ⟨"xsd:element", [("name", "userAttr"), ("type", "USER_ATTR"), ("minOccurs", "0"), ("maxOccurs", "unbounded")], none, []⟩]⟩,
    ⟨"xsd:attribute", [("name", "name"), ("type", "xsd:string"), ("use", "required")], none, []⟩,
    ⟨"xsd:attribute", [("name", "key"), ("type", "xsd:string"), ("use", "required")], none, []⟩,
    ⟨"xsd:attribute", [("name", "alias"), ("type", "xsd:string")], none, []⟩,
    ⟨"xsd:attribute", [("name", "exprString"), ("type", "xsd:string")], none, []⟩]⟩

/-- `ucis.xsd:497-504`. -/
def xsdNode41 : Elem :=
  ⟨"xsd:complexType", [("name", "CG_ID")], none, [
    ⟨"xsd:sequence", [], none, [
      ⟨"xsd:element", [("name", "cginstSourceId"), ("type", "STATEMENT_ID")], none, []⟩,
      ⟨"xsd:element", [("name", "cgSourceId"), ("type", "STATEMENT_ID")], none, []⟩]⟩,
    ⟨"xsd:attribute", [("name", "cgName"), ("type", "xsd:string"), ("use", "required")], none, []⟩,
    ⟨"xsd:attribute", [("name", "moduleName"), ("type", "xsd:string"), ("use", "required")], none, []⟩]⟩

/-- `ucis.xsd:506-517`. -/
def xsdNode42 : Elem :=
  ⟨"xsd:complexType", [("name", "CGINST_OPTIONS")], none, [
    ⟨"xsd:attribute", [("name", "weight"), ("type", "xsd:nonNegativeInteger"), ("default", "1")], none, []⟩,
    ⟨"xsd:attribute", [("name", "goal"), ("type", "xsd:nonNegativeInteger"), ("default", "100")], none, []⟩,
    ⟨"xsd:attribute", [("name", "comment"), ("type", "xsd:string"), ("default", "")], none, []⟩,
    ⟨"xsd:attribute", [("name", "at_least"), ("type", "xsd:nonNegativeInteger"), ("default", "1")], none, []⟩,
    ⟨"xsd:attribute", [("name", "detect_overlap"), ("type", "xsd:boolean"), ("default", "false")], none, []⟩,
    ⟨"xsd:attribute", [("name", "auto_bin_max"), ("type", "xsd:nonNegativeInteger"), ("default", "64")], none, []⟩,
    ⟨"xsd:attribute", [("name", "cross_num_print_missing"), ("type", "xsd:nonNegativeInteger"), ("default", "0")], none, []⟩,
    ⟨"xsd:attribute", [("name", "per_instance"), ("type", "xsd:boolean"), ("default", "false")], none, []⟩,
    ⟨"xsd:attribute", [("name", "merge_instances"), ("type", "xsd:boolean"), ("default", "false")], none, []⟩]⟩

/-- `ucis.xsd:519-539`. -/
def xsdNode43 : Elem :=
  ⟨"xsd:complexType", [("name", "CGINSTANCE")], none, [
    ⟨"xsd:sequence", [], none, [
      ⟨"xsd:element", [("name", "options"), ("type", "CGINST_OPTIONS")], none, []⟩,
      ⟨"xsd:element", [("name", "cgId"), ("type", "CG_ID")], none, []⟩,
      ⟨"xsd:element", [("name", "cgParms"), ("type", "NAME_VALUE"), ("minOccurs", "0"), ("maxOccurs", "unbounded")], none, []⟩,
      ⟨"xsd:element", [("name", "coverpoint"), ("type", "COVERPOINT"), ("minOccurs", "1"), ("maxOccurs", "unbounded")], none, []⟩,
      ⟨"xsd:element", [("name", "cross"), ("type", "CROSS"), ("minOccurs", "0"), ("maxOccurs", "unbounded")], none, []⟩,
      ⟨"xsd:element", [("name", "userAttr"), ("type", "USER_ATTR"), ("minOccurs", "0"), ("maxOccurs", "unbounded")], none, []⟩]⟩,
    ⟨"xsd:attribute", [("name", "name"), ("type", "xsd:string"), ("use", "required")], none, []⟩,
    ⟨"xsd:attribute", [("name", "key"), ("type", "xsd:string"), ("use", "required")], none, []⟩,
    ⟨"xsd:attribute", [("name", "alias"), ("type", "xsd:string")], none, []⟩,
    ⟨"xsd:attribute", [("name", "excluded"), ("type", "xsd:boolean"), ("default", "false")], none, []⟩,
    ⟨"xsd:attribute", [("name", "excludedReason"), ("type", "xsd:string")], none, []⟩]⟩

/-- `ucis.xsd:541-549`. -/
def xsdNode44 : Elem :=
  ⟨"xsd:complexType", [("name", "COVERGROUP_COVERAGE")], none, [
    ⟨"xsd:sequence", [], none, [
      ⟨"xsd:element", [("name", "cgInstance"), ("type", "CGINSTANCE"), ("minOccurs", "0"), ("maxOccurs", "unbounded")], none, []⟩,
      ⟨"xsd:element", [("name", "userAttr"), ("type", "USER_ATTR"), ("minOccurs", "0"), ("maxOccurs", "unbounded")], none, []⟩]⟩,
    ⟨"xsd:attributeGroup", [("ref", "metricAttributes")], none, []⟩]⟩

/-- `ucis.xsd:551-579`. -/
def xsdNode45 : Elem :=
  ⟨"xsd:complexType", [("name", "INSTANCE_COVERAGE")], none, [
    ⟨"xsd:sequence", [], none, [
      ⟨"xsd:element", [("name", "designParameter"), ("type", "NAME_VALUE"), ("minOccurs", "0"), ("maxOccurs", "unbounded")], none, []⟩,
      ⟨"xsd:element", [("name", "id"), ("type", "STATEMENT_ID")], none, []⟩,
      ⟨"xsd:element", [("name", "toggleCoverage"), ("type", "TOGGLE_COVERAGE"), ("minOccurs", "0"), ("maxOccurs", "unbounded")], none, []⟩,
      ⟨"xsd:element", [("name", "blockCoverage"), ("type", "BLOCK_COVERAGE"), ("minOccurs", "0"), ("maxOccurs", "unbounded")], none, []⟩,
      ⟨"xsd:element", [("name", "conditionCoverage"), ("type", "CONDITION_COVERAGE"), ("minOccurs", "0"), ("maxOccurs", "unbounded")], none, []⟩,
      ⟨"xsd:element", [("name", "branchCoverage"), ("type", "BRANCH_COVERAGE"), ("minOccurs", "0"), ("maxOccurs", "unbounded")], none, []⟩,
      ⟨"xsd:element", [("name", "fsmCoverage"), ("type", "FSM_COVERAGE"), ("minOccurs", "0"), ("maxOccurs", "unbounded")], none, []⟩,
      ⟨"xsd:element", [("name", "assertionCoverage"), ("type", "ASSERTION_COVERAGE"), ("minOccurs", "0"), ("maxOccurs", "unbounded")], none, []⟩,
      ⟨"xsd:element", [("name", "covergroupCoverage"), ("type", "COVERGROUP_COVERAGE"), ("minOccurs", "0"), ("maxOccurs", "unbounded")], none, []⟩,
      ⟨"xsd:element", [("name", "userAttr"), ("type", "USER_ATTR"), ("minOccurs", "0"), ("maxOccurs", "unbounded")], none, []⟩]⟩,
    ⟨"xsd:attribute", [("name", "name"), ("type", "xsd:string"), ("use", "required")], none, []⟩,
    ⟨"xsd:attribute", [("name", "key"), ("type", "xsd:string"), ("use", "required")], none, []⟩,
    ⟨"xsd:attribute", [("name", "instanceId"), ("type", "xsd:integer")], none, []⟩,
    ⟨"xsd:attribute", [("name", "alias"), ("type", "xsd:string")], none, []⟩,
    ⟨"xsd:attribute", [("name", "moduleName"), ("type", "xsd:string")], none, []⟩,
    ⟨"xsd:attribute", [("name", "parentInstanceId"), ("type", "xsd:integer")], none, []⟩]⟩

/-- `ucis.xsd:582-596`. -/
def xsdNode46 : Elem :=
  ⟨"xsd:element", [("name", "UCIS")], none, [
    ⟨"xsd:complexType", [], none, [
      ⟨"xsd:sequence", [], none, [
        ⟨"xsd:element", [("name", "sourceFiles"), ("type", "SOURCE_FILE"), ("minOccurs", "1"), ("maxOccurs", "unbounded")], none, []⟩,
        ⟨"xsd:element", [("name", "historyNodes"), ("type", "HISTORY_NODE"), ("minOccurs", "1"), ("maxOccurs", "unbounded")], none, []⟩,
        ⟨"xsd:element", [("name", "instanceCoverages"), ("type", "INSTANCE_COVERAGE"), ("minOccurs", "1"), ("maxOccurs", "unbounded")], none, []⟩]⟩,
      ⟨"xsd:attribute", [("name", "ucisVersion"), ("type", "xsd:string"), ("use", "required")], none, []⟩,
      ⟨"xsd:attribute", [("name", "writtenBy"), ("type", "xsd:string"), ("use", "required")], none, []⟩,
      ⟨"xsd:attribute", [("name", "writtenTime"), ("type", "xsd:dateTime"), ("use", "required")], none, []⟩]⟩]⟩

/-- `ucis.xsd:2-597`, the whole file. -/
def xsdFile : Elem := ⟨"xsd:schema", [("xmlns:xsd", "http://www.w3.org/2001/XMLSchema"), ("elementFormDefault", "unqualified"), ("attributeFormDefault", "unqualified")], none, [xsdNode1, xsdNode2, xsdNode3, xsdNode4, xsdNode5, xsdNode6, xsdNode7, xsdNode8, xsdNode9, xsdNode10, xsdNode11, xsdNode12, xsdNode13, xsdNode14, xsdNode15, xsdNode16, xsdNode17, xsdNode18, xsdNode19, xsdNode20, xsdNode21, xsdNode22, xsdNode23, xsdNode24, xsdNode25, xsdNode26, xsdNode27, xsdNode28, xsdNode29, xsdNode30, xsdNode31, xsdNode32, xsdNode33, xsdNode34, xsdNode35, xsdNode36, xsdNode37, xsdNode38, xsdNode39, xsdNode40, xsdNode41, xsdNode42, xsdNode43, xsdNode44, xsdNode45, xsdNode46]⟩

/-! ## The transcription is what the file says -/

/-- The schema the model validates against is the one in the file. -/
theorem ucisXsd_is_file : ofXml xsdFile = some ucisXsd := by decide +kernel

/-- Every type that a declaration of the file refers to is built in or declared. -/
theorem ucisXsd_closed : ∀ p ∈ ucisXsd.types, ∀ c ∈ p.2.parts, ∀ o ∈ c,
    (simpleOf o.type).isSome ∨ ∃ q ∈ ucisXsd.types, q.1 = o.type := by decide +kernel

/-- No type is declared twice. -/
theorem ucisXsd_names : (ucisXsd.types.map (·.1)).Nodup := by decide +kernel

end Xsd
end Verif
