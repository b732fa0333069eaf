import Verif.Py
/-!
# YAML documents, their schema, and the typed view the reader works on
-/

namespace Verif
namespace Yaml

/-- The value `yaml.load` returns (`yaml_reader.py:67`), restricted to what JSON can express.
Simplifications: mapping keys are texts (PyYAML also allows other keys; `json.dumps` at
`yaml_reader.py:72` turns them into texts), a mapping lists every key once, numbers that are not
integers are kept as rationals. -/
inductive Json where
  | null
  | bool (b : Bool)
  | int (z : Int)
  | num (q : Rat)
  | str (s : String)
  | arr (l : List Json)
  | obj (m : List (String × Json))

/-- `d.get(k)` on a mapping value, nothing on other values. -/
def Json.prop (j : Json) (k : String) : Option Json :=
  match j with
  | .obj m => Dict.get? m k
  | _ => none

/-- The JSON Schema (draft 4) keywords that `schema/coverage.json` uses: `type`, `properties`,
`required`, `items`.  References (`$ref`) are followed when the schema is transcribed. -/
inductive JSchema where
  | string
  | integer
  | array (items : JSchema)
  | object (props : List (String × JSchema)) (req : List String)

mutual
/-- `jsonschema.validate` (`yaml_reader.py:69`) for these keywords.  Draft 4: `integer` means an
integer that is not a Boolean. -/
def validJ : JSchema → Json → Bool
  | .string, .str _ => true
  | .integer, .int _ => true
  | .array s, .arr l => validItems s l
  | .object ps req, .obj m => req.all (fun k => Dict.contains m k) && validProps ps m
  | _, _ => false
/-- `items` -/
def validItems : JSchema → List Json → Bool
  | _, [] => true
  | s, j :: t => validJ s j && validItems s t
/-- `properties` -/
def validProps : List (String × JSchema) → List (String × Json) → Bool
  | [], _ => true
  | (k, s) :: t, m => (match Dict.get? m k with
    | some j => validJ s j
    | none => true) && validProps t m
end

/-- `#/defs/coverBinType`, `schema/coverage.json:125-139`. -/
def sBin : JSchema := .object [("name", .string), ("count", .integer)] ["name", "count"]
/-- `#/defs/coverpointType`, `schema/coverage.json:65-96`. -/
def sCp : JSchema := .object [("name", .string), ("atleast", .integer), ("bins", .array sBin), ("ignorebins", .array sBin),
  ("illegalbins", .array sBin)] ["name", "bins"]
/-- `#/defs/crossType`, `schema/coverage.json:97-124`. -/
def sCross : JSchema := .object [("name", .string), ("atleast", .integer), ("coverpoints", .array .string), ("bins", .array sBin)]
  ["name", "coverpoints"]
/-- `#/defs/covergroupInstType`, `schema/coverage.json:42-64`. -/
def sInst : JSchema := .object [("name", .string), ("coverpoints", .array sCp), ("crosses", .array sCross)] ["name"]
/-- `#/defs/covergroupType`, `schema/coverage.json:20-41`. -/
def sCg : JSchema := .object [("name", .string), ("weight", .integer), ("instances", .array sInst)] ["name"]
/-- `schema/coverage.json:1-18`. -/
def sDoc : JSchema := .object [("coverage", .object [("covergroups", .array sCg)] [])] []

/-! ## Typed view -/

/-- Object of `coverBinType`. -/
structure YBin where
  name : String
  count : Int
  deriving DecidableEq, Repr

/-- Object of `coverpointType`; `bins` is required, the other lists may be missing. -/
structure YCp where
  name : String
  atleast : Option Int
  bins : List YBin
  ignorebins : Option (List YBin)
  illegalbins : Option (List YBin)
  deriving DecidableEq, Repr

/-- Object of `crossType`; `coverpoints` is required, so the check `yaml_reader.py:188-190` never
fires on a validated document. -/
structure YCross where
  name : String
  atleast : Option Int
  coverpoints : List String
  bins : Option (List YBin)
  deriving DecidableEq, Repr

/-- Object of `covergroupInstType`. -/
structure YInst where
  name : String
  coverpoints : Option (List YCp)
  crosses : Option (List YCross)
  deriving DecidableEq, Repr

/-- Object of `covergroupType`. -/
structure YCg where
  name : String
  weight : Option Int
  instances : Option (List YInst)
  deriving DecidableEq, Repr

/-- The document: `coverage` may be missing, and `covergroups` in it. -/
structure YDoc where
  coverage : Option (Option (List YCg))
  deriving DecidableEq, Repr

/-- Access through the wrapper classes of python_jsonschema_objects (`yaml_reader.py:71-72`): an
object of the schema's class has an attribute per schema property, `None` when the key is missing.
Wrappers compare and hash as the values they wrap. Keys unknown to the schema are ignored.
Used on validated documents only, so the fall-back values are never seen
(`decode_encode`, `encode_valid` in `YamlDocThms.lean`). -/
def asStr : Json → String
  | .str s => s
  | _ => ""
def asInt : Json → Int
  | .int z => z
  | _ => 0
def asArr : Json → List Json
  | .arr l => l
  | _ => []
def strOf (j : Json) (k : String) : String := ((j.prop k).map asStr).getD ""
def intOf (j : Json) (k : String) : Option Int := (j.prop k).map asInt
def arrOf (j : Json) (k : String) : Option (List Json) := (j.prop k).map asArr

def decBin (j : Json) : YBin := ⟨strOf j "name", (intOf j "count").getD 0⟩
def decCp (j : Json) : YCp :=
  ⟨strOf j "name", intOf j "atleast", ((arrOf j "bins").getD []).map decBin, (arrOf j "ignorebins").map (·.map decBin),
    (arrOf j "illegalbins").map (·.map decBin)⟩
def decCross (j : Json) : YCross :=
  ⟨strOf j "name", intOf j "atleast", ((arrOf j "coverpoints").getD []).map asStr, (arrOf j "bins").map (·.map decBin)⟩
def decInst (j : Json) : YInst :=
  ⟨strOf j "name", (arrOf j "coverpoints").map (·.map decCp), (arrOf j "crosses").map (·.map decCross)⟩
def decCg (j : Json) : YCg := ⟨strOf j "name", intOf j "weight", (arrOf j "instances").map (·.map decInst)⟩
def decDoc (j : Json) : YDoc := ⟨(j.prop "coverage").map (fun c => (arrOf c "covergroups").map (·.map decCg))⟩

end Yaml
end Verif
