import Verif.YamlDoc
import Verif.Hist
/-!
# The YAML reader
-/

namespace Verif
namespace Yaml

/-! ## Type-level aggregation: `yaml_reader.py:116-217` -/

/-- One ordinary bin, `yaml_reader.py:138-150`: the first type bin of that name gets the count added,
otherwise a new bin starts at 0 and gets it added. -/
def addBin : List YBin → YBin → List YBin
  | [], b => [⟨b.name, 0 + b.count⟩]
  | t :: r, b => if t.name = b.name then ⟨t.name, t.count + b.count⟩ :: r else t :: addBin r b

/-- One ignore or illegal bin, `yaml_reader.py:152-184`.  The search loop runs over the list
`cp_t.ignorebins` (`illegalbins`) to which nothing is ever added, so a new bin is always appended,
and it is appended to `cp_t.bins`. -/
def addOther (l : List YBin) (b : YBin) : List YBin := l ++ [⟨b.name, 0 + b.count⟩]

/-- One coverpoint of an instance, `yaml_reader.py:126-184`: the type coverpoint is looked up by name;
`bins` is required by the schema, so `cp_t.bins` is a list from the first occurrence on. -/
def typeCp (m : Dict (List YBin)) (cp : YCp) : Dict (List YBin) :=
  let l := (m.get? cp.name).getD []
  let l := cp.bins.foldl addBin l
  let l := (cp.ignorebins.getD []).foldl addOther l
  let l := (cp.illegalbins.getD []).foldl addOther l
  m.set cp.name l

/-- A type cross: crossed names of the first occurrence, and the bins.  `cr_t.bins` is `None` until
the first occurrence has bins (`yaml_reader.py:201-202`); `cr_t_bins_m` maps the names of the bins to
the very objects in that list, both are one dictionary here. -/
structure TCross where
  coverpoints : List String
  bins : Option (Dict Int)

/-- One bin of a cross, `yaml_reader.py:209-217`: appending to `None` raises `AttributeError`. -/
def addCrossBin (bins : Option (Dict Int)) (b : YBin) : Except Err (Option (Dict Int)) :=
  match (bins.getD []).get? b.name with
  | some c => .ok (bins.map (fun d => d.set b.name (c + b.count)))
  | none =>
    match bins with
    | none => .error .attributeError
    | some d => .ok (some (d.set b.name b.count))

/-- One cross of an instance, `yaml_reader.py:187-217`. -/
def typeCross (m : Dict TCross) (cr : YCross) : Except Err (Dict TCross) := do
  let t := (m.get? cr.name).getD ⟨cr.coverpoints, cr.bins.map (fun _ => [])⟩
  let bins ← (cr.bins.getD []).foldlM addCrossBin t.bins
  .ok (m.set cr.name ⟨t.coverpoints, bins⟩)

/-- One instance, `yaml_reader.py:124-217`. -/
def typeInst (st : Dict (List YBin) × Dict TCross) (i : YInst) : Except Err (Dict (List YBin) × Dict TCross) := do
  let cps := (i.coverpoints.getD []).foldl typeCp st.1
  let crs ← (i.crosses.getD []).foldlM typeCross st.2
  .ok (cps, crs)

/-! ## Building scopes -/

/-- `createBin` calls of `record_coverpoint`, `yaml_reader.py:291-319`. -/
def cpItems (atLeast : Int) (bins : List YBin) (ign ill : Option (List YBin)) : List Item :=
  bins.map (fun b => mkBin b.name CT.CVGBIN atLeast b.count)
    ++ (ign.getD []).map (fun b => mkBin b.name CT.IGNOREBIN atLeast b.count)
    ++ (ill.getD []).map (fun b => mkBin b.name CT.ILLEGALBIN atLeast b.count)

/-- `record_coverpoint`, `yaml_reader.py:273-321`: weight 1, threshold `atleast` or 1. -/
def recordCp (cp : YCp) : Scope :=
  mkCoverpoint cp.name SrcInfo.none 1 (cpItems (cp.atleast.getD 1) cp.bins cp.ignorebins cp.illegalbins)

/-- `record_cross`, `yaml_reader.py:323-350`: weight 1, threshold `atleast` or 1, ordinary bins
(`coverpoint.py:44-66`, default kind). -/
def recordCross (cr : YCross) : Scope :=
  mkCross cr.name SrcInfo.none 1 cr.coverpoints ((cr.bins.getD []).map (fun b => mkBin b.name CT.CVGBIN (cr.atleast.getD 1) b.count))

/-- A type coverpoint handed to `record_coverpoint` (`yaml_reader.py:232-233`): no threshold, and
`ignorebins`/`illegalbins` are missing or empty lists. -/
def typeCpObj (e : String × List YBin) : YCp := ⟨e.1, none, e.2, none, none⟩

/-- A type cross handed to `record_cross` (`yaml_reader.py:245`). -/
def typeCrossObj (e : String × TCross) : YCross := ⟨e.1, none, e.2.coverpoints, e.2.bins.map (·.map (fun b => ⟨b.1, b.2⟩))⟩

/-- Looking up the crossed coverpoints, `yaml_reader.py:238-243` and `:264-269`.  The dictionary
`cp_n_scope_m` maps a name to the scope created last under that name; the scope is represented by the
ordinal of the covergroup instance it was created in (the type coverpoints, created in the covergroup
itself, have ordinal 0). -/
def lookupCps (known : Dict Nat) (cr : YCross) : Except Err (List Nat) :=
  cr.coverpoints.mapM (fun n => match known.get? n with
    | some o => .ok o
    | none => .error .userError)

/-- `cp_n_scope_m[str(cp.name)] = ...` for the coverpoints of one parent, `yaml_reader.py:232-233`,
`:256-258`. -/
def register (o : Nat) (known : Dict Nat) (names : List String) : Dict Nat :=
  names.foldl (fun d n => d.set n o) known

/-- A cross is looked up and recorded, `yaml_reader.py:262-271`; the ordinals of the bound coverpoints
are kept beside the scope, where only the names are visible. -/
def resolveCross (known : Dict Nat) (cr : YCross) : Except Err (Scope × List Nat) := do
  let os ← lookupCps known cr
  .ok (recordCross cr, os)

/-- What the second loop creates for one instance: the scope, and for each of its crosses the
ordinals of the instances whose coverpoints it is bound to. -/
structure RInst where
  scope : Scope
  bound : List (List Nat)

/-- One instance of the second loop, `yaml_reader.py:249-271`; `o` is its ordinal.  `known` is
`cp_n_scope_m`, which is created once before the loop. -/
def recordInst (weight : Int) (o : Nat) (known : Dict Nat) (i : YInst) : Except Err (Dict Nat × RInst) := do
  let known := register o known ((i.coverpoints.getD []).map (·.name))
  let crs ← (i.crosses.getD []).mapM (resolveCross known)
  .ok (known, ⟨mkCoverInst i.name SrcInfo.none weight ((i.coverpoints.getD []).map recordCp ++ crs.map (·.1)), crs.map (·.2)⟩)

/-- The second loop, `yaml_reader.py:248-271`. -/
def recordInsts (weight : Int) : Nat → Dict Nat → List YInst → Except Err (List RInst)
  | _, _, [] => .ok []
  | o, known, i :: t => do
    let r ← recordInst weight o known i
    let rest ← recordInsts weight (o + 1) r.1 t
    .ok (r.2 :: rest)

/-- `process_covergroup`, `yaml_reader.py:108-271`, with the bindings of the instance crosses.
Without instances the warning is printed and the second loop then iterates over `None`. -/
def processCg' (cg : YCg) : Except Err (Scope × List (List (List Nat))) := do
  let weight := cg.weight.getD 1
  let st ← (cg.instances.getD []).foldlM typeInst ([], [])
  let cps := st.1.map (fun e => recordCp (typeCpObj e))
  let crs ← (st.2.map typeCrossObj).mapM (resolveCross (register 0 [] st.1.keys))
  match cg.instances with
  | none => .error .typeError
  | some insts =>
    let is ← recordInsts weight 1 [] insts
    .ok (mkCovergroup cg.name SrcInfo.none weight (cps ++ crs.map (·.1) ++ is.map (·.scope)), is.map (·.bound))

/-- The covergroup scope alone. -/
def processCg (cg : YCg) : Except Err Scope := (processCg' cg).map (·.1)

/-- The default design unit, `yaml_reader.py:79-88`. -/
def defaultDu : Scope := mkDu "du" SrcInfo.none 1

/-- The default instance, `yaml_reader.py:90-97`. -/
def defaultInst (cgs : List Scope) : Scope := mkInstance "cg_inst" SrcInfo.none 1 (some ⟨"du", SrcInfo.none, 1⟩) cgs

/-- `load` after validation, `yaml_reader.py:74-105`. A missing `coverage` is `None` and has no
attribute `covergroups`. -/
def loadDoc (doc : YDoc) : Except Err Database :=
  match doc.coverage with
  | none => .error .attributeError
  | some cgs => do
    let scopes ← (cgs.getD []).mapM processCg
    .ok { root := { emptyDb with children := [defaultDu, defaultInst scopes] }, hist := [], files := [] }

/-- `load`, `yaml_reader.py:62-105`: validation (its `ValidationError` is `userError`), then the
typed objects. -/
def load (j : Json) : Except Err Database :=
  if validJ sDoc j then loadDoc (decDoc j) else .error .userError

end Yaml
end Verif
