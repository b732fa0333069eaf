import Verif.StoreXmlRead
import Verif.Yaml
/-!
# `yaml/yaml_reader.py` on objects

The methods of `YamlReader` once more, as programs on the objects of `Store.lean`: the database, its scopes and bins are made by the
same API calls in the same order.  The objects of the document (`coverage`, and the type-level coverpoints and crosses that the reader
makes of them, `yaml_reader.py:116-217`) are values; they are no objects of the store.  `StoreYamlReadThms.lean` relates the whole to
`Yaml.lean`.
-/

namespace Verif
namespace Store
namespace YamlReader
open Yaml

/-- The `createBin` calls of one list, `yaml_reader.py:291-298`, `:301-308`, `:311-318`, `:342-348`. -/
def makeBins (o : Nat) (atLeast : Int) (kind : Nat) (l : List YBin) : M Unit :=
  each (fun b => do let _ ← createBin o b.name none atLeast b.count kind) l

/-- `record_coverpoint`, `yaml_reader.py:273-321`. -/
def recordCoverpoint (parent : Nat) (cp : YCp) : M Nat := do
  let o ← createCoverpoint parent cp.name none 1 srcOTHER
  makeBins o (cp.atleast.getD 1) CT.CVGBIN cp.bins
  makeBins o (cp.atleast.getD 1) CT.IGNOREBIN (cp.ignorebins.getD [])
  makeBins o (cp.atleast.getD 1) CT.ILLEGALBIN (cp.illegalbins.getD [])
  pure o

/-- `record_cross`, `yaml_reader.py:323-350`; the kind is the default of `createBin` (`coverpoint.py:51`). -/
def recordCross (parent : Nat) (cpL : List Nat) (cr : YCross) : M Nat := do
  let o ← createCross parent cr.name none 1 srcOTHER cpL
  makeBins o (cr.atleast.getD 1) CT.CVGBIN (cr.bins.getD [])
  pure o

/-- The coverpoints of one parent, entered in `cp_n_scope_m`, `yaml_reader.py:232-233`, `:256-258`. -/
def recordCoverpoints (parent : Nat) (known : Dict Nat) (l : List YCp) : M (Dict Nat) :=
  l.foldlM (fun known cp => do
    let o ← recordCoverpoint parent cp
    pure (known.set cp.name o)) known

/-- The list of crossed coverpoints, `yaml_reader.py:236-243`, `:262-269`. -/
def lookup (known : Dict Nat) (cr : YCross) : M (List Nat) :=
  cr.coverpoints.mapM (fun n =>
    match known.get? n with
    | some q => pure q
    | none => fail .userError)

/-- The crosses of one parent, `yaml_reader.py:235-245`, `:260-271`. -/
def recordCrosses (parent : Nat) (known : Dict Nat) (l : List YCross) : M Unit :=
  each (fun cr => do
    let cpL ← lookup known cr
    let _ ← recordCross parent cpL cr) l

/-- One instance of the second loop, `yaml_reader.py:249-271`; `cp_n_scope_m` is created once before the loop. -/
def recordInst (cg : Nat) (weight : Int) (known : Dict Nat) (i : YInst) : M (Dict Nat) := do
  let o ← createCoverInstance cg i.name none weight srcOTHER
  let known ← recordCoverpoints o known (i.coverpoints.getD [])
  recordCrosses o known (i.crosses.getD [])
  pure known

/-- `process_covergroup`, `yaml_reader.py:108-271`; `inst` is `cg_default_inst`. -/
def processCovergroup (inst : Nat) (cg : YCg) : M Unit := do
  let weight := cg.weight.getD 1
  let st ← lift ((cg.instances.getD []).foldlM typeInst ([], []))
  let o ← createCovergroup inst cg.name none weight srcOTHER
  let known ← recordCoverpoints o [] (st.1.map typeCpObj)
  recordCrosses o known (st.2.map typeCrossObj)
  match cg.instances with
  | none => fail .typeError
  | some insts => do
    let _ ← insts.foldlM (recordInst o weight) []
    pure ()

/-- `load` after validation, `yaml_reader.py:74-105`. -/
def loadDoc (doc : YDoc) : M Nat := do
  let db ← newDb
  let du ← createScope db "du" none 1 srcOTHER ST.DU_MODULE DbMerger.duFlags
  let inst ← createInstance db "cg_inst" none 1 srcOTHER ST.INSTANCE (some du) DbMerger.instFlags
  match doc.coverage with
  | none => fail .attributeError
  | some cgs => do
    each (processCovergroup inst) (cgs.getD [])
    pure db

/-- `load`, `yaml_reader.py:62-105`: validation first, its `ValidationError` is `userError`. -/
def load (j : Json) : M Nat :=
  if validJ sDoc j then loadDoc (decDoc j) else fail .userError

end YamlReader
end Store
end Verif
