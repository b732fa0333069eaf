import Verif.Xsd
/-!
# The schema `src/ucis/xml/schema/ucis.xsd`

Transcribed type by type.  Default values of attributes do not matter for validity and are left out.
-/

namespace Verif
namespace Xsd

/-- `ucis.xsd:53-59`, attribute group `binAttributes`. -/
def binAttributes : List AttrDecl :=
  [⟨"alias", .str, false⟩,
   ⟨"coverageCountGoal", .nonNeg, false⟩,
   ⟨"excluded", .bool, false⟩,
   ⟨"excludedReason", .str, false⟩,
   ⟨"weight", .nonNeg, false⟩]

/-- `ucis.xsd:69-74`, attribute group `objAttributes`. -/
def objAttributes : List AttrDecl :=
  [⟨"alias", .str, false⟩,
   ⟨"excluded", .bool, false⟩,
   ⟨"excludedReason", .str, false⟩,
   ⟨"weight", .nonNeg, false⟩]

/-- `ucis.xsd:77-80`, attribute group `metricAttributes`. -/
def metricAttributes : List AttrDecl :=
  [⟨"metricMode", .str, false⟩,
   ⟨"weight", .nonNeg, false⟩]

/-- `ucis.xsd:11-16`, type `NAME_VALUE`. -/
def tNameValue : CType where
  attrs := []
  parts := [[⟨"name", "xsd:string", 1, some 1⟩],
      [⟨"value", "xsd:string", 1, some 1⟩]]
  mixed := false

/-- `ucis.xsd:19-39`, type `USER_ATTR`. -/
def tUserAttr : CType where
  attrs := [⟨"key", .str, true⟩,
      ⟨"type", (.enum ["int", "float", "double", "str", "bits", "int64"]), true⟩,
      ⟨"len", .integer, false⟩]
  parts := []
  mixed := true

/-- `ucis.xsd:42-50`, type `BIN_CONTENTS`. -/
def tBinContents : CType where
  attrs := [⟨"nameComponent", .str, false⟩,
      ⟨"typeComponent", .str, false⟩,
      ⟨"coverageCount", .nonNeg, true⟩]
  parts := [[⟨"historyNodeId", "xsd:nonNegativeInteger", 0, none⟩]]
  mixed := false

/-- `ucis.xsd:61-67`, type `BIN`. -/
def tBin : CType where
  attrs := [] ++ binAttributes
  parts := [[⟨"contents", "BIN_CONTENTS", 1, some 1⟩],
      [⟨"userAttr", "USER_ATTR", 0, none⟩]]
  mixed := false

/-- `ucis.xsd:83-86`, type `SOURCE_FILE`. -/
def tSourceFile : CType where
  attrs := [⟨"fileName", .str, true⟩,
      ⟨"id", .pos, true⟩]
  parts := []
  mixed := false

/-- `ucis.xsd:89-117`, type `HISTORY_NODE`. -/
def tHistoryNode : CType where
  attrs := [⟨"historyNodeId", .nonNeg, true⟩,
      ⟨"parentId", .nonNeg, false⟩,
      ⟨"logicalName", .str, true⟩,
      ⟨"physicalName", .str, false⟩,
      ⟨"kind", .str, false⟩,
      ⟨"testStatus", .bool, true⟩,
      ⟨"simtime", .double, false⟩,
      ⟨"timeunit", .str, false⟩,
      ⟨"runCwd", .str, false⟩,
      ⟨"cpuTime", .double, false⟩,
      ⟨"seed", .str, false⟩,
      ⟨"cmd", .str, false⟩,
      ⟨"args", .str, false⟩,
      ⟨"compulsory", .str, false⟩,
      ⟨"date", .dateTime, true⟩,
      ⟨"userName", .str, false⟩,
      ⟨"cost", .decimal, false⟩,
      ⟨"toolCategory", .str, true⟩,
      ⟨"ucisVersion", .str, true⟩,
      ⟨"vendorId", .str, true⟩,
      ⟨"vendorTool", .str, true⟩,
      ⟨"vendorToolVersion", .str, true⟩,
      ⟨"sameTests", .nonNeg, false⟩,
      ⟨"comment", .str, false⟩]
  parts := [[⟨"userAttr", "USER_ATTR", 0, none⟩]]
  mixed := false

/-- `ucis.xsd:120-124`, type `DIMENSION`. -/
def tDimension : CType where
  attrs := [⟨"left", .integer, true⟩,
      ⟨"right", .integer, true⟩,
      ⟨"downto", .bool, true⟩]
  parts := []
  mixed := false

/-- `ucis.xsd:126-132`, type `TOGGLE`. -/
def tToggle : CType where
  attrs := [⟨"from", .str, true⟩,
      ⟨"to", .str, true⟩]
  parts := [[⟨"bin", "BIN", 1, some 1⟩]]
  mixed := false

/-- `ucis.xsd:135-144`, type `TOGGLE_BIT`. -/
def tToggleBit : CType where
  attrs := [⟨"name", .str, true⟩,
      ⟨"key", .str, true⟩] ++ objAttributes
  parts := [[⟨"index", "xsd:nonNegativeInteger", 0, none⟩],
      [⟨"toggle", "TOGGLE", 1, none⟩],
      [⟨"userAttr", "USER_ATTR", 0, none⟩]]
  mixed := false

/-- `ucis.xsd:147-159`, type `TOGGLE_OBJECT`. -/
def tToggleObject : CType where
  attrs := [⟨"name", .str, true⟩,
      ⟨"key", .str, true⟩,
      ⟨"type", .str, false⟩,
      ⟨"portDirection", .str, false⟩] ++ objAttributes
  parts := [[⟨"dimension", "DIMENSION", 0, none⟩],
      [⟨"id", "STATEMENT_ID", 1, some 1⟩],
      [⟨"toggleBit", "TOGGLE_BIT", 1, none⟩],
      [⟨"userAttr", "USER_ATTR", 0, none⟩]]
  mixed := false

/-- `ucis.xsd:162-167`, type `METRIC_MODE`. -/
def tMetricMode : CType where
  attrs := [⟨"metricMode", .str, true⟩]
  parts := [[⟨"userAttr", "USER_ATTR", 0, none⟩]]
  mixed := false

/-- `ucis.xsd:170-177`, type `TOGGLE_COVERAGE`. -/
def tToggleCoverage : CType where
  attrs := [] ++ metricAttributes
  parts := [[⟨"toggleObject", "TOGGLE_OBJECT", 0, none⟩],
      [⟨"metricMode", "METRIC_MODE", 0, none⟩],
      [⟨"userAttr", "USER_ATTR", 0, none⟩]]
  mixed := false

/-- `ucis.xsd:180-183`, type `LINE_ID`. -/
def tLineId : CType where
  attrs := [⟨"file", .pos, true⟩,
      ⟨"line", .pos, true⟩]
  parts := []
  mixed := false

/-- `ucis.xsd:186-190`, type `STATEMENT_ID`. -/
def tStatementId : CType where
  attrs := [⟨"file", .pos, true⟩,
      ⟨"line", .pos, true⟩,
      ⟨"inlineCount", .pos, true⟩]
  parts := []
  mixed := false

/-- `ucis.xsd:193-200`, type `STATEMENT`. -/
def tStatement : CType where
  attrs := [] ++ objAttributes
  parts := [[⟨"id", "STATEMENT_ID", 1, some 1⟩],
      [⟨"bin", "BIN", 1, some 1⟩],
      [⟨"userAttr", "USER_ATTR", 0, none⟩]]
  mixed := false

/-- `ucis.xsd:203-213`, type `BLOCK`. -/
def tBlock : CType where
  attrs := [⟨"parentProcess", .str, false⟩] ++ objAttributes
  parts := [[⟨"statementId", "STATEMENT_ID", 0, none⟩],
      [⟨"hierarchicalBlock", "BLOCK", 0, none⟩],
      [⟨"blockBin", "BIN", 1, some 1⟩],
      [⟨"blockId", "STATEMENT_ID", 1, some 1⟩],
      [⟨"userAttr", "USER_ATTR", 0, none⟩]]
  mixed := false

/-- `ucis.xsd:216-226`, type `PROCESS_BLOCK`. -/
def tProcessBlock : CType where
  attrs := [⟨"processType", .str, true⟩] ++ objAttributes
  parts := [[⟨"block", "BLOCK", 0, none⟩],
      [⟨"userAttr", "USER_ATTR", 0, none⟩]]
  mixed := false

/-- `ucis.xsd:228-238`, type `BLOCK_COVERAGE`. -/
def tBlockCoverage : CType where
  attrs := [] ++ metricAttributes
  parts := [[⟨"process", "PROCESS_BLOCK", 1, none⟩, ⟨"block", "BLOCK", 1, none⟩, ⟨"statement", "STATEMENT", 1, none⟩],
      [⟨"userAttr", "USER_ATTR", 0, none⟩]]
  mixed := false

/-- `ucis.xsd:241-256`, type `EXPR`. -/
def tExpr : CType where
  attrs := [⟨"name", .str, true⟩,
      ⟨"key", .str, true⟩,
      ⟨"exprString", .str, true⟩,
      ⟨"index", .nonNeg, true⟩,
      ⟨"width", .nonNeg, true⟩,
      ⟨"statementType", .str, false⟩] ++ objAttributes
  parts := [[⟨"id", "STATEMENT_ID", 1, some 1⟩],
      [⟨"subExpr", "xsd:string", 1, none⟩],
      [⟨"bin", "BIN", 1, none⟩],
      [⟨"hierarchicalExpr", "EXPR", 0, none⟩],
      [⟨"userAttr", "USER_ATTR", 0, none⟩]]
  mixed := false

/-- `ucis.xsd:259-265`, type `CONDITION_COVERAGE`. -/
def tConditionCoverage : CType where
  attrs := [] ++ metricAttributes
  parts := [[⟨"expr", "EXPR", 0, none⟩],
      [⟨"userAttr", "USER_ATTR", 0, none⟩]]
  mixed := false

/-- `ucis.xsd:268-275`, type `BRANCH`. -/
def tBranch : CType where
  attrs := []
  parts := [[⟨"id", "STATEMENT_ID", 1, some 1⟩],
      [⟨"nestedBranch", "BRANCH_STATEMENT", 0, none⟩],
      [⟨"branchBin", "BIN", 1, some 1⟩],
      [⟨"userAttr", "USER_ATTR", 0, none⟩]]
  mixed := false

/-- `ucis.xsd:278-289`, type `BRANCH_STATEMENT`. -/
def tBranchStatement : CType where
  attrs := [⟨"branchExpr", .str, false⟩,
      ⟨"statementType", .str, true⟩] ++ objAttributes
  parts := [[⟨"id", "STATEMENT_ID", 1, some 1⟩],
      [⟨"branch", "BRANCH", 0, none⟩],
      [⟨"userAttr", "USER_ATTR", 0, none⟩]]
  mixed := false

/-- `ucis.xsd:291-299`, type `BRANCH_COVERAGE`. -/
def tBranchCoverage : CType where
  attrs := [] ++ metricAttributes
  parts := [[⟨"statement", "BRANCH_STATEMENT", 0, none⟩],
      [⟨"userAttr", "USER_ATTR", 0, none⟩]]
  mixed := false

/-- `ucis.xsd:301-309`, type `FSM_STATE`. -/
def tFsmState : CType where
  attrs := [⟨"stateName", .str, false⟩,
      ⟨"stateValue", .str, false⟩]
  parts := [[⟨"stateBin", "BIN", 1, some 1⟩],
      [⟨"userAttr", "USER_ATTR", 0, none⟩]]
  mixed := false

/-- `ucis.xsd:311-319`, type `FSM_TRANSITION`. -/
def tFsmTransition : CType where
  attrs := []
  parts := [[⟨"state", "xsd:string", 2, none⟩],
      [⟨"transitionBin", "BIN", 1, some 1⟩],
      [⟨"userAttr", "USER_ATTR", 0, none⟩]]
  mixed := false

/-- `ucis.xsd:321-334`, type `FSM`. -/
def tFsm : CType where
  attrs := [⟨"name", .str, false⟩,
      ⟨"type", .str, false⟩,
      ⟨"width", .pos, false⟩] ++ objAttributes
  parts := [[⟨"state", "FSM_STATE", 0, none⟩],
      [⟨"stateTransition", "FSM_TRANSITION", 0, none⟩],
      [⟨"userAttr", "USER_ATTR", 0, none⟩]]
  mixed := false

/-- `ucis.xsd:336-344`, type `FSM_COVERAGE`. -/
def tFsmCoverage : CType where
  attrs := [] ++ metricAttributes
  parts := [[⟨"fsm", "FSM", 0, none⟩],
      [⟨"userAttr", "USER_ATTR", 0, none⟩]]
  mixed := false

/-- `ucis.xsd:346-371`, type `ASSERTION`. -/
def tAssertion : CType where
  attrs := [⟨"name", .str, true⟩,
      ⟨"assertionKind", .str, true⟩] ++ objAttributes
  parts := [[⟨"coverBin", "BIN", 0, some 1⟩],
      [⟨"passBin", "BIN", 0, some 1⟩],
      [⟨"failBin", "BIN", 0, some 1⟩],
      [⟨"vacuousBin", "BIN", 0, some 1⟩],
      [⟨"disabledBin", "BIN", 0, some 1⟩],
      [⟨"attemptBin", "BIN", 0, some 1⟩],
      [⟨"activeBin", "BIN", 0, some 1⟩],
      [⟨"peakActiveBin", "BIN", 0, some 1⟩],
      [⟨"userAttr", "USER_ATTR", 0, none⟩]]
  mixed := false

/-- `ucis.xsd:373-381`, type `ASSERTION_COVERAGE`. -/
def tAssertionCoverage : CType where
  attrs := [] ++ metricAttributes
  parts := [[⟨"assertion", "ASSERTION", 0, none⟩],
      [⟨"userAttr", "USER_ATTR", 0, none⟩]]
  mixed := false

/-- `ucis.xsd:383-389`, type `SEQUENCE`. -/
def tSequence : CType where
  attrs := []
  parts := [[⟨"contents", "BIN_CONTENTS", 1, some 1⟩],
      [⟨"seqValue", "xsd:integer", 1, none⟩]]
  mixed := false

/-- `ucis.xsd:392-398`, type `RANGE_VALUE`. -/
def tRangeValue : CType where
  attrs := [⟨"from", .integer, true⟩,
      ⟨"to", .integer, true⟩]
  parts := [[⟨"contents", "BIN_CONTENTS", 1, some 1⟩]]
  mixed := false

/-- `ucis.xsd:401-430`, type `COVERPOINT_BIN`. -/
def tCoverpointBin : CType where
  attrs := [⟨"alias", .str, false⟩,
      ⟨"type", (.enum ["bins", "default", "ignore", "illegal"]), true⟩,
      ⟨"name", .str, true⟩,
      ⟨"key", .str, true⟩]
  parts := [[⟨"range", "RANGE_VALUE", 1, none⟩, ⟨"sequence", "SEQUENCE", 1, none⟩],
      [⟨"userAttr", "USER_ATTR", 0, none⟩]]
  mixed := false

/-- `ucis.xsd:433-445`, type `CROSS_BIN`. -/
def tCrossBin : CType where
  attrs := [⟨"type", .str, false⟩,
      ⟨"alias", .str, false⟩,
      ⟨"name", .str, true⟩,
      ⟨"key", .str, true⟩]
  parts := [[⟨"index", "xsd:integer", 1, none⟩],
      [⟨"contents", "BIN_CONTENTS", 1, some 1⟩],
      [⟨"userAttr", "USER_ATTR", 0, none⟩]]
  mixed := false

/-- `ucis.xsd:448-455`, type `CROSS_OPTIONS`. -/
def tCrossOptions : CType where
  attrs := [⟨"weight", .nonNeg, false⟩,
      ⟨"goal", .nonNeg, false⟩,
      ⟨"comment", .str, false⟩,
      ⟨"at_least", .nonNeg, false⟩,
      ⟨"cross_num_print_missing", .nonNeg, false⟩]
  parts := []
  mixed := false

/-- `ucis.xsd:457-472`, type `CROSS`. -/
def tCross : CType where
  attrs := [⟨"name", .str, true⟩,
      ⟨"key", .str, true⟩,
      ⟨"alias", .str, false⟩]
  parts := [[⟨"options", "CROSS_OPTIONS", 1, some 1⟩],
      [⟨"crossExpr", "xsd:string", 0, none⟩],
      [⟨"crossBin", "CROSS_BIN", 0, none⟩],
      [⟨"userAttr", "USER_ATTR", 0, none⟩]]
  mixed := false

/-- `ucis.xsd:474-481`, type `COVERPOINT_OPTIONS`. -/
def tCoverpointOptions : CType where
  attrs := [⟨"weight", .nonNeg, false⟩,
      ⟨"goal", .nonNeg, false⟩,
      ⟨"comment", .str, false⟩,
      ⟨"at_least", .nonNeg, false⟩,
      ⟨"detect_overlap", .bool, false⟩,
      ⟨"auto_bin_max", .nonNeg, false⟩]
  parts := []
  mixed := false

/-- `ucis.xsd:483-495`, type `COVERPOINT`. -/
def tCoverpoint : CType where
  attrs := [⟨"name", .str, true⟩,
      ⟨"key", .str, true⟩,
      ⟨"alias", .str, false⟩,
      ⟨"exprString", .str, false⟩]
  parts := [[⟨"options", "COVERPOINT_OPTIONS", 1, some 1⟩],
      [⟨"coverpointBin", "COVERPOINT_BIN", 1, none⟩],
      [⟨"userAttr", "USER_ATTR", 0, none⟩]]
  mixed := false

/-- `ucis.xsd:497-504`, type `CG_ID`. -/
def tCgId : CType where
  attrs := [⟨"cgName", .str, true⟩,
      ⟨"moduleName", .str, true⟩]
  parts := [[⟨"cginstSourceId", "STATEMENT_ID", 1, some 1⟩],
      [⟨"cgSourceId", "STATEMENT_ID", 1, some 1⟩]]
  mixed := false

/-- `ucis.xsd:506-517`, type `CGINST_OPTIONS`. -/
def tCginstOptions : CType where
  attrs := [⟨"weight", .nonNeg, false⟩,
      ⟨"goal", .nonNeg, false⟩,
      ⟨"comment", .str, false⟩,
      ⟨"at_least", .nonNeg, false⟩,
      ⟨"detect_overlap", .bool, false⟩,
      ⟨"auto_bin_max", .nonNeg, false⟩,
      ⟨"cross_num_print_missing", .nonNeg, false⟩,
      ⟨"per_instance", .bool, false⟩,
      ⟨"merge_instances", .bool, false⟩]
  parts := []
  mixed := false

/-- `ucis.xsd:519-539`, type `CGINSTANCE`. -/
def tCginstance : CType where
  attrs := [⟨"name", .str, true⟩,
      ⟨"key", .str, true⟩,
      ⟨"alias", .str, false⟩,
      ⟨"excluded", .bool, false⟩,
      ⟨"excludedReason", .str, false⟩]
  parts := [[⟨"options", "CGINST_OPTIONS", 1, some 1⟩],
      [⟨"cgId", "CG_ID", 1, some 1⟩],
      [⟨"cgParms", "NAME_VALUE", 0, none⟩],
      [⟨"coverpoint", "COVERPOINT", 1, none⟩],
      [⟨"cross", "CROSS", 0, none⟩],
      [⟨"userAttr", "USER_ATTR", 0, none⟩]]
  mixed := false

/-- `ucis.xsd:541-549`, type `COVERGROUP_COVERAGE`. -/
def tCovergroupCoverage : CType where
  attrs := [] ++ metricAttributes
  parts := [[⟨"cgInstance", "CGINSTANCE", 0, none⟩],
      [⟨"userAttr", "USER_ATTR", 0, none⟩]]
  mixed := false

/-- `ucis.xsd:551-579`, type `INSTANCE_COVERAGE`. -/
def tInstanceCoverage : CType where
  attrs := [⟨"name", .str, true⟩,
      ⟨"key", .str, true⟩,
      ⟨"instanceId", .integer, false⟩,
      ⟨"alias", .str, false⟩,
      ⟨"moduleName", .str, false⟩,
      ⟨"parentInstanceId", .integer, false⟩]
  parts := [[⟨"designParameter", "NAME_VALUE", 0, none⟩],
      [⟨"id", "STATEMENT_ID", 1, some 1⟩],
      [⟨"toggleCoverage", "TOGGLE_COVERAGE", 0, none⟩],
      [⟨"blockCoverage", "BLOCK_COVERAGE", 0, none⟩],
      [⟨"conditionCoverage", "CONDITION_COVERAGE", 0, none⟩],
      [⟨"branchCoverage", "BRANCH_COVERAGE", 0, none⟩],
      [⟨"fsmCoverage", "FSM_COVERAGE", 0, none⟩],
      [⟨"assertionCoverage", "ASSERTION_COVERAGE", 0, none⟩],
      [⟨"covergroupCoverage", "COVERGROUP_COVERAGE", 0, none⟩],
      [⟨"userAttr", "USER_ATTR", 0, none⟩]]
  mixed := false

/-- `ucis.xsd:583-595`, type `UCIS`. -/
def tUcis : CType where
  attrs := [⟨"ucisVersion", .str, true⟩,
      ⟨"writtenBy", .str, true⟩,
      ⟨"writtenTime", .dateTime, true⟩]
  parts := [[⟨"sourceFiles", "SOURCE_FILE", 1, none⟩],
      [⟨"historyNodes", "HISTORY_NODE", 1, none⟩],
      [⟨"instanceCoverages", "INSTANCE_COVERAGE", 1, none⟩]]
  mixed := false

/-- `ucis.xsd`: all types; the only global element is `UCIS` with an anonymous type, here under the
name of the element. -/
def ucisXsd : Schema where
  types := [("NAME_VALUE", tNameValue),
    ("USER_ATTR", tUserAttr),
    ("BIN_CONTENTS", tBinContents),
    ("BIN", tBin),
    ("SOURCE_FILE", tSourceFile),
    ("HISTORY_NODE", tHistoryNode),
    ("DIMENSION", tDimension),
    ("TOGGLE", tToggle),
    ("TOGGLE_BIT", tToggleBit),
    ("TOGGLE_OBJECT", tToggleObject),
    ("METRIC_MODE", tMetricMode),
    ("TOGGLE_COVERAGE", tToggleCoverage),
    ("LINE_ID", tLineId),
    ("STATEMENT_ID", tStatementId),
    ("STATEMENT", tStatement),
    ("BLOCK", tBlock),
    ("PROCESS_BLOCK", tProcessBlock),
    ("BLOCK_COVERAGE", tBlockCoverage),
    ("EXPR", tExpr),
    ("CONDITION_COVERAGE", tConditionCoverage),
    ("BRANCH", tBranch),
    ("BRANCH_STATEMENT", tBranchStatement),
    ("BRANCH_COVERAGE", tBranchCoverage),
    ("FSM_STATE", tFsmState),
    ("FSM_TRANSITION", tFsmTransition),
    ("FSM", tFsm),
    ("FSM_COVERAGE", tFsmCoverage),
    ("ASSERTION", tAssertion),
    ("ASSERTION_COVERAGE", tAssertionCoverage),
    ("SEQUENCE", tSequence),
    ("RANGE_VALUE", tRangeValue),
    ("COVERPOINT_BIN", tCoverpointBin),
    ("CROSS_BIN", tCrossBin),
    ("CROSS_OPTIONS", tCrossOptions),
    ("CROSS", tCross),
    ("COVERPOINT_OPTIONS", tCoverpointOptions),
    ("COVERPOINT", tCoverpoint),
    ("CG_ID", tCgId),
    ("CGINST_OPTIONS", tCginstOptions),
    ("CGINSTANCE", tCginstance),
    ("COVERGROUP_COVERAGE", tCovergroupCoverage),
    ("INSTANCE_COVERAGE", tInstanceCoverage),
    ("UCIS", tUcis)]
  root := "UCIS"
  rootType := "UCIS"

end Xsd
end Verif
