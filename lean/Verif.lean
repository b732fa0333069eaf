import Verif.Py
import Verif.Db
import Verif.Merge
import Verif.FirstSeen
import Verif.Assoc
import Verif.MergeClosed
import Verif.MergeSpec
import Verif.MergeReach
import Verif.MergeAssoc
import Verif.MergeThms
import Verif.MergeThms2
import Verif.Report
import Verif.ReportSpec
import Verif.ReportClosed
import Verif.ReportThms
import Verif.ReportThms2
import Verif.ReportThms3
import Verif.PyNum
import Verif.Format
import Verif.FormatSpec
import Verif.FormatThms
import Verif.FormatThms2
import Verif.MergeThms3
import Verif.DateTime
import Verif.Hist
import Verif.XmlTree
import Verif.XmlWrite
import Verif.XmlRead
import Verif.ExceptLemmas
import Verif.XmlReadClosed
import Verif.XmlSpec
import Verif.XmlWriteClosed
import Verif.XmlRound
import Verif.XmlThms
import Verif.XmlThms2
import Verif.XmlThms3
import Verif.XmlDocSpec
import Verif.XmlThms4
import Verif.XmlThms5
import Verif.Xsd
import Verif.UcisXsd
import Verif.XsdThms
import Verif.XmlFactory
import Verif.XsdThms2
import Verif.YamlDoc
import Verif.Yaml
import Verif.YamlSpec
import Verif.YamlDocThms
import Verif.YamlClosed
import Verif.YamlThms
import Verif.YamlThms2
import Verif.YamlThms3
import Verif.MergeDb
import Verif.Store
import Verif.StoreLemmas
import Verif.StoreEffects
import Verif.StoreEvolve
import Verif.StoreDelta
import Verif.StoreInv
import Verif.StoreSpec
import Verif.StoreThms
import Verif.StoreThms2
import Verif.StoreFrame
import Verif.StoreMerge
import Verif.StoreView
import Verif.StoreMergeRel
import Verif.StoreMergeOut
import Verif.StoreMergeThms
import Verif.StoreSolid
import Verif.StoreMergeMain
import Verif.StoreReport
import Verif.StoreReportThms
import Verif.StoreXmlWrite
import Verif.StoreXmlWriteThms
import Verif.StoreXmlRead
import Verif.StoreXmlReadOut
import Verif.StoreXmlReadCg
import Verif.StoreXmlReadCr
import Verif.StoreXmlReadGroup
import Verif.StoreXmlReadTop
import Verif.StoreXmlReadThms
import Verif.StoreYamlRead
import Verif.StoreYamlReadThms
import Verif.StoreYamlReadMain
import Verif.StoreSession
import Verif.Tools
import Verif.ToolsSpec
import Verif.ToolsThms
import Verif.ToolsThms2
import Verif.Pipeline
import Verif.XmlText
import Verif.XmlTextThms
import Verif.XmlLayout
import Verif.PipelineThms
import Verif.MergeXml
import Verif.MergeXml2
import Verif.MergeXmlThms
import Verif.MergeTypes
import Verif.MergeTypes2
import Verif.MergeTypes3
import Verif.PipeMerge
import Verif.PipeReport
import Verif.Binary64
import Verif.Accuracy
import Verif.AccuracyXml
import Verif.Lib
import Verif.LibThms
import Verif.LibUse
import Verif.MergeSingle
import Verif.MergedForm
import Verif.XmlTrip
import Verif.UnitTests
import Verif.YamlXml
import Verif.PipeYaml
import Verif.StoreEdit
import Verif.StoreBuild
import Verif.Proc
import Verif.MergeStages
import Verif.PipeStages
import Verif.JsonSchema
import Verif.XmlUsed
import Verif.XmlConv
import Verif.XmlFigures
import Verif.MergedDoc
import Verif.YamlFigures
import Verif.YamlMerged
import Verif.Cli
import Verif.CliThms
import Verif.Session
import Verif.Commands
import Verif.UnionCov
import Verif.MoreFiles
import Verif.MoreReports
import Verif.Zone
import Verif.FirstError
import Verif.YamlErrors
import Verif.MergeLeft
import Verif.StoreMergeLeft
import Verif.MergeTogether
import Verif.MergeSeen
import Verif.MergeHits
import Verif.Notice
import Verif.ValidErrors
import Verif.LibSave
import Verif.ReportDir
import Verif.DateForms
import Verif.XsdDates
import Verif.XsdSpec
import Verif.CommandErrors
import Verif.HistKinds
import Verif.YamlMerge
import Verif.XsdFile
import Verif.SchemaFiles
import Verif.TextTrip
import Verif.JsonText
import Verif.JsonTextThms
import Verif.TextRead
import Verif.FileHits
import Verif.MergeOrder
import Verif.LibRead
import Verif.StoreIter
import Verif.SessionJson
import Verif.StoreDefaults
import Verif.Authors
import Verif.BinFlags
import Verif.FormatOptions
import Verif.Locations
import Verif.Weights
import Verif.ToldApart
import Verif.ReportNeeds
import Verif.CliNumbers
