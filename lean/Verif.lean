import Verif.Model.FileId
import Verif.Lemmas.Digits
import Verif.Lemmas.Text
import Verif.Props.Text
import Verif.Props.Time
import Verif.Lemmas.Bytes
import Verif.Props.Readers
import Verif.Lemmas.Identify
import Verif.Props.Identify
import Verif.Spec.Described
import Verif.Props.Described
import Verif.Lemmas.Reader
import Verif.Props.Output
import Verif.Model.Tables
import Verif.Model.Exec
import Verif.Model.Media
import Verif.Model.OfficeVersions
import Verif.Model.Dispatch
import Verif.Spec.Formats
import Verif.Lemmas.Formats
import Verif.Props.Exec
import Verif.Props.Media
import Verif.Props.Office
import Verif.Model.Zip
import Verif.Spec.Zip
import Verif.Lemmas.Zip
import Verif.Props.Zip
import Verif.Model.Pole
import Verif.Spec.Cfb
import Verif.Lemmas.Pole
import Verif.Props.Pole
import Verif.Lemmas.PoleOpen
import Verif.Props.PoleOpen
import Verif.Props.PoleSample
import Verif.Spec.CfbCut
import Verif.Props.PoleCut
import Verif.Props.PoleCutRead
import Verif.Props.RecordsLinks
import Verif.Lemmas.PoleQuickOpen
import Verif.Model.Random
import Verif.Props.Random
import Verif.Spec.CfbMeta
import Verif.Lemmas.PoleMeta
import Verif.Props.PoleMeta
import Verif.Lemmas.PoleDir
import Verif.Props.PoleDir
import Verif.Model.ExcelTables
import Verif.Model.Excel
import Verif.Model.ExcelRecords
import Verif.Model.ExcelEngine
import Verif.Spec.Excel
import Verif.Lemmas.Excel
import Verif.Props.Excel
import Verif.Spec.Functions
import Verif.Spec.Formula
import Verif.Lemmas.Formula
import Verif.Props.Formula
import Verif.Lemmas.Read
import Verif.Model.Vba
import Verif.Spec.Vba
import Verif.Lemmas.Vba
import Verif.Props.Vba
import Verif.Model.Propset
import Verif.Spec.Propset
import Verif.Lemmas.Propset
import Verif.Props.Propset
import Verif.Model.VbaProject
import Verif.Model.Oless
import Verif.Spec.Oless
import Verif.Lemmas.Oless
import Verif.Lemmas.OlessStream
import Verif.Lemmas.OlessGuess
import Verif.Props.Oless
import Verif.Props.OlessReport
import Verif.Props.OlessSample
import Verif.Props.OlessImages
import Verif.Props.OlessSampleFalse
import Verif.Props.OlessStreams
import Verif.Spec.VbaProject
import Verif.Lemmas.VbaProject
import Verif.Lemmas.VbaProjectEnd
import Verif.Lemmas.VbaSkip
import Verif.Props.VbaProject
import Verif.Props.VbaProjectFalse
import Verif.Props.VbaProjectSample
import Verif.Spec.Asf
import Verif.Model.AsfTable
import Verif.Model.Asf
import Verif.Lemmas.Json
import Verif.Lemmas.Asf
import Verif.Lemmas.AsfShow
import Verif.Lemmas.AsfParse
import Verif.Lemmas.AsfEnd
import Verif.Props.Asf
import Verif.Spec.AsfFramed
import Verif.Props.AsfFramed
import Verif.Spec.AsfWalk
import Verif.Lemmas.AsfWalk
import Verif.Props.AsfWalk
import Verif.Lemmas.AsfFile
import Verif.Props.AsfShown
import Verif.Spec.Workbook
import Verif.Spec.Pass
import Verif.Lemmas.Workbook
import Verif.Lemmas.WorkbookList
import Verif.Lemmas.WorkbookSheets
import Verif.Lemmas.WorkbookPass
import Verif.Lemmas.PassShow
import Verif.Props.Workbook
import Verif.Props.WorkbookSheets
import Verif.Props.WorkbookWhole
import Verif.Props.WorkbookPass
import Verif.Spec.Report
import Verif.Lemmas.Report
import Verif.Lemmas.ReportGuess
import Verif.Lemmas.ReportXml
import Verif.Spec.ReportExcel
import Verif.Spec.ReportVba
import Verif.Lemmas.ReportExcel
import Verif.Lemmas.ReportExcelXml
import Verif.Lemmas.ReportVba
import Verif.Props.Report
import Verif.Lemmas.ReportBad
import Verif.Props.ReportExcel
import Verif.Props.ReportVba
import Verif.Props.ReportSample
import Verif.Model.Program
import Verif.Lemmas.Embed
import Verif.Props.Program
import Verif.Props.ProgramDoc
import Verif.Spec.Records
import Verif.Lemmas.Records
import Verif.Lemmas.RecordsWalk
import Verif.Props.Records
import Verif.Spec.RecordsMore
import Verif.Lemmas.RecordsMore
import Verif.Props.RecordsMore
import Verif.Props.Names
import Verif.Props.NamesTables
import Verif.Spec.Documents
import Verif.Lemmas.Documents
import Verif.Props.Documents
import Verif.Spec.Book
import Verif.Lemmas.Book
import Verif.Props.Book
import Verif.Props.Compound
import Verif.Model.PoleWrite
import Verif.Model.PoleSession
import Verif.Model.PoleStorage
import Verif.Spec.Store
import Verif.Spec.Storage
import Verif.Spec.Session
import Verif.Spec.Directory
import Verif.Spec.Paths
import Verif.Lemmas.PoleWrite
import Verif.Lemmas.PoleStore
import Verif.Lemmas.PoleBytes
import Verif.Lemmas.PoleHolds
import Verif.Lemmas.PoleWrites
import Verif.Lemmas.PoleSession
import Verif.Lemmas.PoleFresh
import Verif.Lemmas.PoleOpenStream
import Verif.Lemmas.PoleInsert
import Verif.Lemmas.PoleLink
import Verif.Lemmas.PoleCreate
import Verif.Lemmas.PolePaths
import Verif.Lemmas.PoleKeep
import Verif.Lemmas.PoleServe
import Verif.Props.PoleWrite
import Verif.Props.PolePaths
import Verif.Spec.Crossing
import Verif.Lemmas.PoleCalm
import Verif.Lemmas.PoleSizes
import Verif.Lemmas.PoleRoom
import Verif.Lemmas.PoleLive
import Verif.Props.PoleCalm
import Verif.Model.PoleDelete
import Verif.Spec.Delete
import Verif.Lemmas.PoleDelete
import Verif.Lemmas.PoleDeletes
import Verif.Props.PoleDelete
import Verif.Spec.OldWorkbook
import Verif.Lemmas.OldWorkbook
import Verif.Props.OldWorkbook
import Verif.Model.PoleFlush
import Verif.Spec.Flush
import Verif.Lemmas.PoleGood
import Verif.Lemmas.PoleReady
import Verif.Lemmas.PoleFlush
import Verif.Lemmas.PoleReopen
import Verif.Lemmas.PoleLoaded
import Verif.Lemmas.PoleAgain
import Verif.Lemmas.PoleQuick
import Verif.Props.PoleFlushSamples
import Verif.Props.PoleFlush
import Verif.Model.PoleGetch
import Verif.Spec.Reading
import Verif.Lemmas.PoleGetch
import Verif.Props.PoleGetch
import Verif.Model.PoleUse
import Verif.Spec.Use
import Verif.Lemmas.PoleUse
import Verif.Lemmas.PoleStorable
import Verif.Props.PoleUseSamples
import Verif.Props.PoleUse
import Verif.Spec.CfbFile
import Verif.Lemmas.PoleCfb
import Verif.Lemmas.PoleEdit
import Verif.Lemmas.PoleValid
import Verif.Props.PoleCfb
import Verif.Props.PoleEditSamples
import Verif.Props.PoleEdit
import Verif.Lemmas.PoleShort
import Verif.Props.PoleShort
import Verif.Props.Columns
import Verif.Model.PoleStats
import Verif.Spec.Stats
import Verif.Props.PoleCalmEdit
import Verif.Lemmas.PoleBare
import Verif.Props.PoleBare
import Verif.Props.PoleStats
import Verif.Model.PoleCollect
import Verif.Spec.Listing
import Verif.Props.PoleCollect
