import Verif.Base

/-!
# The names of the numbers in a workbook

The tables have gaps: the names stand in runs of successive numbers.

Where they come from: [MS-XLS], the published format, was not at hand. The rows were taken by a script from the source of
the program (`helper.hpp`, `Record.hpp`) and then looked over; nothing was found that differs from the format as
remembered. So these tables fix what the program's tables must be, but they are no independent evidence that the
program's names are those of the format. The numbers of the sections say where the format has the table.
-/

namespace Fileid.Spec

/-- The names with their numbers. Given are the number of the first name of each run, and the names of the run. -/
def numbered (runs : List (Nat × List Bytes)) : List (Nat × Bytes) :=
  runs.flatMap fun run => run.2.zipIdx.map fun f => (run.1 + f.2, f.1)

/-- 2.5.198.17 `Ftab`: the functions. -/
def functionNames : List (Nat × Bytes) := numbered [
  (0x0000, [
    b!"COUNT", b!"IF", b!"ISNA", b!"ISERROR", b!"SUM", b!"AVERAGE", b!"MIN", b!"MAX", b!"ROW", b!"COLUMN", b!"NA", b!"NPV",
    b!"STDEV", b!"DOLLAR", b!"FIXED", b!"SIN", b!"COS", b!"TAN", b!"ATAN", b!"PI", b!"SQRT", b!"EXP", b!"LN", b!"LOG10",
    b!"ABS", b!"INT", b!"SIGN", b!"ROUND", b!"LOOKUP", b!"INDEX", b!"REPT", b!"MID", b!"LEN", b!"VALUE", b!"TRUE", b!"FALSE",
    b!"AND", b!"OR", b!"NOT", b!"MOD", b!"DCOUNT", b!"DSUM", b!"DAVERAGE", b!"DMIN", b!"DMAX", b!"DSTDEV", b!"VAR", b!"DVAR",
    b!"TEXT", b!"LINEST", b!"TREND", b!"LOGEST", b!"GROWTH", b!"GOTO", b!"HALT", b!"RETURN", b!"PV", b!"FV", b!"NPER",
    b!"PMT", b!"RATE", b!"MIRR", b!"IRR", b!"RAND", b!"MATCH", b!"DATE", b!"TIME", b!"DAY", b!"MONTH", b!"YEAR", b!"WEEKDAY",
    b!"HOUR", b!"MINUTE", b!"SECOND", b!"NOW", b!"AREAS", b!"ROWS", b!"COLUMNS", b!"OFFSET", b!"ABSREF", b!"RELREF",
    b!"ARGUMENT", b!"SEARCH", b!"TRANSPOSE", b!"ERROR", b!"STEP", b!"TYPE", b!"ECHO", b!"SET.NAME", b!"CALLER", b!"DEREF",
    b!"WINDOWS", b!"SERIES", b!"DOCUMENTS", b!"ACTIVE.CELL", b!"SELECTION", b!"RESULT", b!"ATAN2", b!"ASIN", b!"ACOS",
    b!"CHOOSE", b!"HLOOKUP", b!"VLOOKUP", b!"LINKS", b!"INPUT", b!"ISREF", b!"GET.FORMULA", b!"GET.NAME", b!"SET.VALUE",
    b!"LOG", b!"EXEC", b!"CHAR", b!"LOWER", b!"UPPER", b!"PROPER", b!"LEFT", b!"RIGHT", b!"EXACT", b!"TRIM", b!"REPLACE",
    b!"SUBSTITUTE", b!"CODE", b!"NAMES", b!"DIRECTORY", b!"FIND", b!"CELL", b!"ISERR", b!"ISTEXT", b!"ISNUMBER", b!"ISBLANK",
    b!"T", b!"N", b!"FOPEN", b!"FCLOSE", b!"FSIZE", b!"FREADLN", b!"FREAD", b!"FWRITELN", b!"FWRITE", b!"FPOS", b!"DATEVALUE",
    b!"TIMEVALUE", b!"SLN", b!"SYD", b!"DDB", b!"GET.DEF", b!"REFTEXT", b!"TEXTREF", b!"INDIRECT", b!"REGISTER", b!"CALL",
    b!"ADD.BAR", b!"ADD.MENU", b!"ADD.COMMAND", b!"ENABLE.COMMAND", b!"CHECK.COMMAND", b!"RENAME.COMMAND", b!"SHOW.BAR",
    b!"DELETE.MENU", b!"DELETE.COMMAND", b!"GET.CHART.ITEM", b!"DIALOG.BOX", b!"CLEAN", b!"MDETERM", b!"MINVERSE", b!"MMULT",
    b!"FILES", b!"IPMT", b!"PPMT", b!"COUNTA", b!"CANCEL.KEY", b!"FOR", b!"WHILE", b!"BREAK", b!"NEXT", b!"INITIATE",
    b!"REQUEST", b!"POKE", b!"EXECUTE", b!"TERMINATE", b!"RESTART", b!"HELP", b!"GET.BAR", b!"PRODUCT", b!"FACT",
    b!"GET.CELL", b!"GET.WORKSPACE", b!"GET.WINDOW", b!"GET.DOCUMENT", b!"DPRODUCT", b!"ISNONTEXT", b!"GET.NOTE", b!"NOTE",
    b!"STDEVP", b!"VARP", b!"DSTDEVP", b!"DVARP", b!"TRUNC", b!"ISLOGICAL", b!"DCOUNTA", b!"DELETE.BAR", b!"UNREGISTER"]),
  (0x00CC, [
    b!"USDOLLAR", b!"FINDB", b!"SEARCHB", b!"REPLACEB", b!"LEFTB", b!"RIGHTB", b!"MIDB", b!"LENB", b!"ROUNDUP", b!"ROUNDDOWN",
    b!"ASC", b!"DBCS", b!"RANK"]),
  (0x00DB, [
    b!"ADDRESS", b!"DAYS360", b!"TODAY", b!"VDB", b!"ELSE", b!"ELSE.IF", b!"END.IF", b!"FOR.CELL", b!"MEDIAN", b!"SUMPRODUCT",
    b!"SINH", b!"COSH", b!"TANH", b!"ASINH", b!"ACOSH", b!"ATANH", b!"DGET", b!"CREATE.OBJECT", b!"VOLATILE", b!"LAST.ERROR",
    b!"CUSTOM.UNDO", b!"CUSTOM.REPEAT", b!"FORMULA.CONVERT", b!"GET.LINK.INFO", b!"TEXT.BOX", b!"INFO", b!"GROUP",
    b!"GET.OBJECT", b!"DB", b!"PAUSE"]),
  (0x00FB, [
    b!"RESUME", b!"FREQUENCY", b!"ADD.TOOLBAR", b!"DELETE.TOOLBAR", b!"User Defined Function", b!"RESET.TOOLBAR",
    b!"EVALUATE", b!"GET.TOOLBAR", b!"GET.TOOL", b!"SPELLING.CHECK", b!"ERROR.TYPE", b!"APP.TITLE", b!"WINDOW.TITLE",
    b!"SAVE.TOOLBAR", b!"ENABLE.TOOL", b!"PRESS.TOOL", b!"REGISTER.ID", b!"GET.WORKBOOK", b!"AVEDEV", b!"BETADIST",
    b!"GAMMALN", b!"BETAINV", b!"BINOMDIST", b!"CHIDIST", b!"CHIINV", b!"COMBIN", b!"CONFIDENCE", b!"CRITBINOM", b!"EVEN",
    b!"EXPONDIST", b!"FDIST", b!"FINV", b!"FISHER", b!"FISHERINV", b!"FLOOR", b!"GAMMADIST", b!"GAMMAINV", b!"CEILING",
    b!"HYPGEOMDIST", b!"LOGNORMDIST", b!"LOGINV", b!"NEGBINOMDIST", b!"NORMDIST", b!"NORMSDIST", b!"NORMINV", b!"NORMSINV",
    b!"STANDARDIZE", b!"ODD", b!"PERMUT", b!"POISSON", b!"TDIST", b!"WEIBULL", b!"SUMXMY2", b!"SUMX2MY2", b!"SUMX2PY2",
    b!"CHITEST", b!"CORREL", b!"COVAR", b!"FORECAST", b!"FTEST", b!"INTERCEPT", b!"PEARSON", b!"RSQ", b!"STEYX", b!"SLOPE",
    b!"TTEST", b!"PROB", b!"DEVSQ", b!"GEOMEAN", b!"HARMEAN", b!"SUMSQ", b!"KURT", b!"SKEW", b!"ZTEST", b!"LARGE", b!"SMALL",
    b!"QUARTILE", b!"PERCENTILE", b!"PERCENTRANK", b!"MODE", b!"TRIMMEAN", b!"TINV"]),
  (0x014E, [
    b!"MOVIE.COMMAND", b!"GET.MOVIE", b!"CONCATENATE", b!"POWER", b!"PIVOT.ADD.DATA", b!"GET.PIVOT.TABLE",
    b!"GET.PIVOT.FIELD", b!"GET.PIVOT.ITEM", b!"RADIANS", b!"DEGREES", b!"SUBTOTAL", b!"SUMIF", b!"COUNTIF", b!"COUNTBLANK",
    b!"SCENARIO.GET", b!"OPTIONS.LISTS.GET", b!"ISPMT", b!"DATEDIF", b!"DATESTRING", b!"NUMBERSTRING", b!"ROMAN",
    b!"OPEN.DIALOG", b!"SAVE.DIALOG", b!"VIEW.GET", b!"GETPIVOTDATA", b!"HYPERLINK", b!"PHONETIC", b!"AVERAGEA", b!"MAXA",
    b!"MINA", b!"STDEVPA", b!"VARPA", b!"STDEVA", b!"VARA", b!"BAHTTEXT", b!"THAIDAYOFWEEK", b!"THAIDIGIT",
    b!"THAIMONTHOFYEAR", b!"THAINUMSOUND", b!"THAINUMSTRING", b!"THAISTRINGLENGTH", b!"ISTHAIDIGIT", b!"ROUNDBAHTDOWN",
    b!"ROUNDBAHTUP", b!"THAIYEAR", b!"RTD"])]

/-- 2.5.198.4 `Cetab`: the commands. -/
def commandNames : List (Nat × Bytes) := numbered [
  (0x0000, [
    b!"BEEP", b!"OPEN", b!"OPEN.LINKS", b!"CLOSE.ALL", b!"SAVE", b!"SAVE.AS", b!"FILE.DELETE", b!"PAGE.SETUP", b!"PRINT",
    b!"PRINTER.SETUP", b!"QUIT", b!"NEW.WINDOW", b!"ARRANGE.ALL", b!"WINDOW.SIZE", b!"WINDOW.MOVE", b!"FULL", b!"CLOSE",
    b!"RUN"]),
  (0x0016, [
    b!"SET.PRINT.AREA", b!"SET.PRINT.TITLES", b!"SET.PAGE.BREAK", b!"REMOVE.PAGE.BREAK", b!"FONT", b!"DISPLAY",
    b!"PROTECT.DOCUMENT", b!"PRECISION", b!"A1.R1C1", b!"CALCULATE.NOW", b!"CALCULATION"]),
  (0x0022, [
    b!"DATA.FIND", b!"EXTRACT", b!"DATA.DELETE", b!"SET.DATABASE", b!"SET.CRITERIA", b!"SORT", b!"DATA.SERIES", b!"TABLE",
    b!"FORMAT.NUMBER", b!"ALIGNMENT", b!"STYLE", b!"BORDER", b!"CELL.PROTECTION", b!"COLUMN.WIDTH", b!"UNDO", b!"CUT",
    b!"COPY", b!"PASTE", b!"CLEAR", b!"PASTE.SPECIAL", b!"EDIT.DELETE", b!"INSERT", b!"FILL.RIGHT", b!"FILL.DOWN"]),
  (0x003D, [
    b!"DEFINE.NAME", b!"CREATE.NAMES", b!"FORMULA.GOTO", b!"FORMULA.FIND", b!"SELECT.LAST.CELL", b!"SHOW.ACTIVE.CELL",
    b!"GALLERY.AREA", b!"GALLERY.BAR", b!"GALLERY.COLUMN", b!"GALLERY.LINE", b!"GALLERY.PIE", b!"GALLERY.SCATTER",
    b!"COMBINATION", b!"PREFERRED", b!"ADD.OVERLAY", b!"GRIDLINES", b!"SET.PREFERRED", b!"AXES", b!"LEGEND", b!"ATTACH.TEXT",
    b!"ADD.ARROW", b!"SELECT.CHART", b!"SELECT.PLOT.AREA", b!"PATTERNS", b!"MAIN.CHART", b!"OVERLAY", b!"SCALE",
    b!"FORMAT.LEGEND", b!"FORMAT.TEXT", b!"EDIT.REPEAT", b!"PARSE", b!"JUSTIFY", b!"HIDE", b!"UNHIDE", b!"WORKSPACE",
    b!"FORMULA", b!"FORMULA.FILL", b!"FORMULA.ARRAY", b!"DATA.FIND.NEXT", b!"DATA.FIND.PREV", b!"FORMULA.FIND.NEXT",
    b!"FORMULA.FIND.PREV", b!"ACTIVATE", b!"ACTIVATE.NEXT", b!"ACTIVATE.PREV", b!"UNLOCKED.NEXT", b!"UNLOCKED.PREV",
    b!"COPY.PICTURE", b!"SELECT", b!"DELETE.NAME", b!"DELETE.FORMAT", b!"VLINE", b!"HLINE", b!"VPAGE", b!"HPAGE", b!"VSCROLL",
    b!"HSCROLL", b!"ALERT", b!"NEW", b!"CANCEL.COPY", b!"SHOW.CLIPBOARD", b!"MESSAGE"]),
  (0x007C, [
    b!"PASTE.LINK", b!"APP.ACTIVATE", b!"DELETE.ARROW", b!"ROW.HEIGHT", b!"FORMAT.MOVE", b!"FORMAT.SIZE", b!"FORMULA.REPLACE",
    b!"SEND.KEYS", b!"SELECT.SPECIAL", b!"APPLY.NAMES", b!"REPLACE.FONT", b!"FREEZE.PANES", b!"SHOW.INFO", b!"SPLIT",
    b!"ON.WINDOW", b!"ON.DATA", b!"DISABLE.INPUT"]),
  (0x008E, [
    b!"OUTLINE", b!"LIST.NAMES", b!"FILE.CLOSE", b!"SAVE.WORKBOOK", b!"DATA.FORM", b!"COPY.CHART", b!"ON.TIME", b!"WAIT",
    b!"FORMAT.FONT", b!"FILL.UP", b!"FILL.LEFT", b!"DELETE.OVERLAY"]),
  (0x009B, [b!"SHORT.MENUS"]),
  (0x009F, [b!"SET.UPDATE.STATUS"]),
  (0x00A1, [b!"COLOR.PALETTE", b!"DELETE.STYLE", b!"WINDOW.RESTORE", b!"WINDOW.MAXIMIZE"]),
  (0x00A6, [
    b!"CHANGE.LINK", b!"CALCULATE.DOCUMENT", b!"ON.KEY", b!"APP.RESTORE", b!"APP.MOVE", b!"APP.SIZE", b!"APP.MINIMIZE",
    b!"APP.MAXIMIZE", b!"BRING.TO.FRONT", b!"SEND.TO.BACK"]),
  (0x00B9, [
    b!"MAIN.CHART.TYPE", b!"OVERLAY.CHART.TYPE", b!"SELECT.END", b!"OPEN.MAIL", b!"SEND.MAIL", b!"STANDARD.FONT",
    b!"CONSOLIDATE", b!"SORT.SPECIAL", b!"GALLERY.3D.AREA", b!"GALLERY.3D.COLUMN", b!"GALLERY.3D.LINE", b!"GALLERY.3D.PIE",
    b!"VIEW.3D", b!"GOAL.SEEK", b!"WORKGROUP", b!"FILL.GROUP", b!"UPDATE.LINK", b!"PROMOTE", b!"DEMOTE", b!"SHOW.DETAIL"]),
  (0x00CE, [
    b!"UNGROUP", b!"OBJECT.PROPERTIES", b!"SAVE.NEW.OBJECT", b!"SHARE", b!"SHARE.NAME", b!"DUPLICATE", b!"APPLY.STYLE",
    b!"ASSIGN.TO.OBJECT", b!"OBJECT.PROTECTION", b!"HIDE.OBJECT", b!"SET.EXTRACT", b!"CREATE.PUBLISHER", b!"SUBSCRIBE.TO",
    b!"ATTRIBUTES", b!"SHOW.TOOLBAR"]),
  (0x00DE, [
    b!"PRINT.PREVIEW", b!"EDIT.COLOR", b!"SHOW.LEVELS", b!"FORMAT.MAIN", b!"FORMAT.OVERLAY", b!"ON.RECALC", b!"EDIT.SERIES",
    b!"DEFINE.STYLE"]),
  (0x00F0, [b!"LINE.PRINT"]),
  (0x00F3, [b!"ENTER.DATA"]),
  (0x00F9, [
    b!"GALLERY.RADAR", b!"MERGE.STYLES", b!"EDITION.OPTIONS", b!"PASTE.PICTURE", b!"PASTE.PICTURE.LINK", b!"SPELLING"]),
  (0x0100, [b!"ZOOM"]),
  (0x0103, [b!"INSERT.OBJECT", b!"WINDOW.MINIMIZE"]),
  (0x0109, [b!"SOUND.NOTE", b!"SOUND.PLAY", b!"FORMAT.SHAPE", b!"EXTEND.POLYGON", b!"FORMAT.AUTO"]),
  (0x0110, [b!"GALLERY.3D.BAR", b!"GALLERY.3D.SURFACE", b!"FILL.AUTO"]),
  (0x0114, [
    b!"CUSTOMIZE.TOOLBAR", b!"ADD.TOOL", b!"EDIT.OBJECT", b!"ON.DOUBLECLICK", b!"ON.ENTRY", b!"WORKBOOK.ADD",
    b!"WORKBOOK.MOVE", b!"WORKBOOK.COPY", b!"WORKBOOK.OPTIONS", b!"SAVE.WORKSPACE"]),
  (0x0120, [
    b!"CHART.WIZARD", b!"DELETE.TOOL", b!"MOVE.TOOL", b!"WORKBOOK.SELECT", b!"WORKBOOK.ACTIVATE", b!"ASSIGN.TO.TOOL"]),
  (0x0127, [b!"COPY.TOOL", b!"RESET.TOOL", b!"CONSTRAIN.NUMERIC", b!"PASTE.TOOL"]),
  (0x012E, [b!"WORKBOOK.NEW"]),
  (0x0131, [
    b!"SCENARIO.CELLS", b!"SCENARIO.DELETE", b!"SCENARIO.ADD", b!"SCENARIO.EDIT", b!"SCENARIO.SHOW", b!"SCENARIO.SHOW.NEXT",
    b!"SCENARIO.SUMMARY", b!"PIVOT.TABLE.WIZARD", b!"PIVOT.FIELD.PROPERTIES", b!"PIVOT.FIELD", b!"PIVOT.ITEM",
    b!"PIVOT.ADD.FIELDS"]),
  (0x013E, [
    b!"OPTIONS.CALCULATION", b!"OPTIONS.EDIT", b!"OPTIONS.VIEW", b!"ADDIN.MANAGER", b!"MENU.EDITOR", b!"ATTACH.TOOLBARS",
    b!"VBAActivate", b!"OPTIONS.CHART"]),
  (0x0148, [b!"VBA.INSERT.FILE"]),
  (0x014A, [b!"VBA.PROCEDURE.DEFINITION"]),
  (0x0150, [b!"ROUTING.SLIP"]),
  (0x0152, [b!"ROUTE.DOCUMENT", b!"MAIL.LOGON"]),
  (0x0156, [b!"INSERT.PICTURE", b!"EDIT.TOOL", b!"GALLERY.DOUGHNUT"]),
  (0x015E, [b!"CHART.TREND"]),
  (0x0160, [b!"PIVOT.ITEM.PROPERTIES"]),
  (0x0162, [b!"WORKBOOK.INSERT", b!"OPTIONS.TRANSITION", b!"OPTIONS.GENERAL"]),
  (0x0172, [b!"FILTER.ADVANCED"]),
  (0x0175, [
    b!"MAIL.ADD.MAILER", b!"MAIL.DELETE.MAILER", b!"MAIL.REPLY", b!"MAIL.REPLY.ALL", b!"MAIL.FORWARD", b!"MAIL.NEXT.LETTER",
    b!"DATA.LABEL", b!"INSERT.TITLE", b!"FONT.PROPERTIES", b!"MACRO.OPTIONS", b!"WORKBOOK.HIDE", b!"WORKBOOK.UNHIDE",
    b!"WORKBOOK.DELETE", b!"WORKBOOK.NAME"]),
  (0x0184, [b!"GALLERY.CUSTOM"]),
  (0x0186, [
    b!"ADD.CHART.AUTOFORMAT", b!"DELETE.CHART.AUTOFORMAT", b!"CHART.ADD.DATA", b!"AUTO.OUTLINE", b!"TAB.ORDER",
    b!"SHOW.DIALOG", b!"SELECT.ALL", b!"UNGROUP.SHEETS", b!"SUBTOTAL.CREATE", b!"SUBTOTAL.REMOVE", b!"RENAME.OBJECT"]),
  (0x019C, [
    b!"WORKBOOK.SCROLL", b!"WORKBOOK.NEXT", b!"WORKBOOK.PREV", b!"WORKBOOK.TAB.SPLIT", b!"FULL.SCREEN", b!"WORKBOOK.PROTECT"]),
  (0x01A4, [
    b!"SCROLLBAR.PROPERTIES", b!"PIVOT.SHOW.PAGES", b!"TEXT.TO.COLUMNS", b!"FORMAT.CHARTTYPE", b!"LINK.FORMAT",
    b!"TRACER.DISPLAY"]),
  (0x01AE, [
    b!"TRACER.NAVIGATE", b!"TRACER.CLEAR", b!"TRACER.ERROR", b!"PIVOT.FIELD.GROUP", b!"PIVOT.FIELD.UNGROUP",
    b!"CHECKBOX.PROPERTIES", b!"LABEL.PROPERTIES", b!"LISTBOX.PROPERTIES", b!"EDITBOX.PROPERTIES", b!"PIVOT.REFRESH",
    b!"LINK.COMBO", b!"OPEN.TEXT", b!"HIDE.DIALOG", b!"SET.DIALOG.FOCUS", b!"ENABLE.OBJECT", b!"PUSHBUTTON.PROPERTIES",
    b!"SET.DIALOG.DEFAULT", b!"FILTER", b!"FILTER.SHOW.ALL", b!"CLEAR.OUTLINE", b!"FUNCTION.WIZARD", b!"ADD.LIST.ITEM",
    b!"SET.LIST.ITEM", b!"REMOVE.LIST.ITEM", b!"SELECT.LIST.ITEM", b!"SET.CONTROL.VALUE", b!"SAVE.COPY.AS"]),
  (0x01CA, [
    b!"OPTIONS.LISTS.ADD", b!"OPTIONS.LISTS.DELETE", b!"SERIES.AXES", b!"SERIES.X", b!"SERIES.Y", b!"ERRORBAR.X",
    b!"ERRORBAR.Y", b!"FORMAT.CHART", b!"SERIES.ORDER", b!"MAIL.LOGOFF", b!"CLEAR.ROUTING.SLIP", b!"APP.ACTIVATE.MICROSOFT",
    b!"MAIL.EDIT.MAILER", b!"ON.SHEET", b!"STANDARD.WIDTH", b!"SCENARIO.MERGE", b!"SUMMARY.INFO", b!"FIND.FILE",
    b!"ACTIVE.CELL.FONT", b!"ENABLE.TIPWIZARD", b!"VBA.MAKE.ADDIN"]),
  (0x01E0, [b!"INSERTDATATABLE", b!"WORKGROUP.OPTIONS", b!"MAIL.SEND.MAILER"]),
  (0x01E5, [b!"AUTOCORRECT"]),
  (0x01E9, [b!"POST.DOCUMENT"]),
  (0x01EB, [b!"PICKLIST"]),
  (0x01ED, [b!"VIEW.SHOW", b!"VIEW.DEFINE", b!"VIEW.DELETE"]),
  (0x01FD, [b!"SHEET.BACKGROUND", b!"INSERT.MAP.OBJECT", b!"OPTIONS.MENONO"]),
  (0x0205, [
    b!"MSOCHECKS", b!"NORMAL", b!"LAYOUT", b!"RM.PRINT.AREA", b!"CLEAR.PRINT.AREA", b!"ADD.PRINT.AREA", b!"MOVE.BRK"]),
  (0x0221, [b!"HIDECURR.NOTE", b!"HIDEALL.NOTES", b!"DELETE.NOTE", b!"TRAVERSE.NOTES", b!"ACTIVATE.NOTES"]),
  (0x026C, [b!"PROTECT.REVISIONS", b!"UNPROTECT.REVISIONS"]),
  (0x0287, [b!"OPTIONS.ME"]),
  (0x028D, [b!"WEB.PUBLISH"]),
  (0x029B, [b!"NEWWEBQUERY"]),
  (0x02A1, [b!"PIVOT.TABLE.CHART"]),
  (0x02F1, [b!"OPTIONS.SAVE"]),
  (0x02F3, [b!"OPTIONS.SPELL"]),
  (0x0328, [b!"HIDEALL.INKANNOTS"])]

/-- 2.3.2: the kinds of records. -/
def recordNames : List (Nat × Bytes) := numbered [
  (0x0006, [b!"Formula"]),
  (0x000A, [b!"EOF"]),
  (0x000C, [
    b!"CalcCount", b!"CalcMode", b!"CalcPrecision", b!"CalcRefMode", b!"CalcDelta", b!"CalcIter", b!"Protect", b!"Password",
    b!"Header", b!"Footer"]),
  (0x0017, [
    b!"ExternSheet", b!"Lbl", b!"WinProtect", b!"VerticalPageBreaks", b!"HorizontalPageBreaks", b!"Note", b!"Selection"]),
  (0x0022, [b!"Date1904", b!"ExternName"]),
  (0x0026, [b!"LeftMargin", b!"RightMargin", b!"TopMargin", b!"BottomMargin", b!"PrintRowCol", b!"PrintGrid"]),
  (0x002F, [b!"FilePass"]),
  (0x0031, [b!"Font"]),
  (0x0033, [b!"PrintSize"]),
  (0x003C, [b!"Continue", b!"Window1"]),
  (0x0040, [b!"Backup", b!"Pane", b!"CodePage"]),
  (0x004D, [b!"Pls"]),
  (0x0050, [b!"DCon", b!"DConRef", b!"DConName"]),
  (0x0055, [b!"DefColWidth"]),
  (0x0059, [
    b!"XCT", b!"CRN", b!"FileSharing", b!"WriteAccess", b!"Obj", b!"Uncalced", b!"CalcSaveRecalc", b!"Template", b!"Intl"]),
  (0x0063, [b!"ObjProtect"]),
  (0x007D, [b!"ColInfo"]),
  (0x0080, [b!"Guts", b!"WsBool", b!"GridSet", b!"HCenter", b!"VCenter", b!"BoundSheet8", b!"WriteProtect"]),
  (0x008C, [b!"Country", b!"HideObj"]),
  (0x0090, [b!"Sort"]),
  (0x0092, [b!"Palette"]),
  (0x0097, [
    b!"Sync", b!"LPr", b!"DxGCol", b!"FnGroupName", b!"FilterMode", b!"BuiltInFnGroupCount", b!"AutoFilterInfo",
    b!"AutoFilter"]),
  (0x00A0, [b!"Scl", b!"Setup"]),
  (0x00AE, [b!"ScenMan", b!"SCENARIO", b!"SxView", b!"Sxvd", b!"SXVI"]),
  (0x00B4, [b!"SxIvd", b!"SXLI", b!"SXPI"]),
  (0x00B8, [b!"DocRoute", b!"RecipName"]),
  (0x00BD, [b!"MulRk", b!"MulBlank"]),
  (0x00C1, [b!"Mms"]),
  (0x00C5, [
    b!"SXDI", b!"SXDB", b!"SXFDB", b!"SXDBB", b!"SXNum", b!"SxBool", b!"SxErr", b!"SXInt", b!"SXString", b!"SXDtr", b!"SxNil",
    b!"SXTbl", b!"SXTBRGIITM", b!"SxTbpg", b!"ObProj"]),
  (0x00D5, [b!"SXStreamID"]),
  (0x00D7, [b!"DBCell", b!"SXRng", b!"SxIsxoper", b!"BookBool"]),
  (0x00DC, [b!"DbOrParamQry", b!"ScenarioProtect", b!"OleObjectSize"]),
  (0x00E0, [b!"XF", b!"InterfaceHdr", b!"InterfaceEnd", b!"SXVS"]),
  (0x00E5, [b!"MergeCells"]),
  (0x00E9, [b!"BkHim"]),
  (0x00EB, [b!"MsoDrawingGroup", b!"MsoDrawing", b!"MsoDrawingSelection"]),
  (0x00EF, [b!"PhoneticInfo", b!"SxRule", b!"SXEx", b!"SxFilt"]),
  (0x00F4, [b!"SxDXF", b!"SxItm", b!"SxName", b!"SxSelect", b!"SXPair", b!"SxFmla"]),
  (0x00FB, [b!"SxFormat", b!"SST", b!"LabelSst"]),
  (0x00FF, [b!"ExtSST", b!"SXVDEx"]),
  (0x0103, [b!"SXFormula"]),
  (0x0122, [b!"SXDBEx"]),
  (0x0137, [b!"RRDInsDel", b!"RRDHead"]),
  (0x013B, [b!"RRDChgCell"]),
  (0x013D, [b!"RRTabId", b!"RRDRenSheet", b!"RRSort", b!"RRDMove"]),
  (0x014A, [b!"RRFormat", b!"RRAutoFmt"]),
  (0x014D, [
    b!"RRInsertSh", b!"RRDMoveBegin", b!"RRDMoveEnd", b!"RRDInsDelBegin", b!"RRDInsDelEnd", b!"RRDConflict", b!"RRDDefName",
    b!"RRDRstEtxp"]),
  (0x015F, [b!"LRng", b!"UsesELFs", b!"DSF"]),
  (0x0191, [b!"CUsr", b!"CbUsr", b!"UsrInfo", b!"UsrExcl", b!"FileLock", b!"RRDInfo", b!"BCUsrs", b!"UsrChk"]),
  (0x01A9, [
    b!"UserBView", b!"UserSViewBegin", b!"UserSViewEnd", b!"RRDUserView", b!"Qsi", b!"SupBook", b!"Prot4Rev", b!"CondFmt",
    b!"CF", b!"DVal"]),
  (0x01B5, [
    b!"DconBin", b!"TxO", b!"RefreshAll", b!"HLink", b!"Lel", b!"CodeName", b!"SXFDBType", b!"Prot4RevPass", b!"ObNoMacros",
    b!"Dv"]),
  (0x01C0, [b!"Excel9File", b!"RecalcId", b!"EntExU2"]),
  (0x0200, [b!"Dimensions", b!"Blank"]),
  (0x0203, [b!"Number", b!"Label", b!"BoolErr"]),
  (0x0207, [b!"String", b!"Row"]),
  (0x020B, [b!"Index"]),
  (0x0221, [b!"Array"]),
  (0x0225, [b!"DefaultRowHeight"]),
  (0x0236, [b!"Table"]),
  (0x023E, [b!"Window2"]),
  (0x027E, [b!"RK"]),
  (0x0293, [b!"Style"]),
  (0x0418, [b!"BigName"]),
  (0x041E, [b!"Format"]),
  (0x043C, [b!"ContinueBigName"]),
  (0x04BC, [b!"ShrFmla"]),
  (0x0800, [
    b!"HLinkTooltip", b!"WebPub", b!"QsiSXTag", b!"DBQueryExt", b!"ExtString", b!"TxtQry", b!"Qsir", b!"Qsif", b!"RRDTQSIF",
    b!"BOF", b!"OleDbConn", b!"WOpt", b!"SXViewEx", b!"SXTH", b!"SXPIEx", b!"SXVDTEx", b!"SXViewEx9"]),
  (0x0812, [b!"ContinueFrt", b!"RealTimeData"]),
  (0x0850, [
    b!"ChartFrtInfo", b!"FrtWrapper", b!"StartBlock", b!"EndBlock", b!"StartObject", b!"EndObject", b!"CatLab", b!"YMult",
    b!"SXViewLink", b!"PivotChartBits", b!"FrtFontList"]),
  (0x0862, [b!"SheetExt", b!"BookExt", b!"SXAddl", b!"CrErr", b!"HFPicture", b!"FeatHdr", b!"Feat"]),
  (0x086A, [b!"DataLabExt", b!"DataLabExtContents", b!"CellWatch"]),
  (0x0871, [b!"FeatHdr11", b!"Feature11"]),
  (0x0874, [
    b!"DropDownObjIds", b!"ContinueFrt11", b!"DConn", b!"List12", b!"Feature12", b!"CondFmt12", b!"CF12", b!"CFEx", b!"XFCRC",
    b!"XFExt", b!"AutoFilter12", b!"ContinueFrt12"]),
  (0x0884, [
    b!"MDTInfo", b!"MDXStr", b!"MDXTuple", b!"MDXSet", b!"MDXProp", b!"MDXKPI", b!"MDB", b!"PLV", b!"Compat12", b!"DXF",
    b!"TableStyles", b!"TableStyle", b!"TableStyleElement"]),
  (0x0892, [
    b!"StyleExt", b!"NamePublish", b!"NameCmt", b!"SortData", b!"Theme", b!"GUIDTypeLib", b!"FnGrp12", b!"NameFnGrp12",
    b!"MTRSettings", b!"CompressPictures", b!"HeaderFooter", b!"CrtLayout12", b!"CrtMlFrt", b!"CrtMlFrtContinue"]),
  (0x08A3, [
    b!"ForceFullCalculation", b!"ShapePropsStream", b!"TextPropsStream", b!"RichTextStream", b!"CrtLayout12A"]),
  (0x1001, [b!"Units", b!"Chart", b!"Series"]),
  (0x1006, [b!"DataFormat", b!"LineFormat"]),
  (0x1009, [b!"MarkerFormat", b!"AreaFormat", b!"PieFormat", b!"AttachedLabel", b!"SeriesText"]),
  (0x1014, [
    b!"ChartFormat", b!"Legend", b!"SeriesList", b!"Bar", b!"Line", b!"Pie", b!"Area", b!"Scatter", b!"CrtLine", b!"Axis",
    b!"Tick", b!"ValueRange", b!"CatSerRange", b!"AxisLine", b!"CrtLink"]),
  (0x1024, [b!"DefaultText", b!"Text", b!"FontX", b!"ObjectLink"]),
  (0x1032, [b!"Frame", b!"Begin", b!"End", b!"PlotArea"]),
  (0x103A, [b!"Chart3d"]),
  (0x103C, [b!"PicF", b!"DropBar", b!"Radar", b!"Surf", b!"RadarArea", b!"AxisParent"]),
  (0x1043, [b!"LegendException", b!"ShtProps", b!"SerToCrt", b!"AxesUsed"]),
  (0x1048, [b!"SBaseRef"]),
  (0x104A, [b!"SerParent", b!"SerAuxTrend"]),
  (0x104E, [b!"IFmtRecord", b!"Pos", b!"AlRuns", b!"BRAI"]),
  (0x105B, [b!"SerAuxErrBar", b!"ClrtClient", b!"SerFmt"]),
  (0x105F, [
    b!"Chart3DBarShape", b!"Fbi", b!"BopPop", b!"AxcExt", b!"Dat", b!"PlotGrowth", b!"SIIndex", b!"GelFrame",
    b!"BopPopCustom", b!"Fbi2"])]

end Fileid.Spec
