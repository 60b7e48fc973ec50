import Verif.Base

/-!
# Value-to-text tables of the workbook reader

Generated by tools/gen_excel_tables.py; do not edit.
-/

namespace Fileid.ExcelTables

/-- document/excel/records/Record.hpp:19-379 the cases of `GetRecordTypeStr`. -/
def recordTypes : List (Nat × Bytes) := [
  (6, b!"Formula"), -- document/excel/records/Record.hpp:22
  (10, b!"EOF"), -- document/excel/records/Record.hpp:23
  (12, b!"CalcCount"), -- document/excel/records/Record.hpp:24
  (13, b!"CalcMode"), -- document/excel/records/Record.hpp:25
  (14, b!"CalcPrecision"), -- document/excel/records/Record.hpp:26
  (15, b!"CalcRefMode"), -- document/excel/records/Record.hpp:27
  (16, b!"CalcDelta"), -- document/excel/records/Record.hpp:28
  (17, b!"CalcIter"), -- document/excel/records/Record.hpp:29
  (18, b!"Protect"), -- document/excel/records/Record.hpp:30
  (19, b!"Password"), -- document/excel/records/Record.hpp:31
  (20, b!"Header"), -- document/excel/records/Record.hpp:32
  (21, b!"Footer"), -- document/excel/records/Record.hpp:33
  (23, b!"ExternSheet"), -- document/excel/records/Record.hpp:34
  (24, b!"Lbl"), -- document/excel/records/Record.hpp:35
  (25, b!"WinProtect"), -- document/excel/records/Record.hpp:36
  (26, b!"VerticalPageBreaks"), -- document/excel/records/Record.hpp:37
  (27, b!"HorizontalPageBreaks"), -- document/excel/records/Record.hpp:38
  (28, b!"Note"), -- document/excel/records/Record.hpp:39
  (29, b!"Selection"), -- document/excel/records/Record.hpp:40
  (34, b!"Date1904"), -- document/excel/records/Record.hpp:41
  (35, b!"ExternName"), -- document/excel/records/Record.hpp:42
  (38, b!"LeftMargin"), -- document/excel/records/Record.hpp:43
  (39, b!"RightMargin"), -- document/excel/records/Record.hpp:44
  (40, b!"TopMargin"), -- document/excel/records/Record.hpp:45
  (41, b!"BottomMargin"), -- document/excel/records/Record.hpp:46
  (42, b!"PrintRowCol"), -- document/excel/records/Record.hpp:47
  (43, b!"PrintGrid"), -- document/excel/records/Record.hpp:48
  (47, b!"FilePass"), -- document/excel/records/Record.hpp:49
  (49, b!"Font"), -- document/excel/records/Record.hpp:50
  (51, b!"PrintSize"), -- document/excel/records/Record.hpp:51
  (60, b!"Continue"), -- document/excel/records/Record.hpp:52
  (61, b!"Window1"), -- document/excel/records/Record.hpp:53
  (64, b!"Backup"), -- document/excel/records/Record.hpp:54
  (65, b!"Pane"), -- document/excel/records/Record.hpp:55
  (66, b!"CodePage"), -- document/excel/records/Record.hpp:56
  (77, b!"Pls"), -- document/excel/records/Record.hpp:57
  (80, b!"DCon"), -- document/excel/records/Record.hpp:58
  (81, b!"DConRef"), -- document/excel/records/Record.hpp:59
  (82, b!"DConName"), -- document/excel/records/Record.hpp:60
  (85, b!"DefColWidth"), -- document/excel/records/Record.hpp:61
  (89, b!"XCT"), -- document/excel/records/Record.hpp:62
  (90, b!"CRN"), -- document/excel/records/Record.hpp:63
  (91, b!"FileSharing"), -- document/excel/records/Record.hpp:64
  (92, b!"WriteAccess"), -- document/excel/records/Record.hpp:65
  (93, b!"Obj"), -- document/excel/records/Record.hpp:66
  (94, b!"Uncalced"), -- document/excel/records/Record.hpp:67
  (95, b!"CalcSaveRecalc"), -- document/excel/records/Record.hpp:68
  (96, b!"Template"), -- document/excel/records/Record.hpp:69
  (97, b!"Intl"), -- document/excel/records/Record.hpp:70
  (99, b!"ObjProtect"), -- document/excel/records/Record.hpp:71
  (125, b!"ColInfo"), -- document/excel/records/Record.hpp:72
  (128, b!"Guts"), -- document/excel/records/Record.hpp:73
  (129, b!"WsBool"), -- document/excel/records/Record.hpp:74
  (130, b!"GridSet"), -- document/excel/records/Record.hpp:75
  (131, b!"HCenter"), -- document/excel/records/Record.hpp:76
  (132, b!"VCenter"), -- document/excel/records/Record.hpp:77
  (133, b!"BoundSheet8"), -- document/excel/records/Record.hpp:78
  (134, b!"WriteProtect"), -- document/excel/records/Record.hpp:79
  (140, b!"Country"), -- document/excel/records/Record.hpp:80
  (141, b!"HideObj"), -- document/excel/records/Record.hpp:81
  (144, b!"Sort"), -- document/excel/records/Record.hpp:82
  (146, b!"Palette"), -- document/excel/records/Record.hpp:83
  (151, b!"Sync"), -- document/excel/records/Record.hpp:84
  (152, b!"LPr"), -- document/excel/records/Record.hpp:85
  (153, b!"DxGCol"), -- document/excel/records/Record.hpp:86
  (154, b!"FnGroupName"), -- document/excel/records/Record.hpp:87
  (155, b!"FilterMode"), -- document/excel/records/Record.hpp:88
  (156, b!"BuiltInFnGroupCount"), -- document/excel/records/Record.hpp:89
  (157, b!"AutoFilterInfo"), -- document/excel/records/Record.hpp:90
  (158, b!"AutoFilter"), -- document/excel/records/Record.hpp:91
  (160, b!"Scl"), -- document/excel/records/Record.hpp:92
  (161, b!"Setup"), -- document/excel/records/Record.hpp:93
  (174, b!"ScenMan"), -- document/excel/records/Record.hpp:94
  (175, b!"SCENARIO"), -- document/excel/records/Record.hpp:95
  (176, b!"SxView"), -- document/excel/records/Record.hpp:96
  (177, b!"Sxvd"), -- document/excel/records/Record.hpp:97
  (178, b!"SXVI"), -- document/excel/records/Record.hpp:98
  (180, b!"SxIvd"), -- document/excel/records/Record.hpp:99
  (181, b!"SXLI"), -- document/excel/records/Record.hpp:100
  (182, b!"SXPI"), -- document/excel/records/Record.hpp:101
  (184, b!"DocRoute"), -- document/excel/records/Record.hpp:102
  (185, b!"RecipName"), -- document/excel/records/Record.hpp:103
  (189, b!"MulRk"), -- document/excel/records/Record.hpp:104
  (190, b!"MulBlank"), -- document/excel/records/Record.hpp:105
  (193, b!"Mms"), -- document/excel/records/Record.hpp:106
  (197, b!"SXDI"), -- document/excel/records/Record.hpp:107
  (198, b!"SXDB"), -- document/excel/records/Record.hpp:108
  (199, b!"SXFDB"), -- document/excel/records/Record.hpp:109
  (200, b!"SXDBB"), -- document/excel/records/Record.hpp:110
  (201, b!"SXNum"), -- document/excel/records/Record.hpp:111
  (202, b!"SxBool"), -- document/excel/records/Record.hpp:112
  (203, b!"SxErr"), -- document/excel/records/Record.hpp:113
  (204, b!"SXInt"), -- document/excel/records/Record.hpp:114
  (205, b!"SXString"), -- document/excel/records/Record.hpp:115
  (206, b!"SXDtr"), -- document/excel/records/Record.hpp:116
  (207, b!"SxNil"), -- document/excel/records/Record.hpp:117
  (208, b!"SXTbl"), -- document/excel/records/Record.hpp:118
  (209, b!"SXTBRGIITM"), -- document/excel/records/Record.hpp:119
  (210, b!"SxTbpg"), -- document/excel/records/Record.hpp:120
  (211, b!"ObProj"), -- document/excel/records/Record.hpp:121
  (213, b!"SXStreamID"), -- document/excel/records/Record.hpp:122
  (215, b!"DBCell"), -- document/excel/records/Record.hpp:123
  (216, b!"SXRng"), -- document/excel/records/Record.hpp:124
  (217, b!"SxIsxoper"), -- document/excel/records/Record.hpp:125
  (218, b!"BookBool"), -- document/excel/records/Record.hpp:126
  (220, b!"DbOrParamQry"), -- document/excel/records/Record.hpp:127
  (221, b!"ScenarioProtect"), -- document/excel/records/Record.hpp:128
  (222, b!"OleObjectSize"), -- document/excel/records/Record.hpp:129
  (224, b!"XF"), -- document/excel/records/Record.hpp:130
  (225, b!"InterfaceHdr"), -- document/excel/records/Record.hpp:131
  (226, b!"InterfaceEnd"), -- document/excel/records/Record.hpp:132
  (227, b!"SXVS"), -- document/excel/records/Record.hpp:133
  (229, b!"MergeCells"), -- document/excel/records/Record.hpp:134
  (233, b!"BkHim"), -- document/excel/records/Record.hpp:135
  (235, b!"MsoDrawingGroup"), -- document/excel/records/Record.hpp:136
  (236, b!"MsoDrawing"), -- document/excel/records/Record.hpp:137
  (237, b!"MsoDrawingSelection"), -- document/excel/records/Record.hpp:138
  (239, b!"PhoneticInfo"), -- document/excel/records/Record.hpp:139
  (240, b!"SxRule"), -- document/excel/records/Record.hpp:140
  (241, b!"SXEx"), -- document/excel/records/Record.hpp:141
  (242, b!"SxFilt"), -- document/excel/records/Record.hpp:142
  (244, b!"SxDXF"), -- document/excel/records/Record.hpp:143
  (245, b!"SxItm"), -- document/excel/records/Record.hpp:144
  (246, b!"SxName"), -- document/excel/records/Record.hpp:145
  (247, b!"SxSelect"), -- document/excel/records/Record.hpp:146
  (248, b!"SXPair"), -- document/excel/records/Record.hpp:147
  (249, b!"SxFmla"), -- document/excel/records/Record.hpp:148
  (251, b!"SxFormat"), -- document/excel/records/Record.hpp:149
  (252, b!"SST"), -- document/excel/records/Record.hpp:150
  (253, b!"LabelSst"), -- document/excel/records/Record.hpp:151
  (255, b!"ExtSST"), -- document/excel/records/Record.hpp:152
  (256, b!"SXVDEx"), -- document/excel/records/Record.hpp:153
  (259, b!"SXFormula"), -- document/excel/records/Record.hpp:154
  (290, b!"SXDBEx"), -- document/excel/records/Record.hpp:155
  (311, b!"RRDInsDel"), -- document/excel/records/Record.hpp:156
  (312, b!"RRDHead"), -- document/excel/records/Record.hpp:157
  (315, b!"RRDChgCell"), -- document/excel/records/Record.hpp:158
  (317, b!"RRTabId"), -- document/excel/records/Record.hpp:159
  (318, b!"RRDRenSheet"), -- document/excel/records/Record.hpp:160
  (319, b!"RRSort"), -- document/excel/records/Record.hpp:161
  (320, b!"RRDMove"), -- document/excel/records/Record.hpp:162
  (330, b!"RRFormat"), -- document/excel/records/Record.hpp:163
  (331, b!"RRAutoFmt"), -- document/excel/records/Record.hpp:164
  (333, b!"RRInsertSh"), -- document/excel/records/Record.hpp:165
  (334, b!"RRDMoveBegin"), -- document/excel/records/Record.hpp:166
  (335, b!"RRDMoveEnd"), -- document/excel/records/Record.hpp:167
  (336, b!"RRDInsDelBegin"), -- document/excel/records/Record.hpp:168
  (337, b!"RRDInsDelEnd"), -- document/excel/records/Record.hpp:169
  (338, b!"RRDConflict"), -- document/excel/records/Record.hpp:170
  (339, b!"RRDDefName"), -- document/excel/records/Record.hpp:171
  (340, b!"RRDRstEtxp"), -- document/excel/records/Record.hpp:172
  (351, b!"LRng"), -- document/excel/records/Record.hpp:173
  (352, b!"UsesELFs"), -- document/excel/records/Record.hpp:174
  (353, b!"DSF"), -- document/excel/records/Record.hpp:175
  (401, b!"CUsr"), -- document/excel/records/Record.hpp:176
  (402, b!"CbUsr"), -- document/excel/records/Record.hpp:177
  (403, b!"UsrInfo"), -- document/excel/records/Record.hpp:178
  (404, b!"UsrExcl"), -- document/excel/records/Record.hpp:179
  (405, b!"FileLock"), -- document/excel/records/Record.hpp:180
  (406, b!"RRDInfo"), -- document/excel/records/Record.hpp:181
  (407, b!"BCUsrs"), -- document/excel/records/Record.hpp:182
  (408, b!"UsrChk"), -- document/excel/records/Record.hpp:183
  (425, b!"UserBView"), -- document/excel/records/Record.hpp:184
  (426, b!"UserSViewBegin"), -- document/excel/records/Record.hpp:186
  (427, b!"UserSViewEnd"), -- document/excel/records/Record.hpp:187
  (428, b!"RRDUserView"), -- document/excel/records/Record.hpp:188
  (429, b!"Qsi"), -- document/excel/records/Record.hpp:189
  (430, b!"SupBook"), -- document/excel/records/Record.hpp:190
  (431, b!"Prot4Rev"), -- document/excel/records/Record.hpp:191
  (432, b!"CondFmt"), -- document/excel/records/Record.hpp:192
  (433, b!"CF"), -- document/excel/records/Record.hpp:193
  (434, b!"DVal"), -- document/excel/records/Record.hpp:194
  (437, b!"DconBin"), -- document/excel/records/Record.hpp:195
  (438, b!"TxO"), -- document/excel/records/Record.hpp:196
  (439, b!"RefreshAll"), -- document/excel/records/Record.hpp:197
  (440, b!"HLink"), -- document/excel/records/Record.hpp:198
  (441, b!"Lel"), -- document/excel/records/Record.hpp:199
  (442, b!"CodeName"), -- document/excel/records/Record.hpp:200
  (443, b!"SXFDBType"), -- document/excel/records/Record.hpp:201
  (444, b!"Prot4RevPass"), -- document/excel/records/Record.hpp:202
  (445, b!"ObNoMacros"), -- document/excel/records/Record.hpp:203
  (446, b!"Dv"), -- document/excel/records/Record.hpp:204
  (448, b!"Excel9File"), -- document/excel/records/Record.hpp:205
  (449, b!"RecalcId"), -- document/excel/records/Record.hpp:206
  (450, b!"EntExU2"), -- document/excel/records/Record.hpp:207
  (512, b!"Dimensions"), -- document/excel/records/Record.hpp:208
  (513, b!"Blank"), -- document/excel/records/Record.hpp:209
  (515, b!"Number"), -- document/excel/records/Record.hpp:210
  (516, b!"Label"), -- document/excel/records/Record.hpp:211
  (517, b!"BoolErr"), -- document/excel/records/Record.hpp:212
  (519, b!"String"), -- document/excel/records/Record.hpp:213
  (520, b!"Row"), -- document/excel/records/Record.hpp:214
  (523, b!"Index"), -- document/excel/records/Record.hpp:215
  (545, b!"Array"), -- document/excel/records/Record.hpp:216
  (549, b!"DefaultRowHeight"), -- document/excel/records/Record.hpp:217
  (566, b!"Table"), -- document/excel/records/Record.hpp:218
  (574, b!"Window2"), -- document/excel/records/Record.hpp:219
  (638, b!"RK"), -- document/excel/records/Record.hpp:220
  (659, b!"Style"), -- document/excel/records/Record.hpp:221
  (1048, b!"BigName"), -- document/excel/records/Record.hpp:222
  (1054, b!"Format"), -- document/excel/records/Record.hpp:223
  (1084, b!"ContinueBigName"), -- document/excel/records/Record.hpp:224
  (1212, b!"ShrFmla"), -- document/excel/records/Record.hpp:225
  (2048, b!"HLinkTooltip"), -- document/excel/records/Record.hpp:226
  (2049, b!"WebPub"), -- document/excel/records/Record.hpp:227
  (2050, b!"QsiSXTag"), -- document/excel/records/Record.hpp:228
  (2051, b!"DBQueryExt"), -- document/excel/records/Record.hpp:229
  (2052, b!"ExtString"), -- document/excel/records/Record.hpp:230
  (2053, b!"TxtQry"), -- document/excel/records/Record.hpp:231
  (2054, b!"Qsir"), -- document/excel/records/Record.hpp:232
  (2055, b!"Qsif"), -- document/excel/records/Record.hpp:233
  (2056, b!"RRDTQSIF"), -- document/excel/records/Record.hpp:234
  (2057, b!"BOF"), -- document/excel/records/Record.hpp:235
  (2058, b!"OleDbConn"), -- document/excel/records/Record.hpp:236
  (2059, b!"WOpt"), -- document/excel/records/Record.hpp:237
  (2060, b!"SXViewEx"), -- document/excel/records/Record.hpp:238
  (2061, b!"SXTH"), -- document/excel/records/Record.hpp:239
  (2062, b!"SXPIEx"), -- document/excel/records/Record.hpp:240
  (2063, b!"SXVDTEx"), -- document/excel/records/Record.hpp:241
  (2064, b!"SXViewEx9"), -- document/excel/records/Record.hpp:242
  (2066, b!"ContinueFrt"), -- document/excel/records/Record.hpp:243
  (2067, b!"RealTimeData"), -- document/excel/records/Record.hpp:244
  (2128, b!"ChartFrtInfo"), -- document/excel/records/Record.hpp:245
  (2129, b!"FrtWrapper"), -- document/excel/records/Record.hpp:246
  (2130, b!"StartBlock"), -- document/excel/records/Record.hpp:247
  (2131, b!"EndBlock"), -- document/excel/records/Record.hpp:248
  (2132, b!"StartObject"), -- document/excel/records/Record.hpp:249
  (2133, b!"EndObject"), -- document/excel/records/Record.hpp:250
  (2134, b!"CatLab"), -- document/excel/records/Record.hpp:251
  (2135, b!"YMult"), -- document/excel/records/Record.hpp:252
  (2136, b!"SXViewLink"), -- document/excel/records/Record.hpp:253
  (2137, b!"PivotChartBits"), -- document/excel/records/Record.hpp:254
  (2138, b!"FrtFontList"), -- document/excel/records/Record.hpp:255
  (2146, b!"SheetExt"), -- document/excel/records/Record.hpp:256
  (2147, b!"BookExt"), -- document/excel/records/Record.hpp:257
  (2148, b!"SXAddl"), -- document/excel/records/Record.hpp:258
  (2149, b!"CrErr"), -- document/excel/records/Record.hpp:259
  (2150, b!"HFPicture"), -- document/excel/records/Record.hpp:260
  (2151, b!"FeatHdr"), -- document/excel/records/Record.hpp:261
  (2152, b!"Feat"), -- document/excel/records/Record.hpp:262
  (2154, b!"DataLabExt"), -- document/excel/records/Record.hpp:263
  (2155, b!"DataLabExtContents"), -- document/excel/records/Record.hpp:264
  (2156, b!"CellWatch"), -- document/excel/records/Record.hpp:265
  (2161, b!"FeatHdr11"), -- document/excel/records/Record.hpp:266
  (2162, b!"Feature11"), -- document/excel/records/Record.hpp:267
  (2164, b!"DropDownObjIds"), -- document/excel/records/Record.hpp:268
  (2165, b!"ContinueFrt11"), -- document/excel/records/Record.hpp:269
  (2166, b!"DConn"), -- document/excel/records/Record.hpp:270
  (2167, b!"List12"), -- document/excel/records/Record.hpp:271
  (2168, b!"Feature12"), -- document/excel/records/Record.hpp:272
  (2169, b!"CondFmt12"), -- document/excel/records/Record.hpp:273
  (2170, b!"CF12"), -- document/excel/records/Record.hpp:274
  (2171, b!"CFEx"), -- document/excel/records/Record.hpp:275
  (2172, b!"XFCRC"), -- document/excel/records/Record.hpp:276
  (2173, b!"XFExt"), -- document/excel/records/Record.hpp:277
  (2174, b!"AutoFilter12"), -- document/excel/records/Record.hpp:278
  (2175, b!"ContinueFrt12"), -- document/excel/records/Record.hpp:279
  (2180, b!"MDTInfo"), -- document/excel/records/Record.hpp:280
  (2181, b!"MDXStr"), -- document/excel/records/Record.hpp:281
  (2182, b!"MDXTuple"), -- document/excel/records/Record.hpp:282
  (2183, b!"MDXSet"), -- document/excel/records/Record.hpp:283
  (2184, b!"MDXProp"), -- document/excel/records/Record.hpp:284
  (2185, b!"MDXKPI"), -- document/excel/records/Record.hpp:285
  (2186, b!"MDB"), -- document/excel/records/Record.hpp:286
  (2187, b!"PLV"), -- document/excel/records/Record.hpp:287
  (2188, b!"Compat12"), -- document/excel/records/Record.hpp:288
  (2189, b!"DXF"), -- document/excel/records/Record.hpp:289
  (2190, b!"TableStyles"), -- document/excel/records/Record.hpp:290
  (2191, b!"TableStyle"), -- document/excel/records/Record.hpp:291
  (2192, b!"TableStyleElement"), -- document/excel/records/Record.hpp:292
  (2194, b!"StyleExt"), -- document/excel/records/Record.hpp:293
  (2195, b!"NamePublish"), -- document/excel/records/Record.hpp:294
  (2196, b!"NameCmt"), -- document/excel/records/Record.hpp:295
  (2197, b!"SortData"), -- document/excel/records/Record.hpp:296
  (2198, b!"Theme"), -- document/excel/records/Record.hpp:297
  (2199, b!"GUIDTypeLib"), -- document/excel/records/Record.hpp:298
  (2200, b!"FnGrp12"), -- document/excel/records/Record.hpp:299
  (2201, b!"NameFnGrp12"), -- document/excel/records/Record.hpp:300
  (2202, b!"MTRSettings"), -- document/excel/records/Record.hpp:301
  (2203, b!"CompressPictures"), -- document/excel/records/Record.hpp:302
  (2204, b!"HeaderFooter"), -- document/excel/records/Record.hpp:303
  (2205, b!"CrtLayout12"), -- document/excel/records/Record.hpp:304
  (2206, b!"CrtMlFrt"), -- document/excel/records/Record.hpp:305
  (2207, b!"CrtMlFrtContinue"), -- document/excel/records/Record.hpp:306
  (2211, b!"ForceFullCalculation"), -- document/excel/records/Record.hpp:307
  (2212, b!"ShapePropsStream"), -- document/excel/records/Record.hpp:308
  (2213, b!"TextPropsStream"), -- document/excel/records/Record.hpp:309
  (2214, b!"RichTextStream"), -- document/excel/records/Record.hpp:310
  (2215, b!"CrtLayout12A"), -- document/excel/records/Record.hpp:311
  (4097, b!"Units"), -- document/excel/records/Record.hpp:312
  (4098, b!"Chart"), -- document/excel/records/Record.hpp:313
  (4099, b!"Series"), -- document/excel/records/Record.hpp:314
  (4102, b!"DataFormat"), -- document/excel/records/Record.hpp:315
  (4103, b!"LineFormat"), -- document/excel/records/Record.hpp:316
  (4105, b!"MarkerFormat"), -- document/excel/records/Record.hpp:317
  (4106, b!"AreaFormat"), -- document/excel/records/Record.hpp:318
  (4107, b!"PieFormat"), -- document/excel/records/Record.hpp:319
  (4108, b!"AttachedLabel"), -- document/excel/records/Record.hpp:320
  (4109, b!"SeriesText"), -- document/excel/records/Record.hpp:321
  (4116, b!"ChartFormat"), -- document/excel/records/Record.hpp:322
  (4117, b!"Legend"), -- document/excel/records/Record.hpp:323
  (4118, b!"SeriesList"), -- document/excel/records/Record.hpp:324
  (4119, b!"Bar"), -- document/excel/records/Record.hpp:325
  (4120, b!"Line"), -- document/excel/records/Record.hpp:326
  (4121, b!"Pie"), -- document/excel/records/Record.hpp:327
  (4122, b!"Area"), -- document/excel/records/Record.hpp:328
  (4123, b!"Scatter"), -- document/excel/records/Record.hpp:329
  (4124, b!"CrtLine"), -- document/excel/records/Record.hpp:330
  (4125, b!"Axis"), -- document/excel/records/Record.hpp:331
  (4126, b!"Tick"), -- document/excel/records/Record.hpp:332
  (4127, b!"ValueRange"), -- document/excel/records/Record.hpp:333
  (4128, b!"CatSerRange"), -- document/excel/records/Record.hpp:334
  (4129, b!"AxisLine"), -- document/excel/records/Record.hpp:335
  (4130, b!"CrtLink"), -- document/excel/records/Record.hpp:336
  (4132, b!"DefaultText"), -- document/excel/records/Record.hpp:337
  (4133, b!"Text"), -- document/excel/records/Record.hpp:338
  (4134, b!"FontX"), -- document/excel/records/Record.hpp:339
  (4135, b!"ObjectLink"), -- document/excel/records/Record.hpp:340
  (4146, b!"Frame"), -- document/excel/records/Record.hpp:341
  (4147, b!"Begin"), -- document/excel/records/Record.hpp:342
  (4148, b!"End"), -- document/excel/records/Record.hpp:343
  (4149, b!"PlotArea"), -- document/excel/records/Record.hpp:344
  (4154, b!"Chart3d"), -- document/excel/records/Record.hpp:345
  (4156, b!"PicF"), -- document/excel/records/Record.hpp:346
  (4157, b!"DropBar"), -- document/excel/records/Record.hpp:347
  (4158, b!"Radar"), -- document/excel/records/Record.hpp:348
  (4159, b!"Surf"), -- document/excel/records/Record.hpp:349
  (4160, b!"RadarArea"), -- document/excel/records/Record.hpp:350
  (4161, b!"AxisParent"), -- document/excel/records/Record.hpp:351
  (4163, b!"LegendException"), -- document/excel/records/Record.hpp:352
  (4164, b!"ShtProps"), -- document/excel/records/Record.hpp:353
  (4165, b!"SerToCrt"), -- document/excel/records/Record.hpp:354
  (4166, b!"AxesUsed"), -- document/excel/records/Record.hpp:355
  (4168, b!"SBaseRef"), -- document/excel/records/Record.hpp:356
  (4170, b!"SerParent"), -- document/excel/records/Record.hpp:357
  (4171, b!"SerAuxTrend"), -- document/excel/records/Record.hpp:358
  (4174, b!"IFmtRecord"), -- document/excel/records/Record.hpp:359
  (4175, b!"Pos"), -- document/excel/records/Record.hpp:360
  (4176, b!"AlRuns"), -- document/excel/records/Record.hpp:361
  (4177, b!"BRAI"), -- document/excel/records/Record.hpp:362
  (4187, b!"SerAuxErrBar"), -- document/excel/records/Record.hpp:363
  (4188, b!"ClrtClient"), -- document/excel/records/Record.hpp:364
  (4189, b!"SerFmt"), -- document/excel/records/Record.hpp:365
  (4191, b!"Chart3DBarShape"), -- document/excel/records/Record.hpp:366
  (4192, b!"Fbi"), -- document/excel/records/Record.hpp:367
  (4193, b!"BopPop"), -- document/excel/records/Record.hpp:368
  (4194, b!"AxcExt"), -- document/excel/records/Record.hpp:369
  (4195, b!"Dat"), -- document/excel/records/Record.hpp:370
  (4196, b!"PlotGrowth"), -- document/excel/records/Record.hpp:371
  (4197, b!"SIIndex"), -- document/excel/records/Record.hpp:372
  (4198, b!"GelFrame"), -- document/excel/records/Record.hpp:373
  (4199, b!"BopPopCustom"), -- document/excel/records/Record.hpp:374
  (4200, b!"Fbi2")] -- document/excel/records/Record.hpp:375

/-- document/excel/records/CodePageRecord.hpp:10-168 the cases of `CPToString`. -/
def codePages : List (Nat × Bytes) := [
  (37, b!"IBM EBCDIC US-Canada"), -- document/excel/records/CodePageRecord.hpp:13
  (437, b!"OEM United States"), -- document/excel/records/CodePageRecord.hpp:14
  (500, b!"IBM EBCDIC International"), -- document/excel/records/CodePageRecord.hpp:15
  (708, b!"Arabic (ASMO 708)"), -- document/excel/records/CodePageRecord.hpp:16
  (709, b!"Arabic (ASMO-449+, BCON V4)"), -- document/excel/records/CodePageRecord.hpp:17
  (710, b!"Arabic - Transparent Arabic"), -- document/excel/records/CodePageRecord.hpp:18
  (720, b!"Arabic (Transparent ASMO); Arabic (DOS)"), -- document/excel/records/CodePageRecord.hpp:19
  (737, b!"OEM Greek (formerly 437G); Greek (DOS)"), -- document/excel/records/CodePageRecord.hpp:20
  (775, b!"OEM Baltic; Baltic (DOS)"), -- document/excel/records/CodePageRecord.hpp:21
  (850, b!"OEM Multilingual Latin 1; Western European (DOS)"), -- document/excel/records/CodePageRecord.hpp:22
  (852, b!"OEM Latin 2; Central European (DOS)"), -- document/excel/records/CodePageRecord.hpp:23
  (855, b!"OEM Cyrillic (primarily Russian)"), -- document/excel/records/CodePageRecord.hpp:24
  (857, b!"OEM Turkish; Turkish (DOS)"), -- document/excel/records/CodePageRecord.hpp:25
  (858, b!"OEM Multilingual Latin 1 + Euro symbol"), -- document/excel/records/CodePageRecord.hpp:26
  (860, b!"OEM Portuguese; Portuguese (DOS)"), -- document/excel/records/CodePageRecord.hpp:27
  (861, b!"OEM Icelandic; Icelandic (DOS)"), -- document/excel/records/CodePageRecord.hpp:28
  (862, b!"OEM Hebrew; Hebrew (DOS)"), -- document/excel/records/CodePageRecord.hpp:29
  (863, b!"OEM French Canadian; French Canadian (DOS)"), -- document/excel/records/CodePageRecord.hpp:30
  (864, b!"OEM Arabic; Arabic (864)"), -- document/excel/records/CodePageRecord.hpp:31
  (865, b!"OEM Nordic; Nordic (DOS)"), -- document/excel/records/CodePageRecord.hpp:32
  (866, b!"OEM Russian; Cyrillic (DOS)"), -- document/excel/records/CodePageRecord.hpp:33
  (869, b!"OEM Modern Greek; Greek, Modern (DOS)"), -- document/excel/records/CodePageRecord.hpp:34
  (870, b!"IBM EBCDIC Multilingual/ROECE (Latin 2); IBM EBCDIC Multilingual Latin 2"), -- document/excel/records/CodePageRecord.hpp:35
  (874, b!"ANSI/OEM Thai (ISO 8859-11); Thai (Windows)"), -- document/excel/records/CodePageRecord.hpp:36
  (875, b!"IBM EBCDIC Greek Modern"), -- document/excel/records/CodePageRecord.hpp:37
  (932, b!"ANSI/OEM Japanese; Japanese (Shift-JIS)"), -- document/excel/records/CodePageRecord.hpp:38
  (936, b!"ANSI/OEM Simplified Chinese (PRC, Singapore); Chinese Simplified (GB2312)"), -- document/excel/records/CodePageRecord.hpp:39
  (949, b!"ANSI/OEM Korean (Unified Hangul Code)"), -- document/excel/records/CodePageRecord.hpp:40
  (950, b!"ANSI/OEM Traditional Chinese (Taiwan; Hong Kong SAR, PRC); Chinese Traditional (Big5)"), -- document/excel/records/CodePageRecord.hpp:41
  (1026, b!"IBM EBCDIC Turkish (Latin 5)"), -- document/excel/records/CodePageRecord.hpp:42
  (1047, b!"IBM EBCDIC Latin 1/Open System"), -- document/excel/records/CodePageRecord.hpp:43
  (1140, b!"IBM EBCDIC US-Canada (037 + Euro symbol); IBM EBCDIC (US-Canada-Euro)"), -- document/excel/records/CodePageRecord.hpp:44
  (1141, b!"IBM EBCDIC Germany (20273 + Euro symbol); IBM EBCDIC (Germany-Euro)"), -- document/excel/records/CodePageRecord.hpp:45
  (1142, b!"IBM EBCDIC Denmark-Norway (20277 + Euro symbol); IBM EBCDIC (Denmark-Norway-Euro)"), -- document/excel/records/CodePageRecord.hpp:46
  (1143, b!"IBM EBCDIC Finland-Sweden (20278 + Euro symbol); IBM EBCDIC (Finland-Sweden-Euro)"), -- document/excel/records/CodePageRecord.hpp:47
  (1144, b!"IBM EBCDIC Italy (20280 + Euro symbol); IBM EBCDIC (Italy-Euro)"), -- document/excel/records/CodePageRecord.hpp:48
  (1145, b!"IBM EBCDIC Latin America-Spain (20284 + Euro symbol); IBM EBCDIC (Spain-Euro)"), -- document/excel/records/CodePageRecord.hpp:49
  (1146, b!"IBM EBCDIC United Kingdom (20285 + Euro symbol); IBM EBCDIC (UK-Euro)"), -- document/excel/records/CodePageRecord.hpp:50
  (1147, b!"IBM EBCDIC France (20297 + Euro symbol); IBM EBCDIC (France-Euro)"), -- document/excel/records/CodePageRecord.hpp:51
  (1148, b!"IBM EBCDIC International (500 + Euro symbol); IBM EBCDIC (International-Euro)"), -- document/excel/records/CodePageRecord.hpp:52
  (1149, b!"IBM EBCDIC Icelandic (20871 + Euro symbol); IBM EBCDIC (Icelandic-Euro)"), -- document/excel/records/CodePageRecord.hpp:53
  (1200, b!"Unicode UTF-16, little endian byte order (BMP of ISO 10646)"), -- document/excel/records/CodePageRecord.hpp:54
  (1201, b!"Unicode UTF-16, big endian byte order"), -- document/excel/records/CodePageRecord.hpp:55
  (1250, b!"ANSI Central European; Central European (Windows)"), -- document/excel/records/CodePageRecord.hpp:56
  (1251, b!"ANSI Cyrillic; Cyrillic (Windows)"), -- document/excel/records/CodePageRecord.hpp:57
  (1252, b!"ANSI Latin 1; Western European (Windows)"), -- document/excel/records/CodePageRecord.hpp:58
  (1253, b!"ANSI Greek; Greek (Windows)"), -- document/excel/records/CodePageRecord.hpp:59
  (1254, b!"ANSI Turkish; Turkish (Windows)"), -- document/excel/records/CodePageRecord.hpp:60
  (1255, b!"ANSI Hebrew; Hebrew (Windows)"), -- document/excel/records/CodePageRecord.hpp:61
  (1256, b!"ANSI Arabic; Arabic (Windows)"), -- document/excel/records/CodePageRecord.hpp:62
  (1257, b!"ANSI Baltic; Baltic (Windows)"), -- document/excel/records/CodePageRecord.hpp:63
  (1258, b!"ANSI/OEM Vietnamese; Vietnamese (Windows)"), -- document/excel/records/CodePageRecord.hpp:64
  (1361, b!"Korean (Johab)"), -- document/excel/records/CodePageRecord.hpp:65
  (10000, b!"MAC Roman; Western European (Mac)"), -- document/excel/records/CodePageRecord.hpp:66
  (10001, b!"Japanese (Mac)"), -- document/excel/records/CodePageRecord.hpp:67
  (10002, b!"MAC Traditional Chinese (Big5); Chinese Traditional (Mac)"), -- document/excel/records/CodePageRecord.hpp:68
  (10003, b!"Korean (Mac)"), -- document/excel/records/CodePageRecord.hpp:69
  (10004, b!"Arabic (Mac)"), -- document/excel/records/CodePageRecord.hpp:70
  (10005, b!"Hebrew (Mac)"), -- document/excel/records/CodePageRecord.hpp:71
  (10006, b!"Greek (Mac)"), -- document/excel/records/CodePageRecord.hpp:72
  (10007, b!"Cyrillic (Mac)"), -- document/excel/records/CodePageRecord.hpp:73
  (10008, b!"MAC Simplified Chinese (GB 2312); Chinese Simplified (Mac)"), -- document/excel/records/CodePageRecord.hpp:74
  (10010, b!"Romanian (Mac)"), -- document/excel/records/CodePageRecord.hpp:75
  (10017, b!"Ukrainian (Mac)"), -- document/excel/records/CodePageRecord.hpp:76
  (10021, b!"Thai (Mac)"), -- document/excel/records/CodePageRecord.hpp:77
  (10029, b!"MAC Latin 2; Central European (Mac)"), -- document/excel/records/CodePageRecord.hpp:78
  (10079, b!"Icelandic (Mac)"), -- document/excel/records/CodePageRecord.hpp:79
  (10081, b!"Turkish (Mac)"), -- document/excel/records/CodePageRecord.hpp:80
  (10082, b!"Croatian (Mac)"), -- document/excel/records/CodePageRecord.hpp:81
  (12000, b!"Unicode UTF-32, little endian byte order; available only to managed applications"), -- document/excel/records/CodePageRecord.hpp:82
  (12001, b!"Unicode UTF-32, big endian byte order; available only to managed applications"), -- document/excel/records/CodePageRecord.hpp:83
  (20000, b!"CNS Taiwan; Chinese Traditional (CNS)"), -- document/excel/records/CodePageRecord.hpp:84
  (20001, b!"TCA Taiwan"), -- document/excel/records/CodePageRecord.hpp:85
  (20002, b!"Eten Taiwan; Chinese Traditional (Eten)"), -- document/excel/records/CodePageRecord.hpp:86
  (20003, b!"IBM5550 Taiwan"), -- document/excel/records/CodePageRecord.hpp:87
  (20004, b!"TeleText Taiwan"), -- document/excel/records/CodePageRecord.hpp:88
  (20005, b!"Wang Taiwan"), -- document/excel/records/CodePageRecord.hpp:89
  (20105, b!"IA5 (IRV International Alphabet No. 5, 7-bit); Western European (IA5)"), -- document/excel/records/CodePageRecord.hpp:90
  (20106, b!"IA5 German (7-bit)"), -- document/excel/records/CodePageRecord.hpp:91
  (20107, b!"IA5 Swedish (7-bit)"), -- document/excel/records/CodePageRecord.hpp:92
  (20108, b!"IA5 Norwegian (7-bit)"), -- document/excel/records/CodePageRecord.hpp:93
  (20127, b!"US-ASCII (7-bit)"), -- document/excel/records/CodePageRecord.hpp:94
  (20261, b!"T.61"), -- document/excel/records/CodePageRecord.hpp:95
  (20269, b!"ISO 6937 Non-Spacing Accent"), -- document/excel/records/CodePageRecord.hpp:96
  (20273, b!"IBM EBCDIC Germany"), -- document/excel/records/CodePageRecord.hpp:97
  (20277, b!"IBM EBCDIC Denmark-Norway"), -- document/excel/records/CodePageRecord.hpp:98
  (20278, b!"IBM EBCDIC Finland-Sweden"), -- document/excel/records/CodePageRecord.hpp:99
  (20280, b!"IBM EBCDIC Italy"), -- document/excel/records/CodePageRecord.hpp:100
  (20284, b!"IBM EBCDIC Latin America-Spain"), -- document/excel/records/CodePageRecord.hpp:101
  (20285, b!"IBM EBCDIC United Kingdom"), -- document/excel/records/CodePageRecord.hpp:102
  (20290, b!"IBM EBCDIC Japanese Katakana Extended"), -- document/excel/records/CodePageRecord.hpp:103
  (20297, b!"IBM EBCDIC France"), -- document/excel/records/CodePageRecord.hpp:104
  (20420, b!"IBM EBCDIC Arabic"), -- document/excel/records/CodePageRecord.hpp:105
  (20423, b!"IBM EBCDIC Greek"), -- document/excel/records/CodePageRecord.hpp:106
  (20424, b!"IBM EBCDIC Hebrew"), -- document/excel/records/CodePageRecord.hpp:107
  (20833, b!"IBM EBCDIC Korean Extended"), -- document/excel/records/CodePageRecord.hpp:108
  (20838, b!"IBM EBCDIC Thai"), -- document/excel/records/CodePageRecord.hpp:109
  (20866, b!"Russian (KOI8-R); Cyrillic (KOI8-R)"), -- document/excel/records/CodePageRecord.hpp:110
  (20871, b!"IBM EBCDIC Icelandic"), -- document/excel/records/CodePageRecord.hpp:111
  (20880, b!"IBM EBCDIC Cyrillic Russian"), -- document/excel/records/CodePageRecord.hpp:112
  (20905, b!"IBM EBCDIC Turkish"), -- document/excel/records/CodePageRecord.hpp:113
  (20924, b!"IBM EBCDIC Latin 1/Open System (1047 + Euro symbol)"), -- document/excel/records/CodePageRecord.hpp:114
  (20932, b!"Japanese (JIS 0208-1990 and 0212-1990)"), -- document/excel/records/CodePageRecord.hpp:115
  (20936, b!"Simplified Chinese (GB2312); Chinese Simplified (GB2312-80)"), -- document/excel/records/CodePageRecord.hpp:116
  (20949, b!"Korean Wansung"), -- document/excel/records/CodePageRecord.hpp:117
  (21025, b!"IBM EBCDIC Cyrillic Serbian-Bulgarian"), -- document/excel/records/CodePageRecord.hpp:118
  (21027, b!"(deprecated)"), -- document/excel/records/CodePageRecord.hpp:119
  (21866, b!"Ukrainian (KOI8-U); Cyrillic (KOI8-U)"), -- document/excel/records/CodePageRecord.hpp:120
  (28591, b!"ISO 8859-1 Latin 1; Western European (ISO)"), -- document/excel/records/CodePageRecord.hpp:121
  (28592, b!"ISO 8859-2 Central European; Central European (ISO)"), -- document/excel/records/CodePageRecord.hpp:122
  (28593, b!"ISO 8859-3 Latin 3"), -- document/excel/records/CodePageRecord.hpp:123
  (28594, b!"ISO 8859-4 Baltic"), -- document/excel/records/CodePageRecord.hpp:124
  (28595, b!"ISO 8859-5 Cyrillic"), -- document/excel/records/CodePageRecord.hpp:125
  (28596, b!"ISO 8859-6 Arabic"), -- document/excel/records/CodePageRecord.hpp:126
  (28597, b!"ISO 8859-7 Greek"), -- document/excel/records/CodePageRecord.hpp:127
  (28598, b!"ISO 8859-8 Hebrew; Hebrew (ISO-Visual)"), -- document/excel/records/CodePageRecord.hpp:128
  (28599, b!"ISO 8859-9 Turkish"), -- document/excel/records/CodePageRecord.hpp:129
  (28603, b!"ISO 8859-13 Estonian"), -- document/excel/records/CodePageRecord.hpp:130
  (28605, b!"ISO 8859-15 Latin 9"), -- document/excel/records/CodePageRecord.hpp:131
  (29001, b!"Europa 3"), -- document/excel/records/CodePageRecord.hpp:132
  (38598, b!"ISO 8859-8 Hebrew; Hebrew (ISO-Logical)"), -- document/excel/records/CodePageRecord.hpp:133
  (50220, b!"ISO 2022 Japanese with no halfwidth Katakana; Japanese (JIS)"), -- document/excel/records/CodePageRecord.hpp:134
  (50221, b!"ISO 2022 Japanese with halfwidth Katakana; Japanese (JIS-Allow 1 byte Kana)"), -- document/excel/records/CodePageRecord.hpp:135
  (50222, b!"ISO 2022 Japanese JIS X 0201-1989; Japanese (JIS-Allow 1 byte Kana - SO/SI)"), -- document/excel/records/CodePageRecord.hpp:136
  (50225, b!"ISO 2022 Korean"), -- document/excel/records/CodePageRecord.hpp:137
  (50227, b!"ISO 2022 Simplified Chinese; Chinese Simplified (ISO 2022)"), -- document/excel/records/CodePageRecord.hpp:138
  (50229, b!"ISO 2022 Traditional Chinese"), -- document/excel/records/CodePageRecord.hpp:139
  (50930, b!"EBCDIC Japanese (Katakana) Extended"), -- document/excel/records/CodePageRecord.hpp:140
  (50931, b!"EBCDIC US-Canada and Japanese"), -- document/excel/records/CodePageRecord.hpp:141
  (50933, b!"EBCDIC Korean Extended and Korean"), -- document/excel/records/CodePageRecord.hpp:142
  (50935, b!"EBCDIC Simplified Chinese Extended and Simplified Chinese"), -- document/excel/records/CodePageRecord.hpp:143
  (50936, b!"EBCDIC Simplified Chinese"), -- document/excel/records/CodePageRecord.hpp:144
  (50937, b!"EBCDIC US-Canada and Traditional Chinese"), -- document/excel/records/CodePageRecord.hpp:145
  (50939, b!"EBCDIC Japanese (Latin) Extended and Japanese"), -- document/excel/records/CodePageRecord.hpp:146
  (51932, b!"EUC Japanese"), -- document/excel/records/CodePageRecord.hpp:147
  (51936, b!"EUC Simplified Chinese; Chinese Simplified (EUC)"), -- document/excel/records/CodePageRecord.hpp:148
  (51949, b!"EUC Korean"), -- document/excel/records/CodePageRecord.hpp:149
  (51950, b!"EUC Traditional Chinese"), -- document/excel/records/CodePageRecord.hpp:150
  (52936, b!"HZ-GB2312 Simplified Chinese; Chinese Simplified (HZ)"), -- document/excel/records/CodePageRecord.hpp:151
  (54936, b!"Windows XP and later:?GB18030 Simplified Chinese (4 byte); Chinese Simplified (GB18030)"), -- document/excel/records/CodePageRecord.hpp:152
  (57002, b!"ISCII Devanagari"), -- document/excel/records/CodePageRecord.hpp:153
  (57003, b!"ISCII Bangla"), -- document/excel/records/CodePageRecord.hpp:154
  (57004, b!"ISCII Tamil"), -- document/excel/records/CodePageRecord.hpp:155
  (57005, b!"ISCII Telugu"), -- document/excel/records/CodePageRecord.hpp:156
  (57006, b!"ISCII Assamese"), -- document/excel/records/CodePageRecord.hpp:157
  (57007, b!"ISCII Odia"), -- document/excel/records/CodePageRecord.hpp:158
  (57008, b!"ISCII Kannada"), -- document/excel/records/CodePageRecord.hpp:159
  (57009, b!"ISCII Malayalam"), -- document/excel/records/CodePageRecord.hpp:160
  (57010, b!"ISCII Gujarati"), -- document/excel/records/CodePageRecord.hpp:161
  (57011, b!"ISCII Punjabi"), -- document/excel/records/CodePageRecord.hpp:162
  (65000, b!"Unicode (UTF-7)"), -- document/excel/records/CodePageRecord.hpp:163
  (65001, b!"Unicode (UTF-8)")] -- document/excel/records/CodePageRecord.hpp:164

/-- document/excel/records/CountryRecord.hpp:16-70 the cases of `GetCountryName`. -/
def countries : List (Nat × Bytes) := [
  (1, b!"United States"), -- document/excel/records/CountryRecord.hpp:19
  (2, b!"Canada"), -- document/excel/records/CountryRecord.hpp:20
  (3, b!"Latin America, except Brazil"), -- document/excel/records/CountryRecord.hpp:21
  (7, b!"Russia"), -- document/excel/records/CountryRecord.hpp:22
  (20, b!"Egypt"), -- document/excel/records/CountryRecord.hpp:23
  (30, b!"Greece"), -- document/excel/records/CountryRecord.hpp:24
  (31, b!"Netherlands"), -- document/excel/records/CountryRecord.hpp:25
  (32, b!"Belgium"), -- document/excel/records/CountryRecord.hpp:26
  (33, b!"France"), -- document/excel/records/CountryRecord.hpp:27
  (34, b!"Spain"), -- document/excel/records/CountryRecord.hpp:28
  (36, b!"Hungary"), -- document/excel/records/CountryRecord.hpp:29
  (39, b!"Italy"), -- document/excel/records/CountryRecord.hpp:30
  (41, b!"Switzerland"), -- document/excel/records/CountryRecord.hpp:31
  (43, b!"Austria"), -- document/excel/records/CountryRecord.hpp:32
  (44, b!"United Kingdom"), -- document/excel/records/CountryRecord.hpp:33
  (45, b!"Denmark"), -- document/excel/records/CountryRecord.hpp:34
  (46, b!"Sweden"), -- document/excel/records/CountryRecord.hpp:35
  (47, b!"Norway"), -- document/excel/records/CountryRecord.hpp:36
  (48, b!"Poland"), -- document/excel/records/CountryRecord.hpp:37
  (49, b!"Germany"), -- document/excel/records/CountryRecord.hpp:38
  (52, b!"Mexico"), -- document/excel/records/CountryRecord.hpp:39
  (55, b!"Brazil"), -- document/excel/records/CountryRecord.hpp:40
  (61, b!"Australia"), -- document/excel/records/CountryRecord.hpp:41
  (64, b!"New Zealand"), -- document/excel/records/CountryRecord.hpp:42
  (66, b!"Thailand"), -- document/excel/records/CountryRecord.hpp:43
  (81, b!"Japan"), -- document/excel/records/CountryRecord.hpp:44
  (82, b!"Korea"), -- document/excel/records/CountryRecord.hpp:45
  (84, b!"Viet Nam"), -- document/excel/records/CountryRecord.hpp:46
  (86, b!"People's Republic of China"), -- document/excel/records/CountryRecord.hpp:47
  (90, b!"Turkey"), -- document/excel/records/CountryRecord.hpp:48
  (213, b!"Algeria"), -- document/excel/records/CountryRecord.hpp:49
  (216, b!"Morocco"), -- document/excel/records/CountryRecord.hpp:50
  (218, b!"Libya"), -- document/excel/records/CountryRecord.hpp:51
  (351, b!"Portugal"), -- document/excel/records/CountryRecord.hpp:52
  (354, b!"Iceland"), -- document/excel/records/CountryRecord.hpp:53
  (358, b!"Finland"), -- document/excel/records/CountryRecord.hpp:54
  (420, b!"Czech Republic"), -- document/excel/records/CountryRecord.hpp:55
  (886, b!"Taiwan"), -- document/excel/records/CountryRecord.hpp:56
  (961, b!"Lebanon"), -- document/excel/records/CountryRecord.hpp:57
  (962, b!"Jordan"), -- document/excel/records/CountryRecord.hpp:58
  (963, b!"Syria"), -- document/excel/records/CountryRecord.hpp:59
  (964, b!"Iraq"), -- document/excel/records/CountryRecord.hpp:60
  (965, b!"Kuwait"), -- document/excel/records/CountryRecord.hpp:61
  (966, b!"Saudi Arabia"), -- document/excel/records/CountryRecord.hpp:62
  (971, b!"United Arab Emirates"), -- document/excel/records/CountryRecord.hpp:63
  (972, b!"Israel"), -- document/excel/records/CountryRecord.hpp:64
  (974, b!"Qatar"), -- document/excel/records/CountryRecord.hpp:65
  (981, b!"Iran")] -- document/excel/records/CountryRecord.hpp:66

/-- document/excel/structures/formulas/helper.hpp:16-395 the cases of `GetFunctionName_FTab`. -/
def functions : List (Nat × Bytes) := [
  (0, b!"COUNT"), -- document/excel/structures/formulas/helper.hpp:19
  (1, b!"IF"), -- document/excel/structures/formulas/helper.hpp:20
  (2, b!"ISNA"), -- document/excel/structures/formulas/helper.hpp:21
  (3, b!"ISERROR"), -- document/excel/structures/formulas/helper.hpp:22
  (4, b!"SUM"), -- document/excel/structures/formulas/helper.hpp:23
  (5, b!"AVERAGE"), -- document/excel/structures/formulas/helper.hpp:24
  (6, b!"MIN"), -- document/excel/structures/formulas/helper.hpp:25
  (7, b!"MAX"), -- document/excel/structures/formulas/helper.hpp:26
  (8, b!"ROW"), -- document/excel/structures/formulas/helper.hpp:27
  (9, b!"COLUMN"), -- document/excel/structures/formulas/helper.hpp:28
  (10, b!"NA"), -- document/excel/structures/formulas/helper.hpp:29
  (11, b!"NPV"), -- document/excel/structures/formulas/helper.hpp:30
  (12, b!"STDEV"), -- document/excel/structures/formulas/helper.hpp:31
  (13, b!"DOLLAR"), -- document/excel/structures/formulas/helper.hpp:32
  (14, b!"FIXED"), -- document/excel/structures/formulas/helper.hpp:33
  (15, b!"SIN"), -- document/excel/structures/formulas/helper.hpp:34
  (16, b!"COS"), -- document/excel/structures/formulas/helper.hpp:35
  (17, b!"TAN"), -- document/excel/structures/formulas/helper.hpp:36
  (18, b!"ATAN"), -- document/excel/structures/formulas/helper.hpp:37
  (19, b!"PI"), -- document/excel/structures/formulas/helper.hpp:38
  (20, b!"SQRT"), -- document/excel/structures/formulas/helper.hpp:39
  (21, b!"EXP"), -- document/excel/structures/formulas/helper.hpp:40
  (22, b!"LN"), -- document/excel/structures/formulas/helper.hpp:41
  (23, b!"LOG10"), -- document/excel/structures/formulas/helper.hpp:42
  (24, b!"ABS"), -- document/excel/structures/formulas/helper.hpp:43
  (25, b!"INT"), -- document/excel/structures/formulas/helper.hpp:44
  (26, b!"SIGN"), -- document/excel/structures/formulas/helper.hpp:45
  (27, b!"ROUND"), -- document/excel/structures/formulas/helper.hpp:46
  (28, b!"LOOKUP"), -- document/excel/structures/formulas/helper.hpp:47
  (29, b!"INDEX"), -- document/excel/structures/formulas/helper.hpp:48
  (30, b!"REPT"), -- document/excel/structures/formulas/helper.hpp:49
  (31, b!"MID"), -- document/excel/structures/formulas/helper.hpp:50
  (32, b!"LEN"), -- document/excel/structures/formulas/helper.hpp:51
  (33, b!"VALUE"), -- document/excel/structures/formulas/helper.hpp:52
  (34, b!"TRUE"), -- document/excel/structures/formulas/helper.hpp:53
  (35, b!"FALSE"), -- document/excel/structures/formulas/helper.hpp:54
  (36, b!"AND"), -- document/excel/structures/formulas/helper.hpp:55
  (37, b!"OR"), -- document/excel/structures/formulas/helper.hpp:56
  (38, b!"NOT"), -- document/excel/structures/formulas/helper.hpp:57
  (39, b!"MOD"), -- document/excel/structures/formulas/helper.hpp:58
  (40, b!"DCOUNT"), -- document/excel/structures/formulas/helper.hpp:59
  (41, b!"DSUM"), -- document/excel/structures/formulas/helper.hpp:60
  (42, b!"DAVERAGE"), -- document/excel/structures/formulas/helper.hpp:61
  (43, b!"DMIN"), -- document/excel/structures/formulas/helper.hpp:62
  (44, b!"DMAX"), -- document/excel/structures/formulas/helper.hpp:63
  (45, b!"DSTDEV"), -- document/excel/structures/formulas/helper.hpp:64
  (46, b!"VAR"), -- document/excel/structures/formulas/helper.hpp:65
  (47, b!"DVAR"), -- document/excel/structures/formulas/helper.hpp:66
  (48, b!"TEXT"), -- document/excel/structures/formulas/helper.hpp:67
  (49, b!"LINEST"), -- document/excel/structures/formulas/helper.hpp:68
  (50, b!"TREND"), -- document/excel/structures/formulas/helper.hpp:69
  (51, b!"LOGEST"), -- document/excel/structures/formulas/helper.hpp:70
  (52, b!"GROWTH"), -- document/excel/structures/formulas/helper.hpp:71
  (53, b!"GOTO"), -- document/excel/structures/formulas/helper.hpp:72
  (54, b!"HALT"), -- document/excel/structures/formulas/helper.hpp:73
  (55, b!"RETURN"), -- document/excel/structures/formulas/helper.hpp:74
  (56, b!"PV"), -- document/excel/structures/formulas/helper.hpp:75
  (57, b!"FV"), -- document/excel/structures/formulas/helper.hpp:76
  (58, b!"NPER"), -- document/excel/structures/formulas/helper.hpp:77
  (59, b!"PMT"), -- document/excel/structures/formulas/helper.hpp:78
  (60, b!"RATE"), -- document/excel/structures/formulas/helper.hpp:79
  (61, b!"MIRR"), -- document/excel/structures/formulas/helper.hpp:80
  (62, b!"IRR"), -- document/excel/structures/formulas/helper.hpp:81
  (63, b!"RAND"), -- document/excel/structures/formulas/helper.hpp:82
  (64, b!"MATCH"), -- document/excel/structures/formulas/helper.hpp:83
  (65, b!"DATE"), -- document/excel/structures/formulas/helper.hpp:84
  (66, b!"TIME"), -- document/excel/structures/formulas/helper.hpp:85
  (67, b!"DAY"), -- document/excel/structures/formulas/helper.hpp:86
  (68, b!"MONTH"), -- document/excel/structures/formulas/helper.hpp:87
  (69, b!"YEAR"), -- document/excel/structures/formulas/helper.hpp:88
  (70, b!"WEEKDAY"), -- document/excel/structures/formulas/helper.hpp:89
  (71, b!"HOUR"), -- document/excel/structures/formulas/helper.hpp:90
  (72, b!"MINUTE"), -- document/excel/structures/formulas/helper.hpp:91
  (73, b!"SECOND"), -- document/excel/structures/formulas/helper.hpp:92
  (74, b!"NOW"), -- document/excel/structures/formulas/helper.hpp:93
  (75, b!"AREAS"), -- document/excel/structures/formulas/helper.hpp:94
  (76, b!"ROWS"), -- document/excel/structures/formulas/helper.hpp:95
  (77, b!"COLUMNS"), -- document/excel/structures/formulas/helper.hpp:96
  (78, b!"OFFSET"), -- document/excel/structures/formulas/helper.hpp:97
  (79, b!"ABSREF"), -- document/excel/structures/formulas/helper.hpp:98
  (80, b!"RELREF"), -- document/excel/structures/formulas/helper.hpp:99
  (81, b!"ARGUMENT"), -- document/excel/structures/formulas/helper.hpp:100
  (82, b!"SEARCH"), -- document/excel/structures/formulas/helper.hpp:101
  (83, b!"TRANSPOSE"), -- document/excel/structures/formulas/helper.hpp:102
  (84, b!"ERROR"), -- document/excel/structures/formulas/helper.hpp:103
  (85, b!"STEP"), -- document/excel/structures/formulas/helper.hpp:104
  (86, b!"TYPE"), -- document/excel/structures/formulas/helper.hpp:105
  (87, b!"ECHO"), -- document/excel/structures/formulas/helper.hpp:106
  (88, b!"SET.NAME"), -- document/excel/structures/formulas/helper.hpp:107
  (89, b!"CALLER"), -- document/excel/structures/formulas/helper.hpp:108
  (90, b!"DEREF"), -- document/excel/structures/formulas/helper.hpp:109
  (91, b!"WINDOWS"), -- document/excel/structures/formulas/helper.hpp:110
  (92, b!"SERIES"), -- document/excel/structures/formulas/helper.hpp:111
  (93, b!"DOCUMENTS"), -- document/excel/structures/formulas/helper.hpp:112
  (94, b!"ACTIVE.CELL"), -- document/excel/structures/formulas/helper.hpp:113
  (95, b!"SELECTION"), -- document/excel/structures/formulas/helper.hpp:114
  (96, b!"RESULT"), -- document/excel/structures/formulas/helper.hpp:115
  (97, b!"ATAN2"), -- document/excel/structures/formulas/helper.hpp:116
  (98, b!"ASIN"), -- document/excel/structures/formulas/helper.hpp:117
  (99, b!"ACOS"), -- document/excel/structures/formulas/helper.hpp:118
  (100, b!"CHOOSE"), -- document/excel/structures/formulas/helper.hpp:119
  (101, b!"HLOOKUP"), -- document/excel/structures/formulas/helper.hpp:120
  (102, b!"VLOOKUP"), -- document/excel/structures/formulas/helper.hpp:121
  (103, b!"LINKS"), -- document/excel/structures/formulas/helper.hpp:122
  (104, b!"INPUT"), -- document/excel/structures/formulas/helper.hpp:123
  (105, b!"ISREF"), -- document/excel/structures/formulas/helper.hpp:124
  (106, b!"GET.FORMULA"), -- document/excel/structures/formulas/helper.hpp:125
  (107, b!"GET.NAME"), -- document/excel/structures/formulas/helper.hpp:126
  (108, b!"SET.VALUE"), -- document/excel/structures/formulas/helper.hpp:127
  (109, b!"LOG"), -- document/excel/structures/formulas/helper.hpp:128
  (110, b!"EXEC"), -- document/excel/structures/formulas/helper.hpp:129
  (111, b!"CHAR"), -- document/excel/structures/formulas/helper.hpp:130
  (112, b!"LOWER"), -- document/excel/structures/formulas/helper.hpp:131
  (113, b!"UPPER"), -- document/excel/structures/formulas/helper.hpp:132
  (114, b!"PROPER"), -- document/excel/structures/formulas/helper.hpp:133
  (115, b!"LEFT"), -- document/excel/structures/formulas/helper.hpp:134
  (116, b!"RIGHT"), -- document/excel/structures/formulas/helper.hpp:135
  (117, b!"EXACT"), -- document/excel/structures/formulas/helper.hpp:136
  (118, b!"TRIM"), -- document/excel/structures/formulas/helper.hpp:137
  (119, b!"REPLACE"), -- document/excel/structures/formulas/helper.hpp:138
  (120, b!"SUBSTITUTE"), -- document/excel/structures/formulas/helper.hpp:139
  (121, b!"CODE"), -- document/excel/structures/formulas/helper.hpp:140
  (122, b!"NAMES"), -- document/excel/structures/formulas/helper.hpp:141
  (123, b!"DIRECTORY"), -- document/excel/structures/formulas/helper.hpp:142
  (124, b!"FIND"), -- document/excel/structures/formulas/helper.hpp:143
  (125, b!"CELL"), -- document/excel/structures/formulas/helper.hpp:144
  (126, b!"ISERR"), -- document/excel/structures/formulas/helper.hpp:145
  (127, b!"ISTEXT"), -- document/excel/structures/formulas/helper.hpp:146
  (128, b!"ISNUMBER"), -- document/excel/structures/formulas/helper.hpp:147
  (129, b!"ISBLANK"), -- document/excel/structures/formulas/helper.hpp:148
  (130, b!"T"), -- document/excel/structures/formulas/helper.hpp:149
  (131, b!"N"), -- document/excel/structures/formulas/helper.hpp:150
  (132, b!"FOPEN"), -- document/excel/structures/formulas/helper.hpp:151
  (133, b!"FCLOSE"), -- document/excel/structures/formulas/helper.hpp:152
  (134, b!"FSIZE"), -- document/excel/structures/formulas/helper.hpp:153
  (135, b!"FREADLN"), -- document/excel/structures/formulas/helper.hpp:154
  (136, b!"FREAD"), -- document/excel/structures/formulas/helper.hpp:155
  (137, b!"FWRITELN"), -- document/excel/structures/formulas/helper.hpp:156
  (138, b!"FWRITE"), -- document/excel/structures/formulas/helper.hpp:157
  (139, b!"FPOS"), -- document/excel/structures/formulas/helper.hpp:158
  (140, b!"DATEVALUE"), -- document/excel/structures/formulas/helper.hpp:159
  (141, b!"TIMEVALUE"), -- document/excel/structures/formulas/helper.hpp:160
  (142, b!"SLN"), -- document/excel/structures/formulas/helper.hpp:161
  (143, b!"SYD"), -- document/excel/structures/formulas/helper.hpp:162
  (144, b!"DDB"), -- document/excel/structures/formulas/helper.hpp:163
  (145, b!"GET.DEF"), -- document/excel/structures/formulas/helper.hpp:164
  (146, b!"REFTEXT"), -- document/excel/structures/formulas/helper.hpp:165
  (147, b!"TEXTREF"), -- document/excel/structures/formulas/helper.hpp:166
  (148, b!"INDIRECT"), -- document/excel/structures/formulas/helper.hpp:167
  (149, b!"REGISTER"), -- document/excel/structures/formulas/helper.hpp:168
  (150, b!"CALL"), -- document/excel/structures/formulas/helper.hpp:169
  (151, b!"ADD.BAR"), -- document/excel/structures/formulas/helper.hpp:170
  (152, b!"ADD.MENU"), -- document/excel/structures/formulas/helper.hpp:171
  (153, b!"ADD.COMMAND"), -- document/excel/structures/formulas/helper.hpp:172
  (154, b!"ENABLE.COMMAND"), -- document/excel/structures/formulas/helper.hpp:173
  (155, b!"CHECK.COMMAND"), -- document/excel/structures/formulas/helper.hpp:174
  (156, b!"RENAME.COMMAND"), -- document/excel/structures/formulas/helper.hpp:175
  (157, b!"SHOW.BAR"), -- document/excel/structures/formulas/helper.hpp:176
  (158, b!"DELETE.MENU"), -- document/excel/structures/formulas/helper.hpp:177
  (159, b!"DELETE.COMMAND"), -- document/excel/structures/formulas/helper.hpp:178
  (160, b!"GET.CHART.ITEM"), -- document/excel/structures/formulas/helper.hpp:179
  (161, b!"DIALOG.BOX"), -- document/excel/structures/formulas/helper.hpp:180
  (162, b!"CLEAN"), -- document/excel/structures/formulas/helper.hpp:181
  (163, b!"MDETERM"), -- document/excel/structures/formulas/helper.hpp:182
  (164, b!"MINVERSE"), -- document/excel/structures/formulas/helper.hpp:183
  (165, b!"MMULT"), -- document/excel/structures/formulas/helper.hpp:184
  (166, b!"FILES"), -- document/excel/structures/formulas/helper.hpp:185
  (167, b!"IPMT"), -- document/excel/structures/formulas/helper.hpp:186
  (168, b!"PPMT"), -- document/excel/structures/formulas/helper.hpp:187
  (169, b!"COUNTA"), -- document/excel/structures/formulas/helper.hpp:188
  (170, b!"CANCEL.KEY"), -- document/excel/structures/formulas/helper.hpp:189
  (171, b!"FOR"), -- document/excel/structures/formulas/helper.hpp:190
  (172, b!"WHILE"), -- document/excel/structures/formulas/helper.hpp:191
  (173, b!"BREAK"), -- document/excel/structures/formulas/helper.hpp:192
  (174, b!"NEXT"), -- document/excel/structures/formulas/helper.hpp:193
  (175, b!"INITIATE"), -- document/excel/structures/formulas/helper.hpp:194
  (176, b!"REQUEST"), -- document/excel/structures/formulas/helper.hpp:195
  (177, b!"POKE"), -- document/excel/structures/formulas/helper.hpp:196
  (178, b!"EXECUTE"), -- document/excel/structures/formulas/helper.hpp:197
  (179, b!"TERMINATE"), -- document/excel/structures/formulas/helper.hpp:198
  (180, b!"RESTART"), -- document/excel/structures/formulas/helper.hpp:199
  (181, b!"HELP"), -- document/excel/structures/formulas/helper.hpp:200
  (182, b!"GET.BAR"), -- document/excel/structures/formulas/helper.hpp:201
  (183, b!"PRODUCT"), -- document/excel/structures/formulas/helper.hpp:202
  (184, b!"FACT"), -- document/excel/structures/formulas/helper.hpp:203
  (185, b!"GET.CELL"), -- document/excel/structures/formulas/helper.hpp:204
  (186, b!"GET.WORKSPACE"), -- document/excel/structures/formulas/helper.hpp:205
  (187, b!"GET.WINDOW"), -- document/excel/structures/formulas/helper.hpp:206
  (188, b!"GET.DOCUMENT"), -- document/excel/structures/formulas/helper.hpp:207
  (189, b!"DPRODUCT"), -- document/excel/structures/formulas/helper.hpp:208
  (190, b!"ISNONTEXT"), -- document/excel/structures/formulas/helper.hpp:209
  (191, b!"GET.NOTE"), -- document/excel/structures/formulas/helper.hpp:210
  (192, b!"NOTE"), -- document/excel/structures/formulas/helper.hpp:211
  (193, b!"STDEVP"), -- document/excel/structures/formulas/helper.hpp:212
  (194, b!"VARP"), -- document/excel/structures/formulas/helper.hpp:213
  (195, b!"DSTDEVP"), -- document/excel/structures/formulas/helper.hpp:214
  (196, b!"DVARP"), -- document/excel/structures/formulas/helper.hpp:215
  (197, b!"TRUNC"), -- document/excel/structures/formulas/helper.hpp:216
  (198, b!"ISLOGICAL"), -- document/excel/structures/formulas/helper.hpp:217
  (199, b!"DCOUNTA"), -- document/excel/structures/formulas/helper.hpp:218
  (200, b!"DELETE.BAR"), -- document/excel/structures/formulas/helper.hpp:219
  (201, b!"UNREGISTER"), -- document/excel/structures/formulas/helper.hpp:220
  (204, b!"USDOLLAR"), -- document/excel/structures/formulas/helper.hpp:221
  (205, b!"FINDB"), -- document/excel/structures/formulas/helper.hpp:222
  (206, b!"SEARCHB"), -- document/excel/structures/formulas/helper.hpp:223
  (207, b!"REPLACEB"), -- document/excel/structures/formulas/helper.hpp:224
  (208, b!"LEFTB"), -- document/excel/structures/formulas/helper.hpp:225
  (209, b!"RIGHTB"), -- document/excel/structures/formulas/helper.hpp:226
  (210, b!"MIDB"), -- document/excel/structures/formulas/helper.hpp:227
  (211, b!"LENB"), -- document/excel/structures/formulas/helper.hpp:228
  (212, b!"ROUNDUP"), -- document/excel/structures/formulas/helper.hpp:229
  (213, b!"ROUNDDOWN"), -- document/excel/structures/formulas/helper.hpp:230
  (214, b!"ASC"), -- document/excel/structures/formulas/helper.hpp:231
  (215, b!"DBCS"), -- document/excel/structures/formulas/helper.hpp:232
  (216, b!"RANK"), -- document/excel/structures/formulas/helper.hpp:233
  (219, b!"ADDRESS"), -- document/excel/structures/formulas/helper.hpp:234
  (220, b!"DAYS360"), -- document/excel/structures/formulas/helper.hpp:235
  (221, b!"TODAY"), -- document/excel/structures/formulas/helper.hpp:236
  (222, b!"VDB"), -- document/excel/structures/formulas/helper.hpp:237
  (223, b!"ELSE"), -- document/excel/structures/formulas/helper.hpp:238
  (224, b!"ELSE.IF"), -- document/excel/structures/formulas/helper.hpp:239
  (225, b!"END.IF"), -- document/excel/structures/formulas/helper.hpp:240
  (226, b!"FOR.CELL"), -- document/excel/structures/formulas/helper.hpp:241
  (227, b!"MEDIAN"), -- document/excel/structures/formulas/helper.hpp:242
  (228, b!"SUMPRODUCT"), -- document/excel/structures/formulas/helper.hpp:243
  (229, b!"SINH"), -- document/excel/structures/formulas/helper.hpp:244
  (230, b!"COSH"), -- document/excel/structures/formulas/helper.hpp:245
  (231, b!"TANH"), -- document/excel/structures/formulas/helper.hpp:246
  (232, b!"ASINH"), -- document/excel/structures/formulas/helper.hpp:247
  (233, b!"ACOSH"), -- document/excel/structures/formulas/helper.hpp:248
  (234, b!"ATANH"), -- document/excel/structures/formulas/helper.hpp:249
  (235, b!"DGET"), -- document/excel/structures/formulas/helper.hpp:250
  (236, b!"CREATE.OBJECT"), -- document/excel/structures/formulas/helper.hpp:251
  (237, b!"VOLATILE"), -- document/excel/structures/formulas/helper.hpp:252
  (238, b!"LAST.ERROR"), -- document/excel/structures/formulas/helper.hpp:253
  (239, b!"CUSTOM.UNDO"), -- document/excel/structures/formulas/helper.hpp:254
  (240, b!"CUSTOM.REPEAT"), -- document/excel/structures/formulas/helper.hpp:255
  (241, b!"FORMULA.CONVERT"), -- document/excel/structures/formulas/helper.hpp:256
  (242, b!"GET.LINK.INFO"), -- document/excel/structures/formulas/helper.hpp:257
  (243, b!"TEXT.BOX"), -- document/excel/structures/formulas/helper.hpp:258
  (244, b!"INFO"), -- document/excel/structures/formulas/helper.hpp:259
  (245, b!"GROUP"), -- document/excel/structures/formulas/helper.hpp:260
  (246, b!"GET.OBJECT"), -- document/excel/structures/formulas/helper.hpp:261
  (247, b!"DB"), -- document/excel/structures/formulas/helper.hpp:262
  (248, b!"PAUSE"), -- document/excel/structures/formulas/helper.hpp:263
  (251, b!"RESUME"), -- document/excel/structures/formulas/helper.hpp:264
  (252, b!"FREQUENCY"), -- document/excel/structures/formulas/helper.hpp:265
  (253, b!"ADD.TOOLBAR"), -- document/excel/structures/formulas/helper.hpp:266
  (254, b!"DELETE.TOOLBAR"), -- document/excel/structures/formulas/helper.hpp:267
  (255, b!"User Defined Function"), -- document/excel/structures/formulas/helper.hpp:268
  (256, b!"RESET.TOOLBAR"), -- document/excel/structures/formulas/helper.hpp:269
  (257, b!"EVALUATE"), -- document/excel/structures/formulas/helper.hpp:270
  (258, b!"GET.TOOLBAR"), -- document/excel/structures/formulas/helper.hpp:271
  (259, b!"GET.TOOL"), -- document/excel/structures/formulas/helper.hpp:272
  (260, b!"SPELLING.CHECK"), -- document/excel/structures/formulas/helper.hpp:273
  (261, b!"ERROR.TYPE"), -- document/excel/structures/formulas/helper.hpp:274
  (262, b!"APP.TITLE"), -- document/excel/structures/formulas/helper.hpp:275
  (263, b!"WINDOW.TITLE"), -- document/excel/structures/formulas/helper.hpp:276
  (264, b!"SAVE.TOOLBAR"), -- document/excel/structures/formulas/helper.hpp:277
  (265, b!"ENABLE.TOOL"), -- document/excel/structures/formulas/helper.hpp:278
  (266, b!"PRESS.TOOL"), -- document/excel/structures/formulas/helper.hpp:279
  (267, b!"REGISTER.ID"), -- document/excel/structures/formulas/helper.hpp:280
  (268, b!"GET.WORKBOOK"), -- document/excel/structures/formulas/helper.hpp:281
  (269, b!"AVEDEV"), -- document/excel/structures/formulas/helper.hpp:282
  (270, b!"BETADIST"), -- document/excel/structures/formulas/helper.hpp:283
  (271, b!"GAMMALN"), -- document/excel/structures/formulas/helper.hpp:284
  (272, b!"BETAINV"), -- document/excel/structures/formulas/helper.hpp:285
  (273, b!"BINOMDIST"), -- document/excel/structures/formulas/helper.hpp:286
  (274, b!"CHIDIST"), -- document/excel/structures/formulas/helper.hpp:287
  (275, b!"CHIINV"), -- document/excel/structures/formulas/helper.hpp:288
  (276, b!"COMBIN"), -- document/excel/structures/formulas/helper.hpp:289
  (277, b!"CONFIDENCE"), -- document/excel/structures/formulas/helper.hpp:290
  (278, b!"CRITBINOM"), -- document/excel/structures/formulas/helper.hpp:291
  (279, b!"EVEN"), -- document/excel/structures/formulas/helper.hpp:292
  (280, b!"EXPONDIST"), -- document/excel/structures/formulas/helper.hpp:293
  (281, b!"FDIST"), -- document/excel/structures/formulas/helper.hpp:294
  (282, b!"FINV"), -- document/excel/structures/formulas/helper.hpp:295
  (283, b!"FISHER"), -- document/excel/structures/formulas/helper.hpp:296
  (284, b!"FISHERINV"), -- document/excel/structures/formulas/helper.hpp:297
  (285, b!"FLOOR"), -- document/excel/structures/formulas/helper.hpp:298
  (286, b!"GAMMADIST"), -- document/excel/structures/formulas/helper.hpp:299
  (287, b!"GAMMAINV"), -- document/excel/structures/formulas/helper.hpp:300
  (288, b!"CEILING"), -- document/excel/structures/formulas/helper.hpp:301
  (289, b!"HYPGEOMDIST"), -- document/excel/structures/formulas/helper.hpp:302
  (290, b!"LOGNORMDIST"), -- document/excel/structures/formulas/helper.hpp:303
  (291, b!"LOGINV"), -- document/excel/structures/formulas/helper.hpp:304
  (292, b!"NEGBINOMDIST"), -- document/excel/structures/formulas/helper.hpp:305
  (293, b!"NORMDIST"), -- document/excel/structures/formulas/helper.hpp:306
  (294, b!"NORMSDIST"), -- document/excel/structures/formulas/helper.hpp:307
  (295, b!"NORMINV"), -- document/excel/structures/formulas/helper.hpp:308
  (296, b!"NORMSINV"), -- document/excel/structures/formulas/helper.hpp:309
  (297, b!"STANDARDIZE"), -- document/excel/structures/formulas/helper.hpp:310
  (298, b!"ODD"), -- document/excel/structures/formulas/helper.hpp:311
  (299, b!"PERMUT"), -- document/excel/structures/formulas/helper.hpp:312
  (300, b!"POISSON"), -- document/excel/structures/formulas/helper.hpp:313
  (301, b!"TDIST"), -- document/excel/structures/formulas/helper.hpp:314
  (302, b!"WEIBULL"), -- document/excel/structures/formulas/helper.hpp:315
  (303, b!"SUMXMY2"), -- document/excel/structures/formulas/helper.hpp:316
  (304, b!"SUMX2MY2"), -- document/excel/structures/formulas/helper.hpp:317
  (305, b!"SUMX2PY2"), -- document/excel/structures/formulas/helper.hpp:318
  (306, b!"CHITEST"), -- document/excel/structures/formulas/helper.hpp:319
  (307, b!"CORREL"), -- document/excel/structures/formulas/helper.hpp:320
  (308, b!"COVAR"), -- document/excel/structures/formulas/helper.hpp:321
  (309, b!"FORECAST"), -- document/excel/structures/formulas/helper.hpp:322
  (310, b!"FTEST"), -- document/excel/structures/formulas/helper.hpp:323
  (311, b!"INTERCEPT"), -- document/excel/structures/formulas/helper.hpp:324
  (312, b!"PEARSON"), -- document/excel/structures/formulas/helper.hpp:325
  (313, b!"RSQ"), -- document/excel/structures/formulas/helper.hpp:326
  (314, b!"STEYX"), -- document/excel/structures/formulas/helper.hpp:327
  (315, b!"SLOPE"), -- document/excel/structures/formulas/helper.hpp:328
  (316, b!"TTEST"), -- document/excel/structures/formulas/helper.hpp:329
  (317, b!"PROB"), -- document/excel/structures/formulas/helper.hpp:330
  (318, b!"DEVSQ"), -- document/excel/structures/formulas/helper.hpp:331
  (319, b!"GEOMEAN"), -- document/excel/structures/formulas/helper.hpp:332
  (320, b!"HARMEAN"), -- document/excel/structures/formulas/helper.hpp:333
  (321, b!"SUMSQ"), -- document/excel/structures/formulas/helper.hpp:334
  (322, b!"KURT"), -- document/excel/structures/formulas/helper.hpp:335
  (323, b!"SKEW"), -- document/excel/structures/formulas/helper.hpp:336
  (324, b!"ZTEST"), -- document/excel/structures/formulas/helper.hpp:337
  (325, b!"LARGE"), -- document/excel/structures/formulas/helper.hpp:338
  (326, b!"SMALL"), -- document/excel/structures/formulas/helper.hpp:339
  (327, b!"QUARTILE"), -- document/excel/structures/formulas/helper.hpp:340
  (328, b!"PERCENTILE"), -- document/excel/structures/formulas/helper.hpp:341
  (329, b!"PERCENTRANK"), -- document/excel/structures/formulas/helper.hpp:342
  (330, b!"MODE"), -- document/excel/structures/formulas/helper.hpp:343
  (331, b!"TRIMMEAN"), -- document/excel/structures/formulas/helper.hpp:344
  (332, b!"TINV"), -- document/excel/structures/formulas/helper.hpp:345
  (334, b!"MOVIE.COMMAND"), -- document/excel/structures/formulas/helper.hpp:346
  (335, b!"GET.MOVIE"), -- document/excel/structures/formulas/helper.hpp:347
  (336, b!"CONCATENATE"), -- document/excel/structures/formulas/helper.hpp:348
  (337, b!"POWER"), -- document/excel/structures/formulas/helper.hpp:349
  (338, b!"PIVOT.ADD.DATA"), -- document/excel/structures/formulas/helper.hpp:350
  (339, b!"GET.PIVOT.TABLE"), -- document/excel/structures/formulas/helper.hpp:351
  (340, b!"GET.PIVOT.FIELD"), -- document/excel/structures/formulas/helper.hpp:352
  (341, b!"GET.PIVOT.ITEM"), -- document/excel/structures/formulas/helper.hpp:353
  (342, b!"RADIANS"), -- document/excel/structures/formulas/helper.hpp:354
  (343, b!"DEGREES"), -- document/excel/structures/formulas/helper.hpp:355
  (344, b!"SUBTOTAL"), -- document/excel/structures/formulas/helper.hpp:356
  (345, b!"SUMIF"), -- document/excel/structures/formulas/helper.hpp:357
  (346, b!"COUNTIF"), -- document/excel/structures/formulas/helper.hpp:358
  (347, b!"COUNTBLANK"), -- document/excel/structures/formulas/helper.hpp:359
  (348, b!"SCENARIO.GET"), -- document/excel/structures/formulas/helper.hpp:360
  (349, b!"OPTIONS.LISTS.GET"), -- document/excel/structures/formulas/helper.hpp:361
  (350, b!"ISPMT"), -- document/excel/structures/formulas/helper.hpp:362
  (351, b!"DATEDIF"), -- document/excel/structures/formulas/helper.hpp:363
  (352, b!"DATESTRING"), -- document/excel/structures/formulas/helper.hpp:364
  (353, b!"NUMBERSTRING"), -- document/excel/structures/formulas/helper.hpp:365
  (354, b!"ROMAN"), -- document/excel/structures/formulas/helper.hpp:366
  (355, b!"OPEN.DIALOG"), -- document/excel/structures/formulas/helper.hpp:367
  (356, b!"SAVE.DIALOG"), -- document/excel/structures/formulas/helper.hpp:368
  (357, b!"VIEW.GET"), -- document/excel/structures/formulas/helper.hpp:369
  (358, b!"GETPIVOTDATA"), -- document/excel/structures/formulas/helper.hpp:370
  (359, b!"HYPERLINK"), -- document/excel/structures/formulas/helper.hpp:371
  (360, b!"PHONETIC"), -- document/excel/structures/formulas/helper.hpp:372
  (361, b!"AVERAGEA"), -- document/excel/structures/formulas/helper.hpp:373
  (362, b!"MAXA"), -- document/excel/structures/formulas/helper.hpp:374
  (363, b!"MINA"), -- document/excel/structures/formulas/helper.hpp:375
  (364, b!"STDEVPA"), -- document/excel/structures/formulas/helper.hpp:376
  (365, b!"VARPA"), -- document/excel/structures/formulas/helper.hpp:377
  (366, b!"STDEVA"), -- document/excel/structures/formulas/helper.hpp:378
  (367, b!"VARA"), -- document/excel/structures/formulas/helper.hpp:379
  (368, b!"BAHTTEXT"), -- document/excel/structures/formulas/helper.hpp:380
  (369, b!"THAIDAYOFWEEK"), -- document/excel/structures/formulas/helper.hpp:381
  (370, b!"THAIDIGIT"), -- document/excel/structures/formulas/helper.hpp:382
  (371, b!"THAIMONTHOFYEAR"), -- document/excel/structures/formulas/helper.hpp:383
  (372, b!"THAINUMSOUND"), -- document/excel/structures/formulas/helper.hpp:384
  (373, b!"THAINUMSTRING"), -- document/excel/structures/formulas/helper.hpp:385
  (374, b!"THAISTRINGLENGTH"), -- document/excel/structures/formulas/helper.hpp:386
  (375, b!"ISTHAIDIGIT"), -- document/excel/structures/formulas/helper.hpp:387
  (376, b!"ROUNDBAHTDOWN"), -- document/excel/structures/formulas/helper.hpp:388
  (377, b!"ROUNDBAHTUP"), -- document/excel/structures/formulas/helper.hpp:389
  (378, b!"THAIYEAR"), -- document/excel/structures/formulas/helper.hpp:390
  (379, b!"RTD")] -- document/excel/structures/formulas/helper.hpp:391

/-- document/excel/structures/formulas/helper.hpp:403-806 the cases of `GetFunctionName_CeTab`. -/
def commands : List (Nat × Bytes) := [
  (0, b!"BEEP"), -- document/excel/structures/formulas/helper.hpp:406
  (1, b!"OPEN"), -- document/excel/structures/formulas/helper.hpp:407
  (2, b!"OPEN.LINKS"), -- document/excel/structures/formulas/helper.hpp:408
  (3, b!"CLOSE.ALL"), -- document/excel/structures/formulas/helper.hpp:409
  (4, b!"SAVE"), -- document/excel/structures/formulas/helper.hpp:410
  (5, b!"SAVE.AS"), -- document/excel/structures/formulas/helper.hpp:411
  (6, b!"FILE.DELETE"), -- document/excel/structures/formulas/helper.hpp:412
  (7, b!"PAGE.SETUP"), -- document/excel/structures/formulas/helper.hpp:413
  (8, b!"PRINT"), -- document/excel/structures/formulas/helper.hpp:414
  (9, b!"PRINTER.SETUP"), -- document/excel/structures/formulas/helper.hpp:415
  (10, b!"QUIT"), -- document/excel/structures/formulas/helper.hpp:416
  (11, b!"NEW.WINDOW"), -- document/excel/structures/formulas/helper.hpp:417
  (12, b!"ARRANGE.ALL"), -- document/excel/structures/formulas/helper.hpp:418
  (13, b!"WINDOW.SIZE"), -- document/excel/structures/formulas/helper.hpp:419
  (14, b!"WINDOW.MOVE"), -- document/excel/structures/formulas/helper.hpp:420
  (15, b!"FULL"), -- document/excel/structures/formulas/helper.hpp:421
  (16, b!"CLOSE"), -- document/excel/structures/formulas/helper.hpp:422
  (17, b!"RUN"), -- document/excel/structures/formulas/helper.hpp:423
  (22, b!"SET.PRINT.AREA"), -- document/excel/structures/formulas/helper.hpp:424
  (23, b!"SET.PRINT.TITLES"), -- document/excel/structures/formulas/helper.hpp:425
  (24, b!"SET.PAGE.BREAK"), -- document/excel/structures/formulas/helper.hpp:426
  (25, b!"REMOVE.PAGE.BREAK"), -- document/excel/structures/formulas/helper.hpp:427
  (26, b!"FONT"), -- document/excel/structures/formulas/helper.hpp:428
  (27, b!"DISPLAY"), -- document/excel/structures/formulas/helper.hpp:429
  (28, b!"PROTECT.DOCUMENT"), -- document/excel/structures/formulas/helper.hpp:430
  (29, b!"PRECISION"), -- document/excel/structures/formulas/helper.hpp:431
  (30, b!"A1.R1C1"), -- document/excel/structures/formulas/helper.hpp:432
  (31, b!"CALCULATE.NOW"), -- document/excel/structures/formulas/helper.hpp:433
  (32, b!"CALCULATION"), -- document/excel/structures/formulas/helper.hpp:434
  (34, b!"DATA.FIND"), -- document/excel/structures/formulas/helper.hpp:435
  (35, b!"EXTRACT"), -- document/excel/structures/formulas/helper.hpp:436
  (36, b!"DATA.DELETE"), -- document/excel/structures/formulas/helper.hpp:437
  (37, b!"SET.DATABASE"), -- document/excel/structures/formulas/helper.hpp:438
  (38, b!"SET.CRITERIA"), -- document/excel/structures/formulas/helper.hpp:439
  (39, b!"SORT"), -- document/excel/structures/formulas/helper.hpp:440
  (40, b!"DATA.SERIES"), -- document/excel/structures/formulas/helper.hpp:441
  (41, b!"TABLE"), -- document/excel/structures/formulas/helper.hpp:442
  (42, b!"FORMAT.NUMBER"), -- document/excel/structures/formulas/helper.hpp:443
  (43, b!"ALIGNMENT"), -- document/excel/structures/formulas/helper.hpp:444
  (44, b!"STYLE"), -- document/excel/structures/formulas/helper.hpp:445
  (45, b!"BORDER"), -- document/excel/structures/formulas/helper.hpp:446
  (46, b!"CELL.PROTECTION"), -- document/excel/structures/formulas/helper.hpp:447
  (47, b!"COLUMN.WIDTH"), -- document/excel/structures/formulas/helper.hpp:448
  (48, b!"UNDO"), -- document/excel/structures/formulas/helper.hpp:449
  (49, b!"CUT"), -- document/excel/structures/formulas/helper.hpp:450
  (50, b!"COPY"), -- document/excel/structures/formulas/helper.hpp:451
  (51, b!"PASTE"), -- document/excel/structures/formulas/helper.hpp:452
  (52, b!"CLEAR"), -- document/excel/structures/formulas/helper.hpp:453
  (53, b!"PASTE.SPECIAL"), -- document/excel/structures/formulas/helper.hpp:454
  (54, b!"EDIT.DELETE"), -- document/excel/structures/formulas/helper.hpp:455
  (55, b!"INSERT"), -- document/excel/structures/formulas/helper.hpp:456
  (56, b!"FILL.RIGHT"), -- document/excel/structures/formulas/helper.hpp:457
  (57, b!"FILL.DOWN"), -- document/excel/structures/formulas/helper.hpp:458
  (61, b!"DEFINE.NAME"), -- document/excel/structures/formulas/helper.hpp:459
  (62, b!"CREATE.NAMES"), -- document/excel/structures/formulas/helper.hpp:460
  (63, b!"FORMULA.GOTO"), -- document/excel/structures/formulas/helper.hpp:461
  (64, b!"FORMULA.FIND"), -- document/excel/structures/formulas/helper.hpp:462
  (65, b!"SELECT.LAST.CELL"), -- document/excel/structures/formulas/helper.hpp:463
  (66, b!"SHOW.ACTIVE.CELL"), -- document/excel/structures/formulas/helper.hpp:464
  (67, b!"GALLERY.AREA"), -- document/excel/structures/formulas/helper.hpp:465
  (68, b!"GALLERY.BAR"), -- document/excel/structures/formulas/helper.hpp:466
  (69, b!"GALLERY.COLUMN"), -- document/excel/structures/formulas/helper.hpp:467
  (70, b!"GALLERY.LINE"), -- document/excel/structures/formulas/helper.hpp:468
  (71, b!"GALLERY.PIE"), -- document/excel/structures/formulas/helper.hpp:469
  (72, b!"GALLERY.SCATTER"), -- document/excel/structures/formulas/helper.hpp:470
  (73, b!"COMBINATION"), -- document/excel/structures/formulas/helper.hpp:471
  (74, b!"PREFERRED"), -- document/excel/structures/formulas/helper.hpp:472
  (75, b!"ADD.OVERLAY"), -- document/excel/structures/formulas/helper.hpp:473
  (76, b!"GRIDLINES"), -- document/excel/structures/formulas/helper.hpp:474
  (77, b!"SET.PREFERRED"), -- document/excel/structures/formulas/helper.hpp:475
  (78, b!"AXES"), -- document/excel/structures/formulas/helper.hpp:476
  (79, b!"LEGEND"), -- document/excel/structures/formulas/helper.hpp:477
  (80, b!"ATTACH.TEXT"), -- document/excel/structures/formulas/helper.hpp:478
  (81, b!"ADD.ARROW"), -- document/excel/structures/formulas/helper.hpp:479
  (82, b!"SELECT.CHART"), -- document/excel/structures/formulas/helper.hpp:480
  (83, b!"SELECT.PLOT.AREA"), -- document/excel/structures/formulas/helper.hpp:481
  (84, b!"PATTERNS"), -- document/excel/structures/formulas/helper.hpp:482
  (85, b!"MAIN.CHART"), -- document/excel/structures/formulas/helper.hpp:483
  (86, b!"OVERLAY"), -- document/excel/structures/formulas/helper.hpp:484
  (87, b!"SCALE"), -- document/excel/structures/formulas/helper.hpp:485
  (88, b!"FORMAT.LEGEND"), -- document/excel/structures/formulas/helper.hpp:486
  (89, b!"FORMAT.TEXT"), -- document/excel/structures/formulas/helper.hpp:487
  (90, b!"EDIT.REPEAT"), -- document/excel/structures/formulas/helper.hpp:488
  (91, b!"PARSE"), -- document/excel/structures/formulas/helper.hpp:489
  (92, b!"JUSTIFY"), -- document/excel/structures/formulas/helper.hpp:490
  (93, b!"HIDE"), -- document/excel/structures/formulas/helper.hpp:491
  (94, b!"UNHIDE"), -- document/excel/structures/formulas/helper.hpp:492
  (95, b!"WORKSPACE"), -- document/excel/structures/formulas/helper.hpp:493
  (96, b!"FORMULA"), -- document/excel/structures/formulas/helper.hpp:494
  (97, b!"FORMULA.FILL"), -- document/excel/structures/formulas/helper.hpp:495
  (98, b!"FORMULA.ARRAY"), -- document/excel/structures/formulas/helper.hpp:496
  (99, b!"DATA.FIND.NEXT"), -- document/excel/structures/formulas/helper.hpp:497
  (100, b!"DATA.FIND.PREV"), -- document/excel/structures/formulas/helper.hpp:498
  (101, b!"FORMULA.FIND.NEXT"), -- document/excel/structures/formulas/helper.hpp:499
  (102, b!"FORMULA.FIND.PREV"), -- document/excel/structures/formulas/helper.hpp:500
  (103, b!"ACTIVATE"), -- document/excel/structures/formulas/helper.hpp:501
  (104, b!"ACTIVATE.NEXT"), -- document/excel/structures/formulas/helper.hpp:502
  (105, b!"ACTIVATE.PREV"), -- document/excel/structures/formulas/helper.hpp:503
  (106, b!"UNLOCKED.NEXT"), -- document/excel/structures/formulas/helper.hpp:504
  (107, b!"UNLOCKED.PREV"), -- document/excel/structures/formulas/helper.hpp:505
  (108, b!"COPY.PICTURE"), -- document/excel/structures/formulas/helper.hpp:506
  (109, b!"SELECT"), -- document/excel/structures/formulas/helper.hpp:507
  (110, b!"DELETE.NAME"), -- document/excel/structures/formulas/helper.hpp:508
  (111, b!"DELETE.FORMAT"), -- document/excel/structures/formulas/helper.hpp:509
  (112, b!"VLINE"), -- document/excel/structures/formulas/helper.hpp:510
  (113, b!"HLINE"), -- document/excel/structures/formulas/helper.hpp:511
  (114, b!"VPAGE"), -- document/excel/structures/formulas/helper.hpp:512
  (115, b!"HPAGE"), -- document/excel/structures/formulas/helper.hpp:513
  (116, b!"VSCROLL"), -- document/excel/structures/formulas/helper.hpp:514
  (117, b!"HSCROLL"), -- document/excel/structures/formulas/helper.hpp:515
  (118, b!"ALERT"), -- document/excel/structures/formulas/helper.hpp:516
  (119, b!"NEW"), -- document/excel/structures/formulas/helper.hpp:517
  (120, b!"CANCEL.COPY"), -- document/excel/structures/formulas/helper.hpp:518
  (121, b!"SHOW.CLIPBOARD"), -- document/excel/structures/formulas/helper.hpp:519
  (122, b!"MESSAGE"), -- document/excel/structures/formulas/helper.hpp:520
  (124, b!"PASTE.LINK"), -- document/excel/structures/formulas/helper.hpp:521
  (125, b!"APP.ACTIVATE"), -- document/excel/structures/formulas/helper.hpp:522
  (126, b!"DELETE.ARROW"), -- document/excel/structures/formulas/helper.hpp:523
  (127, b!"ROW.HEIGHT"), -- document/excel/structures/formulas/helper.hpp:524
  (128, b!"FORMAT.MOVE"), -- document/excel/structures/formulas/helper.hpp:525
  (129, b!"FORMAT.SIZE"), -- document/excel/structures/formulas/helper.hpp:526
  (130, b!"FORMULA.REPLACE"), -- document/excel/structures/formulas/helper.hpp:527
  (131, b!"SEND.KEYS"), -- document/excel/structures/formulas/helper.hpp:528
  (132, b!"SELECT.SPECIAL"), -- document/excel/structures/formulas/helper.hpp:529
  (133, b!"APPLY.NAMES"), -- document/excel/structures/formulas/helper.hpp:530
  (134, b!"REPLACE.FONT"), -- document/excel/structures/formulas/helper.hpp:531
  (135, b!"FREEZE.PANES"), -- document/excel/structures/formulas/helper.hpp:532
  (136, b!"SHOW.INFO"), -- document/excel/structures/formulas/helper.hpp:533
  (137, b!"SPLIT"), -- document/excel/structures/formulas/helper.hpp:534
  (138, b!"ON.WINDOW"), -- document/excel/structures/formulas/helper.hpp:535
  (139, b!"ON.DATA"), -- document/excel/structures/formulas/helper.hpp:536
  (140, b!"DISABLE.INPUT"), -- document/excel/structures/formulas/helper.hpp:537
  (142, b!"OUTLINE"), -- document/excel/structures/formulas/helper.hpp:538
  (143, b!"LIST.NAMES"), -- document/excel/structures/formulas/helper.hpp:539
  (144, b!"FILE.CLOSE"), -- document/excel/structures/formulas/helper.hpp:540
  (145, b!"SAVE.WORKBOOK"), -- document/excel/structures/formulas/helper.hpp:541
  (146, b!"DATA.FORM"), -- document/excel/structures/formulas/helper.hpp:542
  (147, b!"COPY.CHART"), -- document/excel/structures/formulas/helper.hpp:543
  (148, b!"ON.TIME"), -- document/excel/structures/formulas/helper.hpp:544
  (149, b!"WAIT"), -- document/excel/structures/formulas/helper.hpp:545
  (150, b!"FORMAT.FONT"), -- document/excel/structures/formulas/helper.hpp:546
  (151, b!"FILL.UP"), -- document/excel/structures/formulas/helper.hpp:547
  (152, b!"FILL.LEFT"), -- document/excel/structures/formulas/helper.hpp:548
  (153, b!"DELETE.OVERLAY"), -- document/excel/structures/formulas/helper.hpp:549
  (155, b!"SHORT.MENUS"), -- document/excel/structures/formulas/helper.hpp:550
  (159, b!"SET.UPDATE.STATUS"), -- document/excel/structures/formulas/helper.hpp:551
  (161, b!"COLOR.PALETTE"), -- document/excel/structures/formulas/helper.hpp:552
  (162, b!"DELETE.STYLE"), -- document/excel/structures/formulas/helper.hpp:553
  (163, b!"WINDOW.RESTORE"), -- document/excel/structures/formulas/helper.hpp:554
  (164, b!"WINDOW.MAXIMIZE"), -- document/excel/structures/formulas/helper.hpp:555
  (166, b!"CHANGE.LINK"), -- document/excel/structures/formulas/helper.hpp:556
  (167, b!"CALCULATE.DOCUMENT"), -- document/excel/structures/formulas/helper.hpp:557
  (168, b!"ON.KEY"), -- document/excel/structures/formulas/helper.hpp:558
  (169, b!"APP.RESTORE"), -- document/excel/structures/formulas/helper.hpp:559
  (170, b!"APP.MOVE"), -- document/excel/structures/formulas/helper.hpp:560
  (171, b!"APP.SIZE"), -- document/excel/structures/formulas/helper.hpp:561
  (172, b!"APP.MINIMIZE"), -- document/excel/structures/formulas/helper.hpp:562
  (173, b!"APP.MAXIMIZE"), -- document/excel/structures/formulas/helper.hpp:563
  (174, b!"BRING.TO.FRONT"), -- document/excel/structures/formulas/helper.hpp:564
  (175, b!"SEND.TO.BACK"), -- document/excel/structures/formulas/helper.hpp:565
  (185, b!"MAIN.CHART.TYPE"), -- document/excel/structures/formulas/helper.hpp:566
  (186, b!"OVERLAY.CHART.TYPE"), -- document/excel/structures/formulas/helper.hpp:567
  (187, b!"SELECT.END"), -- document/excel/structures/formulas/helper.hpp:568
  (188, b!"OPEN.MAIL"), -- document/excel/structures/formulas/helper.hpp:569
  (189, b!"SEND.MAIL"), -- document/excel/structures/formulas/helper.hpp:570
  (190, b!"STANDARD.FONT"), -- document/excel/structures/formulas/helper.hpp:571
  (191, b!"CONSOLIDATE"), -- document/excel/structures/formulas/helper.hpp:572
  (192, b!"SORT.SPECIAL"), -- document/excel/structures/formulas/helper.hpp:573
  (193, b!"GALLERY.3D.AREA"), -- document/excel/structures/formulas/helper.hpp:574
  (194, b!"GALLERY.3D.COLUMN"), -- document/excel/structures/formulas/helper.hpp:575
  (195, b!"GALLERY.3D.LINE"), -- document/excel/structures/formulas/helper.hpp:576
  (196, b!"GALLERY.3D.PIE"), -- document/excel/structures/formulas/helper.hpp:577
  (197, b!"VIEW.3D"), -- document/excel/structures/formulas/helper.hpp:578
  (198, b!"GOAL.SEEK"), -- document/excel/structures/formulas/helper.hpp:579
  (199, b!"WORKGROUP"), -- document/excel/structures/formulas/helper.hpp:580
  (200, b!"FILL.GROUP"), -- document/excel/structures/formulas/helper.hpp:581
  (201, b!"UPDATE.LINK"), -- document/excel/structures/formulas/helper.hpp:582
  (202, b!"PROMOTE"), -- document/excel/structures/formulas/helper.hpp:583
  (203, b!"DEMOTE"), -- document/excel/structures/formulas/helper.hpp:584
  (204, b!"SHOW.DETAIL"), -- document/excel/structures/formulas/helper.hpp:585
  (206, b!"UNGROUP"), -- document/excel/structures/formulas/helper.hpp:586
  (207, b!"OBJECT.PROPERTIES"), -- document/excel/structures/formulas/helper.hpp:587
  (208, b!"SAVE.NEW.OBJECT"), -- document/excel/structures/formulas/helper.hpp:588
  (209, b!"SHARE"), -- document/excel/structures/formulas/helper.hpp:589
  (210, b!"SHARE.NAME"), -- document/excel/structures/formulas/helper.hpp:590
  (211, b!"DUPLICATE"), -- document/excel/structures/formulas/helper.hpp:591
  (212, b!"APPLY.STYLE"), -- document/excel/structures/formulas/helper.hpp:592
  (213, b!"ASSIGN.TO.OBJECT"), -- document/excel/structures/formulas/helper.hpp:593
  (214, b!"OBJECT.PROTECTION"), -- document/excel/structures/formulas/helper.hpp:594
  (215, b!"HIDE.OBJECT"), -- document/excel/structures/formulas/helper.hpp:595
  (216, b!"SET.EXTRACT"), -- document/excel/structures/formulas/helper.hpp:596
  (217, b!"CREATE.PUBLISHER"), -- document/excel/structures/formulas/helper.hpp:597
  (218, b!"SUBSCRIBE.TO"), -- document/excel/structures/formulas/helper.hpp:598
  (219, b!"ATTRIBUTES"), -- document/excel/structures/formulas/helper.hpp:599
  (220, b!"SHOW.TOOLBAR"), -- document/excel/structures/formulas/helper.hpp:600
  (222, b!"PRINT.PREVIEW"), -- document/excel/structures/formulas/helper.hpp:601
  (223, b!"EDIT.COLOR"), -- document/excel/structures/formulas/helper.hpp:602
  (224, b!"SHOW.LEVELS"), -- document/excel/structures/formulas/helper.hpp:603
  (225, b!"FORMAT.MAIN"), -- document/excel/structures/formulas/helper.hpp:604
  (226, b!"FORMAT.OVERLAY"), -- document/excel/structures/formulas/helper.hpp:605
  (227, b!"ON.RECALC"), -- document/excel/structures/formulas/helper.hpp:606
  (228, b!"EDIT.SERIES"), -- document/excel/structures/formulas/helper.hpp:607
  (229, b!"DEFINE.STYLE"), -- document/excel/structures/formulas/helper.hpp:608
  (240, b!"LINE.PRINT"), -- document/excel/structures/formulas/helper.hpp:609
  (243, b!"ENTER.DATA"), -- document/excel/structures/formulas/helper.hpp:610
  (249, b!"GALLERY.RADAR"), -- document/excel/structures/formulas/helper.hpp:611
  (250, b!"MERGE.STYLES"), -- document/excel/structures/formulas/helper.hpp:612
  (251, b!"EDITION.OPTIONS"), -- document/excel/structures/formulas/helper.hpp:613
  (252, b!"PASTE.PICTURE"), -- document/excel/structures/formulas/helper.hpp:614
  (253, b!"PASTE.PICTURE.LINK"), -- document/excel/structures/formulas/helper.hpp:615
  (254, b!"SPELLING"), -- document/excel/structures/formulas/helper.hpp:616
  (256, b!"ZOOM"), -- document/excel/structures/formulas/helper.hpp:617
  (259, b!"INSERT.OBJECT"), -- document/excel/structures/formulas/helper.hpp:618
  (260, b!"WINDOW.MINIMIZE"), -- document/excel/structures/formulas/helper.hpp:619
  (265, b!"SOUND.NOTE"), -- document/excel/structures/formulas/helper.hpp:620
  (266, b!"SOUND.PLAY"), -- document/excel/structures/formulas/helper.hpp:621
  (267, b!"FORMAT.SHAPE"), -- document/excel/structures/formulas/helper.hpp:622
  (268, b!"EXTEND.POLYGON"), -- document/excel/structures/formulas/helper.hpp:623
  (269, b!"FORMAT.AUTO"), -- document/excel/structures/formulas/helper.hpp:624
  (272, b!"GALLERY.3D.BAR"), -- document/excel/structures/formulas/helper.hpp:625
  (273, b!"GALLERY.3D.SURFACE"), -- document/excel/structures/formulas/helper.hpp:626
  (274, b!"FILL.AUTO"), -- document/excel/structures/formulas/helper.hpp:627
  (276, b!"CUSTOMIZE.TOOLBAR"), -- document/excel/structures/formulas/helper.hpp:628
  (277, b!"ADD.TOOL"), -- document/excel/structures/formulas/helper.hpp:629
  (278, b!"EDIT.OBJECT"), -- document/excel/structures/formulas/helper.hpp:630
  (279, b!"ON.DOUBLECLICK"), -- document/excel/structures/formulas/helper.hpp:631
  (280, b!"ON.ENTRY"), -- document/excel/structures/formulas/helper.hpp:632
  (281, b!"WORKBOOK.ADD"), -- document/excel/structures/formulas/helper.hpp:633
  (282, b!"WORKBOOK.MOVE"), -- document/excel/structures/formulas/helper.hpp:634
  (283, b!"WORKBOOK.COPY"), -- document/excel/structures/formulas/helper.hpp:635
  (284, b!"WORKBOOK.OPTIONS"), -- document/excel/structures/formulas/helper.hpp:636
  (285, b!"SAVE.WORKSPACE"), -- document/excel/structures/formulas/helper.hpp:637
  (288, b!"CHART.WIZARD"), -- document/excel/structures/formulas/helper.hpp:638
  (289, b!"DELETE.TOOL"), -- document/excel/structures/formulas/helper.hpp:639
  (290, b!"MOVE.TOOL"), -- document/excel/structures/formulas/helper.hpp:640
  (291, b!"WORKBOOK.SELECT"), -- document/excel/structures/formulas/helper.hpp:641
  (292, b!"WORKBOOK.ACTIVATE"), -- document/excel/structures/formulas/helper.hpp:642
  (293, b!"ASSIGN.TO.TOOL"), -- document/excel/structures/formulas/helper.hpp:643
  (295, b!"COPY.TOOL"), -- document/excel/structures/formulas/helper.hpp:644
  (296, b!"RESET.TOOL"), -- document/excel/structures/formulas/helper.hpp:645
  (297, b!"CONSTRAIN.NUMERIC"), -- document/excel/structures/formulas/helper.hpp:646
  (298, b!"PASTE.TOOL"), -- document/excel/structures/formulas/helper.hpp:647
  (302, b!"WORKBOOK.NEW"), -- document/excel/structures/formulas/helper.hpp:648
  (305, b!"SCENARIO.CELLS"), -- document/excel/structures/formulas/helper.hpp:649
  (306, b!"SCENARIO.DELETE"), -- document/excel/structures/formulas/helper.hpp:650
  (307, b!"SCENARIO.ADD"), -- document/excel/structures/formulas/helper.hpp:651
  (308, b!"SCENARIO.EDIT"), -- document/excel/structures/formulas/helper.hpp:652
  (309, b!"SCENARIO.SHOW"), -- document/excel/structures/formulas/helper.hpp:653
  (310, b!"SCENARIO.SHOW.NEXT"), -- document/excel/structures/formulas/helper.hpp:654
  (311, b!"SCENARIO.SUMMARY"), -- document/excel/structures/formulas/helper.hpp:655
  (312, b!"PIVOT.TABLE.WIZARD"), -- document/excel/structures/formulas/helper.hpp:656
  (313, b!"PIVOT.FIELD.PROPERTIES"), -- document/excel/structures/formulas/helper.hpp:657
  (314, b!"PIVOT.FIELD"), -- document/excel/structures/formulas/helper.hpp:658
  (315, b!"PIVOT.ITEM"), -- document/excel/structures/formulas/helper.hpp:659
  (316, b!"PIVOT.ADD.FIELDS"), -- document/excel/structures/formulas/helper.hpp:660
  (318, b!"OPTIONS.CALCULATION"), -- document/excel/structures/formulas/helper.hpp:661
  (319, b!"OPTIONS.EDIT"), -- document/excel/structures/formulas/helper.hpp:662
  (320, b!"OPTIONS.VIEW"), -- document/excel/structures/formulas/helper.hpp:663
  (321, b!"ADDIN.MANAGER"), -- document/excel/structures/formulas/helper.hpp:664
  (322, b!"MENU.EDITOR"), -- document/excel/structures/formulas/helper.hpp:665
  (323, b!"ATTACH.TOOLBARS"), -- document/excel/structures/formulas/helper.hpp:666
  (324, b!"VBAActivate"), -- document/excel/structures/formulas/helper.hpp:667
  (325, b!"OPTIONS.CHART"), -- document/excel/structures/formulas/helper.hpp:668
  (328, b!"VBA.INSERT.FILE"), -- document/excel/structures/formulas/helper.hpp:669
  (330, b!"VBA.PROCEDURE.DEFINITION"), -- document/excel/structures/formulas/helper.hpp:670
  (336, b!"ROUTING.SLIP"), -- document/excel/structures/formulas/helper.hpp:671
  (338, b!"ROUTE.DOCUMENT"), -- document/excel/structures/formulas/helper.hpp:672
  (339, b!"MAIL.LOGON"), -- document/excel/structures/formulas/helper.hpp:673
  (342, b!"INSERT.PICTURE"), -- document/excel/structures/formulas/helper.hpp:674
  (343, b!"EDIT.TOOL"), -- document/excel/structures/formulas/helper.hpp:675
  (344, b!"GALLERY.DOUGHNUT"), -- document/excel/structures/formulas/helper.hpp:676
  (350, b!"CHART.TREND"), -- document/excel/structures/formulas/helper.hpp:677
  (352, b!"PIVOT.ITEM.PROPERTIES"), -- document/excel/structures/formulas/helper.hpp:678
  (354, b!"WORKBOOK.INSERT"), -- document/excel/structures/formulas/helper.hpp:679
  (355, b!"OPTIONS.TRANSITION"), -- document/excel/structures/formulas/helper.hpp:680
  (356, b!"OPTIONS.GENERAL"), -- document/excel/structures/formulas/helper.hpp:681
  (370, b!"FILTER.ADVANCED"), -- document/excel/structures/formulas/helper.hpp:682
  (373, b!"MAIL.ADD.MAILER"), -- document/excel/structures/formulas/helper.hpp:683
  (374, b!"MAIL.DELETE.MAILER"), -- document/excel/structures/formulas/helper.hpp:684
  (375, b!"MAIL.REPLY"), -- document/excel/structures/formulas/helper.hpp:685
  (376, b!"MAIL.REPLY.ALL"), -- document/excel/structures/formulas/helper.hpp:686
  (377, b!"MAIL.FORWARD"), -- document/excel/structures/formulas/helper.hpp:687
  (378, b!"MAIL.NEXT.LETTER"), -- document/excel/structures/formulas/helper.hpp:688
  (379, b!"DATA.LABEL"), -- document/excel/structures/formulas/helper.hpp:689
  (380, b!"INSERT.TITLE"), -- document/excel/structures/formulas/helper.hpp:690
  (381, b!"FONT.PROPERTIES"), -- document/excel/structures/formulas/helper.hpp:691
  (382, b!"MACRO.OPTIONS"), -- document/excel/structures/formulas/helper.hpp:692
  (383, b!"WORKBOOK.HIDE"), -- document/excel/structures/formulas/helper.hpp:693
  (384, b!"WORKBOOK.UNHIDE"), -- document/excel/structures/formulas/helper.hpp:694
  (385, b!"WORKBOOK.DELETE"), -- document/excel/structures/formulas/helper.hpp:695
  (386, b!"WORKBOOK.NAME"), -- document/excel/structures/formulas/helper.hpp:696
  (388, b!"GALLERY.CUSTOM"), -- document/excel/structures/formulas/helper.hpp:697
  (390, b!"ADD.CHART.AUTOFORMAT"), -- document/excel/structures/formulas/helper.hpp:698
  (391, b!"DELETE.CHART.AUTOFORMAT"), -- document/excel/structures/formulas/helper.hpp:699
  (392, b!"CHART.ADD.DATA"), -- document/excel/structures/formulas/helper.hpp:700
  (393, b!"AUTO.OUTLINE"), -- document/excel/structures/formulas/helper.hpp:701
  (394, b!"TAB.ORDER"), -- document/excel/structures/formulas/helper.hpp:702
  (395, b!"SHOW.DIALOG"), -- document/excel/structures/formulas/helper.hpp:703
  (396, b!"SELECT.ALL"), -- document/excel/structures/formulas/helper.hpp:704
  (397, b!"UNGROUP.SHEETS"), -- document/excel/structures/formulas/helper.hpp:705
  (398, b!"SUBTOTAL.CREATE"), -- document/excel/structures/formulas/helper.hpp:706
  (399, b!"SUBTOTAL.REMOVE"), -- document/excel/structures/formulas/helper.hpp:707
  (400, b!"RENAME.OBJECT"), -- document/excel/structures/formulas/helper.hpp:708
  (412, b!"WORKBOOK.SCROLL"), -- document/excel/structures/formulas/helper.hpp:709
  (413, b!"WORKBOOK.NEXT"), -- document/excel/structures/formulas/helper.hpp:710
  (414, b!"WORKBOOK.PREV"), -- document/excel/structures/formulas/helper.hpp:711
  (415, b!"WORKBOOK.TAB.SPLIT"), -- document/excel/structures/formulas/helper.hpp:712
  (416, b!"FULL.SCREEN"), -- document/excel/structures/formulas/helper.hpp:713
  (417, b!"WORKBOOK.PROTECT"), -- document/excel/structures/formulas/helper.hpp:714
  (420, b!"SCROLLBAR.PROPERTIES"), -- document/excel/structures/formulas/helper.hpp:715
  (421, b!"PIVOT.SHOW.PAGES"), -- document/excel/structures/formulas/helper.hpp:716
  (422, b!"TEXT.TO.COLUMNS"), -- document/excel/structures/formulas/helper.hpp:717
  (423, b!"FORMAT.CHARTTYPE"), -- document/excel/structures/formulas/helper.hpp:718
  (424, b!"LINK.FORMAT"), -- document/excel/structures/formulas/helper.hpp:719
  (425, b!"TRACER.DISPLAY"), -- document/excel/structures/formulas/helper.hpp:720
  (430, b!"TRACER.NAVIGATE"), -- document/excel/structures/formulas/helper.hpp:721
  (431, b!"TRACER.CLEAR"), -- document/excel/structures/formulas/helper.hpp:722
  (432, b!"TRACER.ERROR"), -- document/excel/structures/formulas/helper.hpp:723
  (433, b!"PIVOT.FIELD.GROUP"), -- document/excel/structures/formulas/helper.hpp:724
  (434, b!"PIVOT.FIELD.UNGROUP"), -- document/excel/structures/formulas/helper.hpp:725
  (435, b!"CHECKBOX.PROPERTIES"), -- document/excel/structures/formulas/helper.hpp:726
  (436, b!"LABEL.PROPERTIES"), -- document/excel/structures/formulas/helper.hpp:727
  (437, b!"LISTBOX.PROPERTIES"), -- document/excel/structures/formulas/helper.hpp:728
  (438, b!"EDITBOX.PROPERTIES"), -- document/excel/structures/formulas/helper.hpp:729
  (439, b!"PIVOT.REFRESH"), -- document/excel/structures/formulas/helper.hpp:730
  (440, b!"LINK.COMBO"), -- document/excel/structures/formulas/helper.hpp:731
  (441, b!"OPEN.TEXT"), -- document/excel/structures/formulas/helper.hpp:732
  (442, b!"HIDE.DIALOG"), -- document/excel/structures/formulas/helper.hpp:733
  (443, b!"SET.DIALOG.FOCUS"), -- document/excel/structures/formulas/helper.hpp:734
  (444, b!"ENABLE.OBJECT"), -- document/excel/structures/formulas/helper.hpp:735
  (445, b!"PUSHBUTTON.PROPERTIES"), -- document/excel/structures/formulas/helper.hpp:736
  (446, b!"SET.DIALOG.DEFAULT"), -- document/excel/structures/formulas/helper.hpp:737
  (447, b!"FILTER"), -- document/excel/structures/formulas/helper.hpp:738
  (448, b!"FILTER.SHOW.ALL"), -- document/excel/structures/formulas/helper.hpp:739
  (449, b!"CLEAR.OUTLINE"), -- document/excel/structures/formulas/helper.hpp:740
  (450, b!"FUNCTION.WIZARD"), -- document/excel/structures/formulas/helper.hpp:741
  (451, b!"ADD.LIST.ITEM"), -- document/excel/structures/formulas/helper.hpp:742
  (452, b!"SET.LIST.ITEM"), -- document/excel/structures/formulas/helper.hpp:743
  (453, b!"REMOVE.LIST.ITEM"), -- document/excel/structures/formulas/helper.hpp:744
  (454, b!"SELECT.LIST.ITEM"), -- document/excel/structures/formulas/helper.hpp:745
  (455, b!"SET.CONTROL.VALUE"), -- document/excel/structures/formulas/helper.hpp:746
  (456, b!"SAVE.COPY.AS"), -- document/excel/structures/formulas/helper.hpp:747
  (458, b!"OPTIONS.LISTS.ADD"), -- document/excel/structures/formulas/helper.hpp:748
  (459, b!"OPTIONS.LISTS.DELETE"), -- document/excel/structures/formulas/helper.hpp:749
  (460, b!"SERIES.AXES"), -- document/excel/structures/formulas/helper.hpp:750
  (461, b!"SERIES.X"), -- document/excel/structures/formulas/helper.hpp:751
  (462, b!"SERIES.Y"), -- document/excel/structures/formulas/helper.hpp:752
  (463, b!"ERRORBAR.X"), -- document/excel/structures/formulas/helper.hpp:753
  (464, b!"ERRORBAR.Y"), -- document/excel/structures/formulas/helper.hpp:754
  (465, b!"FORMAT.CHART"), -- document/excel/structures/formulas/helper.hpp:755
  (466, b!"SERIES.ORDER"), -- document/excel/structures/formulas/helper.hpp:756
  (467, b!"MAIL.LOGOFF"), -- document/excel/structures/formulas/helper.hpp:757
  (468, b!"CLEAR.ROUTING.SLIP"), -- document/excel/structures/formulas/helper.hpp:758
  (469, b!"APP.ACTIVATE.MICROSOFT"), -- document/excel/structures/formulas/helper.hpp:759
  (470, b!"MAIL.EDIT.MAILER"), -- document/excel/structures/formulas/helper.hpp:760
  (471, b!"ON.SHEET"), -- document/excel/structures/formulas/helper.hpp:761
  (472, b!"STANDARD.WIDTH"), -- document/excel/structures/formulas/helper.hpp:762
  (473, b!"SCENARIO.MERGE"), -- document/excel/structures/formulas/helper.hpp:763
  (474, b!"SUMMARY.INFO"), -- document/excel/structures/formulas/helper.hpp:764
  (475, b!"FIND.FILE"), -- document/excel/structures/formulas/helper.hpp:765
  (476, b!"ACTIVE.CELL.FONT"), -- document/excel/structures/formulas/helper.hpp:766
  (477, b!"ENABLE.TIPWIZARD"), -- document/excel/structures/formulas/helper.hpp:767
  (478, b!"VBA.MAKE.ADDIN"), -- document/excel/structures/formulas/helper.hpp:768
  (480, b!"INSERTDATATABLE"), -- document/excel/structures/formulas/helper.hpp:769
  (481, b!"WORKGROUP.OPTIONS"), -- document/excel/structures/formulas/helper.hpp:770
  (482, b!"MAIL.SEND.MAILER"), -- document/excel/structures/formulas/helper.hpp:771
  (485, b!"AUTOCORRECT"), -- document/excel/structures/formulas/helper.hpp:772
  (489, b!"POST.DOCUMENT"), -- document/excel/structures/formulas/helper.hpp:773
  (491, b!"PICKLIST"), -- document/excel/structures/formulas/helper.hpp:774
  (493, b!"VIEW.SHOW"), -- document/excel/structures/formulas/helper.hpp:775
  (494, b!"VIEW.DEFINE"), -- document/excel/structures/formulas/helper.hpp:776
  (495, b!"VIEW.DELETE"), -- document/excel/structures/formulas/helper.hpp:777
  (509, b!"SHEET.BACKGROUND"), -- document/excel/structures/formulas/helper.hpp:778
  (510, b!"INSERT.MAP.OBJECT"), -- document/excel/structures/formulas/helper.hpp:779
  (511, b!"OPTIONS.MENONO"), -- document/excel/structures/formulas/helper.hpp:780
  (517, b!"MSOCHECKS"), -- document/excel/structures/formulas/helper.hpp:781
  (518, b!"NORMAL"), -- document/excel/structures/formulas/helper.hpp:782
  (519, b!"LAYOUT"), -- document/excel/structures/formulas/helper.hpp:783
  (520, b!"RM.PRINT.AREA"), -- document/excel/structures/formulas/helper.hpp:784
  (521, b!"CLEAR.PRINT.AREA"), -- document/excel/structures/formulas/helper.hpp:785
  (522, b!"ADD.PRINT.AREA"), -- document/excel/structures/formulas/helper.hpp:786
  (523, b!"MOVE.BRK"), -- document/excel/structures/formulas/helper.hpp:787
  (545, b!"HIDECURR.NOTE"), -- document/excel/structures/formulas/helper.hpp:788
  (546, b!"HIDEALL.NOTES"), -- document/excel/structures/formulas/helper.hpp:789
  (547, b!"DELETE.NOTE"), -- document/excel/structures/formulas/helper.hpp:790
  (548, b!"TRAVERSE.NOTES"), -- document/excel/structures/formulas/helper.hpp:791
  (549, b!"ACTIVATE.NOTES"), -- document/excel/structures/formulas/helper.hpp:792
  (620, b!"PROTECT.REVISIONS"), -- document/excel/structures/formulas/helper.hpp:793
  (621, b!"UNPROTECT.REVISIONS"), -- document/excel/structures/formulas/helper.hpp:794
  (647, b!"OPTIONS.ME"), -- document/excel/structures/formulas/helper.hpp:795
  (653, b!"WEB.PUBLISH"), -- document/excel/structures/formulas/helper.hpp:796
  (667, b!"NEWWEBQUERY"), -- document/excel/structures/formulas/helper.hpp:797
  (673, b!"PIVOT.TABLE.CHART"), -- document/excel/structures/formulas/helper.hpp:798
  (753, b!"OPTIONS.SAVE"), -- document/excel/structures/formulas/helper.hpp:799
  (755, b!"OPTIONS.SPELL"), -- document/excel/structures/formulas/helper.hpp:800
  (808, b!"HIDEALL.INKANNOTS")] -- document/excel/structures/formulas/helper.hpp:801

/-- document/excel/records/Record.Parser.hpp:25-389 the cases of the BIFF8 `switch` in `ParseRecord`: record type and class constructed. -/
def biff8Classes : List (Nat × Bytes) := [
  (6, b!"Formula"), -- document/excel/records/Record.Parser.hpp:27
  (10, b!"EOF"), -- document/excel/records/Record.Parser.hpp:28
  (12, b!"CalcCount"), -- document/excel/records/Record.Parser.hpp:29
  (13, b!"CalcMode"), -- document/excel/records/Record.Parser.hpp:30
  (14, b!"CalcPrecision"), -- document/excel/records/Record.Parser.hpp:31
  (15, b!"CalcRefMode"), -- document/excel/records/Record.Parser.hpp:32
  (16, b!"CalcDelta"), -- document/excel/records/Record.Parser.hpp:33
  (17, b!"CalcIter"), -- document/excel/records/Record.Parser.hpp:34
  (18, b!"Protect"), -- document/excel/records/Record.Parser.hpp:35
  (19, b!"Password"), -- document/excel/records/Record.Parser.hpp:36
  (20, b!"Header"), -- document/excel/records/Record.Parser.hpp:37
  (21, b!"Footer"), -- document/excel/records/Record.Parser.hpp:38
  (23, b!"ExternSheet"), -- document/excel/records/Record.Parser.hpp:39
  (24, b!"Lbl"), -- document/excel/records/Record.Parser.hpp:40
  (25, b!"WinProtect"), -- document/excel/records/Record.Parser.hpp:41
  (26, b!"VerticalPageBreaks"), -- document/excel/records/Record.Parser.hpp:42
  (27, b!"HorizontalPageBreaks"), -- document/excel/records/Record.Parser.hpp:43
  (28, b!"Note"), -- document/excel/records/Record.Parser.hpp:44
  (29, b!"Selection"), -- document/excel/records/Record.Parser.hpp:45
  (34, b!"Date1904"), -- document/excel/records/Record.Parser.hpp:46
  (35, b!"ExternName"), -- document/excel/records/Record.Parser.hpp:47
  (38, b!"LeftMargin"), -- document/excel/records/Record.Parser.hpp:48
  (39, b!"RightMargin"), -- document/excel/records/Record.Parser.hpp:49
  (40, b!"TopMargin"), -- document/excel/records/Record.Parser.hpp:50
  (41, b!"BottomMargin"), -- document/excel/records/Record.Parser.hpp:51
  (42, b!"PrintRowCol"), -- document/excel/records/Record.Parser.hpp:52
  (43, b!"PrintGrid"), -- document/excel/records/Record.Parser.hpp:53
  (47, b!"FilePass"), -- document/excel/records/Record.Parser.hpp:54
  (49, b!"Font"), -- document/excel/records/Record.Parser.hpp:55
  (51, b!"PrintSize"), -- document/excel/records/Record.Parser.hpp:56
  (60, b!"Continue"), -- document/excel/records/Record.Parser.hpp:57
  (61, b!"Window1"), -- document/excel/records/Record.Parser.hpp:58
  (64, b!"Backup"), -- document/excel/records/Record.Parser.hpp:59
  (65, b!"Pane"), -- document/excel/records/Record.Parser.hpp:60
  (66, b!"CodePage"), -- document/excel/records/Record.Parser.hpp:61
  (77, b!"Pls"), -- document/excel/records/Record.Parser.hpp:62
  (80, b!"DCon"), -- document/excel/records/Record.Parser.hpp:63
  (81, b!"DConRef"), -- document/excel/records/Record.Parser.hpp:64
  (82, b!"DConName"), -- document/excel/records/Record.Parser.hpp:65
  (85, b!"DefColWidth"), -- document/excel/records/Record.Parser.hpp:66
  (89, b!"XCT"), -- document/excel/records/Record.Parser.hpp:67
  (90, b!"CRN"), -- document/excel/records/Record.Parser.hpp:68
  (91, b!"FileSharing"), -- document/excel/records/Record.Parser.hpp:69
  (92, b!"WriteAccess"), -- document/excel/records/Record.Parser.hpp:70
  (93, b!"Obj"), -- document/excel/records/Record.Parser.hpp:71
  (94, b!"Uncalced"), -- document/excel/records/Record.Parser.hpp:72
  (95, b!"CalcSaveRecalc"), -- document/excel/records/Record.Parser.hpp:73
  (96, b!"Template"), -- document/excel/records/Record.Parser.hpp:74
  (97, b!"Intl"), -- document/excel/records/Record.Parser.hpp:75
  (99, b!"ObjProtect"), -- document/excel/records/Record.Parser.hpp:76
  (125, b!"ColInfo"), -- document/excel/records/Record.Parser.hpp:77
  (128, b!"Guts"), -- document/excel/records/Record.Parser.hpp:78
  (129, b!"WsBool"), -- document/excel/records/Record.Parser.hpp:79
  (130, b!"GridSet"), -- document/excel/records/Record.Parser.hpp:80
  (131, b!"HCenter"), -- document/excel/records/Record.Parser.hpp:81
  (132, b!"VCenter"), -- document/excel/records/Record.Parser.hpp:82
  (133, b!"BoundSheet8"), -- document/excel/records/Record.Parser.hpp:84
  (134, b!"WriteProtect"), -- document/excel/records/Record.Parser.hpp:87
  (140, b!"Country"), -- document/excel/records/Record.Parser.hpp:88
  (141, b!"HideObj"), -- document/excel/records/Record.Parser.hpp:89
  (144, b!"Sort"), -- document/excel/records/Record.Parser.hpp:90
  (146, b!"Palette"), -- document/excel/records/Record.Parser.hpp:91
  (151, b!"Sync"), -- document/excel/records/Record.Parser.hpp:92
  (152, b!"LPr"), -- document/excel/records/Record.Parser.hpp:93
  (153, b!"DxGCol"), -- document/excel/records/Record.Parser.hpp:94
  (154, b!"FnGroupName"), -- document/excel/records/Record.Parser.hpp:95
  (155, b!"FilterMode"), -- document/excel/records/Record.Parser.hpp:96
  (156, b!"BuiltInFnGroupCount"), -- document/excel/records/Record.Parser.hpp:97
  (157, b!"AutoFilterInfo"), -- document/excel/records/Record.Parser.hpp:98
  (158, b!"AutoFilter"), -- document/excel/records/Record.Parser.hpp:99
  (160, b!"Scl"), -- document/excel/records/Record.Parser.hpp:100
  (161, b!"Setup"), -- document/excel/records/Record.Parser.hpp:101
  (174, b!"ScenMan"), -- document/excel/records/Record.Parser.hpp:102
  (175, b!"SCENARIO"), -- document/excel/records/Record.Parser.hpp:103
  (176, b!"SxView"), -- document/excel/records/Record.Parser.hpp:104
  (177, b!"Sxvd"), -- document/excel/records/Record.Parser.hpp:105
  (178, b!"SXVI"), -- document/excel/records/Record.Parser.hpp:106
  (180, b!"SxIvd"), -- document/excel/records/Record.Parser.hpp:107
  (181, b!"SXLI"), -- document/excel/records/Record.Parser.hpp:108
  (182, b!"SXPI"), -- document/excel/records/Record.Parser.hpp:109
  (184, b!"DocRoute"), -- document/excel/records/Record.Parser.hpp:110
  (185, b!"RecipName"), -- document/excel/records/Record.Parser.hpp:111
  (189, b!"MulRk"), -- document/excel/records/Record.Parser.hpp:112
  (190, b!"MulBlank"), -- document/excel/records/Record.Parser.hpp:113
  (193, b!"Mms"), -- document/excel/records/Record.Parser.hpp:114
  (197, b!"SXDI"), -- document/excel/records/Record.Parser.hpp:115
  (198, b!"SXDB"), -- document/excel/records/Record.Parser.hpp:116
  (199, b!"SXFDB"), -- document/excel/records/Record.Parser.hpp:117
  (200, b!"SXDBB"), -- document/excel/records/Record.Parser.hpp:118
  (201, b!"SXNum"), -- document/excel/records/Record.Parser.hpp:119
  (202, b!"SxBool"), -- document/excel/records/Record.Parser.hpp:120
  (203, b!"SxErr"), -- document/excel/records/Record.Parser.hpp:121
  (204, b!"SXInt"), -- document/excel/records/Record.Parser.hpp:122
  (205, b!"SXString"), -- document/excel/records/Record.Parser.hpp:123
  (206, b!"SXDtr"), -- document/excel/records/Record.Parser.hpp:124
  (207, b!"SxNil"), -- document/excel/records/Record.Parser.hpp:125
  (208, b!"SXTbl"), -- document/excel/records/Record.Parser.hpp:126
  (209, b!"SXTBRGIITM"), -- document/excel/records/Record.Parser.hpp:127
  (210, b!"SxTbpg"), -- document/excel/records/Record.Parser.hpp:128
  (211, b!"ObProj"), -- document/excel/records/Record.Parser.hpp:129
  (213, b!"SXStreamID"), -- document/excel/records/Record.Parser.hpp:130
  (215, b!"DBCell"), -- document/excel/records/Record.Parser.hpp:131
  (216, b!"SXRng"), -- document/excel/records/Record.Parser.hpp:132
  (217, b!"SxIsxoper"), -- document/excel/records/Record.Parser.hpp:133
  (218, b!"BookBool"), -- document/excel/records/Record.Parser.hpp:134
  (220, b!"DbOrParamQry"), -- document/excel/records/Record.Parser.hpp:135
  (221, b!"ScenarioProtect"), -- document/excel/records/Record.Parser.hpp:136
  (222, b!"OleObjectSize"), -- document/excel/records/Record.Parser.hpp:137
  (224, b!"XF"), -- document/excel/records/Record.Parser.hpp:138
  (225, b!"InterfaceHdr"), -- document/excel/records/Record.Parser.hpp:139
  (226, b!"InterfaceEnd"), -- document/excel/records/Record.Parser.hpp:140
  (227, b!"SXVS"), -- document/excel/records/Record.Parser.hpp:141
  (229, b!"MergeCells"), -- document/excel/records/Record.Parser.hpp:142
  (233, b!"BkHim"), -- document/excel/records/Record.Parser.hpp:143
  (235, b!"MsoDrawingGroup"), -- document/excel/records/Record.Parser.hpp:144
  (236, b!"MsoDrawing"), -- document/excel/records/Record.Parser.hpp:145
  (237, b!"MsoDrawingSelection"), -- document/excel/records/Record.Parser.hpp:146
  (239, b!"PhoneticInfo"), -- document/excel/records/Record.Parser.hpp:147
  (240, b!"SxRule"), -- document/excel/records/Record.Parser.hpp:148
  (241, b!"SXEx"), -- document/excel/records/Record.Parser.hpp:149
  (242, b!"SxFilt"), -- document/excel/records/Record.Parser.hpp:150
  (244, b!"SxDXF"), -- document/excel/records/Record.Parser.hpp:151
  (245, b!"SxItm"), -- document/excel/records/Record.Parser.hpp:152
  (246, b!"SxName"), -- document/excel/records/Record.Parser.hpp:153
  (247, b!"SxSelect"), -- document/excel/records/Record.Parser.hpp:154
  (248, b!"SXPair"), -- document/excel/records/Record.Parser.hpp:155
  (249, b!"SxFmla"), -- document/excel/records/Record.Parser.hpp:156
  (251, b!"SxFormat"), -- document/excel/records/Record.Parser.hpp:157
  (252, b!"SST"), -- document/excel/records/Record.Parser.hpp:158
  (253, b!"LabelSst"), -- document/excel/records/Record.Parser.hpp:159
  (255, b!"ExtSST"), -- document/excel/records/Record.Parser.hpp:160
  (256, b!"SXVDEx"), -- document/excel/records/Record.Parser.hpp:161
  (259, b!"SXFormula"), -- document/excel/records/Record.Parser.hpp:162
  (290, b!"SXDBEx"), -- document/excel/records/Record.Parser.hpp:163
  (311, b!"RRDInsDel"), -- document/excel/records/Record.Parser.hpp:164
  (312, b!"RRDHead"), -- document/excel/records/Record.Parser.hpp:165
  (315, b!"RRDChgCell"), -- document/excel/records/Record.Parser.hpp:166
  (317, b!"RRTabId"), -- document/excel/records/Record.Parser.hpp:167
  (318, b!"RRDRenSheet"), -- document/excel/records/Record.Parser.hpp:168
  (319, b!"RRSort"), -- document/excel/records/Record.Parser.hpp:169
  (320, b!"RRDMove"), -- document/excel/records/Record.Parser.hpp:170
  (330, b!"RRFormat"), -- document/excel/records/Record.Parser.hpp:171
  (331, b!"RRAutoFmt"), -- document/excel/records/Record.Parser.hpp:172
  (333, b!"RRInsertSh"), -- document/excel/records/Record.Parser.hpp:173
  (334, b!"RRDMoveBegin"), -- document/excel/records/Record.Parser.hpp:174
  (335, b!"RRDMoveEnd"), -- document/excel/records/Record.Parser.hpp:175
  (336, b!"RRDInsDelBegin"), -- document/excel/records/Record.Parser.hpp:176
  (337, b!"RRDInsDelEnd"), -- document/excel/records/Record.Parser.hpp:177
  (338, b!"RRDConflict"), -- document/excel/records/Record.Parser.hpp:178
  (339, b!"RRDDefName"), -- document/excel/records/Record.Parser.hpp:179
  (340, b!"RRDRstEtxp"), -- document/excel/records/Record.Parser.hpp:180
  (351, b!"LRng"), -- document/excel/records/Record.Parser.hpp:181
  (352, b!"UsesELFs"), -- document/excel/records/Record.Parser.hpp:182
  (353, b!"DSF"), -- document/excel/records/Record.Parser.hpp:183
  (401, b!"CUsr"), -- document/excel/records/Record.Parser.hpp:184
  (402, b!"CbUsr"), -- document/excel/records/Record.Parser.hpp:185
  (403, b!"UsrInfo"), -- document/excel/records/Record.Parser.hpp:186
  (404, b!"UsrExcl"), -- document/excel/records/Record.Parser.hpp:187
  (405, b!"FileLock"), -- document/excel/records/Record.Parser.hpp:188
  (406, b!"RRDInfo"), -- document/excel/records/Record.Parser.hpp:189
  (407, b!"BCUsrs"), -- document/excel/records/Record.Parser.hpp:190
  (408, b!"UsrChk"), -- document/excel/records/Record.Parser.hpp:191
  (425, b!"UserBView"), -- document/excel/records/Record.Parser.hpp:192
  (426, b!"UserSViewBegin_Chart"), -- document/excel/records/Record.Parser.hpp:195
  (427, b!"UserSViewEnd"), -- document/excel/records/Record.Parser.hpp:198
  (428, b!"RRDUserView"), -- document/excel/records/Record.Parser.hpp:199
  (429, b!"Qsi"), -- document/excel/records/Record.Parser.hpp:200
  (430, b!"SupBook"), -- document/excel/records/Record.Parser.hpp:201
  (431, b!"Prot4Rev"), -- document/excel/records/Record.Parser.hpp:202
  (432, b!"CondFmt"), -- document/excel/records/Record.Parser.hpp:203
  (433, b!"CF"), -- document/excel/records/Record.Parser.hpp:204
  (434, b!"DVal"), -- document/excel/records/Record.Parser.hpp:205
  (437, b!"DconBin"), -- document/excel/records/Record.Parser.hpp:206
  (438, b!"TxO"), -- document/excel/records/Record.Parser.hpp:207
  (439, b!"RefreshAll"), -- document/excel/records/Record.Parser.hpp:208
  (440, b!"HLink"), -- document/excel/records/Record.Parser.hpp:209
  (441, b!"Lel"), -- document/excel/records/Record.Parser.hpp:210
  (442, b!"CodeName"), -- document/excel/records/Record.Parser.hpp:211
  (443, b!"SXFDBType"), -- document/excel/records/Record.Parser.hpp:212
  (444, b!"Prot4RevPass"), -- document/excel/records/Record.Parser.hpp:213
  (445, b!"ObNoMacros"), -- document/excel/records/Record.Parser.hpp:214
  (446, b!"Dv"), -- document/excel/records/Record.Parser.hpp:215
  (448, b!"Excel9File"), -- document/excel/records/Record.Parser.hpp:216
  (449, b!"RecalcId"), -- document/excel/records/Record.Parser.hpp:217
  (450, b!"EntExU2"), -- document/excel/records/Record.Parser.hpp:218
  (512, b!"Dimensions"), -- document/excel/records/Record.Parser.hpp:219
  (513, b!"Blank"), -- document/excel/records/Record.Parser.hpp:220
  (515, b!"Number"), -- document/excel/records/Record.Parser.hpp:221
  (516, b!"Label"), -- document/excel/records/Record.Parser.hpp:222
  (517, b!"BoolErr"), -- document/excel/records/Record.Parser.hpp:223
  (519, b!"String"), -- document/excel/records/Record.Parser.hpp:224
  (520, b!"Row"), -- document/excel/records/Record.Parser.hpp:225
  (523, b!"Index"), -- document/excel/records/Record.Parser.hpp:226
  (545, b!"Array"), -- document/excel/records/Record.Parser.hpp:227
  (549, b!"DefaultRowHeight"), -- document/excel/records/Record.Parser.hpp:228
  (566, b!"Table"), -- document/excel/records/Record.Parser.hpp:229
  (574, b!"Window2"), -- document/excel/records/Record.Parser.hpp:230
  (638, b!"RK"), -- document/excel/records/Record.Parser.hpp:231
  (659, b!"Style"), -- document/excel/records/Record.Parser.hpp:232
  (1048, b!"BigName"), -- document/excel/records/Record.Parser.hpp:233
  (1054, b!"Format"), -- document/excel/records/Record.Parser.hpp:234
  (1084, b!"ContinueBigName"), -- document/excel/records/Record.Parser.hpp:235
  (1212, b!"ShrFmla"), -- document/excel/records/Record.Parser.hpp:236
  (2048, b!"HLinkTooltip"), -- document/excel/records/Record.Parser.hpp:237
  (2049, b!"WebPub"), -- document/excel/records/Record.Parser.hpp:238
  (2050, b!"QsiSXTag"), -- document/excel/records/Record.Parser.hpp:239
  (2051, b!"DBQueryExt"), -- document/excel/records/Record.Parser.hpp:240
  (2052, b!"ExtString"), -- document/excel/records/Record.Parser.hpp:241
  (2053, b!"TxtQry"), -- document/excel/records/Record.Parser.hpp:242
  (2054, b!"Qsir"), -- document/excel/records/Record.Parser.hpp:243
  (2055, b!"Qsif"), -- document/excel/records/Record.Parser.hpp:244
  (2056, b!"RRDTQSIF"), -- document/excel/records/Record.Parser.hpp:245
  (2057, b!"BOF"), -- document/excel/records/Record.Parser.hpp:246
  (2058, b!"OleDbConn"), -- document/excel/records/Record.Parser.hpp:247
  (2059, b!"WOpt"), -- document/excel/records/Record.Parser.hpp:248
  (2060, b!"SXViewEx"), -- document/excel/records/Record.Parser.hpp:249
  (2061, b!"SXTH"), -- document/excel/records/Record.Parser.hpp:250
  (2062, b!"SXPIEx"), -- document/excel/records/Record.Parser.hpp:251
  (2063, b!"SXVDTEx"), -- document/excel/records/Record.Parser.hpp:252
  (2064, b!"SXViewEx9"), -- document/excel/records/Record.Parser.hpp:253
  (2066, b!"ContinueFrt"), -- document/excel/records/Record.Parser.hpp:254
  (2067, b!"RealTimeData"), -- document/excel/records/Record.Parser.hpp:255
  (2128, b!"ChartFrtInfo"), -- document/excel/records/Record.Parser.hpp:256
  (2129, b!"FrtWrapper"), -- document/excel/records/Record.Parser.hpp:257
  (2130, b!"StartBlock"), -- document/excel/records/Record.Parser.hpp:258
  (2131, b!"EndBlock"), -- document/excel/records/Record.Parser.hpp:259
  (2132, b!"StartObject"), -- document/excel/records/Record.Parser.hpp:260
  (2133, b!"EndObject"), -- document/excel/records/Record.Parser.hpp:261
  (2134, b!"CatLab"), -- document/excel/records/Record.Parser.hpp:262
  (2135, b!"YMult"), -- document/excel/records/Record.Parser.hpp:263
  (2136, b!"SXViewLink"), -- document/excel/records/Record.Parser.hpp:264
  (2137, b!"PivotChartBits"), -- document/excel/records/Record.Parser.hpp:265
  (2138, b!"FrtFontList"), -- document/excel/records/Record.Parser.hpp:266
  (2146, b!"SheetExt"), -- document/excel/records/Record.Parser.hpp:267
  (2147, b!"BookExt"), -- document/excel/records/Record.Parser.hpp:268
  (2148, b!"SXAddl"), -- document/excel/records/Record.Parser.hpp:269
  (2149, b!"CrErr"), -- document/excel/records/Record.Parser.hpp:270
  (2150, b!"HFPicture"), -- document/excel/records/Record.Parser.hpp:271
  (2151, b!"FeatHdr"), -- document/excel/records/Record.Parser.hpp:272
  (2152, b!"Feat"), -- document/excel/records/Record.Parser.hpp:273
  (2154, b!"DataLabExt"), -- document/excel/records/Record.Parser.hpp:274
  (2155, b!"DataLabExtContents"), -- document/excel/records/Record.Parser.hpp:275
  (2156, b!"CellWatch"), -- document/excel/records/Record.Parser.hpp:276
  (2161, b!"FeatHdr11"), -- document/excel/records/Record.Parser.hpp:277
  (2162, b!"Feature11"), -- document/excel/records/Record.Parser.hpp:278
  (2164, b!"DropDownObjIds"), -- document/excel/records/Record.Parser.hpp:279
  (2165, b!"ContinueFrt11"), -- document/excel/records/Record.Parser.hpp:280
  (2166, b!"DConn"), -- document/excel/records/Record.Parser.hpp:281
  (2167, b!"List12"), -- document/excel/records/Record.Parser.hpp:282
  (2168, b!"Feature12"), -- document/excel/records/Record.Parser.hpp:283
  (2169, b!"CondFmt12"), -- document/excel/records/Record.Parser.hpp:284
  (2170, b!"CF12"), -- document/excel/records/Record.Parser.hpp:285
  (2171, b!"CFEx"), -- document/excel/records/Record.Parser.hpp:286
  (2172, b!"XFCRC"), -- document/excel/records/Record.Parser.hpp:287
  (2173, b!"XFExt"), -- document/excel/records/Record.Parser.hpp:288
  (2174, b!"AutoFilter12"), -- document/excel/records/Record.Parser.hpp:289
  (2175, b!"ContinueFrt12"), -- document/excel/records/Record.Parser.hpp:290
  (2180, b!"MDTInfo"), -- document/excel/records/Record.Parser.hpp:291
  (2181, b!"MDXStr"), -- document/excel/records/Record.Parser.hpp:292
  (2182, b!"MDXTuple"), -- document/excel/records/Record.Parser.hpp:293
  (2183, b!"MDXSet"), -- document/excel/records/Record.Parser.hpp:294
  (2184, b!"MDXProp"), -- document/excel/records/Record.Parser.hpp:295
  (2185, b!"MDXKPI"), -- document/excel/records/Record.Parser.hpp:296
  (2186, b!"MDB"), -- document/excel/records/Record.Parser.hpp:297
  (2187, b!"PLV"), -- document/excel/records/Record.Parser.hpp:298
  (2188, b!"Compat12"), -- document/excel/records/Record.Parser.hpp:299
  (2189, b!"DXF"), -- document/excel/records/Record.Parser.hpp:300
  (2190, b!"TableStyles"), -- document/excel/records/Record.Parser.hpp:301
  (2191, b!"TableStyle"), -- document/excel/records/Record.Parser.hpp:302
  (2192, b!"TableStyleElement"), -- document/excel/records/Record.Parser.hpp:303
  (2194, b!"StyleExt"), -- document/excel/records/Record.Parser.hpp:304
  (2195, b!"NamePublish"), -- document/excel/records/Record.Parser.hpp:305
  (2196, b!"NameCmt"), -- document/excel/records/Record.Parser.hpp:306
  (2197, b!"SortData"), -- document/excel/records/Record.Parser.hpp:307
  (2198, b!"Theme"), -- document/excel/records/Record.Parser.hpp:308
  (2199, b!"GUIDTypeLib"), -- document/excel/records/Record.Parser.hpp:309
  (2200, b!"FnGrp12"), -- document/excel/records/Record.Parser.hpp:310
  (2201, b!"NameFnGrp12"), -- document/excel/records/Record.Parser.hpp:311
  (2202, b!"MTRSettings"), -- document/excel/records/Record.Parser.hpp:312
  (2203, b!"CompressPictures"), -- document/excel/records/Record.Parser.hpp:313
  (2204, b!"HeaderFooter"), -- document/excel/records/Record.Parser.hpp:314
  (2205, b!"CrtLayout12"), -- document/excel/records/Record.Parser.hpp:315
  (2206, b!"CrtMlFrt"), -- document/excel/records/Record.Parser.hpp:316
  (2207, b!"CrtMlFrtContinue"), -- document/excel/records/Record.Parser.hpp:317
  (2211, b!"ForceFullCalculation"), -- document/excel/records/Record.Parser.hpp:318
  (2212, b!"ShapePropsStream"), -- document/excel/records/Record.Parser.hpp:319
  (2213, b!"TextPropsStream"), -- document/excel/records/Record.Parser.hpp:320
  (2214, b!"RichTextStream"), -- document/excel/records/Record.Parser.hpp:321
  (2215, b!"CrtLayout12A"), -- document/excel/records/Record.Parser.hpp:322
  (4097, b!"Units"), -- document/excel/records/Record.Parser.hpp:323
  (4098, b!"Chart"), -- document/excel/records/Record.Parser.hpp:324
  (4099, b!"Series"), -- document/excel/records/Record.Parser.hpp:325
  (4102, b!"DataFormat"), -- document/excel/records/Record.Parser.hpp:326
  (4103, b!"LineFormat"), -- document/excel/records/Record.Parser.hpp:327
  (4105, b!"MarkerFormat"), -- document/excel/records/Record.Parser.hpp:328
  (4106, b!"AreaFormat"), -- document/excel/records/Record.Parser.hpp:329
  (4107, b!"PieFormat"), -- document/excel/records/Record.Parser.hpp:330
  (4108, b!"AttachedLabel"), -- document/excel/records/Record.Parser.hpp:331
  (4109, b!"SeriesText"), -- document/excel/records/Record.Parser.hpp:332
  (4116, b!"ChartFormat"), -- document/excel/records/Record.Parser.hpp:333
  (4117, b!"Legend"), -- document/excel/records/Record.Parser.hpp:334
  (4118, b!"SeriesList"), -- document/excel/records/Record.Parser.hpp:335
  (4119, b!"Bar"), -- document/excel/records/Record.Parser.hpp:336
  (4120, b!"Line"), -- document/excel/records/Record.Parser.hpp:337
  (4121, b!"Pie"), -- document/excel/records/Record.Parser.hpp:338
  (4122, b!"Area"), -- document/excel/records/Record.Parser.hpp:339
  (4123, b!"Scatter"), -- document/excel/records/Record.Parser.hpp:340
  (4124, b!"CrtLine"), -- document/excel/records/Record.Parser.hpp:341
  (4125, b!"Axis"), -- document/excel/records/Record.Parser.hpp:342
  (4126, b!"Tick"), -- document/excel/records/Record.Parser.hpp:343
  (4127, b!"ValueRange"), -- document/excel/records/Record.Parser.hpp:344
  (4128, b!"CatSerRange"), -- document/excel/records/Record.Parser.hpp:345
  (4129, b!"AxisLine"), -- document/excel/records/Record.Parser.hpp:346
  (4130, b!"CrtLink"), -- document/excel/records/Record.Parser.hpp:347
  (4132, b!"DefaultText"), -- document/excel/records/Record.Parser.hpp:348
  (4133, b!"Text"), -- document/excel/records/Record.Parser.hpp:349
  (4134, b!"FontX"), -- document/excel/records/Record.Parser.hpp:350
  (4135, b!"ObjectLink"), -- document/excel/records/Record.Parser.hpp:351
  (4146, b!"Frame"), -- document/excel/records/Record.Parser.hpp:352
  (4147, b!"Begin"), -- document/excel/records/Record.Parser.hpp:353
  (4148, b!"End"), -- document/excel/records/Record.Parser.hpp:354
  (4149, b!"PlotArea"), -- document/excel/records/Record.Parser.hpp:355
  (4154, b!"Chart3d"), -- document/excel/records/Record.Parser.hpp:356
  (4156, b!"PicF"), -- document/excel/records/Record.Parser.hpp:357
  (4157, b!"DropBar"), -- document/excel/records/Record.Parser.hpp:358
  (4158, b!"Radar"), -- document/excel/records/Record.Parser.hpp:359
  (4159, b!"Surf"), -- document/excel/records/Record.Parser.hpp:360
  (4160, b!"RadarArea"), -- document/excel/records/Record.Parser.hpp:361
  (4161, b!"AxisParent"), -- document/excel/records/Record.Parser.hpp:362
  (4163, b!"LegendException"), -- document/excel/records/Record.Parser.hpp:363
  (4164, b!"ShtProps"), -- document/excel/records/Record.Parser.hpp:364
  (4165, b!"SerToCrt"), -- document/excel/records/Record.Parser.hpp:365
  (4166, b!"AxesUsed"), -- document/excel/records/Record.Parser.hpp:366
  (4168, b!"SBaseRef"), -- document/excel/records/Record.Parser.hpp:367
  (4170, b!"SerParent"), -- document/excel/records/Record.Parser.hpp:368
  (4171, b!"SerAuxTrend"), -- document/excel/records/Record.Parser.hpp:369
  (4174, b!"IFmtRecord"), -- document/excel/records/Record.Parser.hpp:370
  (4175, b!"Pos"), -- document/excel/records/Record.Parser.hpp:371
  (4176, b!"AlRuns"), -- document/excel/records/Record.Parser.hpp:372
  (4177, b!"BRAI"), -- document/excel/records/Record.Parser.hpp:373
  (4187, b!"SerAuxErrBar"), -- document/excel/records/Record.Parser.hpp:374
  (4188, b!"ClrtClient"), -- document/excel/records/Record.Parser.hpp:375
  (4189, b!"SerFmt"), -- document/excel/records/Record.Parser.hpp:376
  (4191, b!"Chart3DBarShape"), -- document/excel/records/Record.Parser.hpp:377
  (4192, b!"Fbi"), -- document/excel/records/Record.Parser.hpp:378
  (4193, b!"BopPop"), -- document/excel/records/Record.Parser.hpp:379
  (4194, b!"AxcExt"), -- document/excel/records/Record.Parser.hpp:380
  (4195, b!"Dat"), -- document/excel/records/Record.Parser.hpp:381
  (4196, b!"PlotGrowth"), -- document/excel/records/Record.Parser.hpp:382
  (4197, b!"SIIndex"), -- document/excel/records/Record.Parser.hpp:383
  (4198, b!"GelFrame"), -- document/excel/records/Record.Parser.hpp:384
  (4199, b!"BopPopCustom"), -- document/excel/records/Record.Parser.hpp:385
  (4200, b!"Fbi2")] -- document/excel/records/Record.Parser.hpp:386

end Fileid.ExcelTables
