import Verif.Base

/-!
# Value-to-text tables of the program

Generated by tools/gen_tables.py; do not edit.
-/

namespace Fileid.Tables

/-- exe/Exec.hpp:114-131 `CharacteristicsMap` (a `std::map`: in key order). -/
def execCharacteristics : List (Nat × Bytes) := [
  (1, b!"Relocs Stripped"), -- exe/Exec.hpp:115
  (2, b!"Executable Image"), -- exe/Exec.hpp:116
  (4, b!"LINE_NUMS_STRIPPED"), -- exe/Exec.hpp:117
  (8, b!"LOCAL_SYMS_STRIPPED"), -- exe/Exec.hpp:118
  (16, b!"AGGRESSIVE_WS_TRIM"), -- exe/Exec.hpp:119
  (32, b!"LARGE_ADDRESS_AWARE"), -- exe/Exec.hpp:120
  (64, b!"REMOVABLE_RUN_FROM_SWAP"), -- exe/Exec.hpp:121
  (128, b!"BYTES_REVERSED_LO"), -- exe/Exec.hpp:122
  (256, b!"32BIT_MACHINE"), -- exe/Exec.hpp:123
  (512, b!"DEBUG_STRIPPED"), -- exe/Exec.hpp:124
  (1024, b!"REMOVABLE_RUN_FROM_SWAP"), -- exe/Exec.hpp:125
  (2048, b!"NET_RUN_FROM_SWAP"), -- exe/Exec.hpp:126
  (4096, b!"SYSTEM"), -- exe/Exec.hpp:127
  (8192, b!"DLL"), -- exe/Exec.hpp:128
  (16384, b!"UP_SYSTEM_ONLY"), -- exe/Exec.hpp:129
  (32768, b!"BYTES_REVERSED_HI")] -- exe/Exec.hpp:130

/-- exe/Exec.hpp:132-141 `DllCharacteristicsMap`. -/
def execDllCharacteristics : List (Nat × Bytes) := [
  (64, b!"DYNAMIC_BASE"), -- exe/Exec.hpp:133
  (128, b!"FORCE_INTEGRITY"), -- exe/Exec.hpp:134
  (256, b!"NX_COMPAT"), -- exe/Exec.hpp:135
  (512, b!"NO_ISOLATION"), -- exe/Exec.hpp:136
  (1024, b!"NO_SEH"), -- exe/Exec.hpp:137
  (2048, b!"NO_BIND"), -- exe/Exec.hpp:138
  (8192, b!"WDM_DRIVER"), -- exe/Exec.hpp:139
  (32768, b!"TERMINAL_SERVER_AWARE")] -- exe/Exec.hpp:140

/-- exe/Exec.hpp:174-190 the cases of `GetSubsystemString`. -/
def execSubsystems : List (Nat × Bytes) := [
  (0, b!"Unknown Subsystem"), -- exe/Exec.hpp:177
  (1, b!"Device Driver"), -- exe/Exec.hpp:178
  (2, b!"Windows GUI"), -- exe/Exec.hpp:179
  (3, b!"Windows CUI"), -- exe/Exec.hpp:180
  (7, b!"Posix CUI"), -- exe/Exec.hpp:181
  (9, b!"Windows CE"), -- exe/Exec.hpp:182
  (16, b!"EFI Application"), -- exe/Exec.hpp:183
  (17, b!"EFI Service Driver"), -- exe/Exec.hpp:184
  (18, b!"EFI Runtime Driver"), -- exe/Exec.hpp:185
  (19, b!"EFI ROM Image"), -- exe/Exec.hpp:186
  (20, b!"XBOX")] -- exe/Exec.hpp:187

/-- exe/Exec.hpp:192-219 the cases of `GetMachineTypeString`. -/
def execMachines : List (Nat × Bytes) := [
  (0, b!"Unknown"), -- exe/Exec.hpp:195
  (467, b!"Matsushita AM33"), -- exe/Exec.hpp:196
  (34404, b!"x64"), -- exe/Exec.hpp:197
  (448, b!"ARM little endian"), -- exe/Exec.hpp:198
  (452, b!"ARMv7 (or higher) Thumb mode only"), -- exe/Exec.hpp:199
  (43620, b!"ARMv8 in 64-bit mode"), -- exe/Exec.hpp:200
  (3772, b!"EFI byte code"), -- exe/Exec.hpp:201
  (332, b!"Intel 386"), -- exe/Exec.hpp:202
  (512, b!"Intel Itanium"), -- exe/Exec.hpp:203
  (36929, b!"Mistubishi MR32R little endian"), -- exe/Exec.hpp:204
  (614, b!"MIPS16"), -- exe/Exec.hpp:205
  (870, b!"MIPS with FPU"), -- exe/Exec.hpp:206
  (1126, b!"MIPS16 with FPU"), -- exe/Exec.hpp:207
  (496, b!"Power PC little endian"), -- exe/Exec.hpp:208
  (497, b!"Power PC with floating point support"), -- exe/Exec.hpp:209
  (358, b!"MIPS little endian"), -- exe/Exec.hpp:210
  (418, b!"Hitachi SH3"), -- exe/Exec.hpp:211
  (419, b!"Hitachi SH3 DSP"), -- exe/Exec.hpp:212
  (422, b!"Hitachi SH4"), -- exe/Exec.hpp:213
  (424, b!"Hitachi SH5"), -- exe/Exec.hpp:214
  (450, b!"ARM or Thumb (interworking)"), -- exe/Exec.hpp:215
  (361, b!"MIPS little-endian WCE v2")] -- exe/Exec.hpp:216

/-- exe/macho.hpp:76-103 the cases of `cpuType2String`. -/
def machoCpuTypes : List (Nat × Bytes) := [
  (1, b!"VAX"), -- exe/macho.hpp:79
  (2, b!"ROMP"), -- exe/macho.hpp:80
  (4, b!"NS32032"), -- exe/macho.hpp:81
  (5, b!"NS32332"), -- exe/macho.hpp:82
  (6, b!"MC680x0"), -- exe/macho.hpp:83
  (7, b!"I386"), -- exe/macho.hpp:84
  (8, b!"MIPS"), -- exe/macho.hpp:85
  (9, b!"NS32532"), -- exe/macho.hpp:86
  (11, b!"HPPA"), -- exe/macho.hpp:87
  (12, b!"ARM"), -- exe/macho.hpp:88
  (13, b!"MC88000"), -- exe/macho.hpp:89
  (14, b!"SPARC"), -- exe/macho.hpp:90
  (15, b!"I860"), -- exe/macho.hpp:91
  (16, b!"I860_LITTLE"), -- exe/macho.hpp:92
  (17, b!"RS6000"), -- exe/macho.hpp:93
  (18, b!"POWERPC"), -- exe/macho.hpp:94
  (16777216, b!"ARCH_ABI64"), -- exe/macho.hpp:95
  (16777223, b!"X86_64"), -- exe/macho.hpp:96
  (16777234, b!"POWERPC64"), -- exe/macho.hpp:97
  (255, b!"VEO"), -- exe/macho.hpp:98
  (4294967295, b!"ANY")] -- exe/macho.hpp:99

/-- exe/macho.hpp:108-122 the inner cases of `cpuSubType2String` for VAX. -/
def machoSubVAX : List (Nat × Bytes) := [
  (0, b!"VAX_ALL"), -- exe/macho.hpp:109
  (1, b!"VAX780"), -- exe/macho.hpp:110
  (2, b!"VAX785"), -- exe/macho.hpp:111
  (3, b!"VAX750"), -- exe/macho.hpp:112
  (4, b!"VAX730"), -- exe/macho.hpp:113
  (5, b!"UVAXI"), -- exe/macho.hpp:114
  (6, b!"UVAXII"), -- exe/macho.hpp:115
  (7, b!"VAX8200"), -- exe/macho.hpp:116
  (8, b!"VAX8500"), -- exe/macho.hpp:117
  (9, b!"VAX8600"), -- exe/macho.hpp:118
  (10, b!"VAX8650"), -- exe/macho.hpp:119
  (11, b!"VAX8800"), -- exe/macho.hpp:120
  (12, b!"UVAXIII")] -- exe/macho.hpp:121

/-- exe/macho.hpp:125-130 the inner cases of `cpuSubType2String` for ROMP. -/
def machoSubROMP : List (Nat × Bytes) := [
  (0, b!"RT_ALL"), -- exe/macho.hpp:126
  (1, b!"RT_PC"), -- exe/macho.hpp:127
  (2, b!"RT_APC"), -- exe/macho.hpp:128
  (3, b!"RT_135")] -- exe/macho.hpp:129

/-- exe/macho.hpp:135-142 the inner cases of `cpuSubType2String` for NS32032, NS32332 and NS32532. -/
def machoSubNS32 : List (Nat × Bytes) := [
  (0, b!"MMAX_ALL"), -- exe/macho.hpp:136
  (1, b!"MMAX_DPC (032 CPU)"), -- exe/macho.hpp:137
  (2, b!"SQT"), -- exe/macho.hpp:138
  (3, b!"MMAX_APC_FPU (32081 FPU)"), -- exe/macho.hpp:139
  (4, b!"MMAX_APC_FPA (Weitek FPA)"), -- exe/macho.hpp:140
  (5, b!"MMAX_XPC (532 CPU)")] -- exe/macho.hpp:141

/-- exe/macho.hpp:145-149 the inner cases of `cpuSubType2String` for MC680x0. -/
def machoSubMC680 : List (Nat × Bytes) := [
  (1, b!"MC680x0_ALL"), -- exe/macho.hpp:146
  (2, b!"MC68040"), -- exe/macho.hpp:147
  (3, b!"MC68030_ONLY")] -- exe/macho.hpp:148

/-- exe/macho.hpp:152-173 the inner cases of `cpuSubType2String` for I386. -/
def machoSubI386 : List (Nat × Bytes) := [
  (0, b!"INTEL_ALL"), -- exe/macho.hpp:153
  (3, b!"I386_ALL"), -- exe/macho.hpp:154
  (4, b!"INTEL_486"), -- exe/macho.hpp:155
  (5, b!"INTEL_586"), -- exe/macho.hpp:156
  (8, b!"PENTIUM_3"), -- exe/macho.hpp:157
  (9, b!"PENTIUM_M"), -- exe/macho.hpp:158
  (10, b!"PENTIUM_4"), -- exe/macho.hpp:159
  (11, b!"ITANIUM"), -- exe/macho.hpp:160
  (12, b!"XEON"), -- exe/macho.hpp:161
  (34, b!"XEON_MP"), -- exe/macho.hpp:162
  (42, b!"PENTIUM_4_M"), -- exe/macho.hpp:163
  (43, b!"ITANIUM_2"), -- exe/macho.hpp:164
  (38, b!"PENTPRO"), -- exe/macho.hpp:165
  (40, b!"PENTIUM_3_M"), -- exe/macho.hpp:166
  (52, b!"PENTIUM_3_XEON"), -- exe/macho.hpp:167
  (102, b!"PENTII_M3"), -- exe/macho.hpp:168
  (132, b!"INTEL_486SX"), -- exe/macho.hpp:169
  (166, b!"PENTII_M5"), -- exe/macho.hpp:170
  (199, b!"CELERON"), -- exe/macho.hpp:171
  (231, b!"CELERON_MOBILE")] -- exe/macho.hpp:172

/-- exe/macho.hpp:176-185 the inner cases of `cpuSubType2String` for MIPS. -/
def machoSubMIPS : List (Nat × Bytes) := [
  (0, b!"MIPS_ALL"), -- exe/macho.hpp:177
  (1, b!"MIPS_R2300"), -- exe/macho.hpp:178
  (2, b!"MIPS_R2600"), -- exe/macho.hpp:179
  (3, b!"MIPS_R2800"), -- exe/macho.hpp:180
  (4, b!"MIPS_R2000a"), -- exe/macho.hpp:181
  (5, b!"MIPS_R2000"), -- exe/macho.hpp:182
  (6, b!"MIPS_R3000a"), -- exe/macho.hpp:183
  (7, b!"MIPS_R3000")] -- exe/macho.hpp:184

/-- exe/macho.hpp:188-191 the inner cases of `cpuSubType2String` for HPPA. -/
def machoSubHPPA : List (Nat × Bytes) := [
  (0, b!"HPPA_7100"), -- exe/macho.hpp:189
  (1, b!"HPPA_7100LC")] -- exe/macho.hpp:190

/-- exe/macho.hpp:194-203 the inner cases of `cpuSubType2String` for ARM. -/
def machoSubARM : List (Nat × Bytes) := [
  (0, b!"ARM_ALL12"), -- exe/macho.hpp:195
  (5, b!"ARM_V4T"), -- exe/macho.hpp:196
  (6, b!"ARM_V6"), -- exe/macho.hpp:197
  (7, b!"ARM_V5TEJ"), -- exe/macho.hpp:198
  (8, b!"ARM_XSCALE"), -- exe/macho.hpp:199
  (9, b!"ARM_V7"), -- exe/macho.hpp:200
  (10, b!"ARM_V7F"), -- exe/macho.hpp:201
  (12, b!"ARM_V7K")] -- exe/macho.hpp:202

/-- exe/macho.hpp:211-213 the inner cases of `cpuSubType2String` for SPARC. -/
def machoSubSPARC : List (Nat × Bytes) := [
  (0, b!"SPARC_ALL")] -- exe/macho.hpp:212

/-- exe/macho.hpp:216-219 the inner cases of `cpuSubType2String` for I860. -/
def machoSubI860 : List (Nat × Bytes) := [
  (0, b!"I860_ALL"), -- exe/macho.hpp:217
  (1, b!"I860_860")] -- exe/macho.hpp:218

/-- exe/macho.hpp:232-246 the inner cases of `cpuSubType2String` for POWERPC. -/
def machoSubPOWERPC : List (Nat × Bytes) := [
  (0, b!"POWERPC_ALL"), -- exe/macho.hpp:233
  (1, b!"POWERPC_601"), -- exe/macho.hpp:234
  (2, b!"POWERPC_602"), -- exe/macho.hpp:235
  (3, b!"POWERPC_603"), -- exe/macho.hpp:236
  (4, b!"POWERPC_603e"), -- exe/macho.hpp:237
  (5, b!"POWERPC_603ev"), -- exe/macho.hpp:238
  (6, b!"POWERPC_604"), -- exe/macho.hpp:239
  (7, b!"POWERPC_604e"), -- exe/macho.hpp:240
  (8, b!"POWERPC_620"), -- exe/macho.hpp:241
  (9, b!"POWERPC_750"), -- exe/macho.hpp:242
  (10, b!"POWERPC_7400"), -- exe/macho.hpp:243
  (11, b!"POWERPC_7450"), -- exe/macho.hpp:244
  (100, b!"POWERPC_970")] -- exe/macho.hpp:245

/-- exe/macho.hpp:254-257 the inner cases of `cpuSubType2String` for X86_64. -/
def machoSubX8664 : List (Nat × Bytes) := [
  (3, b!"X86_64_ALL"), -- exe/macho.hpp:255
  (4, b!"X86_ARCH1")] -- exe/macho.hpp:256

/-- media/mp4/mp4.hpp:64-126 the comparisons of `GetBrandName`. -/
def mp4Brands : List (Bytes × Bytes) := [
  (b!"3g2a", b!"3GPP2"), -- media/mp4/mp4.hpp:66
  (b!"3ge6", b!"3GPP Release 6 extended-presentation Profile"), -- media/mp4/mp4.hpp:67
  (b!"3gg6", b!"3GPP Release 6 General Profile"), -- media/mp4/mp4.hpp:68
  (b!"3gp4", b!"3GPP Release 4"), -- media/mp4/mp4.hpp:69
  (b!"3gp5", b!"3GPP Release 5"), -- media/mp4/mp4.hpp:70
  (b!"3gp6", b!"3GPP Release 6 basic Profile"), -- media/mp4/mp4.hpp:71
  (b!"3gr6", b!"3GPP Release 6 progressive-download Profile"), -- media/mp4/mp4.hpp:72
  (b!"3gs6", b!"3GPP Release 6 streaming-server Profile"), -- media/mp4/mp4.hpp:73
  (b!"ARRI", b!"ARRI Digital Camera"), -- media/mp4/mp4.hpp:74
  (b!"CAEP", b!"Canon Digital Camera"), -- media/mp4/mp4.hpp:75
  (b!"CDes", b!"Convergent Designs"), -- media/mp4/mp4.hpp:76
  (b!"LCAG", b!"Leica digital camera"), -- media/mp4/mp4.hpp:77
  (b!"M4A ", b!"iTunes MPEG-4 audio"), -- media/mp4/mp4.hpp:78
  (b!"M4B ", b!"iTunes AudioBook protected"), -- media/mp4/mp4.hpp:79
  (b!"M4P ", b!"MPEG-4 protected audio"), -- media/mp4/mp4.hpp:80
  (b!"M4V ", b!"MPEG-4 protected audio+video"), -- media/mp4/mp4.hpp:81
  (b!"MPPI", b!"Photo Player Multimedia Application Format"), -- media/mp4/mp4.hpp:82
  (b!"ROSS", b!"Ross Video"), -- media/mp4/mp4.hpp:83
  (b!"avc1", b!"Advanced Video Coding extensions"), -- media/mp4/mp4.hpp:84
  (b!"caqv", b!"Casio Digital Camera"), -- media/mp4/mp4.hpp:85
  (b!"da0a", b!"DMB AF audio with MPEG Layer II audio, MOT slide show, DLS, JPG/PNG/MNG images"), -- media/mp4/mp4.hpp:86
  (b!"da0b", b!"DMB AF, extending da0a , with 3GPP timed text, DID, TVA, REL, IPMP"), -- media/mp4/mp4.hpp:87
  (b!"da1a", b!"DMB AF audio with ER-BSAC audio, JPG/PNG/MNG images"), -- media/mp4/mp4.hpp:88
  (b!"da1b", b!"DMB AF, extending da1a, with 3GPP timed text, DID, TVA, REL, IPMP"), -- media/mp4/mp4.hpp:89
  (b!"da2a", b!"DMB AF audio with HE-AAC v2 audio, MOT slide show, DLS, JPG/PNG/MNG images"), -- media/mp4/mp4.hpp:90
  (b!"da2b", b!"DMB AF extending da2a, with 3GPP timed text, DID, TVA, REL, IPMP"), -- media/mp4/mp4.hpp:91
  (b!"da3a", b!"DMB AF audio with HE-AAC, JPG/PNG/MNG images"), -- media/mp4/mp4.hpp:92
  (b!"da3b", b!"DMB AF extending da3a with BIFS, 3GPP timed text, DID, TVA, REL, IPMP"), -- media/mp4/mp4.hpp:93
  (b!"dece", b!"Conforming to DECE 1.0 (UltraViolet)"), -- media/mp4/mp4.hpp:94
  (b!"dmb1", b!"DMB AF supporting all the components defined in the specification"), -- media/mp4/mp4.hpp:95
  (b!"dv1a", b!"DMB AF video with AVC video, ER-BSAC audio, BIFS, JPG/PNG/MNG images, TS"), -- media/mp4/mp4.hpp:96
  (b!"dv1b", b!"DMB AF, extending dv1a, with 3GPP timed text, DID, TVA, REL, IPMP"), -- media/mp4/mp4.hpp:97
  (b!"dv2a", b!"DMB AF video with AVC video, HE-AACv2 audio, BIFS, JPG/PNG/MNG images, TS"), -- media/mp4/mp4.hpp:98
  (b!"dv2b", b!"DMB AF extending dv2a, with 3GPP timed text, DID, TVA, REL, IPMP"), -- media/mp4/mp4.hpp:99
  (b!"dv3a", b!"DMB AF video with AVC video, HE-AAC audio, BIFS, JPG/PNG/MNG images, TS"), -- media/mp4/mp4.hpp:100
  (b!"dv3b", b!"DMB AF extending dv3a with 3GPP timed text, DID, TVA, REL, IPMP"), -- media/mp4/mp4.hpp:101
  (b!"dvr1", b!"DVB RTP"), -- media/mp4/mp4.hpp:102
  (b!"dvt1", b!"DVB Transport Stream"), -- media/mp4/mp4.hpp:103
  (b!"isc2", b!"Files encrypted according to ISMACryp 2.0"), -- media/mp4/mp4.hpp:104
  (b!"iso2", b!"All files based on the 2004 edition of the ISO file format"), -- media/mp4/mp4.hpp:105
  (b!"iso3", b!"Version of the ISO file format"), -- media/mp4/mp4.hpp:106
  (b!"iso4", b!"Version of the ISO file format"), -- media/mp4/mp4.hpp:107
  (b!"isom", b!"All files based on the ISO Base Media File Format"), -- media/mp4/mp4.hpp:108
  (b!"jpsi", b!"The JPSearch data interchange format"), -- media/mp4/mp4.hpp:109
  (b!"mj2s", b!"Motion JPEG 2000 simple profile"), -- media/mp4/mp4.hpp:110
  (b!"mjp2", b!"Motion JPEG 2000, general profile"), -- media/mp4/mp4.hpp:111
  (b!"mp21", b!"MPEG-21"), -- media/mp4/mp4.hpp:112
  (b!"mp41", b!"MP4 version 1"), -- media/mp4/mp4.hpp:113
  (b!"mp42", b!"MP4 version 2"), -- media/mp4/mp4.hpp:114
  (b!"mp71", b!"MPEG-7 file-level metadata"), -- media/mp4/mp4.hpp:115
  (b!"niko", b!"Nikon Digital Camera"), -- media/mp4/mp4.hpp:116
  (b!"odcf", b!"OMA DCF (DRM Content Format)"), -- media/mp4/mp4.hpp:117
  (b!"opf2", b!"OMA PDCF (DRM Content Format)"), -- media/mp4/mp4.hpp:118
  (b!"opx2", b!"OMA Adapted PDCF"), -- media/mp4/mp4.hpp:119
  (b!"pana", b!"Panasonic Digital Camera"), -- media/mp4/mp4.hpp:120
  (b!"piff", b!"Protected Interoperable File Format"), -- media/mp4/mp4.hpp:121
  (b!"qt  ", b!"QuickTime"), -- media/mp4/mp4.hpp:122
  (b!"sdv ", b!"SD Video")] -- media/mp4/mp4.hpp:123

/-- document/word/word.hpp:76-94 the cases of `GetVersion_Word`. -/
def wordVersions : List (Nat × Bytes) := [
  (314, b!"Word2005"), -- document/word/word.hpp:80
  (274, b!"Word2005_Compat2003"), -- document/word/word.hpp:81
  (268, b!"Word2003"), -- document/word/word.hpp:82
  (257, b!"Word2002"), -- document/word/word.hpp:83
  (217, b!"Word2000"), -- document/word/word.hpp:84
  (193, b!"Word97"), -- document/word/word.hpp:85
  (104, b!"Word95_Or_Word6"), -- document/word/word.hpp:86
  (105, b!"Word95Beta"), -- document/word/word.hpp:87
  (101, b!"WinWord6.0"), -- document/word/word.hpp:88
  (45, b!"WinWord2.0"), -- document/word/word.hpp:89
  (33, b!"WinWord1.0")] -- document/word/word.hpp:90

/-- document/pubisher/pub.hpp:34-46 the cases of `GetVersion_Publisher`. -/
def publisherVersions : List (Nat × Bytes) := [
  (125, b!"Publisher 3"), -- document/pubisher/pub.hpp:38
  (136, b!"Publisher 4"), -- document/pubisher/pub.hpp:39
  (616, b!"Publisher 5"), -- document/pubisher/pub.hpp:40
  (717, b!"Publisher 6"), -- document/pubisher/pub.hpp:41
  (1000, b!"Publisher 10")] -- document/pubisher/pub.hpp:42

/-- document/visio/vsd.hpp:26-41 the cases of `GetVersion_Visio`. -/
def visioVersions : List (Nat × Bytes) := [
  (11, b!"Visio 2003 or greater"), -- document/visio/vsd.hpp:30
  (10, b!"Visio 2002"), -- document/visio/vsd.hpp:31
  (6, b!"Visio 2000"), -- document/visio/vsd.hpp:32
  (5, b!"Visio 5"), -- document/visio/vsd.hpp:33
  (4, b!"Visio 4"), -- document/visio/vsd.hpp:34
  (3, b!"Visio 3"), -- document/visio/vsd.hpp:35
  (2, b!"Visio 2"), -- document/visio/vsd.hpp:36
  (1, b!"Visio 1")] -- document/visio/vsd.hpp:37

/-- document/powerpoint/ppt.hpp:99-182 the `withinCheck` tests of `GetVersion_Powerpoint`, in order. -/
def pptVersions : List (Nat × Bytes) := [
  (4569, b!"Office 2013 SP1"), -- document/powerpoint/ppt.hpp:105
  (4569, b!"Office 2013 SP1"), -- document/powerpoint/ppt.hpp:108
  (4420, b!"Office 2013 RTM"), -- document/powerpoint/ppt.hpp:111
  (4128, b!"Office 2013 Preview"), -- document/powerpoint/ppt.hpp:114
  (7015, b!"Office 2010 SP2"), -- document/powerpoint/ppt.hpp:117
  (6029, b!"Office 2010 SP1"), -- document/powerpoint/ppt.hpp:120
  (4763, b!"Office 2010 RTM"), -- document/powerpoint/ppt.hpp:123
  (6425, b!"Office 2007 SP2"), -- document/powerpoint/ppt.hpp:126
  (6211, b!"Office 2007 SP1"), -- document/powerpoint/ppt.hpp:129
  (4518, b!"Office 2007 RTM"), -- document/powerpoint/ppt.hpp:132
  (8173, b!"Office 2003 SP3"), -- document/powerpoint/ppt.hpp:136
  (7969, b!"Office 2003 SP2"), -- document/powerpoint/ppt.hpp:139
  (6361, b!"Office 2003 SP1"), -- document/powerpoint/ppt.hpp:142
  (5529, b!"Office 2003 RTM"), -- document/powerpoint/ppt.hpp:145
  (6501, b!"Office XP SP3"), -- document/powerpoint/ppt.hpp:148
  (4205, b!"Office XP SP2"), -- document/powerpoint/ppt.hpp:151
  (3506, b!"Office XP SP1"), -- document/powerpoint/ppt.hpp:154
  (2623, b!"Office XP RTM"), -- document/powerpoint/ppt.hpp:157
  (6620, b!"Office 2000 SP3"), -- document/powerpoint/ppt.hpp:160
  (4527, b!"Office 2000 SP2"), -- document/powerpoint/ppt.hpp:163
  (3821, b!"Office 2000 SP1"), -- document/powerpoint/ppt.hpp:166
  (2716, b!"Office 2000 RTM"), -- document/powerpoint/ppt.hpp:169
  (3516, b!"Office 97 RTM"), -- document/powerpoint/ppt.hpp:172
  (4208, b!"Office 97 SR1"), -- document/powerpoint/ppt.hpp:175
  (5507, b!"Office 97 SR2")] -- document/powerpoint/ppt.hpp:178

/-- zip/ziphelper.hpp:153-279 the comparisons of `CheckContentType`, in order: content type, extension, name. -/
def zipContentTypes : List (Bytes × Bytes × Bytes) := [
  (b!"application/vnd.ms-word.document.macroEnabled.main+xml", b!"docm", b!"Microsoft Office Open XML Macro-Enabled Document"), -- zip/ziphelper.hpp:155
  (b!"application/vnd.ms-word.template.macroEnabledTemplate.main+xml", b!"dotm", b!"Microsoft Office Open XML Macro-Enabled Document Template"), -- zip/ziphelper.hpp:161
  (b!"application/vnd.openxmlformats-officedocument.wordprocessingml.document.main+xml", b!"docx", b!"Microsoft Office Open XML Document"), -- zip/ziphelper.hpp:167
  (b!"application/vnd.openxmlformats-officedocument.wordprocessingml.template.main+xml", b!"dotx", b!"Microsoft Office Open XML Document Template"), -- zip/ziphelper.hpp:173
  (b!"application/vnd.ms-powerpoint.template.macroEnabled.main+xml", b!"potm", b!"Microsoft Office Open XML Macro-Enabled Presentation Template"), -- zip/ziphelper.hpp:180
  (b!"application/vnd.ms-powerpoint.slideshow.macroEnabled.main+xml", b!"ppsm", b!"Microsoft Office Open XML Macro-Enabled Presentation Slideshow"), -- zip/ziphelper.hpp:186
  (b!"application/vnd.ms-powerpoint.presentation.macroEnabled.main+xml", b!"pptm", b!"Microsoft Office Open XML Macro-Enabled Presentation"), -- zip/ziphelper.hpp:192
  (b!"application/vnd.ms-powerpoint.addin.macroEnabled.main+xml", b!"ppam", b!"Microsoft Office Open XML Presentation Macro-Enabled Addin"), -- zip/ziphelper.hpp:198
  (b!"application/vnd.openxmlformats-officedocument.presentationml.template.main+xml", b!"potx", b!"Microsoft Office Open XML Presentation Template"), -- zip/ziphelper.hpp:204
  (b!"application/vnd.openxmlformats-officedocument.presentationml.slideshow.main+xml", b!"ppsx", b!"Microsoft Office Open XML Presentation Slideshow"), -- zip/ziphelper.hpp:210
  (b!"application/vnd.openxmlformats-officedocument.presentationml.presentation.main+xml", b!"pptx", b!"Microsoft Office Open XML Presentation"), -- zip/ziphelper.hpp:216
  (b!"application/vnd.ms-excel.sheet.macroEnabled.main+xml", b!"xlsm", b!"Microsoft Office Open XML Macro-Enabled Spreadsheet"), -- zip/ziphelper.hpp:223
  (b!"application/vnd.ms-excel.worksheet", b!"xlsb", b!"Microsoft Office Excel Binary"), -- zip/ziphelper.hpp:229
  (b!"application/vnd.ms-excel.main", b!"xlsb", b!"Microsoft Office Excel Binary"), -- zip/ziphelper.hpp:229
  (b!"application/vnd.ms-excel.macrosheet", b!"xlsb_e4m", b!"Microsoft Office Excel Binary with Excel4.0Macros"), -- zip/ziphelper.hpp:235
  (b!"application/vnd.ms-excel.macrosheet+xml", b!"xlsm_e4m", b!"Microsoft Office Open XML Macro-Enabled Spreadsheet with Excel4.0Macros"), -- zip/ziphelper.hpp:241
  (b!"application/vnd.ms-excel.template.macroEnabled.main+xml", b!"xltm", b!"Microsoft Office Open XML Macro-Enabled Spreadsheet Template"), -- zip/ziphelper.hpp:248
  (b!"application/vnd.ms-excel.addin.macroEnabled.main+xml", b!"xlam", b!"Microsoft Office Open XML Macro-Enabled Addin"), -- zip/ziphelper.hpp:254
  (b!"application/vnd.openxmlformats-officedocument.spreadsheetml.sheet.main+xml", b!"xlsx", b!"Microsoft Office Open XML Spreadsheet"), -- zip/ziphelper.hpp:260
  (b!"application/vnd.openxmlformats-officedocument.spreadsheetml.template.main+xml", b!"xltx", b!"Microsoft Office Open XML Spreadsheet Template"), -- zip/ziphelper.hpp:266
  (b!"application/vnd.ms-package.xps-fixeddocumentsequence+xml", b!"xps", b!"Microsoft XML Paper Specfication")] -- zip/ziphelper.hpp:273

/-- zip/ziphelper.hpp:281-384 the comparisons of `CheckMimeType`, in order: MIME type, extension, name. -/
def zipMimeTypes : List (Bytes × Bytes × Bytes) := [
  (b!"application/vnd.oasis.opendocument.text", b!"odt", b!"Open Document Text"), -- zip/ziphelper.hpp:282
  (b!"application/vnd.oasis.opendocument.spreadsheet", b!"ods", b!"Open Document Spreadsheet"), -- zip/ziphelper.hpp:288
  (b!"application/vnd.oasis.opendocument.presentation", b!"opd", b!"Open Document Presentation"), -- zip/ziphelper.hpp:294
  (b!"application/vnd.oasis.opendocument.graphics", b!"odg", b!"Open Document Graphics"), -- zip/ziphelper.hpp:300
  (b!"application/vnd.oasis.opendocument.chart", b!"odc", b!"Open Document Chart"), -- zip/ziphelper.hpp:306
  (b!"application/vnd.oasis.opendocument.formula", b!"odf", b!"Open Document Formula"), -- zip/ziphelper.hpp:312
  (b!"application/vnd.oasis.opendocument.image", b!"odi", b!"Open Document Image"), -- zip/ziphelper.hpp:318
  (b!"application/vnd.oasis.opendocument.text-master", b!"odm", b!"Open Document Text-Master"), -- zip/ziphelper.hpp:324
  (b!"application/vnd.sun.xml.base", b!"odb", b!"Open Document Database"), -- zip/ziphelper.hpp:330
  (b!"application/vnd.oasis.opendocument.base", b!"odb", b!"Open Document Database"), -- zip/ziphelper.hpp:330
  (b!"application/vnd.oasis.opendocument.database", b!"odb", b!"Open Document Database"), -- zip/ziphelper.hpp:330
  (b!"application/vnd.oasis.opendocument.text-template", b!"ott", b!"Open Document Text Template"), -- zip/ziphelper.hpp:336
  (b!"application/vnd.oasis.opendocument.spreadsheet-template", b!"ots", b!"Open Document Spreadsheet Template"), -- zip/ziphelper.hpp:342
  (b!"application/vnd.oasis.opendocument.presentation-template", b!"otp", b!"Open Document Presentation Template"), -- zip/ziphelper.hpp:348
  (b!"application/vnd.oasis.opendocument.graphics-template", b!"otg", b!"Open Document Graphics Template"), -- zip/ziphelper.hpp:354
  (b!"application/vnd.oasis.opendocument.chart-template", b!"otc", b!"Open Document Chart Template"), -- zip/ziphelper.hpp:360
  (b!"application/vnd.oasis.opendocument.formula-template", b!"otf", b!"Open Document Formula Template"), -- zip/ziphelper.hpp:366
  (b!"application/vnd.oasis.opendocument.image-template", b!"oti", b!"Open Document Image Template"), -- zip/ziphelper.hpp:372
  (b!"application/vnd.oasis.opendocument.text-web", b!"oth", b!"Open Document Webpage")] -- zip/ziphelper.hpp:378

/-- zip/ziphelper.hpp:468-477 the calls of `CheckEntry` in `Detailer`, in order: entry, extension, name. -/
def zipMarkers : List (Bytes × Bytes × Bytes) := [
  (b!"META-INF/MANIFEST.MF", b!"jar", b!"Java Archive"), -- zip/ziphelper.hpp:468
  (b!"WEB-INF/web.xml", b!"war", b!"Web Application Java Archive"), -- zip/ziphelper.hpp:469
  (b!"META-INF/application.xml", b!"ear", b!"Enterprise Java Archive"), -- zip/ziphelper.hpp:470
  (b!"AndroidManifest.xml", b!"apk", b!"Android Application Package"), -- zip/ziphelper.hpp:471
  (b!"install.js", b!"xpi", b!"Cross Platform Installer"), -- zip/ziphelper.hpp:472
  (b!"install.rdf", b!"xpi", b!"Cross Platform Installer"), -- zip/ziphelper.hpp:473
  (b!"AppManifest.xaml", b!"xap", b!"Silverlight Packaged Application"), -- zip/ziphelper.hpp:474
  (b!"WMAppManifest.xml", b!"xap", b!"Silverlight Phone Application"), -- zip/ziphelper.hpp:475
  (b!"Payload/Application.app", b!"ipa", b!"iOS Application Archive"), -- zip/ziphelper.hpp:476
  (b!"imsmanifest.xml", b!"scorm_pif", b!"SCORM (Shareable Content Object Reference Model) Content Package")] -- zip/ziphelper.hpp:477

/-- A `switch` or if-chain that maps a value to a text: the first entry with the key decides. -/
def lookup {α : Type} [DecidableEq α] (t : List (α × Bytes)) (k : α) : Option Bytes :=
  (t.find? fun e => decide (e.1 = k)).map (·.2)

end Fileid.Tables
