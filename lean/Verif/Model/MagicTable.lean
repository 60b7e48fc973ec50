import Verif.Model.MagicInfo

/-!
# The signature table of `fileid/magic.h`

Generated by `tools/gen_magic.py` from `/repo/fileid/magic.h`: arrays from lines 9-159, rows from
`initList()`, lines 164-314, in order. Every row cites its line.
-/

namespace Fileid.Magic

open Fileid.Common

/-- magic.h:9 -/
def magic_dosexe : Bytes := [0x4D, 0x5A]
/-- magic.h:10 -/
def magic_elf : Bytes := [0x7F, 0x45, 0x4C, 0x46]
/-- magic.h:11 -/
def magic_dex : Bytes := [0x64, 0x65, 0x78, 0x0A, 0x30, 0x33]
/-- magic.h:12 -/
def magic_lib : Bytes := [0x21, 0x3C, 0x61, 0x72, 0x63, 0x68, 0x3E, 0x0A]
/-- magic.h:13 -/
def magic_obj : Bytes := [0x4C, 0x01]
/-- magic.h:14 -/
def magic_pdb1 : Bytes := [0x4D, 0x69, 0x63, 0x72, 0x6F, 0x73, 0x6F, 0x66, 0x74, 0x20, 0x43, 0x2F, 0x43, 0x2B, 0x2B, 0x20, 0x70, 0x72, 0x6F, 0x67, 0x72, 0x61, 0x6D, 0x20, 0x64, 0x61, 0x74, 0x61, 0x62, 0x61, 0x73, 0x65, 0x20, 0x32, 0x2E, 0x30, 0x30, 0x0D, 0x0A]
/-- magic.h:15 -/
def magic_pdb2 : Bytes := [0x4D, 0x69, 0x63, 0x72, 0x6F, 0x73, 0x6F, 0x66, 0x74, 0x20, 0x43, 0x2F, 0x43, 0x2B, 0x2B, 0x20, 0x4D, 0x53, 0x46, 0x20, 0x37, 0x2E, 0x30, 0x30, 0x0D, 0x0A, 0x1A, 0x44, 0x53]
/-- magic.h:16 -/
def magic_macho1 : Bytes := [0xFE, 0xED, 0xFA, 0xCE]
/-- magic.h:17 -/
def magic_macho2 : Bytes := [0xCE, 0xFA, 0xED, 0xFE]
/-- magic.h:18 -/
def magic_macho3 : Bytes := [0xFE, 0xED, 0xFA, 0xCF]
/-- magic.h:19 -/
def magic_macho4 : Bytes := [0xCF, 0xFA, 0xED, 0xFE]
/-- magic.h:20 -/
def magic_javaclass : Bytes := [0xCA, 0xFE, 0xBA, 0xBE]
/-- magic.h:21 -/
def magic_zip : Bytes := [0x50, 0x4B]
/-- magic.h:22 -/
def magic_rar : Bytes := [0x52, 0x61, 0x72, 0x21, 0x1A, 0x07]
/-- magic.h:23 -/
def magic_7z : Bytes := [0x37, 0x7A, 0xBC, 0xAF, 0x27, 0x1C]
/-- magic.h:24 -/
def magic_tarzlzw : Bytes := [0x1F, 0x9D]
/-- magic.h:25 -/
def magic_tarzlzh : Bytes := [0x1F, 0xA0]
/-- magic.h:26 -/
def magic_bz2 : Bytes := [0x42, 0x5A, 0x68]
/-- magic.h:27 -/
def magic_tar2 : Bytes := [0x75, 0x73, 0x74, 0x61, 0x72]
/-- magic.h:28 -/
def magic_tar : Bytes := [0x75, 0x73, 0x74, 0x61, 0x72]
/-- magic.h:29 -/
def magic_gz : Bytes := [0x1F, 0x8B]
/-- magic.h:30 -/
def magic_cab : Bytes := [0x4D, 0x53, 0x43, 0x46]
/-- magic.h:31 -/
def magic_lha : Bytes := [0x2D, 0x6C, 0x68]
/-- magic.h:32 -/
def magic_vhd : Bytes := [0x63, 0x6F, 0x6E, 0x65, 0x63, 0x74, 0x69, 0x78]
/-- magic.h:33 -/
def magic_vhdx : Bytes := [0x76, 0x68, 0x64, 0x78, 0x66, 0x69, 0x6C, 0x65]
/-- magic.h:34 -/
def magic_xz : Bytes := [0xFD, 0x37, 0x7A, 0x58, 0x5A, 0x00]
/-- magic.h:35 -/
def magic_iso1 : Bytes := [0x43, 0x44, 0x30, 0x30, 0x31]
/-- magic.h:36 -/
def magic_iso2 : Bytes := [0x43, 0x44, 0x30, 0x30, 0x31]
/-- magic.h:37 -/
def magic_iso3 : Bytes := [0x43, 0x44, 0x30, 0x30, 0x31]
/-- magic.h:38 -/
def magic_udf1 : Bytes := [0x42, 0x45, 0x41, 0x30, 0x31]
/-- magic.h:39 -/
def magic_udf2 : Bytes := [0x42, 0x4F, 0x4F, 0x54, 0x32]
/-- magic.h:40 -/
def magic_udf3 : Bytes := [0x43, 0x44, 0x30, 0x30, 0x31]
/-- magic.h:41 -/
def magic_udf4 : Bytes := [0x43, 0x44, 0x57, 0x30, 0x32]
/-- magic.h:42 -/
def magic_udf5 : Bytes := [0x4E, 0x53, 0x52, 0x30, 0x32]
/-- magic.h:43 -/
def magic_udf6 : Bytes := [0x4E, 0x53, 0x52, 0x30, 0x33]
/-- magic.h:44 -/
def magic_udf7 : Bytes := [0x54, 0x45, 0x41, 0x30, 0x31]
/-- magic.h:45 -/
def magic_vmdk : Bytes := [0x4B, 0x44, 0x4D]
/-- magic.h:46 -/
def magic_pcap : Bytes := [0xD4, 0xC3, 0xB2, 0xA1]
/-- magic.h:47 -/
def magic_pcapn : Bytes := [0x4D, 0x3C, 0xB2, 0xA1]
/-- magic.h:48 -/
def magic_rpm : Bytes := [0xED, 0xAB, 0xEE, 0xDB]
/-- magic.h:49 -/
def magic_dos_c1 : Bytes := [0x53, 0x5A, 0x44, 0x44, 0x88, 0xF0, 0x27, 0x33]
/-- magic.h:50 -/
def magic_dos_c2 : Bytes := [0x4B, 0x57, 0x41, 0x4A, 0x88, 0xF0, 0x27, 0xD1]
/-- magic.h:51 -/
def magic_dos_c3 : Bytes := [0x53, 0x5A, 0x20, 0x88, 0xF0, 0x27, 0x33, 0xD1]
/-- magic.h:52 -/
def magic_sdi1 : Bytes := [0x24, 0x53, 0x44, 0x49, 0x30, 0x30, 0x30, 0x31]
/-- magic.h:53 -/
def magic_wim1 : Bytes := [0x4D, 0x53, 0x57, 0x49, 0x4D, 0x00, 0x00]
/-- magic.h:54 -/
def magic_ace1 : Bytes := [0x2A, 0x2A, 0x41, 0x43, 0x45, 0x2A, 0x2A]
/-- magic.h:55 -/
def magic_ace2 : Bytes := [0x2A, 0x2A, 0x41, 0x43, 0x45, 0x2A, 0x2A]
/-- magic.h:56 -/
def magic_ico : Bytes := [0x00, 0x00, 0x01, 0x00]
/-- magic.h:57 -/
def magic_gif87 : Bytes := [0x47, 0x49, 0x46, 0x38, 0x37, 0x61]
/-- magic.h:58 -/
def magic_gif89 : Bytes := [0x47, 0x49, 0x46, 0x38, 0x39, 0x61]
/-- magic.h:59 -/
def magic_tiff_l : Bytes := [0x49, 0x49, 0x2A, 0x00]
/-- magic.h:60 -/
def magic_tiff_b : Bytes := [0x4D, 0x4D, 0x00, 0x2A]
/-- magic.h:61 -/
def magic_jpg : Bytes := [0xFF, 0xD8]
/-- magic.h:62 -/
def magic_png : Bytes := [0x89, 0x50, 0x4E, 0x47, 0x0D, 0x0A, 0x1A, 0x0A]
/-- magic.h:63 -/
def magic_bmp : Bytes := [0x42, 0x4D]
/-- magic.h:64 -/
def magic_cur : Bytes := [0x00, 0x00, 0x02, 0x00]
/-- magic.h:65 -/
def magic_bmpOS2a : Bytes := [0x42, 0x41]
/-- magic.h:66 -/
def magic_bmpOS2ci : Bytes := [0x43, 0x49]
/-- magic.h:67 -/
def magic_bmpOS2cp : Bytes := [0x43, 0x50]
/-- magic.h:68 -/
def magic_bmpOS2i : Bytes := [0x49, 0x43]
/-- magic.h:69 -/
def magic_bmpOS2p : Bytes := [0x50, 0x54]
/-- magic.h:70 -/
def magic_psp : Bytes := [0x50, 0x61, 0x69, 0x6E, 0x74, 0x20, 0x53, 0x68, 0x6F, 0x70, 0x20, 0x50, 0x72, 0x6F, 0x20, 0x49, 0x6D, 0x61, 0x67, 0x65, 0x20, 0x46, 0x69, 0x6C, 0x65]
/-- magic.h:71 -/
def magic_jbf : Bytes := [0x4A, 0x41, 0x53, 0x43, 0x20, 0x42, 0x52, 0x4F, 0x57, 0x53, 0x20, 0x46, 0x49, 0x4C, 0x45]
/-- magic.h:72 -/
def magic_emf : Bytes := [0x45, 0x4D, 0x46]
/-- magic.h:73 -/
def magic_eps : Bytes := [0x45, 0x50, 0x53, 0x46]
/-- magic.h:74 -/
def magic_oless : Bytes := [0xD0, 0xCF, 0x11, 0xE0]
/-- magic.h:75 -/
def magic_ps : Bytes := [0x25, 0x21, 0x50, 0x53]
/-- magic.h:76 -/
def magic_pdf : Bytes := [0x25, 0x50, 0x44, 0x46]
/-- magic.h:77 -/
def magic_db : Bytes := [0x53, 0x51, 0x4C, 0x69, 0x74, 0x65, 0x20, 0x66, 0x6F, 0x72, 0x6D, 0x61, 0x74, 0x20, 0x33, 0x00]
/-- magic.h:78 -/
def magic_dwg : Bytes := [0x41, 0x43, 0x31, 0x30]
/-- magic.h:79 -/
def magic_lnk : Bytes := [0x4C, 0x00, 0x00, 0x00, 0x01, 0x14, 0x02, 0x00, 0x00, 0x00, 0x00, 0x00, 0xC0, 0x00, 0x00, 0x00, 0x00, 0x00, 0x00, 0x46]
/-- magic.h:80 -/
def magic_biff2 : Bytes := [0x09, 0x00]
/-- magic.h:81 -/
def magic_biff3 : Bytes := [0x09, 0x02]
/-- magic.h:82 -/
def magic_biff4 : Bytes := [0x09, 0x04]
/-- magic.h:83 -/
def magic_ppt95 : Bytes := [0x4D, 0x69, 0x63, 0x72, 0x6F, 0x73, 0x6F, 0x66, 0x74, 0x20, 0x28, 0x52, 0x29, 0x20, 0x50, 0x6F, 0x77, 0x65, 0x72, 0x50, 0x6F, 0x69, 0x6E, 0x74, 0x20, 0x28, 0x52, 0x29, 0x20, 0x57, 0x69, 0x6E, 0x64, 0x6F, 0x77, 0x73, 0x20, 0x20]
/-- magic.h:84 -/
def magic_ppt3 : Bytes := [0xED, 0xDE, 0xAD, 0x0B]
/-- magic.h:85 -/
def magic_ppt3s : Bytes := [0x0B, 0xAD, 0xDE, 0xED]
/-- magic.h:86 -/
def magic_mdbsys : Bytes := [0x00, 0x01, 0x00, 0x00, 0x4A, 0x65, 0x74, 0x20, 0x53, 0x79, 0x73, 0x74, 0x65, 0x6D, 0x20, 0x44, 0x42, 0x20, 0x20]
/-- magic.h:87 -/
def magic_mdbstd : Bytes := [0x00, 0x01, 0x00, 0x00, 0x53, 0x74, 0x61, 0x6E, 0x64, 0x61, 0x72, 0x64, 0x20, 0x4A, 0x65, 0x74, 0x20, 0x44, 0x42]
/-- magic.h:88 -/
def magic_mdbtmp : Bytes := [0x00, 0x01, 0x00, 0x00, 0x54, 0x65, 0x6D, 0x70, 0x20, 0x4A, 0x65, 0x74, 0x20, 0x44, 0x42, 0x20, 0x20, 0x20, 0x20]
/-- magic.h:89 -/
def magic_accdbsys : Bytes := [0x00, 0x01, 0x00, 0x00, 0x41, 0x43, 0x45, 0x20, 0x53, 0x79, 0x73, 0x74, 0x65, 0x6D, 0x20, 0x44, 0x42, 0x20, 0x20]
/-- magic.h:90 -/
def magic_accdbstd : Bytes := [0x00, 0x01, 0x00, 0x00, 0x53, 0x74, 0x61, 0x6E, 0x64, 0x61, 0x72, 0x64, 0x20, 0x41, 0x43, 0x45, 0x20, 0x44, 0x42]
/-- magic.h:91 -/
def magic_accdbtmp : Bytes := [0x00, 0x01, 0x00, 0x00, 0x54, 0x65, 0x6D, 0x70, 0x20, 0x41, 0x43, 0x45, 0x20, 0x44, 0x42, 0x20, 0x20, 0x20, 0x20]
/-- magic.h:92 -/
def magic_one : Bytes := [0xE4, 0x52, 0x5C, 0x7B, 0x8C, 0xD8, 0xA7, 0x4D, 0xAE, 0xB1, 0x53, 0x78, 0xD0, 0x29, 0x96, 0xD3]
/-- magic.h:93 -/
def magic_onetoc : Bytes := [0xA1, 0x2F, 0xFF, 0x43, 0xD9, 0xEF, 0x76, 0x4C, 0x9E, 0xE2, 0x10, 0xEA, 0x57, 0x22, 0x76, 0x5F]
/-- magic.h:94 -/
def magic_pst : Bytes := [0x21, 0x42, 0x44, 0x4E]
/-- magic.h:95 -/
def magic_wab : Bytes := [0x9C, 0xCB, 0xCB, 0x8D, 0x13, 0x75, 0xD2, 0x11, 0x91, 0x58, 0x00, 0xC0, 0x4F, 0x79, 0x56, 0xA4]
/-- magic.h:96 -/
def magic_chm : Bytes := [0x49, 0x54, 0x53, 0x46]
/-- magic.h:97 -/
def magic_dmp32 : Bytes := [0x50, 0x41, 0x47, 0x45, 0x44, 0x55, 0x4D, 0x50]
/-- magic.h:98 -/
def magic_dmp64 : Bytes := [0x50, 0x41, 0x47, 0x45, 0x44, 0x55, 0x36, 0x34]
/-- magic.h:99 -/
def magic_hdmp : Bytes := [0x4D, 0x44, 0x4D, 0x50, 0x93, 0xA7]
/-- magic.h:100 -/
def magic_rtf : Bytes := [0x7B, 0x5C, 0x72, 0x74, 0x66]
/-- magic.h:101 -/
def magic_rtf2 : Bytes := [0x7B, 0x5C, 0x72, 0x74]
/-- magic.h:102 -/
def magic_skp : Bytes := [0xFF, 0xFE, 0xFF, 0x0E, 0x53, 0x00, 0x6B, 0x00, 0x65, 0x00, 0x74, 0x00, 0x63, 0x00, 0x68, 0x00, 0x55, 0x00, 0x70, 0x00, 0x20, 0x00, 0x4D, 0x00, 0x6F, 0x00, 0x64, 0x00, 0x65, 0x00, 0x6C, 0x00]
/-- magic.h:103 -/
def magic_mdi : Bytes := [0x45, 0x50, 0x2A, 0x00]
/-- magic.h:104 -/
def magic_hlp1 : Bytes := [0x3F, 0x5F, 0x03, 0x00]
/-- magic.h:105 -/
def magic_hlp2 : Bytes := [0x04, 0x12, 0x46, 0x31, 0x14]
/-- magic.h:106 -/
def magic_mcw1 : Bytes := [0xFE, 0x32, 0x00]
/-- magic.h:107 -/
def magic_mcw2 : Bytes := [0xFE, 0x33, 0x00]
/-- magic.h:108 -/
def magic_mcw3 : Bytes := [0xFE, 0x34, 0x00]
/-- magic.h:109 -/
def magic_mcw4 : Bytes := [0xFE, 0x37, 0x00, 0x1C, 0x00, 0x00, 0x00, 0x00]
/-- magic.h:110 -/
def magic_mcw5 : Bytes := [0xFE, 0x37, 0x00, 0x23, 0x00, 0x00, 0x00, 0x00]
/-- magic.h:111 -/
def magic_pcw3 : Bytes := [0xBE, 0x31]
/-- magic.h:112 -/
def magic_doc_old1 : Bytes := [0x9B, 0xA5]
/-- magic.h:113 -/
def magic_doc_old2 : Bytes := [0x9C, 0xA5]
/-- magic.h:114 -/
def magic_doc_old3 : Bytes := [0x08, 0xEC]
/-- magic.h:115 -/
def magic_doc_old4 : Bytes := [0x08, 0xED]
/-- magic.h:116 -/
def magic_doc_old6 : Bytes := [0xDB, 0xA5]
/-- magic.h:117 -/
def magic_wri1 : Bytes := [0x31, 0xBE]
/-- magic.h:118 -/
def magic_wri2 : Bytes := [0x32, 0xBE]
/-- magic.h:119 -/
def magic_wri3 : Bytes := [0xBE, 0x00, 0x00, 0x00, 0xAB]
/-- magic.h:120 -/
def magic_wps : Bytes := [0x01, 0xFE]
/-- magic.h:121 -/
def magic_wp5 : Bytes := [0xFF, 0x57, 0x50, 0x43]
/-- magic.h:122 -/
def magic_wpenc : Bytes := [0xFF, 0xFF, 0x61, 0x61]
/-- magic.h:123 -/
def magic_mp4 : Bytes := [0x66, 0x74, 0x79, 0x70]
/-- magic.h:124 -/
def magic_asf : Bytes := [0x30, 0x26, 0xB2, 0x75, 0x8E, 0x66, 0xCF, 0x11, 0xA6, 0xD9, 0x00, 0xAA, 0x00, 0x62, 0xCE, 0x6C]
/-- magic.h:125 -/
def magic_riff : Bytes := [0x52, 0x49, 0x46, 0x46]
/-- magic.h:126 -/
def magic_mp3 : Bytes := [0xFF, 0xFB]
/-- magic.h:127 -/
def magic_mp3id3v2 : Bytes := [0x49, 0x44, 0x33]
/-- magic.h:128 -/
def magic_flv : Bytes := [0x46, 0x4C, 0x56]
/-- magic.h:129 -/
def magic_swf : Bytes := [0x46, 0x57, 0x53]
/-- magic.h:130 -/
def magic_cwf : Bytes := [0x43, 0x57, 0x53]
/-- magic.h:131 -/
def magic_flac : Bytes := [0x66, 0x4C, 0x61, 0x43]
/-- magic.h:132 -/
def magic_midi : Bytes := [0x4D, 0x54, 0x68, 0x64]
/-- magic.h:133 -/
def magic_woff1 : Bytes := [0x77, 0x4F, 0x46, 0x46]
/-- magic.h:134 -/
def magic_woff2 : Bytes := [0x77, 0x4F, 0x46, 0x32]
/-- magic.h:135 -/
def magic_otf : Bytes := [0x4F, 0x54, 0x54, 0x4F]
/-- magic.h:136 -/
def magic_pfm : Bytes := [0x74, 0x79, 0x70, 0x31]
/-- magic.h:137 -/
def magic_ttf1 : Bytes := [0x74, 0x72, 0x75, 0x65]
/-- magic.h:138 -/
def magic_ttf2 : Bytes := [0x00, 0x01, 0x00, 0x00]
/-- magic.h:139 -/
def magic_sh : Bytes := [0x23, 0x21]
/-- magic.h:140 -/
def magic_xml_al : Bytes := [0x3C, 0x3F, 0x78, 0x6D, 0x6C]
/-- magic.h:141 -/
def magic_xml_au : Bytes := [0x3C, 0x3F, 0x58, 0x4D, 0x4C]
/-- magic.h:142 -/
def magic_xml_8l : Bytes := [0xEF, 0xBB, 0xBF, 0x3C, 0x3F, 0x78, 0x6D, 0x6C]
/-- magic.h:143 -/
def magic_xml_8u : Bytes := [0xEF, 0xBB, 0xBF, 0x3C, 0x3F, 0x58, 0x4D, 0x4C]
/-- magic.h:144 -/
def magic_xml_ul : Bytes := [0xFF, 0xFE, 0x3C, 0x00, 0x3F, 0x00, 0x78, 0x00, 0x6D, 0x00, 0x6C, 0x00]
/-- magic.h:145 -/
def magic_xml_uu : Bytes := [0xFF, 0xFE, 0x3C, 0x00, 0x3F, 0x00, 0x58, 0x00, 0x4D, 0x00, 0x4C, 0x00]
/-- magic.h:146 -/
def magic_html_hal : Bytes := [0x3C, 0x68, 0x74, 0x6D, 0x6C]
/-- magic.h:147 -/
def magic_html_dal : Bytes := [0x3C, 0x21, 0x64, 0x6F, 0x63]
/-- magic.h:148 -/
def magic_html_hul : Bytes := [0xFF, 0xFE, 0x3C, 0x00, 0x68, 0x00, 0x74, 0x00, 0x6D, 0x00, 0x6C, 0x00]
/-- magic.h:149 -/
def magic_html_dul : Bytes := [0xFF, 0xFE, 0x3C, 0x00, 0x21, 0x00, 0x64, 0x00, 0x6F, 0x00, 0x63, 0x00]
/-- magic.h:150 -/
def magic_html_hau : Bytes := [0x3C, 0x48, 0x54, 0x4D, 0x4C]
/-- magic.h:151 -/
def magic_html_dau : Bytes := [0x3C, 0x21, 0x44, 0x4F, 0x43]
/-- magic.h:152 -/
def magic_html_huu : Bytes := [0xFF, 0xFE, 0x3C, 0x00, 0x48, 0x00, 0x54, 0x00, 0x4D, 0x00, 0x4C, 0x00]
/-- magic.h:153 -/
def magic_html_duu : Bytes := [0xFF, 0xFE, 0x3C, 0x00, 0x21, 0x00, 0x44, 0x00, 0x4F, 0x00, 0x43, 0x00]
/-- magic.h:154 -/
def magic_html_h8l : Bytes := [0xEF, 0xBB, 0xBF, 0x3C, 0x68, 0x74, 0x6D, 0x6C]
/-- magic.h:155 -/
def magic_html_d8l : Bytes := [0xEF, 0xBB, 0xBF, 0x3C, 0x21, 0x64, 0x6F, 0x63]
/-- magic.h:156 -/
def magic_html_h8u : Bytes := [0xEF, 0xBB, 0xBF, 0x3C, 0x48, 0x54, 0x4D, 0x4C]
/-- magic.h:157 -/
def magic_html_d8u : Bytes := [0xEF, 0xBB, 0xBF, 0x3C, 0x21, 0x44, 0x4F, 0x43]
/-- magic.h:158 -/
def magic_slk1 : Bytes := [0x49, 0x44, 0x3B, 0x50]
/-- magic.h:159 -/
def magic_vbe : Bytes := [0x23, 0x40, 0x7E, 0x5E]

/-- magic.h:164-314, the entries pushed by one call of `initList()`. -/
def table : List MagicInfo := [
  ⟨b!"exe", b!"DOS Executable", b!"", 0, 2, magic_dosexe, (some .Exec_Detailer)⟩, -- magic.h:164
  ⟨b!"elf", b!"ELF Executable", b!"", 0, 4, magic_elf, none⟩, -- magic.h:165
  ⟨b!"dex", b!"Dalvik Executable", b!"", 0, 6, magic_dex, none⟩, -- magic.h:166
  ⟨b!"lib", b!"Microsoft Program Library Common Object File Format", b!"", 0, 8, magic_lib, none⟩, -- magic.h:167
  ⟨b!"obj", b!"Microsoft Common Object File Format relocatable object code", b!"", 0, 2, magic_obj, none⟩, -- magic.h:168
  ⟨b!"pdb", b!"Microsoft Program Database 2.0", b!"2", 0, 39, magic_pdb1, none⟩, -- magic.h:169
  ⟨b!"pdb", b!"Microsoft Program Database 7.0", b!"7", 0, 29, magic_pdb2, none⟩, -- magic.h:170
  ⟨b!"o", b!"Mach-O Executable", b!"32-bit, big-endian", 0, 4, magic_macho1, (some .Exec_MachO_Detailer)⟩, -- magic.h:171
  ⟨b!"o", b!"Mach-O Executable", b!"32-bit, little-endian", 0, 4, magic_macho2, (some .Exec_MachO_Detailer)⟩, -- magic.h:172
  ⟨b!"o", b!"Mach-O Executable", b!"64-bit, big-endian", 0, 4, magic_macho3, (some .Exec_MachO_Detailer)⟩, -- magic.h:173
  ⟨b!"o", b!"Mach-O Executable", b!"64-bit, little-endian", 0, 4, magic_macho4, (some .Exec_MachO_Detailer)⟩, -- magic.h:174
  ⟨b!"class", b!"Java Class File", b!"", 0, 4, magic_javaclass, none⟩, -- magic.h:175
  ⟨b!"zip", b!"Zip Archive", b!"", 0, 2, magic_zip, (some .zip_Detailer)⟩, -- magic.h:176
  ⟨b!"rar", b!"Rar Archive", b!"", 0, 6, magic_rar, none⟩, -- magic.h:177
  ⟨b!"7z", b!"7z Archive", b!"", 0, 6, magic_7z, none⟩, -- magic.h:178
  ⟨b!"tar.z", b!"Tar.Zip Container", b!"LZW Compression", 0, 2, magic_tarzlzw, none⟩, -- magic.h:179
  ⟨b!"tar.z", b!"Tar.Zip Container", b!"LZH Compression", 0, 2, magic_tarzlzh, none⟩, -- magic.h:180
  ⟨b!"bz2", b!"BZip2 Container", b!"", 0, 3, magic_bz2, none⟩, -- magic.h:181
  ⟨b!"tar", b!"TAR Container", b!"", 257, 5, magic_tar2, none⟩, -- magic.h:182
  ⟨b!"tar", b!"Tar Archive", b!"", 0, 5, magic_tar, none⟩, -- magic.h:183
  ⟨b!"gz", b!"GZIP Archive", b!"", 0, 2, magic_gz, none⟩, -- magic.h:184
  ⟨b!"cab", b!"Microsoft Cabinet file", b!"", 0, 4, magic_cab, none⟩, -- magic.h:185
  ⟨b!"lha", b!"LHArc (lha/lzh) Archive", b!"", 2, 3, magic_lha, none⟩, -- magic.h:186
  ⟨b!"vhd", b!"Microsoft Virtual HardDisk", b!"", 0, 8, magic_vhd, none⟩, -- magic.h:187
  ⟨b!"vhdx", b!"Microsoft Virtual HardDisk v2", b!"", 0, 8, magic_vhdx, none⟩, -- magic.h:188
  ⟨b!"xz", b!"XZ Compressed File", b!"", 0, 6, magic_xz, none⟩, -- magic.h:189
  ⟨b!"iso", b!"ISO 9660 Disk Image", b!"", 32769, 5, magic_iso1, none⟩, -- magic.h:190
  ⟨b!"iso", b!"ISO 9660 Disk Image", b!"", 34817, 5, magic_iso2, none⟩, -- magic.h:191
  ⟨b!"iso", b!"ISO 9660 Disk Image", b!"", 36864, 5, magic_iso3, none⟩, -- magic.h:192
  ⟨b!"iso", b!"Universal Disk Format (ISO 13490/Ecma-168) - Beginning Extended Area Descriptor", b!"", 32769, 5, magic_udf1, none⟩, -- magic.h:193
  ⟨b!"iso", b!"Universal Disk Format (ISO 13490/Ecma-168) - Boot Descriptor", b!"", 32769, 5, magic_udf2, none⟩, -- magic.h:194
  ⟨b!"iso", b!"Universal Disk Format (ISO 13490/Ecma-168) - CD001 - ECMA-119", b!"", 32769, 5, magic_udf3, none⟩, -- magic.h:195
  ⟨b!"iso", b!"Universal Disk Format (ISO 13490/Ecma-168) - Volume Descriptor", b!"", 32769, 5, magic_udf4, none⟩, -- magic.h:196
  ⟨b!"iso", b!"Universal Disk Format (ISO 13490/Ecma-168) - NSR02 - ECMA-168", b!"", 32769, 5, magic_udf5, none⟩, -- magic.h:197
  ⟨b!"iso", b!"Universal Disk Format (ISO 13490/Ecma-168) - NSR03 - ECMA-167", b!"", 32769, 5, magic_udf6, none⟩, -- magic.h:198
  ⟨b!"iso", b!"Universal Disk Format (ISO 13490/Ecma-168) - Terminating Extended Area Descriptor", b!"", 32769, 5, magic_udf7, none⟩, -- magic.h:199
  ⟨b!"vmdk", b!"VMWare Virtual Disk", b!"", 0, 3, magic_vmdk, none⟩, -- magic.h:200
  ⟨b!"pcap", b!"Network Packet Capture File", b!"", 0, 4, magic_pcap, none⟩, -- magic.h:201
  ⟨b!"pcap", b!"Network Packet Capture File", b!"Nanosecond-precision timestamps", 0, 4, magic_pcapn, none⟩, -- magic.h:202
  ⟨b!"rpm", b!"Red Hat Package Manager File", b!"", 0, 4, magic_rpm, none⟩, -- magic.h:203
  ⟨b!"_", b!"MS-DOS Installtion Compressed File", b!"SZDD", 0, 8, magic_dos_c1, none⟩, -- magic.h:204
  ⟨b!"_", b!"MS-DOS Installtion Compressed File", b!"KWAJ", 0, 8, magic_dos_c2, none⟩, -- magic.h:205
  ⟨b!"_", b!"MS-DOS Installtion Compressed File", b!"QBasic SZDD", 0, 8, magic_dos_c3, none⟩, -- magic.h:206
  ⟨b!"sdi", b!"Microsoft System Deployment Image", b!"", 0, 8, magic_sdi1, none⟩, -- magic.h:207
  ⟨b!"wim", b!"Windows Imaging File Format", b!"", 0, 7, magic_wim1, none⟩, -- magic.h:208
  ⟨b!"ace", b!"ACE Archive", b!"", 7, 7, magic_ace1, none⟩, -- magic.h:209
  ⟨b!"ace", b!"ACE Archive", b!"", 0, 7, magic_ace2, none⟩, -- magic.h:210
  ⟨b!"ico", b!"Icon File", b!"", 0, 4, magic_ico, none⟩, -- magic.h:211
  ⟨b!"gif", b!"GIF Image", b!"GIF87a", 0, 6, magic_gif87, none⟩, -- magic.h:212
  ⟨b!"gif", b!"GIF Image", b!"GIF89a", 0, 6, magic_gif89, none⟩, -- magic.h:213
  ⟨b!"tiff", b!"Tagged Image File", b!"little endian", 0, 4, magic_tiff_l, none⟩, -- magic.h:214
  ⟨b!"tiff", b!"Tagged Image File", b!"big endian", 0, 4, magic_tiff_b, none⟩, -- magic.h:215
  ⟨b!"jpg", b!"JPEG Image", b!"", 0, 2, magic_jpg, (some .media_jpeg_Detailer)⟩, -- magic.h:216
  ⟨b!"png", b!"Portable Network Graphics", b!"", 0, 8, magic_png, none⟩, -- magic.h:217
  ⟨b!"bmp", b!"Bitmap Image", b!"", 0, 2, magic_bmp, none⟩, -- magic.h:218
  ⟨b!"cur", b!"Cursor", b!"", 0, 4, magic_cur, none⟩, -- magic.h:219
  ⟨b!"bmp", b!"Bitmap Image", b!"OS/2 Array", 0, 2, magic_bmpOS2a, none⟩, -- magic.h:220
  ⟨b!"bmp", b!"Bitmap Image", b!"OS/2 Color Icon", 0, 2, magic_bmpOS2ci, none⟩, -- magic.h:221
  ⟨b!"bmp", b!"Bitmap Image", b!"OS/2 Color Pointer", 0, 2, magic_bmpOS2cp, none⟩, -- magic.h:222
  ⟨b!"bmp", b!" Bitmap Icon", b!"OS/2 Icon", 0, 2, magic_bmpOS2i, none⟩, -- magic.h:223
  ⟨b!"bmp", b!"Bitmap Image", b!"OS/2 Pointer", 0, 2, magic_bmpOS2p, none⟩, -- magic.h:224
  ⟨b!"psp", b!"Corel Paint Shop Pro Image file", b!"", 0, 25, magic_psp, none⟩, -- magic.h:225
  ⟨b!"jbf", b!"Corel Paint Shop Pro browse file", b!"", 0, 15, magic_jbf, none⟩, -- magic.h:226
  ⟨b!"emf", b!"Microsoft Enchanced Metafile", b!"", 41, 3, magic_emf, none⟩, -- magic.h:227
  ⟨b!"eps", b!"Encapsulated PostScript", b!"", 41, 4, magic_eps, none⟩, -- magic.h:228
  ⟨b!"oless", b!"OLE Structured Storage", b!"", 0, 4, magic_oless, (some .oless_Detailer)⟩, -- magic.h:229
  ⟨b!"ps", b!"PostScript document", b!"", 0, 4, magic_ps, none⟩, -- magic.h:230
  ⟨b!"pdf", b!"PDF document", b!"", 0, 4, magic_pdf, none⟩, -- magic.h:231
  ⟨b!"db", b!"SQLLite Database File", b!"", 0, 16, magic_db, none⟩, -- magic.h:232
  ⟨b!"dwg", b!"Autocad Drawing", b!"", 0, 4, magic_dwg, (some .document_dwg_DwgHelper)⟩, -- magic.h:233
  ⟨b!"lnk", b!"LNK File", b!"", 0, 20, magic_lnk, none⟩, -- magic.h:234
  ⟨b!"xls", b!"Microsoft Excel", b!"BIFF2", 0, 2, magic_biff2, none⟩, -- magic.h:235
  ⟨b!"xls", b!"Microsoft Excel", b!"BIFF3", 0, 2, magic_biff3, none⟩, -- magic.h:236
  ⟨b!"xls", b!"Microsoft Excel", b!"BIFF4", 0, 2, magic_biff4, none⟩, -- magic.h:237
  ⟨b!"ppt", b!"Microsoft Powerpoint", b!"PPT95", 0, 38, magic_ppt95, none⟩, -- magic.h:238
  ⟨b!"ppt", b!"Microsoft Powerpoint", b!"PPT3", 0, 4, magic_ppt3, none⟩, -- magic.h:239
  ⟨b!"ppt", b!"Microsoft Powerpoint", b!"PPT3 Swap", 0, 4, magic_ppt3s, none⟩, -- magic.h:240
  ⟨b!"mdb", b!"Microsoft Access Database", b!"MDB_System", 0, 19, magic_mdbsys, none⟩, -- magic.h:241
  ⟨b!"mdb", b!"Microsoft Access Database", b!"MDB_Standard", 0, 19, magic_mdbstd, none⟩, -- magic.h:242
  ⟨b!"mdb", b!"Microsoft Access Database", b!"MDB_Temp", 0, 19, magic_mdbtmp, none⟩, -- magic.h:243
  ⟨b!"accdb", b!"Microsoft Access Database", b!"ACCDB_System", 0, 19, magic_accdbsys, none⟩, -- magic.h:244
  ⟨b!"accdb", b!"Microsoft Access Database", b!"ACCDB_Standard", 0, 19, magic_accdbstd, none⟩, -- magic.h:245
  ⟨b!"accdb", b!"Microsoft Access Database", b!"ACCDB_Temp", 0, 19, magic_accdbtmp, none⟩, -- magic.h:246
  ⟨b!"one", b!"Microsoft OneNote", b!"", 0, 16, magic_one, none⟩, -- magic.h:247
  ⟨b!"onetoc2", b!"Microsoft OneNote Table of Contents", b!"", 0, 16, magic_onetoc, none⟩, -- magic.h:248
  ⟨b!"pst", b!"Microsoft Outlook Personal Storage Table", b!"", 0, 4, magic_pst, none⟩, -- magic.h:249
  ⟨b!"wab", b!"Microsoft Outlook Address File", b!"", 0, 16, magic_wab, none⟩, -- magic.h:250
  ⟨b!"chm", b!"Complied Help File", b!"", 0, 4, magic_chm, none⟩, -- magic.h:251
  ⟨b!"dmp", b!"Windows Dump File", b!"32-bit", 0, 8, magic_dmp32, none⟩, -- magic.h:252
  ⟨b!"dmp", b!"Windows Dump File", b!"64-bit", 0, 8, magic_dmp64, none⟩, -- magic.h:253
  ⟨b!"hdmp", b!"Windows Dump File", b!"with heap", 0, 6, magic_hdmp, none⟩, -- magic.h:254
  ⟨b!"rtf", b!"Rich Text Format", b!"", 0, 5, magic_rtf, none⟩, -- magic.h:255
  ⟨b!"rtf", b!"Rich Text ormat (missing F)", b!"", 0, 4, magic_rtf2, none⟩, -- magic.h:256
  ⟨b!"skp", b!"SketchUp Model", b!"", 0, 32, magic_skp, none⟩, -- magic.h:257
  ⟨b!"mdi", b!"Microsoft Office Document Imaging", b!"", 0, 4, magic_mdi, none⟩, -- magic.h:258
  ⟨b!"hlp", b!"Microsoft Help File", b!"", 0, 4, magic_hlp1, none⟩, -- magic.h:259
  ⟨b!"hlp", b!"Ubuntu Help File", b!"", 0, 5, magic_hlp2, none⟩, -- magic.h:260
  ⟨b!"doc", b!"Microsoft Word for Macintosh 1.0", b!"1", 0, 3, magic_mcw1, none⟩, -- magic.h:261
  ⟨b!"doc", b!"Microsoft Word for Macintosh 2.0", b!"2", 0, 3, magic_mcw2, none⟩, -- magic.h:262
  ⟨b!"doc", b!"Microsoft Word for Macintosh 3.0", b!"3", 0, 3, magic_mcw3, none⟩, -- magic.h:263
  ⟨b!"doc", b!"Microsoft Word for Macintosh 4.0", b!"4", 0, 8, magic_mcw4, none⟩, -- magic.h:264
  ⟨b!"doc", b!"Microsoft Word for Macintosh 5.0", b!"5", 0, 8, magic_mcw5, none⟩, -- magic.h:265
  ⟨b!"doc", b!"Microsoft PC Word", b!"3", 0, 2, magic_pcw3, none⟩, -- magic.h:266
  ⟨b!"doc", b!"Microsoft Word OLD", b!"", 0, 2, magic_doc_old1, none⟩, -- magic.h:267
  ⟨b!"doc", b!"Microsoft Word OLD", b!"", 0, 2, magic_doc_old2, none⟩, -- magic.h:268
  ⟨b!"doc", b!"Microsoft Word OLD (MP 2.0)", b!"", 0, 2, magic_doc_old3, none⟩, -- magic.h:269
  ⟨b!"doc", b!"Microsoft Word OLD (MP 3.0)", b!"", 0, 2, magic_doc_old4, none⟩, -- magic.h:270
  ⟨b!"doc", b!"Microsoft WinWord 2.0", b!"", 0, 2, magic_doc_old6, none⟩, -- magic.h:271
  ⟨b!"wri", b!"MS Write", b!"1", 0, 2, magic_wri1, none⟩, -- magic.h:272
  ⟨b!"wri", b!"MS Write", b!"2", 0, 2, magic_wri2, none⟩, -- magic.h:273
  ⟨b!"wri", b!"MS Write", b!"3", 0, 5, magic_wri3, none⟩, -- magic.h:274
  ⟨b!"wps", b!"Microsoft Works (1-4)", b!"", 0, 2, magic_wps, none⟩, -- magic.h:275
  ⟨b!"wp5", b!"WordPerfect File", b!"5", 0, 4, magic_wp5, (some .document_wp_Detailer)⟩, -- magic.h:276
  ⟨b!"wp", b!"WordPerfect Encrypted File", b!"encrypted", 0, 4, magic_wpenc, (some .document_wp_Detailer)⟩, -- magic.h:277
  ⟨b!"mp4", b!"Mp4 Container", b!"", 4, 4, magic_mp4, (some .media_mp4_Detailer)⟩, -- magic.h:278
  ⟨b!"asf", b!"ASF Container", b!"", 0, 16, magic_asf, (some .media_asf_Detailer)⟩, -- magic.h:279
  ⟨b!"riff", b!"Riff file", b!"", 0, 4, magic_riff, (some .media_riff_RIFFHelper)⟩, -- magic.h:280
  ⟨b!"mp3", b!"MPEG-1 Layer 3 file", b!"", 0, 2, magic_mp3, none⟩, -- magic.h:281
  ⟨b!"mp3", b!"MPEG-1 Layer 3 file", b!"ID3v2 Tag", 0, 3, magic_mp3id3v2, none⟩, -- magic.h:282
  ⟨b!"flv", b!"Flash Video", b!"", 0, 3, magic_flv, none⟩, -- magic.h:283
  ⟨b!"swf", b!"Shockwave Flash File", b!"", 0, 3, magic_swf, none⟩, -- magic.h:284
  ⟨b!"swf", b!"Shockwave Flash File", b!"compressed", 0, 3, magic_cwf, none⟩, -- magic.h:285
  ⟨b!"flac", b!"Free Lossless Audio Codec", b!"", 0, 4, magic_flac, none⟩, -- magic.h:286
  ⟨b!"midi", b!"MIDI Sound File", b!"", 0, 4, magic_midi, none⟩, -- magic.h:287
  ⟨b!"woff", b!"Web Open Font Format", b!"1.0", 0, 4, magic_woff1, none⟩, -- magic.h:288
  ⟨b!"woff", b!"Web Open Font Format", b!"2.0", 0, 4, magic_woff2, none⟩, -- magic.h:289
  ⟨b!"otf", b!"Open Type Font", b!"", 0, 4, magic_otf, none⟩, -- magic.h:290
  ⟨b!"pfm", b!"Postscript Font", b!"type1", 0, 4, magic_pfm, none⟩, -- magic.h:291
  ⟨b!"ttf", b!"True Type Font", b!"OSx", 0, 4, magic_ttf1, none⟩, -- magic.h:292
  ⟨b!"ttf", b!"True Type Font", b!"windows", 0, 4, magic_ttf2, none⟩, -- magic.h:293
  ⟨b!"sh", b!"*nix shebang script", b!"", 0, 2, magic_sh, none⟩, -- magic.h:294
  ⟨b!"xml", b!"XML", b!"ascii lowercase", 0, 5, magic_xml_al, none⟩, -- magic.h:295
  ⟨b!"xml", b!"XML", b!"ascii uppercase", 0, 5, magic_xml_au, none⟩, -- magic.h:296
  ⟨b!"xml", b!"XML", b!"utf8 lowercase", 0, 8, magic_xml_8l, none⟩, -- magic.h:297
  ⟨b!"xml", b!"XML", b!"utf8 uppercase", 0, 8, magic_xml_8u, none⟩, -- magic.h:298
  ⟨b!"xml", b!"XML", b!"unicode lowercase", 0, 12, magic_xml_ul, none⟩, -- magic.h:299
  ⟨b!"xml", b!"XML", b!"unicode uppercase", 0, 12, magic_xml_uu, none⟩, -- magic.h:300
  ⟨b!"html", b!"HTML Document", b!"ascii lowercase html", 0, 5, magic_html_hal, none⟩, -- magic.h:301
  ⟨b!"html", b!"HTML Document", b!"ascii lowercase doctype", 0, 5, magic_html_dal, none⟩, -- magic.h:302
  ⟨b!"html", b!"HTML Document", b!"unicode lowercase html", 0, 12, magic_html_hul, none⟩, -- magic.h:303
  ⟨b!"html", b!"HTML Document", b!"unicode lowercase doctype", 0, 12, magic_html_dul, none⟩, -- magic.h:304
  ⟨b!"html", b!"HTML Document", b!"ascii uppercase html", 0, 5, magic_html_hau, none⟩, -- magic.h:305
  ⟨b!"html", b!"HTML Document", b!"ascii uppercase doctype", 0, 5, magic_html_dau, none⟩, -- magic.h:306
  ⟨b!"html", b!"HTML Document", b!"unicode uppercase html", 0, 12, magic_html_huu, none⟩, -- magic.h:307
  ⟨b!"html", b!"HTML Document", b!"unicode uppercase doctype", 0, 12, magic_html_duu, none⟩, -- magic.h:308
  ⟨b!"html", b!"HTML Document", b!"utf8 lowercase html", 0, 8, magic_html_h8l, none⟩, -- magic.h:309
  ⟨b!"html", b!"HTML Document", b!"utf8 lowercase doctype", 0, 8, magic_html_d8l, none⟩, -- magic.h:310
  ⟨b!"html", b!"HTML Document", b!"utf8 uppercase html", 0, 8, magic_html_h8u, none⟩, -- magic.h:311
  ⟨b!"html", b!"HTML Document", b!"utf8 uppercase doctype", 0, 8, magic_html_d8u, none⟩, -- magic.h:312
  ⟨b!"slk", b!"Microsoft SYLK (Symbolic Link) file", b!"", 0, 4, magic_slk1, none⟩, -- magic.h:313
  ⟨b!"vbe", b!"Microsoft Encoded Script (JScript.Encoded)", b!"", 0, 4, magic_vbe, none⟩] -- magic.h:314

end Fileid.Magic
