import Verif.Model.Common

/-!
# `MagicInfo`: one row of the signature table
-/

namespace Fileid.Magic

/-- The detail extractors named in magic.h:164-314 (values of `ExtraDataFunc`, common.hpp:633). -/
inductive Detailer
  | Exec_Detailer
  | Exec_MachO_Detailer
  | zip_Detailer
  | media_jpeg_Detailer
  | oless_Detailer
  | document_dwg_DwgHelper
  | document_wp_Detailer
  | media_mp4_Detailer
  | media_asf_Detailer
  | media_riff_RIFFHelper
  deriving DecidableEq, Repr

/-- common.hpp:636-656 `MagicInfo`; `extraFunc` is `none` for `nullptr`. -/
structure MagicInfo where
  Extension : Bytes
  Name : Bytes
  Version : Bytes
  offset : Nat
  size : Nat
  magic : Bytes
  extraFunc : Option Detailer
  deriving DecidableEq, Repr

end Fileid.Magic
