import Verif.Model.FileId
import Verif.Model.Exec
import Verif.Model.Media

/-!
# The detail extractors the signature table refers to
-/

namespace Fileid

open Common Magic

/-- magic.h:163-315, which function each `ExtraDataFunc` is. The extractors for ZIP, OLE, WordPerfect and
ASF files are passed as a parameter: this definition is used for statements that hold whatever they do. -/
def dispatch (abi : Abi) (other : Dispatch) : Dispatch := fun d file buffer =>
  match d with
  | .Exec_Detailer => Exec.Detailer abi file
  | .Exec_MachO_Detailer => Exec.MachO.Detailer file
  | .media_jpeg_Detailer => Media.jpegDetailer
  | .document_dwg_DwgHelper => Media.DwgHelper buffer
  | .media_mp4_Detailer => Media.mp4Detailer buffer
  | .media_riff_RIFFHelper => Media.RIFFHelper buffer
  | d => other d file buffer

end Fileid
