import Verif.Props.Output
import Verif.Model.Exec
import Verif.Model.Zip
import Verif.Model.Oless

/-!
# The columns of the records that have export functions of their own: C27
-/

namespace Fileid.Props

open Common Exec Exec.MachO Spec

/-- C27: the line of a Mach-O file splits into extension and version name. -/
theorem C27_macho_fields (sep : UInt8) (hsep : sep = 9 ∨ sep = 44) (i : MachOInfo)
    (h1 : sep ∉ i.base.Extension) (h2 : sep ∉ i.base.VersionName) :
    splitAll sep (if sep = 9 then i.item.text else i.item.csv) = [i.base.Extension, i.base.VersionName] := by
  have e1 : (if sep = 9 then i.item.text else i.item.csv) = i.base.Extension ++ sep :: i.base.VersionName := by
    rcases hsep with rfl | rfl <;> simp [MachOInfo.item, MachOInfo.toText, MachOInfo.toCsv]
  rw [e1, splitAll_sep _ _ _ h1, splitAll_none _ _ h2]

example : splitAll 44 (MachOInfo.item { base := { Extension := b!"macho", VersionName := b!"Mach-O" } }).csv = [b!"macho", b!"Mach-O"] := by decide

/-- C27: the line of a file that is not recognised has three columns, whatever the file holds. -/
theorem C27_unknown_fields (sep : UInt8) (hsep : sep = 9 ∨ sep = 44) (sample : Bytes) :
    splitAll sep (if sep = 9 then (unknownItem sample).text else (unknownItem sample).csv) = [b!"unknown", b!"Unknown File", b!"0"] := by
  rcases hsep with rfl | rfl
  · show splitAll 9 (unknownText _) = _
    decide
  · show splitAll 44 (unknownCsv _) = _
    decide

/-- C27: the line of a zip archive has five columns, whatever it holds. -/
theorem C27_zip_fields (sep : UInt8) (hsep : sep = 9 ∨ sep = 44) (children : List Zip.ZipFileInfo) :
    splitAll sep (if sep = 9 then (Zip.zipItem children).text else (Zip.zipItem children).csv) = [b!"zip", b!"Zip File", [], b!"0", []] := by
  rcases hsep with rfl | rfl
  · show splitAll 9 (Zip.zipText _) = _
    decide
  · show splitAll 44 (Zip.zipCsv _) = _
    decide

/-- What a compound file is reported with. -/
def recordOf : Oless.Result → ExtInfo
  | .ole e _ => e
  | .excel i _ => i.base
  | .wp e => e
  | .vba v => v.base

/-- The columns of a compound file: three, and five if it is reported as a VBA project. -/
def columnsOf : Oless.Result → List Bytes
  | .ole e _ => [e.Extension, e.VersionName, dec e.Version]
  | .excel i _ => [i.base.Extension, i.base.VersionName, dec i.base.Version]
  | .wp e => [e.Extension, e.VersionName, dec e.Version]
  | .vba v => [v.base.Extension, v.base.Name, v.base.SubType, dec v.base.Version, v.base.VersionName]

theorem ole_fields (sep : UInt8) (hsep : sep = 9 ∨ sep = 44) (e : ExtInfo) (h1 : sep ∉ e.Extension) (h4 : sep ∉ e.VersionName) :
    splitAll sep (if sep = 9 then Oless.oleText e else Oless.oleCsv e) = [e.Extension, e.VersionName, dec e.Version] := by
  have hd : sep ∉ dec e.Version := dec_not_mem _ _ (by rcases hsep with rfl | rfl <;> decide)
  have e1 : (if sep = 9 then Oless.oleText e else Oless.oleCsv e) = e.Extension ++ sep :: (e.VersionName ++ sep :: dec e.Version) := by
    rcases hsep with rfl | rfl <;> simp [Oless.oleText, Oless.oleCsv]
  rw [e1, splitAll_sep _ _ _ h1, splitAll_sep _ _ _ h4, splitAll_none _ _ hd]

/-- C27: the line of a compound file splits into its columns. -/
theorem C27_compound_fields (sep : UInt8) (hsep : sep = 9 ∨ sep = 44) (r : Oless.Result)
    (h1 : sep ∉ (recordOf r).Extension) (h2 : sep ∉ (recordOf r).Name) (h3 : sep ∉ (recordOf r).SubType) (h4 : sep ∉ (recordOf r).VersionName) :
    splitAll sep (if sep = 9 then r.toText else r.toCsv) = columnsOf r := by
  cases r with
  | ole e x => exact ole_fields sep hsep e h1 h4
  | excel i x => exact ole_fields sep hsep i.base h1 h4
  | wp e => exact ole_fields sep hsep e h1 h4
  | vba v => exact C27_fields sep hsep v.base h1 h2 h3 h4

example : splitAll 9 (Oless.Result.wp { Extension := b!"wp", VersionName := b!"Word Perfect File" }).toText =
    [b!"wp", b!"Word Perfect File", b!"0"] := by decide

end Fileid.Props
