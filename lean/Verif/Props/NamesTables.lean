import Verif.Spec.Functions
import Verif.Props.Names
import Verif.Lemmas.Formula

/-!
# C99: the names shown for kinds of records, functions and commands
-/

namespace Fileid.Props

open Common Spec Excel ExcelTables

theorem recordTypes_names : recordTypes = recordNames := by decide +kernel

theorem commands_names : commands = commandNames := by decide +kernel

/-- C99: each kind of record is shown by its name in the table of kinds, every other number as unknown. -/
theorem C99_records (type : Nat) : GetRecordTypeStr type = nameOf recordNames b!"Unknown/Undocumented RecordType" type := by
  show (Tables.lookup recordTypes type).getD _ = _
  rw [lookup_nameOf, recordTypes_names]

/-- C99: each function is shown by its name in the table of functions, every other number as unknown. -/
theorem C99_functions (number : Nat) : GetFunctionName_FTab number = nameOf functionNames b!"Unknown_fTab_Function" number := by
  show (Tables.lookup functions number).getD _ = _
  rw [lookup_nameOf, functions_names]

/-- C99: the same for commands. -/
theorem C99_commands (number : Nat) : GetFunctionName_CeTab number = nameOf commandNames b!"Unknown_CeTab_Function" number := by
  show (Tables.lookup commands number).getD _ = _
  rw [lookup_nameOf, commands_names]

example : nameOf functionNames [] 4 = b!"SUM" ∧ nameOf commandNames [] 96 = b!"FORMULA" ∧ nameOf recordNames [] 0x809 = b!"BOF" := by
  decide +kernel

end Fileid.Props
