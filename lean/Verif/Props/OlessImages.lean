import Verif.Props.OlessSample

/-!
# Compound files that show what goes wrong (for C46, C75 and C77)
-/

namespace Fileid.Props

open Spec Spec.Ole Pole Oless Vba Common

namespace Sample

def wpName : List Nat := text b!"PerfectOffice_MAIN"

theorem wp_opens : openStorage Abi.windows (some (imageOf (soleDir wpName 2 0xffffffff 1))) =
    .ok (.opened (ioOf (soleDir wpName 2 0xffffffff 1) (soleTree wpName false 0xffffffff 1))) := by rw [openStorage_quick]; decide +kernel

def bookName : List Nat := text b!"Workbook"

theorem book_opens : openStorage Abi.windows (some (imageOf (soleDir bookName 2 0xffffffff 0))) =
    .ok (.opened (ioOf (soleDir bookName 2 0xffffffff 0) (soleTree bookName false 0xffffffff 0))) := by rw [openStorage_quick]; decide +kernel

def macrosName : List Nat := text b!"Macros"

theorem macros_opens : openStorage Abi.windows (some (imageOf (soleDir macrosName 1 0xffffffff 0))) =
    .ok (.opened (ioOf (soleDir macrosName 1 0xffffffff 0) (soleTree macrosName true 0xffffffff 0))) := by rw [openStorage_quick]; decide +kernel

/-- What a build for Linux reads for the names "Root Entry" and "Binder". -/
def rootNameLinux : List Nat := [7274578, 7602287, 4522016, 7602286, 7929970, 0, 0, 0, 0, 0]
def binderNameLinux : List Nat := [6881346, 6553710, 7471205, 0, 0, 0]

theorem linux_opens : openStorage Abi.linux (some (imageOf (oneDir (text b!"Binder")))) =
    .ok (.opened (ioOf (oneDir (text b!"Binder")) (oneTree rootNameLinux binderNameLinux))) := by rw [openStorage_quick]; decide +kernel

end Sample

end Fileid.Props
