import Verif.Lemmas.PoleSession

/-!
# Lemmas about a storage that was just created
-/

namespace Fileid.Pole

open Spec

/-- The table of a new storage: four sectors are in use. -/
def freshFat : List Nat := [Eof, Eof, Eof, Eof] ++ List.replicate 124 Avail

/-- The storage `open(true, true)` makes. -/
def freshWriter : Writer where
  io := { file := [], header := { bb_blocks := 0 :: List.replicate 108 Avail, dirent_start := 1, sbat_start := 2, num_bat := 1,
                                  num_sbat := 1 }
          bbat := { blockSize := 512, data := freshFat }, sbat := { blockSize := 64 }, dirtree := newTree, sb_blocks := [3] }
  writeable := true
  headerDirty := true
  bbatDirty := [0]
  dirDirty := [0]

theorem fresh_eq : Writer.fresh = .ok freshWriter := by decide +kernel

/-- Who uses the sectors of a new storage. -/
def freshLayout : Layout where
  big | .dir => [1] | .miniFat => [2] | .mini => [3] | .stream _ => []
  small _ := []

/-- Nothing was written. -/
def nothing : Contents := ⟨fun _ => 0, fun _ _ => none⟩

theorem fresh_owned : Owned freshFat freshLayout.big := by
  have hl : ∀ x, x < 4 → Linked freshFat [x] := by
    intro x hx
    refine .last (e := Eof) ?_ (by decide) (by decide)
    have : x = 0 ∨ x = 1 ∨ x = 2 ∨ x = 3 := by omega
    rcases this with rfl | rfl | rfl | rfl <;> rfl
  constructor
  · intro i hi
    cases i with
    | dir => exact hl 1 (by omega)
    | miniFat => exact hl 2 (by omega)
    | mini => exact hl 3 (by omega)
    | stream i => exact absurd rfl hi
  · intro i j hij x hx hy
    cases i <;> cases j <;> simp [freshLayout] at hx hy hij <;> omega

/-- A new storage with streams without bytes. -/
theorem fresh_holds (t : DirTree) (ht : ∀ (i : Nat) (e : DirEntry), t[i]? = some e → IsStream e → e.size = 0 ∧ e.start = Eof) :
    Holds { freshWriter with io := { freshWriter.io with dirtree := t } } freshLayout nothing where
  smallPos := show 0 < 64 by decide
  bigPos := show 0 < 512 by decide
  divides := show 64 ∣ 512 from ⟨8, by decide⟩
  bigLt := show 512 < 2 ^ 64 by decide
  big := fresh_owned
  small := ⟨fun _ h => absurd rfl h, fun _ _ _ x hx => by simp [freshLayout] at hx⟩
  mini := rfl
  miniFat := Or.inr rfl
  dir := Or.inr rfl
  inMini := fun i x hx => by simp [freshLayout] at hx
  entry := fun i e he hs => by
    obtain ⟨h1, h2⟩ := ht i e he hs
    refine ⟨h1, ?_⟩
    rw [if_pos (by rw [h1]; exact (by decide : 0 < 4096)), h2]
    exact ⟨Or.inl ⟨rfl, by decide⟩, rfl⟩
  other := fun i _ => ⟨rfl, rfl⟩
  known := fun i p v h => by cases h

end Fileid.Pole
