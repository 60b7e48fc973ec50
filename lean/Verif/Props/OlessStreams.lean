import Verif.Props.OlessSample

/-!
# The streams of a compound file: a witness for C75, C76, C78 and C79
-/

namespace Fileid.Props

open Spec Spec.Ole Pole Oless Vba Common

namespace Sample

theorem binder_length : (imageOf binderDir).length = 2560 := by decide +kernel

/-- It is a compound file. -/
theorem binder_is_image : CfbImage (imageOf binderDir) hd fat minifat binderDir [3] := by
  have hl := binder_length
  refine ⟨?_, ?_, ?_, by decide +kernel, ?_, ?_, ?_⟩
  · refine ⟨?_, by omega, num_check (by decide +kernel), num_check (by decide +kernel), num_check (by decide +kernel),
      num_check (by decide +kernel), num_check (by decide +kernel), num_check (by decide +kernel),
      num_check (by decide +kernel), num_check (by decide +kernel), by decide +kernel, ?_⟩
    · exact (at_iff _ _ _).2 (by decide +kernel)
    · intro i b hb
      have h2 : hd.difat = (List.range 109).map fun i => leVal (((imageOf binderDir).drop (0x4c + 4 * i)).take 4) := by
        decide +kernel
      rw [h2] at hb
      have hi : i < 109 := by have := (List.getElem?_eq_some_iff.1 hb).1; simpa using this
      rw [List.getElem?_map, List.getElem?_range hi] at hb
      simp at hb
      subst hb
      exact num_of_le (by omega)
  · exact ⟨rfl, by decide, fun _ => rfl, by decide, by decide⟩
  · exact ⟨[0], fat.flatMap (leBytes 4), Or.inl ⟨by decide, by decide +kernel⟩, rfl,
      content_one (by rw [hl]; decide) (by decide +kernel), words_check (by decide +kernel) (by decide +kernel)⟩
  · exact ⟨[2], minifat.flatMap (leBytes 4), Or.inl (.last (e := 0xfffffffe) (by decide +kernel) (by decide +kernel)),
      content_one (by rw [hl]; decide) (by decide +kernel), words_check (by decide +kernel) (by decide +kernel)⟩
  · exact ⟨[1], .last (e := 0xfffffffe) (by decide +kernel) (by decide +kernel),
      content_one (by rw [hl]; decide) (by decide +kernel)⟩
  · exact ⟨3, num_check (by decide +kernel), Or.inl (.last (e := 0xfffffffe) (by decide +kernel) (by decide +kernel))⟩

/-- The content of both of its streams is the byte 65. -/
theorem binder_content : StreamContent (imageOf binderDir) hd fat minifat [3] 0 1 [65] := by
  refine ⟨rfl, ?_⟩
  rw [if_neg (by decide)]
  refine ⟨[0], 65 :: List.replicate 511 0, 65 :: List.replicate 63 0,
    Or.inl (.last (e := 0xfffffffe) (by decide +kernel) (by decide +kernel)),
    content_one (by rw [binder_length]; decide) (by decide +kernel), ?_, ⟨[], List.replicate 63 0, rfl, rfl⟩⟩
  have := MiniContent.cons (mss := 64) (mini := 65 :: List.replicate 511 0) (n := 0) (bs := 65 :: List.replicate 63 0)
    ⟨[], List.replicate 448 0, by decide +kernel, by decide⟩ (by decide) MiniContent.nil
  exact this

end Sample

/-- The hypotheses of `C76_stream_content`, `C78_dump` and `C79_list` hold of this file: the stream in the storage
is read, extracted and listed. -/
example : ∃ io, openStorage Abi.windows (some (Sample.imageOf Sample.binderDir)) = .ok (.opened io) ∧
    ReadStream Abi.windows io (text b!"/Sub/a") = .ok [65] ∧
    Dump Abi.windows (some (Sample.imageOf Sample.binderDir)) (text b!"/Sub/a") = .ok (some [65]) ∧
    ∀ l, List_ Abi.windows 2 (some (Sample.imageOf Sample.binderDir)) = .ok l → l.length = 2 := by
  have hm : Sample.minifat.length ≤ 0xfffffffc := by decide +kernel
  have hv : (⟨text b!"a", text b!"/Sub/a", false⟩ : Visit) ∈ Sample.binderObjects.visits (text b!"/") := by
    rw [Sample.binder_visits]; simp
  have num : ∀ j, Pole.entryName Sample.binderTree j = text b!"a" → j = 3 := by
    intro j hj
    have hlt : j < 4 := by
      by_cases h : j < 4
      · exact h
      · exfalso
        have : Sample.binderTree[j]? = none := List.getElem?_eq_none (by simp [Sample.binderTree]; omega)
        rw [entryName, this] at hj
        cases hj
    have hcase : j = 0 ∨ j = 1 ∨ j = 2 ∨ j = 3 := by omega
    rcases hcase with rfl | rfl | rfl | rfl
    · exact absurd hj (by decide)
    · exact absurd hj (by decide)
    · exact absurd hj (by decide)
    · rfl
  refine ⟨_, Sample.binder_opens, ?_, ?_, ?_⟩
  · obtain ⟨io, ho, h⟩ := C76_stream_content Abi.windows (Or.inr rfl) _ _ _ _ _ _ Sample.binder_is_image hm
    rw [Sample.binder_opens] at ho
    cases ho
    obtain ⟨j, hj, h⟩ := h Sample.binderObjects Sample.binder_describes _ hv rfl
    cases num j hj
    exact h 0 1 [65] (Sample.num_check (by decide +kernel)) (Sample.num_check (by decide +kernel)) Sample.binder_content
  · obtain ⟨io, ho, h⟩ := C78_dump Abi.windows (Or.inr rfl) _ _ _ _ _ _ Sample.binder_is_image hm
    rw [Sample.binder_opens] at ho
    cases ho
    obtain ⟨j, hj, h⟩ := h Sample.binderObjects Sample.binder_describes _ hv rfl
    cases num j hj
    exact h 0 1 [65] (Sample.num_check (by decide +kernel)) (Sample.num_check (by decide +kernel)) Sample.binder_content
  · obtain ⟨io, ho, h⟩ := C79_list Abi.windows (Or.inr rfl) _ _ _ _ _ _ Sample.binder_is_image
    rw [Sample.binder_opens] at ho
    cases ho
    intro l hl
    rw [(h Sample.binderObjects Sample.binder_describes 2 (by decide) l hl).1, Sample.binder_visits]
    decide

/-- The hypotheses of `C77_windows_partial` and `C75_paths_partial` hold of it. -/
example (env : Env) (name : Bytes) (format : OutputFormat) : ∃ rs out,
    Guess Abi.windows env table 2 (some (Sample.imageOf Sample.binderDir)) = .ok rs ∧
    report Abi.windows env format name rs = .ok out :=
  C77_windows_partial env table (fun _ => Iff.rfl) 2 _ (Sample.ioOf Sample.binderDir Sample.binderTree) Sample.binder_opens
    Sample.binderObjects Sample.binder_describes (by decide)
    (fun j => by
      by_cases h : j < 4
      · have hcase : j = 0 ∨ j = 1 ∨ j = 2 ∨ j = 3 := by omega
        rcases hcase with rfl | rfl | rfl | rfl <;> decide
      · have : Sample.binderTree[j]? = none := List.getElem?_eq_none (by simp [Sample.binderTree]; omega)
        rw [show (Sample.ioOf Sample.binderDir Sample.binderTree).dirtree = Sample.binderTree from rfl, entryName, this]
        simp)
    (fun v hv => ⟨Sample.plain_of_small (by rw [Sample.binder_visits] at hv; revert v; decide +kernel), by
      rw [Sample.binder_visits] at hv
      revert v
      decide +kernel⟩) name format

end Fileid.Props
