import Verif.Props.OlessImages

/-!
# Compound files whose identification goes wrong (C46, C75, C77)
-/

namespace Fileid.Props

open Spec Spec.Ole Pole Oless Vba Common

/-- C75 is false: for a WordPerfect document no paths are reported, and (C77) neither a JSON nor an XML report is
made without undefined behaviour. -/
theorem C75_wordperfect_false : ∃ (file : Bytes) (io : StorageIO) (objs : Objects),
    openStorage Abi.windows (some file) = .ok (.opened io) ∧ Describes Abi.windows io.dirtree objs ∧
    (objs.visits (text b!"/")).length = 1 ∧
    ∀ env depth, ∃ e, Guess Abi.windows env table (depth + 1) (some file) = .ok [.wp e] ∧
      extraOf (.wp e) = none ∧
      ∀ name, report Abi.windows env .json name [.wp e] = .ub .dangling ∧
        report Abi.windows env .xml name [.wp e] = .ub .dangling := by
  have hdes := Sample.sole_describes Abi.windows Sample.wpName false 0xffffffff 1 (by decide) (by decide) (by decide)
  refine ⟨_, _, _, Sample.wp_opens, hdes, rfl, fun env depth => ?_⟩
  have hr : ReadStream Abi.windows (Sample.ioOf (Sample.soleDir Sample.wpName 2 0xffffffff 1)
      (Sample.soleTree Sample.wpName false 0xffffffff 1)) (text b!"/PerfectOffice_MAIN") = .ok [65] := by decide +kernel
  refine ⟨{ Extension := b!"wp", VersionName := b!"Word Perfect File" }, ?_, rfl, fun name => C77_wordperfect_false _ _ _ _ _⟩
  have he : ∀ i ∈ table, i.isMatch (text b!"/PerfectOffice_MAIN") = true → i.extraFunc = .wp := by decide +kernel
  have hm : ∃ i ∈ table, i.isMatch (text b!"/PerfectOffice_MAIN") = true := by decide +kernel
  have loop : ∀ list : List OlessInfo, (∀ i ∈ list, i.isMatch (text b!"/PerfectOffice_MAIN") = true → i.extraFunc = .wp) →
      ∀ ei, tableLoop Abi.windows env (Sample.ioOf (Sample.soleDir Sample.wpName 2 0xffffffff 1)
        (Sample.soleTree Sample.wpName false 0xffffffff 1)) (text b!"/PerfectOffice_MAIN") list ei =
        .ok (if ∃ i ∈ list, i.isMatch (text b!"/PerfectOffice_MAIN") = true then
          some (.wp { Extension := b!"wp", VersionName := b!"Word Perfect File" }) else ei) := by
    intro list
    induction list with
    | nil => intro _ ei; simp [tableLoop]
    | cons i rest ih =>
      intro h1 ei
      rw [tableLoop]
      split
      · rename_i hmat
        have := h1 i (by simp) hmat
        unfold entryResult
        dsimp only
        rw [this, if_neg (by decide), hr, Res.bind_ok]
        simp only [detail, Res.bind_ok]
        have hex : ∃ j ∈ i :: rest, j.isMatch (text b!"/PerfectOffice_MAIN") = true := ⟨i, by simp, hmat⟩
        rw [ih (fun j hj => h1 j (by simp [hj])), if_pos hex]
        split <;> rfl
      · rename_i hmat
        rw [ih (fun j hj => h1 j (by simp [hj]))]
        simp [hmat]
  unfold Guess
  rw [Sample.wp_opens, Res.bind_ok]
  dsimp only
  rw [recurse_spec (Or.inr rfl) hdes _ _ (depth + 1) (by simp [Objects.depth])]
  simp only [Bool.false_eq_true, if_false, Objects.visits, foldRes, visitStep]
  have hdir : (Sample.ioOf (Sample.soleDir Sample.wpName 2 0xffffffff 1)
      (Sample.soleTree Sample.wpName false 0xffffffff 1)).isDirectory Abi.windows (text b!"/PerfectOffice_MAIN") = .ok false := by
    decide +kernel
  have hg : ∀ st, guessStreamInfo Abi.windows env table (Sample.ioOf (Sample.soleDir Sample.wpName 2 0xffffffff 1)
      (Sample.soleTree Sample.wpName false 0xffffffff 1)) st Sample.wpName (text b!"/PerfectOffice_MAIN") =
      .ok (pushResult st (some (.wp { Extension := b!"wp", VersionName := b!"Word Perfect File" }))) := by
    intro st
    unfold guessStreamInfo
    rw [hdir, Res.bind_ok, if_neg (by simp), if_neg (by decide), loop table he, if_pos hm]
    rfl
  rw [show ([47] : List Nat) ++ Sample.wpName = text b!"/PerfectOffice_MAIN" from rfl, hg]
  rfl

/-- C46 is false: identification of this file with an empty stream "Workbook" uses a version number that was never
read. -/
theorem C46_empty_workbook_file_false (env : Env) (hf : 0 < env.fuel) (depth : Nat) :
    Guess Abi.windows env table (depth + 1) (some (Sample.imageOf (Sample.soleDir Sample.bookName 2 0xffffffff 0))) =
      .ub .uninit := by
  have hdes := Sample.sole_describes Abi.windows Sample.bookName false 0xffffffff 0 (by decide) (by decide) (by decide)
  unfold Guess
  rw [Sample.book_opens, Res.bind_ok]
  dsimp only
  rw [recurse_spec (Or.inr rfl) hdes _ _ (depth + 1) (by simp [Objects.depth])]
  simp only [Bool.false_eq_true, if_false, Objects.visits, foldRes, visitStep]
  rw [show ([47] : List Nat) ++ Sample.bookName = text b!"/Workbook" from rfl,
    show Sample.bookName = text b!"Workbook" from rfl,
    C46_empty_workbook_false Abi.windows env hf _ _ (by decide +kernel) (by decide +kernel)]
  rfl

/-- C46 is false: so does identification of this file with an empty storage "Macros". -/
theorem C46_no_project_file_false (env : Env) (depth : Nat) :
    Guess Abi.windows env table (depth + 2) (some (Sample.imageOf (Sample.soleDir Sample.macrosName 1 0xffffffff 0))) =
      .ub .uninit := by
  have hdes := Sample.sole_describes Abi.windows Sample.macrosName true 0xffffffff 0 (by decide) (by decide) (by decide)
  unfold Guess
  rw [Sample.macros_opens, Res.bind_ok]
  dsimp only
  rw [recurse_spec (Or.inr rfl) hdes _ _ (depth + 2) (by simp [Objects.depth])]
  simp only [if_true, Objects.visits, List.nil_append, foldRes, visitStep]
  have := C46_no_project_false Abi.windows env table (Sample.ioOf (Sample.soleDir Sample.macrosName 1 0xffffffff 0)
    (Sample.soleTree Sample.macrosName true 0xffffffff 0)) (St.pushPath {} [47]) ⟨Sample.macrosName, text b!"/Macros", true⟩
    (by decide +kernel) rfl (by decide +kernel) (by decide +kernel)
  rw [show ([47] : List Nat) ++ Sample.macrosName = text b!"/Macros" from rfl, this]
  rfl

/-- The hypotheses of `C46_linux_false` and `C77_linux_false` hold of the file with the stream "Binder". -/
example (env : Env) (name : Bytes) : ∃ rs, Guess Abi.linux env table 2 (some (Sample.imageOf (Sample.oneDir (text b!"Binder")))) = .ok rs ∧
    report Abi.linux env .json name rs = .throw .rangeError ∧ report Abi.linux env .xml name rs = .throw .rangeError :=
  C77_linux_false env table (fun _ => Iff.rfl) 2 _ _ Sample.linux_opens (.stream Sample.binderNameLinux .nil)
    (Sample.one_describes Abi.linux Sample.rootNameLinux Sample.binderNameLinux (by decide) (by decide)) (by decide) (by simp)
    (fun v hv => by
      rw [Objects.visits, Objects.visits, List.mem_singleton] at hv
      subst hv
      refine ⟨?_, 6881346, rfl, by decide⟩
      unfold Visit.Plain SameLetters
      decide +kernel) name

end Fileid.Props
