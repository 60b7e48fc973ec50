import Verif.Props.VbaProject

/-!
# Where C80, C81, C82 and C83 are false, and projects as witnesses
-/

namespace Fileid.Props

open Spec Spec.Ovba Pole Vba Common

/-- C80 is false of projects with a record about compatibility (newer versions of Office write one): the name is
looked for ten bytes too early, the record of the code page is taken for its length, and reading a directory of less
than 131119 bytes ends with an exception. -/
theorem C80_compat_false (abi : Abi) (p : ProjectInfo) (c : Nat) (hc : p.compat = some c) (rest : Bytes)
    (hl : p.dir.length < 131119) (code : WStr → Nat → Res Bytes) (info : VbaInfo) :
    parseDir abi (p.dir ++ rest) p.dir.length code info = .throw .rangeError := by
  have hh : p.head.length = 48 := by
    unfold ProjectInfo.head
    simp [hc, Ovba.optional, record_length, leBytes_length]
  have hlen : 48 ≤ p.dir.length := by
    unfold ProjectInfo.dir
    rw [List.length_append, hh]
    omega
  have hat : At (p.dir ++ rest) 40 (record 0x03 (leBytes 2 p.codePage)) := by
    have : At (p.dir ++ rest) 0 p.dir := ⟨[], rest, by simp, rfl⟩
    have this : At (p.dir ++ rest) 0 (p.head ++ _) := this
    have := (at_append this).1
    have this : At (p.dir ++ rest) 0 (_ ++ record 0x03 (leBytes 2 p.codePage)) := this
    have := (at_append this).2
    simp only [List.length_append, hc, Option.map_some, Ovba.optional, record_length, leBytes_length] at this
    exact this
  have hat : At (p.dir ++ rest) 40 (leBytes 2 0x03 ++ (leBytes 4 2 ++ leBytes 2 p.codePage)) := by
    exact hat
  have hn : Num (p.dir ++ rest) 40 4 131075 := by
    obtain ⟨pre, post, e, hp⟩ := hat
    refine ⟨[3, 0, 2, 0], ⟨pre, [0, 0] ++ leBytes 2 p.codePage ++ post, ?_, hp⟩, rfl, rfl⟩
    rw [e, show leBytes 2 0x03 = [3, 0] by decide, show leBytes 4 2 = [2, 0, 0, 0] by decide]
    simp
  unfold parseDir projectRecords readStr
  rw [readUInt_num hn (by omega) (by omega), Res.bind_ok]
  unfold Common.ReadString
  rw [if_pos (by unfold u32; omega)]
  rfl

/-- C83 is false when the stream of a module cannot be opened: an empty buffer is decompressed, and the program
reads outside of it. -/
theorem C83_missing_stream_false (abi : Abi) (io : StorageIO) (name : WStr) (offset : Nat)
    (h : io.streamIO abi name = .ok none) : GetCode abi io name offset = .ub .oobRead := by
  unfold GetCode FetchAndDecompress FetchStream
  rw [h, Res.bind_ok]
  dsimp only [streamRead]
  rw [Res.bind_ok]
  dsimp only
  rw [List.take_zero]
  rfl

namespace Sample

/-- A project with two references. -/
def referring : ProjectInfo :=
  { name := b!"P", major := 0x5b3e1d47, minor := 7
    references := [{ name := b!"stdole", nameUnicode := b!"s\x00t\x00", kind := 0x0d, data := leBytes 4 3 ++ b!"lib id" ++ List.replicate 6 0 },
      { name := b!"Office", nameUnicode := [], kind := 0x0d, data := leBytes 4 3 ++ b!"lib id" ++ List.replicate 6 0 }] }

/-- A project with two references, as Office writes them, and two modules. -/
def usual : ProjectInfo :=
  { name := b!"P", major := 0x5b3e1d47, minor := 7
    references := [
      { name := b!"stdole", nameUnicode := (b!"stdole").flatMap fun c => [c, 0], kind := 0x0d
        data := leBytes 4 94 ++ b!"*\\G{00020430-0000-0000-C000-000000000046}#2.0#0#C:\\Windows\\System32\\stdole2.tlb#OLE Automation" ++ List.replicate 6 0 },
      { name := b!"Office", nameUnicode := (b!"Office").flatMap fun c => [c, 0], kind := 0x0d
        data := leBytes 4 14 ++ b!"*\\G{1}#2.0#0#C" ++ List.replicate 6 0 }]
    modules := [{ name := b!"M", stream := b!"M", streamUnits := [77, 111], offset := 3, isPrivate := true },
      { name := b!"Mo", stream := b!"Mo", streamUnits := [77, 111], offset := 3 }] }

/-- A project with a name of odd length for the second library. -/
def longer : ProjectInfo :=
  { name := b!"P", major := 0x5b3e1d47, minor := 7
    modules := [{ name := b!"Mo", stream := b!"Mo", streamUnits := [77, 111], offset := 3 }]
    references := [
      { name := b!"stdole", nameUnicode := (b!"stdole").flatMap fun c => [c, 0], kind := 0x0d
        data := leBytes 4 94 ++ b!"*\\G{00020430-0000-0000-C000-000000000046}#2.0#0#C:\\Windows\\System32\\stdole2.tlb#OLE Automation" ++ List.replicate 6 0 },
      { name := b!"Office", nameUnicode := (b!"Office").flatMap fun c => [c, 0], kind := 0x0d
        data := leBytes 4 17 ++ b!"*\\G{1234}#2.0#0#C" ++ List.replicate 6 0 }] }

/-- A check of `Quiet` by computation. -/
def quiet : Bytes → Bool
  | [] => true
  | [_] => false
  | a :: b :: rest => !(moduleIds.contains (a.toNat + 256 * b.toNat)) && quiet rest

theorem quiet_iff (q : Bytes) : quiet q = true → Quiet q := by
  induction q using Quiet.induct with
  | case1 => intro _; trivial
  | case2 x => intro h; cases h
  | case3 x y rest ih =>
    intro h
    rw [quiet, Bool.and_eq_true] at h
    exact ⟨by simpa using h.1, ih h.2⟩

/-- A project with one module. -/
def small : ProjectInfo :=
  { name := b!"P", major := 0x5b3e1d47, minor := 7
    modules := [{ name := b!"M", stream := b!"M", streamUnits := [77, 111], offset := 3, isPrivate := true }] }

/-- What finds its source text. -/
def smallCode (name : WStr) (_ : Nat) : Res Bytes := if name = [77, 111] then .ok b!"Sub" else .throw .runtimeError

/-- A check of a result by computation. -/
def good {α : Type} (p : α → Bool) : Res α → Bool
  | .ok a => p a
  | _ => false

theorem good_ok {α : Type} {p : α → Bool} {r : Res α} (h : good p r = true) : ∃ a, r = .ok a ∧ p a = true := by
  cases r with
  | ok a => exact ⟨a, rfl, h⟩
  | throw e => cases h
  | ub u => cases h
  | fuel => cases h

end Sample

/-- The directory of the project with two references can be read (the hypotheses of `C82_references_false` and
`C81_version_false` hold of it): the second reference is lost, and neither part of the version is right. -/
theorem C82_second_reference_false : ∃ v,
    parseDir Abi.windows (Sample.referring.dir ++ []) Sample.referring.dir.length Sample.smallCode {} = .ok v ∧
    v.References = [b!"stdole"] ∧ Sample.referring.references.map (·.name) = [b!"stdole", b!"Office"] ∧
    v.VBAVersionMajor ≠ Sample.referring.major ∧ v.VBAVersionMinor ≠ Sample.referring.minor := by
  obtain ⟨v, hv, _⟩ := Sample.good_ok (p := fun _ : VbaInfo => true)
    (r := parseDir Abi.windows (Sample.referring.dir ++ []) Sample.referring.dir.length Sample.smallCode {}) (by decide +kernel)
  obtain ⟨h1, h2⟩ := C81_version_false Abi.windows Sample.referring rfl [] (by decide +kernel) Sample.smallCode {} v hv
  refine ⟨v, hv, C82_references_false Abi.windows Sample.referring rfl [] (by decide +kernel) Sample.smallCode {} v hv _ _ rfl
    (by decide +kernel), rfl, ?_, ?_⟩
  · rw [h2]; decide
  · rw [h1]; decide

/-- C83 is false on Linux: the name of the module's stream is read four bytes at a time, and its source text is looked
for under another name than the one it has. -/
theorem C83_linux_false :
    parseDir Abi.linux Sample.small.dir Sample.small.dir.length Sample.smallCode {} = .throw .runtimeError ∧
    ∀ m ∈ Sample.small.modules, Sample.smallCode m.streamUnits m.offset = .ok b!"Sub" := by
  refine ⟨by decide +kernel, ?_⟩
  intro m hm
  have : Sample.small.modules = [_] := rfl
  rw [this, List.mem_singleton] at hm
  subst hm
  rfl

/-- On Windows it is found (the hypotheses of `C80_project_name_partial`, `C82_no_references_partial` and
`C83_modules_partial` hold of the project). -/
example : ∃ v, parseDir Abi.windows (Sample.small.dir ++ []) Sample.small.dir.length Sample.smallCode {} = .ok v ∧
    v.ProjectName = b!"P" ∧ v.References = [] ∧ v.Modules.map (·.Code) = [b!"Sub"] := by
  obtain ⟨v, hv, h⟩ := Sample.good_ok (p := fun v : VbaInfo => decide (v.Modules.map (·.Code) = [b!"Sub"]))
    (r := parseDir Abi.windows (Sample.small.dir ++ []) Sample.small.dir.length Sample.smallCode {}) (by decide +kernel)
  exact ⟨v, hv, C80_project_name_partial Abi.windows Sample.small rfl [] (by decide +kernel) Sample.smallCode {} v hv,
    C82_no_references_partial Abi.windows Sample.small rfl [] (by decide +kernel) Sample.smallCode {} v hv rfl,
    of_decide_eq_true h⟩

/-- The modules of a project with the usual references are found (the hypotheses of `C83_modules_partial` hold of it). -/
example : ∃ v, parseDir Abi.windows (Sample.usual.dir ++ []) Sample.usual.dir.length Sample.smallCode {} = .ok v ∧
    v.Modules.length = 2 := by
  obtain ⟨v, h1, _, _, h4, _⟩ := C83_modules_partial Sample.usual rfl
    (fun x xs h => by cases h; exact ⟨by decide +kernel, Sample.quiet_iff _ (by decide +kernel)⟩) [] (by decide +kernel)
    (by
      intro m hm
      have : Sample.usual.modules = [_, _] := rfl
      rw [this, List.mem_cons, List.mem_singleton] at hm
      rcases hm with rfl | rfl <;> exact ⟨by decide, by decide, by decide⟩) Sample.smallCode [b!"Sub", b!"Sub"] rfl
    (by
      intro j m c hm hc
      match j with
      | 0 => cases hm; cases hc; rfl
      | 1 => cases hm; cases hc; rfl
      | j + 2 => cases hc) {}
  exact ⟨v, h1, h4⟩

/-- With a name of odd length they are lost (the hypotheses of `C83_references_wrong` hold). -/
example : ∃ v, parseDir Abi.windows (Sample.longer.dir ++ [0]) Sample.longer.dir.length Sample.smallCode {} = .ok v ∧
    v.References = [b!"stdole"] ∧ v.Modules = [] :=
  C83_references_wrong Abi.windows Sample.longer rfl _ _ rfl (by decide +kernel) 0 [] (Sample.quiet_iff _ (by decide +kernel))
    (by decide +kernel) Sample.smallCode {}

/-- A project with a record about compatibility (for `C80_compat_false`). -/
example : parseDir Abi.windows ({ Sample.small with compat := some 0 }.dir ++ [])
    ({ Sample.small with compat := some 0 } : ProjectInfo).dir.length Sample.smallCode {} = .throw .rangeError :=
  C80_compat_false Abi.windows { Sample.small with compat := some 0 } 0 rfl [] (by decide +kernel) Sample.smallCode {}

/-- For `C84_directory_ends`: a directory that ends in the middle. -/
example : parseDir Abi.linux (Sample.small.dir.take 100) 100 Sample.smallCode {} ≠ .fuel :=
  C84_directory_ends Abi.linux (Or.inr rfl) _ _ (by decide +kernel) Sample.smallCode
    (fun n o => by unfold Sample.smallCode; split <;> simp) {}

end Fileid.Props
