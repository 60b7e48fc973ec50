import Verif.Props.RecordsMore
import Verif.Props.ReportExcel

/-!
# C96: links to other workbooks, and records of which only the kind and the length are shown
-/

namespace Fileid.Props

open Spec Spec.Biff Spec.Report Excel Common

/-- C96 is false of links to other workbooks (MS-XLS 2.4.271: the number of sheets, the length of the path, the flag and the characters of
the path, then the names of the sheets). The flag is taken for the first character of the path and the last one is left out; of the names
of the sheets nothing is shown. So, if the path has no quotes and backslashes, no JSON document can be read (C91_json_false). -/
theorem C96_link_wrong (abi : Abi) (fmt : Fmt) (sheets : Nat) (flag : UInt8) (path rest : Bytes) (hs : sheets < 2 ^ 16)
    (h0 : 0 < path.length) (h1 : path.length < 2 ^ 8)
    (hd : (leBytes 2 sheets ++ leBytes 2 path.length ++ [flag] ++ path ++ rest).length < 2 ^ 16) :
    mkSupBook (leBytes 2 sheets ++ leBytes 2 path.length ++ [flag] ++ path ++ rest) =
      .ok (.supBook sheets path.length (some (flag :: path.dropLast)) []) ∧
    (Rec.make 0x01AE (leBytes 2 sheets ++ leBytes 2 path.length ++ [flag] ++ path ++ rest)
      (.supBook sheets path.length (some (flag :: path.dropLast)) [])).fields abi fmt =
        .ok [numF b!"ctab" sheets, numF b!"cch" path.length, .text b!"virtPath" (flag :: path.dropLast)] ∧
    (flag < 32 → 34 ∉ path → 92 ∉ path → Breaks (flag :: path.dropLast)) := by
  have hc1 : At (leBytes 2 sheets ++ leBytes 2 path.length ++ [flag] ++ path ++ rest) 0 (leBytes 2 sheets) :=
    ⟨[], leBytes 2 path.length ++ [flag] ++ path ++ rest, by simp, rfl⟩
  have hc2 : At (leBytes 2 sheets ++ leBytes 2 path.length ++ [flag] ++ path ++ rest) 2 (leBytes 2 path.length) :=
    ⟨leBytes 2 sheets, [flag] ++ path ++ rest, by simp, by simp [leBytes_length]⟩
  have hl : (leBytes 2 sheets ++ leBytes 2 path.length ++ [flag] ++ path ++ rest).length = 5 + path.length + rest.length := by
    simp only [List.length_append, leBytes_length, List.length_singleton]
  have hp : ((leBytes 2 sheets ++ leBytes 2 path.length ++ [flag] ++ path ++ rest).drop 4).take path.length = flag :: path.dropLast := by
    rw [show (4 : Nat) = (leBytes 2 sheets ++ leBytes 2 path.length).length by simp [leBytes_length], List.append_assoc _ path rest,
      List.append_assoc _ [flag], List.drop_left]
    obtain ⟨n, hn⟩ : ∃ n, path.length = n + 1 := ⟨path.length - 1, by omega⟩
    show (flag :: (path ++ rest)).take path.length = _
    rw [hn, List.take_succ_cons, List.take_append_of_le_length (by omega), List.dropLast_eq_take, hn]
    rfl
  refine ⟨?_, rfl, fun hf h34 h92 => .control (c := flag) (List.mem_cons_self ..) hf ?_ ?_⟩
  · generalize leBytes 2 sheets ++ leBytes 2 path.length ++ [flag] ++ path ++ rest = d at *
    unfold mkSupBook supBookPath
    rw [Asf.ushort_at hc1 hs (by omega), Res.bind_ok, Asf.ushort_at hc2 (by omega) (by omega), Res.bind_ok, if_pos ⟨by omega, by omega, by omega⟩]
    unfold ReadString rdRange
    rw [show u32 (4 + path.length) = 4 + path.length from Nat.mod_eq_of_lt (by omega), if_neg (by omega), if_pos (by omega), hp,
      Res.bind_ok, Res.bind_ok, if_neg (by omega)]
  · intro h
    rcases List.mem_cons.1 h with h | h
    · rw [← h] at hf; exact absurd hf (by decide)
    · exact h34 (List.dropLast_subset _ h)
  · intro h
    rcases List.mem_cons.1 h with h | h
    · rw [← h] at hf; exact absurd hf (by decide)
    · exact h92 (List.dropLast_subset _ h)

theorem plain_same (abi : Abi) (fmt : Fmt) (type : Nat) (data data' : Bytes) (hl : data.length = data'.length) :
    (Rec.make type data .plain).toJson abi fmt = (Rec.make type data' .plain).toJson abi fmt ∧
    (Rec.make type data .plain).toXml abi fmt = (Rec.make type data' .plain).toXml abi fmt := by
  have h2 : (Rec.make type data .plain).baseFields = (Rec.make type data' .plain).baseFields := by
    simp [Rec.baseFields, Rec.make, hl]
  have h1 : (Rec.make type data .plain).fields abi fmt = (Rec.make type data' .plain).fields abi fmt := rfl
  unfold Rec.toJson Rec.toXml
  rw [h1, h2]
  exact ⟨rfl, rfl⟩

/-- C96 is false of shared formulas (`ShrFmla`): whatever a record with one holds, only its length is shown, so that two of the same length
have the same entries. -/
theorem C96_shared_wrong (abi : Abi) (fmt : Fmt) (fuel : Nat) (data data' : Bytes) (hl : data.length = data'.length) :
    simpleView abi fuel b!"ShrFmla" data = .ok .plain ∧ simpleView abi fuel b!"ShrFmla" data' = .ok .plain ∧
    (Rec.make 0x04BC data .plain).toJson abi fmt = (Rec.make 0x04BC data' .plain).toJson abi fmt ∧
    (Rec.make 0x04BC data .plain).toXml abi fmt = (Rec.make 0x04BC data' .plain).toXml abi fmt :=
  ⟨rfl, rfl, plain_same abi fmt 0x04BC data data' hl⟩

theorem alRunsLoop_ok {d : Bytes} (hd : d.length < 2 ^ 16) (n i : Nat) (h : i + 4 * n ≤ d.length) : alRunsLoop d n i = .ok () := by
  obtain ⟨_, h⟩ := ends_alRunsLoop hd n i h
  exact h

/-- C96 is false of the formats of parts of a text (`AlRuns`): they are read, but not shown. -/
theorem C96_runs_wrong (abi : Abi) (fmt : Fmt) (runs runs' : List (Nat × Nat)) (hl : runs.length = runs'.length)
    (hd : 2 + 4 * runs.length < 2 ^ 16) :
    let data := fun runs : List (Nat × Nat) => leBytes 2 runs.length ++ runs.flatMap fun x => leBytes 2 x.1 ++ leBytes 2 x.2
    mkAlRuns (data runs) = .ok .plain ∧ mkAlRuns (data runs') = .ok .plain ∧
    (Rec.make 0x1050 (data runs) .plain).toJson abi fmt = (Rec.make 0x1050 (data runs') .plain).toJson abi fmt ∧
    (Rec.make 0x1050 (data runs) .plain).toXml abi fmt = (Rec.make 0x1050 (data runs') .plain).toXml abi fmt := by
  have len : ∀ runs : List (Nat × Nat), (leBytes 2 runs.length ++ runs.flatMap fun x => leBytes 2 x.1 ++ leBytes 2 x.2).length = 2 + 4 * runs.length := by
    intro runs
    rw [List.length_append, leBytes_length]
    congr 1
    induction runs with
    | nil => rfl
    | cons x runs ih => rw [List.flatMap_cons, List.length_append, List.length_append, leBytes_length, leBytes_length, ih, List.length_cons]; omega
  have run : ∀ runs : List (Nat × Nat), 2 + 4 * runs.length < 2 ^ 16 →
      mkAlRuns (leBytes 2 runs.length ++ runs.flatMap fun x => leBytes 2 x.1 ++ leBytes 2 x.2) = .ok .plain := by
    intro runs h
    have hl := len runs
    have hc : At (leBytes 2 runs.length ++ runs.flatMap fun x => leBytes 2 x.1 ++ leBytes 2 x.2) 0 (leBytes 2 runs.length) :=
      ⟨[], _, rfl, rfl⟩
    generalize (leBytes 2 runs.length ++ runs.flatMap fun x => leBytes 2 x.1 ++ leBytes 2 x.2) = d at *
    unfold mkAlRuns
    rw [Asf.ushort_at hc (by omega) (by omega), Res.bind_ok, alRunsLoop_ok (by omega) _ _ (by omega)]
    rfl
  exact ⟨run runs hd, run runs' (by rw [← hl]; exact hd), plain_same abi fmt _ _ _ (by rw [len, len, hl])⟩

-- The hypotheses are met: a link to the workbook "Sb.xls" with the sheet "S".
example : mkSupBook (leBytes 2 1 ++ leBytes 2 6 ++ [0] ++ b!"Sb.xls" ++ (leBytes 2 1 ++ [0] ++ b!"S")) =
    .ok (.supBook 1 6 (some (0 :: b!"Sb.xl")) []) :=
  (C96_link_wrong Abi.windows Fmt.zero 1 0 b!"Sb.xls" (leBytes 2 1 ++ [0] ++ b!"S") (by decide) (by decide) (by decide) (by decide)).1

example : ([(0, 1), (3, 2)] : List (Nat × Nat)) ≠ [(0, 4), (2, 1)] ∧
    (Rec.make 0x1050 ((leBytes 2 2 ++ [(0, 1), (3, 2)].flatMap fun x => leBytes 2 x.1 ++ leBytes 2 x.2)) .plain).toJson Abi.windows Fmt.zero =
    (Rec.make 0x1050 ((leBytes 2 2 ++ [(0, 4), (2, 1)].flatMap fun x => leBytes 2 x.1 ++ leBytes 2 x.2)) .plain).toJson Abi.windows Fmt.zero :=
  ⟨by decide, (C96_runs_wrong Abi.windows Fmt.zero [(0, 1), (3, 2)] [(0, 4), (2, 1)] rfl (by decide)).2.2.1⟩

end Fileid.Props
