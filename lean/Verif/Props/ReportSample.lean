import Verif.Props.Report
import Verif.Props.VbaProjectSample
import Verif.Props.Propset

/-!
# A compound file as witness for the theorems about reports
-/

namespace Fileid.Props

open Spec Spec.Ole Spec.Report Pole Oless Common Report

namespace Sample

def summaryName : List Nat := 5 :: text b!"SummaryInformation"

def summaryFile : Bytes := imageOf (oneDir summaryName)

def summaryResult : Result := .ole newOle ⟨[text b!"/", 47 :: summaryName], []⟩

theorem summary_opens : openStorage Abi.windows (some summaryFile) =
    .ok (.opened (ioOf (oneDir summaryName) (oneTree (text b!"Root Entry") summaryName))) := by rw [openStorage_quick]; decide +kernel

theorem summary_guess (env : Env) (depth : Nat) :
    Guess Abi.windows env table (depth + 1) (some summaryFile) = .ok [summaryResult] := by
  have hdes := one_describes Abi.windows (text b!"Root Entry") summaryName (by decide) (by decide)
  unfold Guess
  rw [summary_opens, Res.bind_ok]
  dsimp only
  rw [recurse_spec (Or.inr rfl) hdes _ _ (depth + 1) (by simp [Objects.depth])]
  simp only [Objects.visits, foldRes, visitStep]
  have hdir : (ioOf (oneDir summaryName) (oneTree (text b!"Root Entry") summaryName)).isDirectory Abi.windows
      ([47] ++ summaryName) = .ok false := by decide +kernel
  have hprop : parseProperties Abi.windows (ioOf (oneDir summaryName) (oneTree (text b!"Root Entry") summaryName))
      ([47] ++ summaryName) = .throw .rangeError := by decide +kernel
  have hg : ∀ st, guessStreamInfo Abi.windows env table (ioOf (oneDir summaryName) (oneTree (text b!"Root Entry") summaryName)) st
      summaryName ([47] ++ summaryName) = .ok st := by
    intro st
    unfold guessStreamInfo
    rw [hdir, Res.bind_ok, if_neg (by simp), if_pos (by decide), hprop]
    rfl
  rw [hg]
  rfl

end Sample

/-- The hypotheses of `C89_json_partial` hold of it: the report shows both paths. -/
example (env : Env) (depth : Nat) (name : Bytes) (hn : 0 ∉ name) : ∃ t,
    report Abi.windows env .json name [Sample.summaryResult] = .ok t ∧
    jsonDocument t = some (JVal.obj [(b!"name", .text name), (b!"extensions", .arr [
      .obj [(b!"extension", .text b!"oless"), (b!"versionname", .text b!"OLE Structured Storage"),
        (b!"Paths", .arr [.text b!"/", .str (47 :: Sample.summaryName)])]])]).events := by
  obtain ⟨t, ht⟩ : ∃ t, report Abi.windows env .json name [Sample.summaryResult] = .ok t := ⟨_, rfl⟩
  refine ⟨t, ht, ?_⟩
  obtain ⟨vs, h1, h2⟩ := C89_json_partial Abi.windows env table (fun _ h => h) (depth + 1) _ _
    (Sample.summary_guess env depth) (by
      intro r hr
      rw [List.mem_singleton] at hr
      subst hr
      exact fun g hg => absurd hg (by simp)) name hn t ht
  rw [h2]
  cases h1 with
  | cons h h' =>
  cases h'
  obtain ⟨ms, hv, ps, gs, hms, hps, hgs⟩ := h
  cases hgs
  cases hps with
  | cons g1 hps =>
  cases hps with
  | cons g2 hps =>
  cases hps
  obtain ⟨c1, rfl, k1⟩ := g1
  obtain ⟨c2, rfl, k2⟩ := g2
  rw [k1 (by decide), k2 (by decide)] at hms
  subst hms hv
  rfl

/-- The hypotheses of `C89_xml_false` hold of it. -/
example (env : Env) (depth : Nat) (name : Bytes) : ∃ t,
    report Abi.windows env .xml name [Sample.summaryResult] = .ok t ∧ xmlDocument t = none :=
  ⟨_, rfl, C89_xml_false Abi.windows env table (fun _ h => h) (depth + 1) _ _ _ _ (Sample.summary_guess env depth)
    (47 :: Sample.summaryName) (by simp) 5 (by decide) (by decide) name _ rfl⟩

namespace Sample

def detailsResult : Result :=
  .ole { Extension := b!"bup", Name := b!"McAfee Quarantied File" } ⟨[text b!"/", text b!"/Details"], []⟩

theorem details_opens : openStorage Abi.windows (some (imageOf (oneDir (text b!"Details")))) =
    .ok (.opened (ioOf (oneDir (text b!"Details")) (oneTree (text b!"Root Entry") (text b!"Details")))) := by rw [openStorage_quick]; decide +kernel

theorem details_guess (env : Env) (depth : Nat) :
    Guess Abi.windows env table (depth + 1) (some (imageOf (oneDir (text b!"Details")))) = .ok [detailsResult] := by
  have hdes := one_describes Abi.windows (text b!"Root Entry") (text b!"Details") (by decide) (by decide)
  unfold Guess
  rw [details_opens, Res.bind_ok]
  dsimp only
  rw [recurse_spec (Or.inr rfl) hdes _ _ (depth + 1) (by simp [Objects.depth])]
  rfl

end Sample

/-- The hypotheses of `C89_xml_partial` hold of a file with the stream "Details". -/
example (env : Env) (depth : Nat) (name : Bytes) (hn : xmlLegal name = true) : ∃ t,
    report Abi.windows env .xml name [Sample.detailsResult] = .ok t ∧ ∃ n,
    xmlDocument t = some (XVal.elem b!"file" [.elem b!"name" [.chars n], .elem b!"extensions" [
      .elem b!"item" [.leaf b!"extension" b!"bup", .leaf b!"name" b!"McAfee Quarantied File",
        .elem b!"Paths" [.leaf b!"Path" b!"/", .chars [44], .leaf b!"Path" b!"/Details"]]]]).events := by
  obtain ⟨t, ht⟩ : ∃ t, report Abi.windows env .xml name [Sample.detailsResult] = .ok t := ⟨_, rfl⟩
  refine ⟨t, ht, ?_⟩
  obtain ⟨n, vs, h1, _, h2⟩ := C89_xml_partial Abi.windows env table (fun _ h => h) (depth + 1) _ _
    (Sample.details_guess env depth) (by
      intro r hr
      rw [List.mem_singleton] at hr
      subst hr
      refine ⟨?_, fun g hg => absurd hg (by simp)⟩
      decide) name hn t ht
  refine ⟨n, ?_⟩
  rw [h2]
  cases h1 with
  | cons h h' =>
  cases h'
  obtain ⟨ms, hv, ps, gs, hms, hps, hgs⟩ := h
  cases hgs
  cases hps with
  | cons g1 hps =>
  cases hps with
  | cons g2 hps =>
  cases hps
  obtain ⟨c1, rfl, k1⟩ := g1
  obtain ⟨c2, rfl, k2⟩ := g2
  rw [k1 (by decide), k2 (by decide)] at hms
  subst hms hv
  rfl

/-- A property that is the real number NaN makes the JSON report no document: `os << value` writes `nan`. -/
theorem C89_nan_false (env : Env) (hnan : env.props.real (.double 0x7FF8000000000000) = b!"nan") :
    ∃ p : Propset.Property, Propset.parseContent Abi.windows (one 2 ([5, 0, 0, 0] ++ leBytes 8 0x7FF8000000000000)) = .ok [p] ∧
      ∃ t, report Abi.windows env .json b!"f" [.ole newOle ⟨[text b!"/"], [(text b!"/GlobalInfo", [p])]⟩] = .ok t ∧
        jsonDocument t = none := by
  refine ⟨{ PID := 2, FMTID := .summary, type := 5, value := .float (.double 0x7FF8000000000000) }, by decide +kernel, ?_⟩
  have hp : ({ PID := 2, FMTID := .summary, type := 5, value := .float (.double 0x7FF8000000000000) } :
      Propset.Property).toJson env.props = b!"{\"Property\":\"Title\",\"Type\":\"VT_R8\",\"Value\":nan}" := by
    unfold Propset.Property.toJson Propset.valueJson
    dsimp only
    rw [hnan]
    decide +kernel
  have hg : groupJson Abi.windows env (text b!"/GlobalInfo",
      [{ PID := 2, FMTID := .summary, type := 5, value := .float (.double 0x7FF8000000000000) }]) = .ok
        b!"{\"Group\":\"/GlobalInfo\",\"properties\": [{\"Property\":\"Title\",\"Type\":\"VT_R8\",\"Value\":nan}]}" := by
    unfold groupJson
    rw [List.map_cons, hp, List.map_nil]
    decide +kernel
  simp only [report, mapRes, Result.print, Result.toJson, baseJson, hg, Res.bind_ok]
  refine ⟨_, rfl, ?_⟩
  decide +kernel

end Fileid.Props
