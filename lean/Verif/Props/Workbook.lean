import Verif.Lemmas.WorkbookList

/-!
# C49: every record of a workbook stream is listed
-/

namespace Fileid.Props

open Common Spec Spec.Biff Excel ExcelTables

/-- C49 for every stream that goes on for one to four bytes behind its last record and has no `FilePass` record: if the
walk ends without an error, the records listed are, in order, records of the stream with their type, length and data
(and continuations behind that); records can be missing only if their type is one of the 25 the program interprets. -/
theorem C49_listed_partial (abi : Abi) (fmt : Fmt) (fuel : Nat) (rs : List Record) (tail : Bytes) (e : Eng)
    (hv : ∀ r ∈ rs, r.Valid) (hlen : (stream rs ++ tail).length + 4 ≤ 2 ^ 32) (ht : 0 < tail.length ∧ tail.length ≤ 4)
    (hf : ∀ r ∈ rs, r.type ≠ filePassType) (h : ParseStream abi fmt fuel (stream rs ++ tail) = (e, .ok ())) :
    ∃ kept, kept.Sublist rs ∧ (rs.filter fun r => r.type ∉ interpreted).Sublist kept ∧
      Pointwise (fun q r => q.type = r.type ∧ q.length = r.data.length ∧ r.data <+: q.data) e.master kept := by
  unfold ParseStream at h
  obtain ⟨k, hk, hall⟩ := walk_inv hlen ht rs hv hf fuel {} e (.ok ()) [] rfl rfl h
  rw [hall rfl, List.take_length] at hk
  exact doRecords_shows rs {} e [] .nil hk

/-- What the records of a stream are that are listed whatever they contain: the first begins a substream and gives a
version; the others are not interpreted, begin substreams, or, in BIFF8, continue others. -/
structure Listable (b : Record) (rest : List Record) : Prop where
  first : b.type ∈ bofTypes
  version : 2 ≤ b.data.length
  valid : ∀ r ∈ b :: rest, r.Valid
  others : ∀ r ∈ rest, r.type ∉ interpreted ∨ r.type = bofType ∨ r.type = continueType ∧ bofVersion b.data = 1536

theorem Listable.noPass {b : Record} {rest : List Record} (h : Listable b rest) : ∀ r ∈ b :: rest, r.type ≠ filePassType := by
  intro r hr
  rcases List.mem_cons.1 hr with rfl | hr
  · intro hb
    have := h.first
    rw [hb] at this
    revert this
    decide
  · rcases h.others r hr with h | h | h
    · exact fun h' => h (by rw [h']; decide)
    · rw [h]; decide
    · rw [h.1]; decide

theorem Listable.run {b : Record} {rest : List Record} (h : Listable b rest) (abi : Abi) (fmt : Fmt) (fuel max : Nat)
    (hl : (stream (b :: rest)).length < 2 ^ 32) : ∃ e, doRecords abi fmt fuel max (b :: rest) {} = .ok e ∧
      Plainly (bofVersion b.data) (b :: rest) e ∧ e.index = (stream (b :: rest)).length := by
  obtain ⟨e1, h1, p1, i1⟩ := first_step (abi := abi) (fmt := fmt) (fuel := fuel) (max := max) h.first h.version (h.valid b (by simp)).2
  rw [stream_cons, List.length_append] at hl ⊢
  obtain ⟨e2, h2, p2, i2⟩ := simple_steps (abi := abi) (fmt := fmt) (fuel := fuel) (max := max) rest [b] e1 p1 h.others (by rw [i1]; exact hl)
  exact ⟨e2, by rw [doRecords, h1, Res.bind_ok, h2], p2, by rw [i2, i1]⟩

theorem detailer_of_walk {abi : Abi} {fmt : Fmt} {what : What} {fuel V : Nat} {s : Bytes} {e : Eng} (h : ParseStream abi fmt fuel s = (e, .ok ()))
    (hV : e.Version = some V) : ∃ x, Detailer abi fmt what fuel s = .ok x ∧ x.eng = e ∧ x.error = [] ∧ x.base.Version = V := by
  have hd : Detailer abi fmt what fuel s = .ok {
      base := { Extension := b!"xls", Name := b!"Microsoft Office Excel Workbook", SubType := GetVersion_Excel V,
                Version := V, VersionName := GetVersion_Excel V }
      eng := e, error := [] } := by
    unfold Detailer
    rw [h]
    simp only [errorText, Res.bind_ok, hV]
  exact ⟨_, hd, rfl, rfl, rfl⟩

theorem listed {V : Nat} {rs : List Record} {e : Eng} (hp : Plainly V rs e) :
    e.global.map (fun i => e.master[i]?.map fun q => (q.type, q.length, q.data)) = (contents rs).map some := by
  rw [hp.global, ← hp.master]
  have hl : rs.length = e.master.length := by
    rw [← contents_length, ← hp.master, List.length_map]
  rw [hl]
  apply List.ext_getElem?
  intro i
  by_cases hi : i < e.master.length
  · simp [hi, Rec.key]
  · simp [hi]

/-- C49 for the streams described above, when one to four bytes follow the last record: every record is listed in
order, with its type, its length, and its data with all continuations. -/
theorem C49_complete_partial (abi : Abi) (fmt : Fmt) (what : What) (fuel : Nat) (b : Record) (rest : List Record) (tail : Bytes)
    (h : Listable b rest) (hlen : (stream (b :: rest) ++ tail).length + 4 ≤ 2 ^ 32) (ht : 0 < tail.length ∧ tail.length ≤ 4)
    (hfuel : rest.length + 1 < fuel) :
    ∃ x, Detailer abi fmt what fuel (stream (b :: rest) ++ tail) = .ok x ∧ x.error = [] ∧
      x.base.Version = bofVersion b.data ∧
      x.eng.global.map (fun i => x.eng.master[i]?.map fun q => (q.type, q.length, q.data)) = (contents (b :: rest)).map some ∧
      x.eng.sheets = [] := by
  obtain ⟨e, he, hp, hi⟩ := h.run abi fmt fuel (stream (b :: rest) ++ tail).length (by rw [List.length_append] at hlen; omega)
  have hw := walk_ok (pre := []) hlen ht (b :: rest) h.valid h.noPass fuel {} e hfuel rfl rfl he (by rw [hi]; simp)
  obtain ⟨x, hx, rfl, h1, h2⟩ := detailer_of_walk (what := what) (show ParseStream abi fmt fuel _ = (e, .ok ()) from hw) hp.Version
  refine ⟨x, hx, h1, h2, ?_, hp.sheets⟩
  exact listed hp

/-- A workbook of three records, the last one continued. -/
def threeRecords : Record × List Record :=
  (⟨bofType, [0, 6, 5, 0]⟩, [⟨0x00E2, []⟩, ⟨0x0031, [1, 2, 3]⟩, ⟨continueType, [4]⟩, ⟨continueType, [5, 6]⟩])

theorem threeRecords_listable : Listable threeRecords.1 threeRecords.2 := by
  refine ⟨by decide, by decide, ?_, by decide⟩
  unfold Record.Valid
  decide

example (fmt : Fmt) (what : What) : ∃ x, Detailer Abi.linux fmt what 9 (stream (threeRecords.1 :: threeRecords.2) ++ [0]) = .ok x ∧
    x.eng.global.map (fun i => x.eng.master[i]?.map fun q => (q.type, q.length, q.data)) =
      [some (0x0809, 4, [0, 6, 5, 0]), some (0x00E2, 0, []), some (0x0031, 3, [1, 2, 3, 4, 5, 6]), some (0x3C, 1, [4]),
       some (0x3C, 2, [5, 6])] := by
  obtain ⟨x, h1, _, _, h2, _⟩ := C49_complete_partial Abi.linux fmt what 9 threeRecords.1 threeRecords.2 [0] threeRecords_listable
    (by decide) (by decide) (by decide)
  exact ⟨x, h1, h2⟩

/-- C49 is false of every such stream that ends right behind its last record when that has no data, as the `EOF` record
at the end of every workbook: it is not listed. -/
theorem C49_final_empty_wrong (abi : Abi) (fmt : Fmt) (what : What) (fuel : Nat) (b : Record) (rest : List Record) (last : Record)
    (h : Listable b rest) (hlast : last.data = []) (hlen : (stream (b :: rest ++ [last])).length + 4 ≤ 2 ^ 32)
    (hfuel : rest.length + 1 < fuel) :
    ∃ x, Detailer abi fmt what fuel (stream (b :: rest ++ [last])) = .ok x ∧ x.error = [] ∧
      x.eng.global.map (fun i => x.eng.master[i]?.map fun q => (q.type, q.length, q.data)) = (contents (b :: rest)).map some ∧
      x.eng.sheets = [] := by
  have hs : stream (b :: rest ++ [last]) = stream (b :: rest) ++ last.bytes := by
    rw [stream_append]; simp [stream]
  rw [hs] at hlen ⊢
  have hl := Record.bytes_length last
  rw [hlast, List.length_nil] at hl
  obtain ⟨x, h1, h2, _, h3⟩ := C49_complete_partial abi fmt what fuel b rest last.bytes h hlen (by omega) hfuel
  exact ⟨x, h1, h2, h3⟩

/-- C49 is false of every such stream that ends right behind its last record when that has data: it is listed without
its data. -/
theorem C49_final_wrong (abi : Abi) (fmt : Fmt) (what : What) (fuel : Nat) (b : Record) (rest : List Record) (last : Record)
    (h : Listable b rest) (hv : last.Valid) (hlast : last.data ≠ []) (ht : last.type ∉ interpreted)
    (hlen : (stream (b :: rest ++ [last])).length + 4 < 2 ^ 32) (hfuel : rest.length + 2 < fuel) :
    ∃ x, Detailer abi fmt what fuel (stream (b :: rest ++ [last])) = .ok x ∧ x.error = [] ∧
      x.eng.global.map (fun i => x.eng.master[i]?.map fun q => (q.type, q.length, q.data)) =
        (contents (b :: rest) ++ [(last.type, 0, [])]).map some ∧
      x.eng.sheets = [] := by
  have hs : stream (b :: rest ++ [last]) = stream (b :: rest) ++ last.bytes := by
    rw [stream_append]; simp [stream]
  have hbl := Record.bytes_length last
  have hpos := List.length_pos_iff.2 hlast
  rw [hs] at hlen ⊢
  have hlen' := hlen
  rw [List.length_append] at hlen'
  obtain ⟨e, he, hp, hi⟩ := h.run abi fmt fuel (stream (b :: rest) ++ last.bytes).length (by omega)
  obtain ⟨k, rfl⟩ : ∃ k, fuel = (b :: rest).length + (k + 2) := ⟨fuel - (rest.length + 1) - 2, by rw [List.length_cons]; omega⟩
  have hw := walk_append (pre := []) (Nat.le_of_lt hlen) (by omega) (b :: rest) h.valid h.noPass (k + 2) {} e rfl rfl he
  have hstep := simple_step (abi := abi) (fmt := fmt) (fuel := (b :: rest).length + (k + 2)) (max := (stream (b :: rest) ++ last.bytes).length) (r := ⟨last.type, []⟩) hp (Or.inl ht)
    (by rw [Record.bytes_length, hi]; simp only [List.length_nil]; omega)
  obtain ⟨e1, h1, p1, i1⟩ := hstep
  -- the step at the last record
  have hat : At (stream (b :: rest) ++ last.bytes) e.index last.bytes := ⟨stream (b :: rest), [], by simp, hi.symm⟩
  have hw2 : walk abi fmt ((b :: rest).length + (k + 2)) (stream (b :: rest) ++ last.bytes) (k + 2) e =
      ({ e1 with index := (stream (b :: rest) ++ last.bytes).length }, .ok ()) := by
    rw [walk, if_pos (by rw [hi, List.length_append]; unfold u32; omega),
      stepEngine_last hv hat (by omega) (by rw [hi, List.length_append])
        (fun h' => ht (by rw [h']; decide)) h1]
    dsimp only
    rw [walk, if_neg]
    dsimp only
    unfold u32
    omega
  rw [hw2] at hw
  obtain ⟨x, hx, hxe, h2, _⟩ := detailer_of_walk (what := what) (show ParseStream abi fmt _ _ = (_, .ok ()) from hw) p1.Version
  refine ⟨x, hx, h2, ?_, by rw [hxe]; exact p1.sheets⟩
  have hg : x.eng.global = e1.global := by rw [hxe]
  have hm : x.eng.master = e1.master := by rw [hxe]
  rw [hg, hm, listed p1, contents_snoc (fun h' => ht (by rw [h']; decide))]
  rfl

example : (⟨0x0031, [1]⟩ : Record).type ∉ interpreted ∧ (⟨0x0031, [1]⟩ : Record).data ≠ [] := by decide

end Fileid.Props
