import Verif.Lemmas.VbaProject
import Verif.Lemmas.VbaProjectEnd
import Verif.Lemmas.VbaSkip
import Verif.Lemmas.OlessStream
import Verif.Props.Vba

/-!
# VBA projects: C80 (name), C81 (version), C82 (references), C83 (modules), C84 (reading the directory ends)
-/

namespace Fileid.Props

open Spec Spec.Ovba Vba Common Pole

/-- The bytes of the directory in front of other bytes (the rest of the buffer for decompression). -/
theorem dir_at (p : ProjectInfo) (rest : Bytes) (h : p.compat = none) :
    At (p.dir ++ rest) 38 (p.body ++ (p.references.flatMap ReferenceInfo.encode ++ (record 0x0F (leBytes 2 p.modules.length) ++
      record 0x13 (leBytes 2 p.cookie) ++ (p.modules.flatMap ModuleInfo.encode ++ record 0x10 [])))) := by
  have : At (p.dir ++ rest) 0 p.dir := ⟨[], rest, by simp, rfl⟩
  unfold ProjectInfo.dir at this
  have := (at_append this).2
  rw [head_length p h, Nat.zero_add] at this
  exact this

theorem dir_length (p : ProjectInfo) (h : p.compat = none) : p.dir.length = 38 + p.body.length +
    (p.references.flatMap ReferenceInfo.encode).length + 16 + (p.modules.flatMap ModuleInfo.encode).length + 6 := by
  unfold ProjectInfo.dir
  simp only [List.length_append, record_length, leBytes_length, head_length p h]
  simp only [List.length_nil]
  omega

theorem dir_room (p : ProjectInfo) (rest : Bytes) (h : p.dir.length + 64 < 2 ^ 32) : Room (p.dir ++ rest) p.dir.length :=
  ⟨by simp, h⟩

/-- The project's own records in a result. -/
theorem parseDir_project {abi : Abi} (p : ProjectInfo) (hc : p.compat = none) (rest : Bytes) (hl : p.dir.length + 64 < 2 ^ 32)
    (code : WStr → Nat → Res Bytes) (info v : VbaInfo) (hv : parseDir abi (p.dir ++ rest) p.dir.length code info = .ok v) :
    v.ProjectName = p.name ∧ v.VBAVersionMajor = p.major / 65536 % 65536 + 65536 * (p.minor % 65536) ∧
      v.VBAVersionMinor = 0x0C ∧ v.base = info.base ∧
      ∃ i, referenceLoop (p.dir ++ rest) p.dir.length (p.dir.length + 1) (38 + p.body.length) [] = .ok (i, v.References) := by
  have hd := dir_length p hc
  unfold parseDir at hv
  rw [projectRecords_spec (dir_room p rest hl) p (at_append (dir_at p rest hc)).1 (by omega), Res.bind_ok] at hv
  dsimp only at hv
  obtain ⟨r, hr, hv⟩ := bind_eq_ok hv
  obtain ⟨ms, hms, hv⟩ := bind_eq_ok hv
  cases hv
  exact ⟨rfl, rfl, rfl, rfl, r.1, hr⟩

/-! ## C80 -/

/-- C80: the name of the project is reported as it is stored, whatever else the directory holds. Missing for the full
property: directories with a record about compatibility, for which it is false (`C80_compat_false`). -/
theorem C80_project_name_partial (abi : Abi) (p : ProjectInfo) (hc : p.compat = none) (rest : Bytes)
    (hl : p.dir.length + 64 < 2 ^ 32) (code : WStr → Nat → Res Bytes) (info v : VbaInfo)
    (hv : parseDir abi (p.dir ++ rest) p.dir.length code info = .ok v) : v.ProjectName = p.name :=
  (parseDir_project p hc rest hl code info v hv).1

/-! ## C81 -/

/-- C81 is false of every project: the minor version is always reported as 12, and the major version is made of the
high half of the stored one and of the stored minor version. -/
theorem C81_version_false (abi : Abi) (p : ProjectInfo) (hc : p.compat = none) (rest : Bytes)
    (hl : p.dir.length + 64 < 2 ^ 32) (code : WStr → Nat → Res Bytes) (info v : VbaInfo)
    (hv : parseDir abi (p.dir ++ rest) p.dir.length code info = .ok v) :
    v.VBAVersionMinor = 12 ∧ v.VBAVersionMajor = p.major / 65536 % 65536 + 65536 * (p.minor % 65536) :=
  have h := parseDir_project p hc rest hl code info v hv
  ⟨h.2.2.1, h.2.1⟩

/-! ## C82 -/

/-- C82: no references are reported for a project without any. Missing for the full property: projects with
references, for which it is false (`C82_references_false`). -/
theorem C82_no_references_partial (abi : Abi) (p : ProjectInfo) (hc : p.compat = none) (rest : Bytes)
    (hl : p.dir.length + 64 < 2 ^ 32) (code : WStr → Nat → Res Bytes) (info v : VbaInfo)
    (hv : parseDir abi (p.dir ++ rest) p.dir.length code info = .ok v) (hr : p.references = []) : v.References = [] := by
  have hd := dir_length p hc
  obtain ⟨_, _, _, _, i, h⟩ := parseDir_project p hc rest hl code info v hv
  have hat := (at_append (dir_at p rest hc)).2
  rw [hr, List.flatMap_nil, List.nil_append] at hat
  obtain ⟨hat, _⟩ := at_append (at_append hat).1
  rw [referenceLoop_end (dir_room p rest hl) hat (by decide) (by decide) (by rw [leBytes_length]; omega)] at h
  injection h with h
  exact (Prod.mk.inj h).2.symm

/-- C82 is false: of all references of a project only the first one is reported, unless the length of its record
happens to be one of the numbers the program takes for types of records. -/
theorem C82_references_false (abi : Abi) (p : ProjectInfo) (hc : p.compat = none) (rest : Bytes)
    (hl : p.dir.length + 64 < 2 ^ 32) (code : WStr → Nat → Res Bytes) (info v : VbaInfo)
    (hv : parseDir abi (p.dir ++ rest) p.dir.length code info = .ok v) (x : ReferenceInfo) (xs : List ReferenceInfo)
    (hr : p.references = x :: xs) (hx : x.data.length % 65536 ∉ [0x33, 0x2f, 0x0d, 0x0e, 0x16]) : v.References = [x.name] := by
  have hd := dir_length p hc
  obtain ⟨_, _, _, _, i, h⟩ := parseDir_project p hc rest hl code info v hv
  have hat := (at_append (dir_at p rest hc)).2
  rw [hr, List.flatMap_cons] at hat hd
  rw [List.length_append] at hd
  obtain ⟨hat, _⟩ := at_append (at_append hat).1
  obtain ⟨n, hn⟩ : ∃ n, p.dir.length + 1 = n + 2 := ⟨p.dir.length - 1, by omega⟩
  rw [hn, referenceLoop_first (dir_room p rest hl) x hat (by omega) hx] at h
  injection h with h
  exact (Prod.mk.inj h).2.symm

/-! ## C83 -/

/-- The length of the first reference's record is none of the numbers that the program takes for types of records, and the bytes
behind it that are passed over contain no number of a record of a module, read in pairs. (True of a project without
references.) -/
def Passable (p : ProjectInfo) : Prop :=
  ∀ x xs, p.references = x :: xs →
    x.data.length % 65536 ∉ [0x33, 0x2f, 0x0d, 0x0e, 0x16] ∧ Quiet (p.afterNames.drop 18)

/-- What the program does up to the modules: where it begins to look for them, and what it finds there. -/
theorem parseDir_start {abi : Abi} (p : ProjectInfo) (hc : p.compat = none) (rest : Bytes) (hl : p.dir.length + 64 < 2 ^ 32)
    (code : WStr → Nat → Res Bytes) (info : VbaInfo)
    (hx : ∀ x xs, p.references = x :: xs → x.data.length % 65536 ∉ [0x33, 0x2f, 0x0d, 0x0e, 0x16]) :
    ∃ (i : Nat) (refs : List Bytes) (v : VbaInfo), parseDir abi (p.dir ++ rest) p.dir.length code info =
        (moduleLoop abi (p.dir ++ rest) p.dir.length code (p.dir.length + 1) i [] >>= fun mods =>
          .ok { v with References := refs, Modules := mods }) ∧
      v.ProjectName = p.name ∧ v.base = info.base ∧ refs = p.references.head?.toList.map (·.name) ∧
      At (p.dir ++ rest) i (p.afterNames.drop 18 ++ (p.modules.flatMap ModuleInfo.encode ++ record 0x10 [])) ∧
      i + (p.afterNames.drop 18).length + (p.modules.flatMap ModuleInfo.encode).length + 6 = p.dir.length := by
  have hd := dir_length p hc
  have room := dir_room p rest hl
  have hdat := dir_at p rest hc
  generalize hb' : p.dir ++ rest = b at *
  generalize hlen : p.dir.length = len at *
  obtain ⟨hb, hat⟩ := at_append hdat
  cases hr : p.references with
  | nil =>
    have hn : p.afterNames = [] := by unfold ProjectInfo.afterNames; rw [hr]
    rw [hr, List.flatMap_nil] at hat hd
    rw [List.nil_append] at hat
    obtain ⟨hat, hms⟩ := at_append hat
    obtain ⟨hat, _⟩ := at_append hat
    simp only [List.length_append, record_length, leBytes_length] at hms
    simp only [List.length_nil] at hd
    refine ⟨38 + p.body.length + (6 + 2 + (6 + 2)), [],
      { info with ProjectName := p.name, VBAVersionMajor := p.major / 65536 % 65536 + 65536 * (p.minor % 65536), VBAVersionMinor := 0x0C },
      ?_, rfl, rfl, rfl, ?_, ?_⟩
    · unfold parseDir
      rw [projectRecords_spec room p hb (by omega), Res.bind_ok]
      dsimp only
      rw [referenceLoop_end room hat (by decide) (by decide) (by rw [leBytes_length]; omega), Res.bind_ok]
      dsimp only
      rw [room.u (by omega)]
    · rw [hn]; exact hms
    · rw [hn]; simp only [List.drop_nil, List.length_nil]; omega
  | cons x xs =>
    have hn : p.afterNames = record x.kind x.data ++ (x.more.flatMap fun y => record y.1 y.2) ++ xs.flatMap ReferenceInfo.encode ++
      (record 0x0F (leBytes 2 p.modules.length) ++ record 0x13 (leBytes 2 p.cookie)) := by unfold ProjectInfo.afterNames; rw [hr]
    rw [hr, List.flatMap_cons] at hat hd
    rw [List.length_append] at hd
    have h22 : 22 ≤ p.afterNames.length := by
      rw [hn]; simp only [List.length_append, record_length, leBytes_length]; omega
    have hfirst := (at_append (at_append hat).1).1
    have hsplit : x.encode ++ xs.flatMap ReferenceInfo.encode ++ (record 0x0F (leBytes 2 p.modules.length) ++
        record 0x13 (leBytes 2 p.cookie) ++ (p.modules.flatMap ModuleInfo.encode ++ record 0x10 [])) =
        record 0x16 x.name ++ (record 0x3E x.nameUnicode ++ (p.afterNames.take 18 ++ (p.afterNames.drop 18 ++
          (p.modules.flatMap ModuleInfo.encode ++ record 0x10 [])))) := by
      rw [← List.append_assoc (p.afterNames.take 18), List.take_append_drop, hn]
      unfold ReferenceInfo.encode
      simp only [List.append_assoc]
    have hlens : x.encode.length + (xs.flatMap ReferenceInfo.encode).length + 16 = 12 + x.name.length + x.nameUnicode.length + p.afterNames.length := by
      rw [hn]
      unfold ReferenceInfo.encode
      simp only [List.length_append, record_length, leBytes_length]
      omega
    rw [hsplit] at hat
    have hms := (at_append (at_append (at_append hat).2).2).2
    simp only [record_length, List.length_take] at hms
    rw [Nat.min_eq_left (by omega)] at hms
    obtain ⟨n, hfuel⟩ : ∃ n, len + 1 = n + 2 := ⟨len - 1, by omega⟩
    refine ⟨38 + p.body.length + (6 + x.name.length) + (6 + x.nameUnicode.length) + 18, [x.name],
      { info with ProjectName := p.name, VBAVersionMajor := p.major / 65536 % 65536 + 65536 * (p.minor % 65536), VBAVersionMinor := 0x0C },
      ?_, rfl, rfl, rfl, hms, ?_⟩
    · unfold parseDir
      rw [projectRecords_spec room p hb (by omega), Res.bind_ok]
      dsimp only
      rw [hfuel, referenceLoop_first room x hfirst (by omega) (hx x xs hr), Res.bind_ok]
      dsimp only
      rw [room.u (by omega), List.nil_append]
    · rw [List.length_drop]; omega

/-- C83: on Windows, the modules of a project are reported as they are stored, each with the text that `code` finds. Missing:
projects whose references stop the search for the modules or put it out of step, for which it is false
(`C83_references_wrong`). -/
theorem C83_modules_partial (p : ProjectInfo) (hc : p.compat = none) (hr : Passable p) (rest : Bytes)
    (hl : p.dir.length + 64 < 2 ^ 32) (hf : ∀ m ∈ p.modules, ModuleFits m) (code : WStr → Nat → Res Bytes) (cs : List Bytes)
    (hcs : cs.length = p.modules.length)
    (hcode : ∀ (j : Nat) (m : ModuleInfo) (c : Bytes), p.modules[j]? = some m → cs[j]? = some c →
      code m.streamUnits m.offset = .ok c) (info : VbaInfo) :
    ∃ v, parseDir Abi.windows (p.dir ++ rest) p.dir.length code info = .ok v ∧ v.ProjectName = p.name ∧
      v.base = info.base ∧ v.Modules.length = p.modules.length ∧
      ∀ (j : Nat) (x : Module) (m : ModuleInfo) (c : Bytes), v.Modules[j]? = some x → p.modules[j]? = some m →
        cs[j]? = some c → IsModule x m c := by
  obtain ⟨i, refs, v, h1, h2, h3, _, h5, h6⟩ := parseDir_start p hc rest hl code info (fun x xs h => (hr x xs h).1)
    (abi := Abi.windows)
  have hq : Quiet (p.afterNames.drop 18) := by
    cases h : p.references with
    | nil =>
      have hn : p.afterNames = [] := by unfold ProjectInfo.afterNames; rw [h]
      rw [hn]; trivial
    | cons x xs => exact (hr x xs h).2
  have hcount : p.modules.length ≤ (p.modules.flatMap ModuleInfo.encode).length := by
    have : ∀ ms : List ModuleInfo, ms.length ≤ (ms.flatMap ModuleInfo.encode).length := by
      intro ms
      induction ms with
      | nil => simp
      | cons m ms ih =>
        have := encode_length m
        rw [List.flatMap_cons, List.length_append, List.length_cons]
        omega
    exact this _
  obtain ⟨res, g1, g2, g3⟩ := moduleLoop_skip (dir_room p rest hl) code p.modules cs hcs hf hcode _ hq i (p.dir.length + 1) []
    h5 h6 (by omega)
  rw [h1, g1, Res.bind_ok]
  exact ⟨_, rfl, h2, h3, g2, g3⟩

/-- C83 is false, and no module is reported, on every platform and whatever modules there are, when the bytes behind the first
reference are out of step with the records of the modules: read in pairs from there to the byte behind the directory they
contain no number of such a record. -/
theorem C83_references_wrong (abi : Abi) (p : ProjectInfo) (hc : p.compat = none) (x : ReferenceInfo) (xs : List ReferenceInfo)
    (hr : p.references = x :: xs) (hx : x.data.length % 65536 ∉ [0x33, 0x2f, 0x0d, 0x0e, 0x16]) (next : UInt8) (rest : Bytes)
    (hq : Quiet (p.afterNames.drop 18 ++ (p.modules.flatMap ModuleInfo.encode ++ record 0x10 []) ++ [next]))
    (hl : p.dir.length + 64 < 2 ^ 32) (code : WStr → Nat → Res Bytes) (info : VbaInfo) :
    ∃ v, parseDir abi (p.dir ++ next :: rest) p.dir.length code info = .ok v ∧ v.References = [x.name] ∧ v.Modules = [] := by
  obtain ⟨i, refs, v, h1, h2, h3, h4, ⟨pre, post, e, hp⟩, h6⟩ := parseDir_start p hc (next :: rest) hl code info (abi := abi)
    (fun y ys h => by rw [hr] at h; cases h; exact hx)
  have hpost : post = next :: rest := by
    have hlen := congrArg List.length e
    have : (p.dir ++ next :: rest).drop p.dir.length = next :: rest := by simp
    rw [← this, e, List.append_assoc, ← List.append_assoc pre]
    rw [List.append_assoc pre, ← List.append_assoc]
    rw [List.drop_left' (by
      simp only [List.length_append, record_length] at *
      simp only [List.length_nil] at *
      omega)]
  have hat : At (p.dir ++ next :: rest) i
      (p.afterNames.drop 18 ++ (p.modules.flatMap ModuleInfo.encode ++ record 0x10 []) ++ [next]) :=
    ⟨pre, rest, by rw [e, hpost]; simp, hp⟩
  obtain ⟨n, hn⟩ : ∃ n, p.dir.length + 1 = n + 2 := ⟨p.dir.length - 1, by omega⟩
  have hmods : moduleLoop abi (p.dir ++ next :: rest) p.dir.length code (p.dir.length + 1) i [] = .ok [] := by
    rw [hn]
    exact moduleLoop_quiet hl code hq hat (Or.inr (by
      simp only [List.length_append, record_length] at *
      simp only [List.length_nil, List.length_singleton] at *
      omega)) (by omega) n []
  rw [h1, hmods, Res.bind_ok]
  refine ⟨_, rfl, ?_, rfl⟩
  rw [h4, hr]
  rfl

/-! ## C83 for whole files -/

/-- Fetching the rest of a stream. -/
theorem fetchStream_spec {abi : Abi} {io : StorageIO} {name : WStr} {s : StreamIO} {content : Bytes}
    (hs : io.streamIO abi name = .ok (some s)) (h : Oless.Reads io s content) {offset : Nat} (ho : offset ≤ content.length) :
    FetchStream abi io name offset = .ok (content.drop offset) := by
  have hlt := h.2.1
  have e : u32 (sub64 content.length offset) = content.length - offset := by
    unfold u32 sub64
    omega
  unfold FetchStream
  rw [hs, Res.bind_ok]
  dsimp only [streamSize, streamRead]
  rw [h.1, e, h.2.2 offset (content.length - offset) _ ho (by omega) (by simp [newMem]), Res.bind_ok]
  dsimp only
  rw [Nat.min_self]
  have : ((content.drop offset).take (content.length - offset)).length = content.length - offset := by simp
  rw [List.take_left' (by simp), ← List.length_drop, List.take_length, Oless.memBytes_some]

/-- Fetching and decompressing the rest of a stream. -/
theorem fetchAndDecompress_spec {abi : Abi} {io : StorageIO} {name : WStr} {s : StreamIO} {content out : Bytes}
    (hs : io.streamIO abi name = .ok (some s)) (h : Oless.Reads io s content) {offset : Nat} (ho : offset ≤ content.length)
    (hc : Container (content.drop offset) out) (hl : content.length - offset < 2 ^ 22) :
    ∃ rest, FetchAndDecompress abi io name offset = .ok (out.length, out ++ rest) ∧
      (out ++ rest).length = 1024 * (content.length - offset) := by
  obtain ⟨rest, h1, h2, _⟩ := C47_partial (content.drop offset) out hc (by rw [List.length_drop]; exact hl)
  refine ⟨rest, ?_, by rw [h2, List.length_drop]⟩
  unfold FetchAndDecompress
  rw [fetchStream_spec hs h ho, Res.bind_ok, h1, Res.bind_ok]
  rfl

/-- The source text of a module. -/
theorem getCode_spec {abi : Abi} {io : StorageIO} {name : WStr} {s : StreamIO} {content out : Bytes}
    (hs : io.streamIO abi name = .ok (some s)) (h : Oless.Reads io s content) {offset : Nat} (ho : offset ≤ content.length)
    (hc : Container (content.drop offset) out) (hl : content.length - offset < 2 ^ 22) :
    GetCode abi io name offset = .ok out := by
  obtain ⟨rest, h1, h2⟩ := fetchAndDecompress_spec hs h ho hc hl
  rw [List.length_append] at h2
  unfold GetCode
  rw [h1, Res.bind_ok]
  dsimp only
  unfold Common.ReadString
  have e : u32 (0 + out.length) = out.length := by unfold u32; omega
  rw [e, if_neg (by omega)]
  exact rdRange_of_at ⟨[], rest, by simp, rfl⟩ rfl

/-- Two bytes of a stream that has been read into a buffer. -/
theorem readU16_num {head : Bytes} {v : Nat} (h : Num head 2 2 v) (hl : 8 ≤ head.length) :
    readU16 (((head.drop 0).take 8).map some ++ (newMem 8).drop 8) 2 = .ok v := by
  obtain ⟨a, b, c, d, e, f, g, i, rest, rfl⟩ : ∃ a b c d e f g i rest, head = a :: b :: c :: d :: e :: f :: g :: i :: rest := by
    match head, hl with
    | a :: b :: c :: d :: e :: f :: g :: i :: rest, _ => exact ⟨a, b, c, d, e, f, g, i, rest, rfl⟩
  have hv := h.eq
  simp only [List.drop_succ_cons, List.drop_zero, List.take_succ_cons, List.take_zero, leVal] at hv
  simp only [List.drop_zero, List.take_succ_cons, List.take_zero, List.map_cons, List.map_nil, List.cons_append, readU16, mrd,
    List.getElem?_cons_succ, List.getElem?_cons_zero, Res.bind_ok]
  rw [hv]
  congr 1
  omega

/-- C83 for whole files: on Windows, when the streams of a VBA project can be opened and have the
contents that MS-OVBA asks for, the project's version, its name, and every module with its name, its stream, its
offset, its flags and its source text are reported as they are stored. Missing: as for `C83_modules_partial`. -/
theorem C83_project_partial (io : StorageIO) (full : WStr) (p : ProjectInfo) (hc : p.compat = none) (hr : Passable p)
    (hf : ∀ m ∈ p.modules, ModuleFits m) (s sd : StreamIO) (head cd : Bytes) (version : Nat)
    (hs : io.streamIO Abi.windows (full ++ wide b!"/VBA/_VBA_PROJECT") = .ok (some s)) (hh : Oless.Reads io s head)
    (hver : Num head 2 2 version) (h8 : 8 ≤ head.length)
    (hsd : io.streamIO Abi.windows (full ++ wide b!"/VBA/dir") = .ok (some sd)) (hcd : Oless.Reads io sd cd)
    (hdir : Container cd p.dir) (hcl : cd.length < 2 ^ 22)
    (cs : List Bytes) (hcs : cs.length = p.modules.length)
    (hmods : ∀ (j : Nat) (m : ModuleInfo) (c : Bytes), p.modules[j]? = some m → cs[j]? = some c →
      ∃ sm cm, io.streamIO Abi.windows (full ++ wide b!"/VBA/" ++ m.streamUnits) = .ok (some sm) ∧ Oless.Reads io sm cm ∧
        m.offset ≤ cm.length ∧ cm.length - m.offset < 2 ^ 22 ∧ Container (cm.drop m.offset) c) :
    ∃ v, Analyze Abi.windows io full = .ok v ∧ v.base.Version = version ∧ v.ProjectName = p.name ∧
      v.Modules.length = p.modules.length ∧
      ∀ (j : Nat) (x : Module) (m : ModuleInfo) (c : Bytes), v.Modules[j]? = some x → p.modules[j]? = some m →
        cs[j]? = some c → IsModule x m c := by
  obtain ⟨rest, hfd, hlen⟩ := fetchAndDecompress_spec hsd hcd (Nat.zero_le _) hdir (by omega)
  rw [List.length_append] at hlen
  obtain ⟨v, h1, h2, h3, h4, h5⟩ := C83_modules_partial p hc hr rest (by omega) hf
    (fun name offset => GetCode Abi.windows io (full ++ wide b!"/VBA/" ++ name) offset) cs hcs
    (fun j m c hm hcj => by
      obtain ⟨sm, cm, a1, a2, a3, a4, a5⟩ := hmods j m c hm hcj
      exact getCode_spec a1 a2 a3 a5 a4)
    { ({} : VbaInfo) with base := { ({} : VbaInfo).base with Version := version } }
  refine ⟨v, ?_, by rw [h3], h2, h4, h5⟩
  unfold Analyze
  rw [hs, Res.bind_ok]
  dsimp only [streamRead]
  rw [hh.2.2 0 8 (newMem 8) (by omega) (by omega) (by simp [newMem]), Res.bind_ok]
  dsimp only
  rw [Nat.min_eq_left (by omega)]
  have hv : readU16 (((head.drop 0).take 8).map some ++ (newMem 8).drop 8) 2 = .ok version := by
    rw [readU16_num (head := head) hver (by omega)]
  rw [hv, Res.bind_ok, hfd, Res.bind_ok]
  exact h1

/-! ## C84 -/

/-- C84: reading the directory of a VBA project ends, whatever bytes it is made of, as long as fetching the source
texts does and the buffer leaves room below 4 GB (`Decompress` makes no larger one for streams below 4 MB). -/
theorem C84_directory_ends (abi : Abi) (hw : abi.wcharBytes = 2 ∨ abi.wcharBytes = 4) (b : Bytes) (len : Nat)
    (hb : b.length + 64 < 2 ^ 32) (code : WStr → Nat → Res Bytes) (hcode : ∀ n o, code n o ≠ .fuel) (info : VbaInfo) :
    parseDir abi b len code info ≠ .fuel :=
  parseDir_ne_fuel abi hw b len hb code hcode info

end Fileid.Props
