import Verif.Spec.VbaProject
import Verif.Model.VbaProject
import Verif.Lemmas.Read
import Verif.Lemmas.Bytes
import Verif.Lemmas.Formats

/-!
# Lemmas about the directory of VBA projects
-/

namespace Fileid.Vba

open Spec Spec.Ovba Common Pole

/-- The buffer has at least `len` bytes, and indices near `len` do not wrap around. -/
structure Room (b : Bytes) (len : Nat) : Prop where
  le : len ≤ b.length
  small : len + 64 < 2 ^ 32

theorem Room.u {b : Bytes} {len : Nat} (_ : Room b len) {n : Nat} (h : n < 2 ^ 32) : u32 n = n := Nat.mod_eq_of_lt h

theorem at_cast {b bs : Bytes} {o o' : Nat} (h : At b o bs) (e : o = o') : At b o' bs := e ▸ h

theorem u32_add (a b : Nat) : u32 (u32 a + b) = u32 (a + b) := by unfold u32; omega

theorem num_at {b : Bytes} {off n v : Nat} (h : At b off (leBytes n v)) (hv : v < 256 ^ n) : Num b off n v :=
  ⟨_, h, leBytes_length _ _, by rw [← leVal_eq, leVal_leBytes, Nat.mod_eq_of_lt hv]⟩

theorem num_at_mod {b : Bytes} {off n v : Nat} (h : At b off (leBytes n v)) : Num b off n (v % 256 ^ n) :=
  ⟨_, h, leBytes_length _ _, by rw [← leVal_eq, leVal_leBytes]⟩

/-- A string with its length. -/
theorem readStr_spec {b : Bytes} {len : Nat} (r : Room b len) {start : Nat} {s : Bytes}
    (h : At b start (leBytes 4 s.length ++ s)) (hl : start + 4 + s.length ≤ len) :
    readStr b len start = .ok (start + 4 + s.length, s) := by
  have := r.small
  obtain ⟨h1, h2⟩ := at_append h
  rw [leBytes_length] at h2
  unfold readStr
  rw [readUInt_num (num_at h1 (by omega)) (by omega) (by omega), Res.bind_ok]
  unfold Common.ReadString
  rw [r.u (n := start + 4) (by omega), r.u (by omega), if_neg (by omega), rdRange_of_at h2 rfl, Res.bind_ok,
    r.u (by omega)]
  congr 2
  omega

theorem record_length (id : Nat) (data : Bytes) : (record id data).length = 6 + data.length := by
  simp [record, leBytes_length]; omega

/-- A record with a string. -/
theorem record_spec {b : Bytes} {len : Nat} (r : Room b len) {i id : Nat} {s : Bytes} (h : At b i (record id s))
    (hid : id < 65536) (hl : i + 6 + s.length ≤ len) :
    ReadUShort b len i = .ok id ∧ readStr b len (i + 2) = .ok (i + 6 + s.length, s) := by
  have := r.small
  obtain ⟨h1, h2⟩ := at_append h
  rw [leBytes_length] at h2
  refine ⟨readUShort_num (num_at h1 (by omega)) (by omega) (by omega), ?_⟩
  rw [readStr_spec r h2 (by omega)]

/-- The head has 38 bytes when there is no record about compatibility. -/
theorem head_length (p : ProjectInfo) (h : p.compat = none) : p.head.length = 38 := by
  simp [ProjectInfo.head, record_length, Ovba.optional, h, leBytes_length]

theorem body_length (p : ProjectInfo) : p.body.length = 74 + p.name.length + p.doc.length + p.docUnicode.length +
    p.help1.length + p.help2.length + p.constants.length + p.constantsUnicode.length := by
  simp only [ProjectInfo.body, List.length_append, record_length, leBytes_length]
  omega

/-- The project's own records. -/
theorem projectRecords_spec {b : Bytes} {len : Nat} (r : Room b len) (p : ProjectInfo) (hb : At b 38 p.body)
    (hl : 38 + p.body.length ≤ len) (info : VbaInfo) :
    projectRecords b len info = .ok (38 + p.body.length,
      { info with
        ProjectName := p.name
        VBAVersionMajor := p.major / 65536 % 65536 + 65536 * (p.minor % 65536)
        VBAVersionMinor := 0x0C }) := by
  have hsm := r.small
  rw [body_length] at *
  unfold ProjectInfo.body at hb
  obtain ⟨h1, hb⟩ := at_append hb
  rw [record_length] at hb
  obtain ⟨h2, hb⟩ := at_append hb
  rw [record_length] at hb
  obtain ⟨h3, hb⟩ := at_append hb
  rw [record_length] at hb
  obtain ⟨h4, hb⟩ := at_append hb
  rw [record_length] at hb
  obtain ⟨h5, hb⟩ := at_append hb
  rw [record_length] at hb
  obtain ⟨h6, hb⟩ := at_append hb
  rw [record_length, leBytes_length] at hb
  obtain ⟨h7, hb⟩ := at_append hb
  rw [record_length, leBytes_length] at hb
  obtain ⟨hv, hb⟩ := at_append hb
  simp only [List.length_append, leBytes_length] at hb
  obtain ⟨h8, h9⟩ := at_append hb
  rw [record_length] at h9
  unfold projectRecords
  rw [(record_spec r h1 (by omega) (by omega)).2, Res.bind_ok]
  dsimp only
  rw [r.u (by omega), show 38 + 6 + p.name.length = 38 + (6 + p.name.length) by omega,
    (record_spec r h2 (by omega) (by omega)).2, Res.bind_ok]
  dsimp only
  rw [r.u (by omega), Nat.add_assoc _ 6, (record_spec r h3 (by omega) (by omega)).2, Res.bind_ok]
  dsimp only
  rw [r.u (by omega), Nat.add_assoc _ 6, (record_spec r h4 (by omega) (by omega)).2, Res.bind_ok]
  dsimp only
  rw [r.u (by omega), Nat.add_assoc _ 6, (record_spec r h5 (by omega) (by omega)).2, Res.bind_ok]
  dsimp only
  rw [u32_add, r.u (by omega), Nat.add_assoc _ 6 p.help2.length, Nat.add_assoc _ 10 10]
  have hmaj : rdRange b (38 + (6 + p.name.length) + (6 + p.doc.length) + (6 + p.docUnicode.length) + (6 + p.help1.length) +
      (6 + p.help2.length) + (10 + 10) + 8) 4 = .ok ((leBytes 4 p.major).drop 2 ++ leBytes 2 p.minor) := by
    have hsplit : leBytes 4 p.major = (leBytes 4 p.major).take 2 ++ (leBytes 4 p.major).drop 2 := (List.take_append_drop _ _).symm
    rw [hsplit, List.append_assoc, List.append_assoc, List.append_assoc] at hv
    obtain ⟨_, hv⟩ := at_append hv
    obtain ⟨_, hv⟩ := at_append hv
    obtain ⟨_, hv⟩ := at_append hv
    simp only [leBytes_length, List.length_take] at hv
    refine rdRange_of_at (bs := (leBytes 4 p.major).drop 2 ++ leBytes 2 p.minor) ?_ (by simp [leBytes_length])
    have e : (38 + (6 + p.name.length) + (6 + p.doc.length) + (6 + p.docUnicode.length) + (6 + p.help1.length) +
      (6 + p.help2.length) + (10 + 10) + 8) = 38 + (6 + p.name.length) + (6 + p.doc.length) + (6 + p.docUnicode.length) + (6 + p.help1.length) +
      (6 + p.help2.length) + (6 + 4) + (6 + 4) + 2 + 4 + min 2 4 := by omega
    rw [e]
    exact hv
  have hmin : rdRange b (38 + (6 + p.name.length) + (6 + p.doc.length) + (6 + p.docUnicode.length) + (6 + p.help1.length) +
      (6 + p.help2.length) + (10 + 10) + 12) 2 = .ok (leBytes 2 0x0C) := by
    obtain ⟨hm, _⟩ := at_append h8
    exact rdRange_of_at hm (by simp [leBytes_length])
  rw [hmaj, Res.bind_ok, hmin, Res.bind_ok]
  rw [u32_add, r.u (by omega), ← Nat.add_assoc _ 12 2]
  have e8 := (record_spec r h8 (by omega) (by omega)).2
  have e9 := (record_spec r h9 (by omega) (by omega)).2
  rw [show 38 + (6 + p.name.length) + (6 + p.doc.length) + (6 + p.docUnicode.length) + (6 + p.help1.length) +
      (6 + p.help2.length) + (6 + 4) + (6 + 4) + (2 + 4 + 4 + 2) = 38 + (6 + p.name.length) + (6 + p.doc.length) + (6 + p.docUnicode.length) + (6 + p.help1.length) +
      (6 + p.help2.length) + (10 + 10) + 12 by omega] at e8 e9
  rw [e8, Res.bind_ok]
  dsimp only
  rw [r.u (by omega), Nat.add_assoc _ 6, e9, Res.bind_ok]
  congr 2
  · dsimp only; omega
  · have hval : leVal ((leBytes 4 p.major).drop 2 ++ leBytes 2 p.minor) = p.major / 65536 % 65536 + 65536 * (p.minor % 65536) := by
      have : (leBytes 4 p.major).drop 2 = leBytes 2 (p.major / 65536) := by
        simp only [leBytes, List.drop_succ_cons, List.drop_zero]
        rw [Nat.div_div_eq_div_mul]
      rw [this]
      simp only [leBytes, List.cons_append, List.nil_append, leVal, UInt8.toNat_ofNat']
      omega
    rw [hval]
    rfl

/-! ## References -/

theorem referenceLoop_end {b : Bytes} {len : Nat} (r : Room b len) {i id : Nat} {data : Bytes} (h : At b i (record id data))
    (hid : id < 65536) (hne : id ≠ 0x16) (hl : i + 6 + data.length ≤ len) (fuel : Nat) (refs : List Bytes) :
    referenceLoop b len (fuel + 1) i refs = .ok (i, refs) := by
  rw [referenceLoop, (record_spec r h hid hl).1, Res.bind_ok, if_neg hne]

/-- The type of a reference is read from the length of its record. -/
theorem referenceLoop_first {b : Bytes} {len : Nat} (r : Room b len) {i : Nat} (x : ReferenceInfo) (h : At b i x.encode)
    (hl : i + x.encode.length ≤ len) (hsize : x.data.length % 65536 ∉ [0x33, 0x2f, 0x0d, 0x0e, 0x16]) (fuel : Nat)
    (refs : List Bytes) :
    referenceLoop b len (fuel + 2) i refs =
      .ok (i + (6 + x.name.length) + (6 + x.nameUnicode.length) + 2, refs ++ [x.name]) := by
  have hsm := r.small
  unfold ReferenceInfo.encode at h hl
  simp only [List.length_append, record_length] at hl
  obtain ⟨h, _⟩ := at_append h
  obtain ⟨h, h3⟩ := at_append h
  obtain ⟨h1, h2⟩ := at_append h
  simp only [List.length_append, record_length] at h2 h3
  obtain ⟨_, h4⟩ := at_append h3
  obtain ⟨h4, _⟩ := at_append h4
  rw [leBytes_length] at h4
  have e1 := record_spec r h1 (by omega) (by omega)
  have e2 := record_spec r h2 (by omega) (by omega)
  have hlow : ReadUShort b len (i + (6 + x.name.length) + (6 + x.nameUnicode.length) + 2) = .ok (x.data.length % 65536) := by
    have : leBytes 4 x.data.length = leBytes 2 x.data.length ++ leBytes 2 (x.data.length / 65536) := by
      simp only [leBytes, List.cons_append, List.nil_append]
      rw [Nat.div_div_eq_div_mul]
    rw [this] at h4
    obtain ⟨h4, _⟩ := at_append h4
    rw [show i + (6 + x.name.length + (6 + x.nameUnicode.length)) + 2 =
      i + (6 + x.name.length) + (6 + x.nameUnicode.length) + 2 by omega] at h4
    exact readUShort_num (num_at_mod h4) (by omega) (by omega)
  simp only [List.mem_cons, not_or] at hsize
  rw [referenceLoop, e1.1, Res.bind_ok, if_pos rfl, r.u (by omega), e1.2, Res.bind_ok]
  dsimp only
  rw [r.u (by omega), Nat.add_assoc _ 6, e2.2, Res.bind_ok]
  dsimp only
  rw [r.u (by omega), Nat.add_assoc _ 6, hlow, Res.bind_ok]
  unfold referenceRecord
  rw [if_neg hsize.1, if_neg hsize.2.1, if_neg hsize.2.2.1, if_neg hsize.2.2.2.1, Res.bind_ok, referenceLoop, hlow,
    Res.bind_ok, if_neg hsize.2.2.2.2.1]

/-! ## Modules -/

theorem narrow_ok {b : Bytes} : ∀ (n i : Nat), i + 2 * n ≤ b.length + 1 → ∃ bs, narrow b i n = .ok bs := by
  intro n
  induction n with
  | zero => intro i _; exact ⟨_, rfl⟩
  | succ n ih =>
    intro i h
    obtain ⟨bs, hbs⟩ := ih (i + 2) (by omega)
    rw [narrow, rd_lt (by omega : i < b.length), Res.bind_ok, hbs]
    exact ⟨_, rfl⟩

theorem units_flatMap (us : List Nat) (h : ∀ u ∈ us, u < 65536) : units 2 us.length (us.flatMap (leBytes 2)) = us := by
  induction us with
  | nil => rfl
  | cons u us ih =>
    rw [List.length_cons, units, List.flatMap_cons, List.take_append_of_le_length (by simp [leBytes_length]),
      List.take_of_length_le (by simp [leBytes_length]), List.drop_append_of_le_length (by simp [leBytes_length]),
      List.drop_of_length_le (by simp [leBytes_length]), List.nil_append, ih (fun v hv => h v (by simp [hv])), leVal_leBytes,
      Nat.mod_eq_of_lt (h u (by simp))]

theorem flatMap_length (us : List Nat) : (us.flatMap (leBytes 2)).length = 2 * us.length := by
  induction us with
  | nil => rfl
  | cons u us ih => rw [List.flatMap_cons, List.length_append, leBytes_length, ih, List.length_cons]; omega

/-- A string of UTF-16 units with its length, on Windows. -/
theorem readStrW_spec {b : Bytes} {len : Nat} (r : Room b len) {start : Nat} {us : List Nat} (hu : ∀ u ∈ us, u < 65536)
    (h : At b start (leBytes 4 (us.flatMap (leBytes 2)).length ++ us.flatMap (leBytes 2)))
    (hl : start + 4 + 2 * us.length ≤ len) :
    ∃ str, readStrW Abi.windows b len start = .ok (start + 4 + 2 * us.length, str, us) := by
  have hsm := r.small
  have hle := r.le
  obtain ⟨h1, h2⟩ := at_append h
  rw [leBytes_length] at h2
  rw [flatMap_length] at h1
  unfold readStrW
  rw [readUInt_num (num_at h1 (by omega)) (by omega) (by omega), Res.bind_ok]
  dsimp only
  rw [r.u (n := start + 4 + 2 * us.length) (by omega), r.u (n := start + 4) (by omega), if_neg (by omega)]
  obtain ⟨str, hstr⟩ := narrow_ok (b := b) ((start + 4 + 2 * us.length - (start + 4) + 1) / 2) (start + 4) (by omega)
  refine ⟨str, ?_⟩
  have e : 2 * us.length / Abi.windows.wcharBytes = us.length := by
    show 2 * us.length / 2 = us.length
    omega
  rw [hstr, Res.bind_ok, e, rdRange_of_at h2 (by rw [flatMap_length]; exact Nat.mul_comm _ _), Res.bind_ok,
    show units Abi.windows.wcharBytes us.length (us.flatMap (leBytes 2)) = us from units_flatMap us hu, r.u (by omega),
    show start + 2 * us.length + 4 = start + 4 + 2 * us.length by omega]

/-- One record of a module: what the loop does with it. -/
theorem recordLoop_step {abi : Abi} {b : Bytes} {len : Nat} (r : Room b len) {i id : Nat} (hlt : i + 2 ≤ len)
    (hid : ReadUShort b len i = .ok id) {old : Nat} (hold : old ≠ 0x2B) {mod mod' : Module} {j : Nat}
    (hm : moduleRecord abi b len id (i + 2) mod = .ok (j, mod')) (fuel : Nat) :
    recordLoop abi b len (fuel + 1) old i mod = recordLoop abi b len fuel id j mod' := by
  have := r.small
  rw [recordLoop, if_pos ⟨hold, by omega⟩, hid, Res.bind_ok, r.u (by omega), hm, Res.bind_ok]

theorem u16_at {b : Bytes} {len : Nat} (r : Room b len) {i id : Nat} {rest : Bytes} (h : At b i (leBytes 2 id ++ rest))
    (hid : id < 65536) (hl : i + 2 ≤ len) : ReadUShort b len i = .ok id := by
  have := r.small
  exact readUShort_num (num_at (at_append h).1 (by omega)) (by omega) (by omega)

/-- What is kept of a module. -/
def moduleOf (m : ModuleInfo) (pole : Bytes) : Module :=
  { Name := m.name, StreamName := m.stream, StreamNamePole := pole, StreamNameW := m.streamUnits, Offset := m.offset,
    isPrivate := m.isPrivate, isReadOnly := m.readOnly }

theorem encode_length (m : ModuleInfo) : 70 ≤ m.encode.length := by
  unfold ModuleInfo.encode
  simp only [List.length_append, record_length, leBytes_length]
  omega

/-- The numbers in the module fit their fields. -/
structure ModuleFits (m : ModuleInfo) : Prop where
  units : ∀ u ∈ m.streamUnits, u < 65536
  offset : m.offset < 2 ^ 32
  named : m.stream ≠ []

/-- The records of a module, on Windows. -/
theorem recordLoop_spec {b : Bytes} {len : Nat} (r : Room b len) (m : ModuleInfo) (hf : ModuleFits m) {i : Nat}
    (h : At b i m.encode) (hl : i + m.encode.length ≤ len) (fuel : Nat) :
    ∃ pole, recordLoop Abi.windows b len (fuel + 13) 0x19 i {} = .ok (i + m.encode.length - 4, moduleOf m pole) := by
  have hsm := r.small
  unfold ModuleInfo.encode at h
  have hlen : m.encode.length = m.encode.length := rfl
  conv at hlen => rhs; unfold ModuleInfo.encode
  simp only [List.length_append, record_length, leBytes_length, flatMap_length] at hlen
  obtain ⟨h, hterm⟩ := at_append h
  obtain ⟨h, hpriv⟩ := at_append h
  obtain ⟨h, hro⟩ := at_append h
  obtain ⟨h, htype⟩ := at_append h
  obtain ⟨h, hcookie⟩ := at_append h
  obtain ⟨h, hhelp⟩ := at_append h
  obtain ⟨h, hoff⟩ := at_append h
  obtain ⟨h, hdoc⟩ := at_append h
  obtain ⟨h, hstream⟩ := at_append h
  obtain ⟨hname, hnameU⟩ := at_append h
  clear h
  obtain ⟨hstream, hstreamW⟩ := at_append hstream
  obtain ⟨hdoc, hdocU⟩ := at_append hdoc
  simp only [List.length_append, record_length, leBytes_length, flatMap_length] at *
  generalize ho : (Ovba.optional 0x47 m.nameUnicode).length = lo at *
  generalize hr : (if m.readOnly = true then record 0x25 [] else []).length = lr at *
  generalize hp : (if m.isPrivate = true then record 0x28 [] else []).length = lp at *
  simp only [List.length_nil, Nat.add_zero] at *
  -- the name
  have e1 := record_spec r hname (by omega) (by omega)
  rw [show fuel + 13 = (fuel + 12) + 1 from rfl, recordLoop_step r (by omega) e1.1 (by decide)
    (j := i + 6 + m.name.length) (mod' := { Name := m.name }) (by
      unfold moduleRecord
      rw [if_pos rfl, e1.2]
      rfl)]
  -- the name in Unicode
  have e2 : ∃ f id, id ≠ 0x2B ∧ recordLoop Abi.windows b len (fuel + 12) 0x19 (i + 6 + m.name.length) { Name := m.name } =
      recordLoop Abi.windows b len (fuel + 11 + f) id (i + (6 + m.name.length) + lo) { Name := m.name } := by
    cases hn : m.nameUnicode with
    | none =>
      rw [hn] at ho
      simp only [Ovba.optional, List.length_nil] at ho
      subst ho
      exact ⟨1, 0x19, by decide, by rw [Nat.add_assoc i 6]; rfl⟩
    | some nu =>
      rw [hn] at ho hnameU
      simp only [Ovba.optional] at ho hnameU
      rw [record_length] at ho
      have e := record_spec r hnameU (by omega) (by omega)
      refine ⟨0, 0x47, by decide, ?_⟩
      rw [Nat.add_assoc i 6]
      rw [show fuel + 12 = (fuel + 11) + 1 from rfl, recordLoop_step r (by omega) e.1 (by decide)
        (j := i + (6 + m.name.length) + lo) (mod' := { Name := m.name }) (by
          unfold moduleRecord
          rw [if_neg (by decide), if_pos rfl, e.2, Res.bind_ok]
          congr 2
          omega)]
  obtain ⟨f, id, hid, e2⟩ := e2
  rw [e2]
  clear e2
  -- the stream
  have e3 := record_spec r hstream (by omega) (by omega)
  obtain ⟨pole, e4⟩ := readStrW_spec r (us := m.streamUnits) hf.units (start := i + (6 + m.name.length + lo) + (6 + m.stream.length) + 2) (by
    obtain ⟨_, h2⟩ := at_append hstreamW
    rw [leBytes_length] at h2
    exact h2) (by omega)
  refine ⟨pole, ?_⟩
  rw [show fuel + 11 + f = (fuel + 10 + f) + 1 by omega, Nat.add_assoc i, recordLoop_step r (by omega) e3.1 hid
    (j := i + (6 + m.name.length + lo) + (6 + m.stream.length) + (6 + 2 * m.streamUnits.length))
    (mod' := { Name := m.name, StreamName := m.stream, StreamNamePole := pole, StreamNameW := m.streamUnits }) (by
      unfold moduleRecord
      rw [if_neg (by decide), if_neg (by decide), if_pos rfl, e3.2, Res.bind_ok]
      dsimp only
      rw [r.u (by omega), Nat.add_assoc _ 6, e4, Res.bind_ok]
      congr 2
      dsimp only
      omega)]
  -- the description
  have e5 := record_spec r hdoc (by omega) (by omega)
  have e6 := record_spec r hdocU (by omega) (by omega)
  rw [show i + (6 + m.name.length + lo) + (6 + m.stream.length) + (6 + 2 * m.streamUnits.length) =
    i + (6 + m.name.length + lo + (6 + m.stream.length + (6 + 2 * m.streamUnits.length))) by omega,
    show fuel + 10 + f = (fuel + 9 + f) + 1 by omega, recordLoop_step r (by omega) e5.1 (by decide)
    (j := i + (6 + m.name.length + lo + (6 + m.stream.length + (6 + 2 * m.streamUnits.length)) +
      (6 + m.doc.length + (6 + m.docUnicode.length))))
    (mod' := { Name := m.name, StreamName := m.stream, StreamNamePole := pole, StreamNameW := m.streamUnits }) (by
      unfold moduleRecord
      rw [if_neg (by decide), if_neg (by decide), if_neg (by decide), if_pos rfl, e5.2, Res.bind_ok]
      dsimp only
      rw [r.u (by omega), Nat.add_assoc _ 6, e6.2, Res.bind_ok]
      congr 2
      dsimp only
      omega)]
  generalize hi : i + (6 + m.name.length + lo + (6 + m.stream.length + (6 + 2 * m.streamUnits.length)) +
      (6 + m.doc.length + (6 + m.docUnicode.length))) = k at *
  -- the offset of the text
  have hoffNum : ReadUInt b len (k + 6) true = .ok m.offset := by
    obtain ⟨_, h2⟩ := at_append hoff
    obtain ⟨_, h3⟩ := at_append h2
    rw [leBytes_length, leBytes_length] at h3
    exact readUInt_num (num_at h3 hf.offset) (by omega) (by omega)
  rw [show fuel + 9 + f = (fuel + 8 + f) + 1 by omega, recordLoop_step r (by omega) (u16_at r hoff (by decide) (by omega)) (by decide)
    (j := k + 10)
    (mod' := { Name := m.name, StreamName := m.stream, StreamNamePole := pole, StreamNameW := m.streamUnits, Offset := m.offset }) (by
      unfold moduleRecord
      rw [if_neg (by decide), if_neg (by decide), if_neg (by decide), if_neg (by decide), if_pos rfl, u32_add,
        r.u (n := k + 2 + 4) (by omega), hoffNum, Res.bind_ok, r.u (by omega)])]
  -- the help context
  replace hhelp := at_cast hhelp (show _ = k + 10 by omega)
  rw [show fuel + 8 + f = (fuel + 7 + f) + 1 by omega, recordLoop_step r (by omega) (u16_at r hhelp (by decide) (by omega)) (by decide)
    (j := k + 20)
    (mod' := { Name := m.name, StreamName := m.stream, StreamNamePole := pole, StreamNameW := m.streamUnits, Offset := m.offset }) (by
      unfold moduleRecord
      rw [if_neg (by decide), if_neg (by decide), if_neg (by decide), if_neg (by decide), if_neg (by decide), if_pos rfl,
        r.u (by omega)])]
  -- the cookie
  replace hcookie := at_cast hcookie (show _ = k + 20 by omega)
  rw [show fuel + 7 + f = (fuel + 6 + f) + 1 by omega, recordLoop_step r (by omega) (u16_at r hcookie (by decide) (by omega)) (by decide)
    (j := k + 28)
    (mod' := { Name := m.name, StreamName := m.stream, StreamNamePole := pole, StreamNameW := m.streamUnits, Offset := m.offset }) (by
      unfold moduleRecord
      rw [if_neg (by decide), if_neg (by decide), if_neg (by decide), if_neg (by decide), if_neg (by decide), if_neg (by decide),
        if_pos rfl, r.u (by omega)])]
  -- the type
  replace htype := at_cast htype (show _ = k + 28 by omega)
  have hty : (if m.procedural = true then 0x21 else 0x22) = 0x21 ∨ (if m.procedural = true then 0x21 else 0x22) = 0x22 := by
    split <;> simp
  generalize hty' : (if m.procedural = true then 0x21 else 0x22) = ty at *
  have hne : ty ≠ 0x19 ∧ ty ≠ 0x47 ∧ ty ≠ 0x1A ∧ ty ≠ 0x1C ∧ ty ≠ 0x31 ∧ ty ≠ 0x1E ∧ ty ≠ 0x2C ∧ ty ≠ 0x2B := by omega
  rw [show fuel + 6 + f = (fuel + 5 + f) + 1 by omega, recordLoop_step r (by omega) (u16_at r htype (by omega) (by omega)) (by decide)
    (j := k + 34)
    (mod' := { Name := m.name, StreamName := m.stream, StreamNamePole := pole, StreamNameW := m.streamUnits, Offset := m.offset }) (by
      unfold moduleRecord
      rw [if_neg hne.1, if_neg hne.2.1, if_neg hne.2.2.1, if_neg hne.2.2.2.1, if_neg hne.2.2.2.2.1, if_neg hne.2.2.2.2.2.1,
        if_neg hne.2.2.2.2.2.2.1, if_pos hty, r.u (by omega)])]
  -- read only
  replace hro := at_cast hro (show _ = k + 34 by omega)
  have e7 : ∃ f' id', id' ≠ 0x2B ∧ recordLoop Abi.windows b len (fuel + 5 + f) ty (k + 34)
        { Name := m.name, StreamName := m.stream, StreamNamePole := pole, StreamNameW := m.streamUnits, Offset := m.offset } =
      recordLoop Abi.windows b len (fuel + 4 + f') id' (k + 34 + lr)
        { Name := m.name, StreamName := m.stream, StreamNamePole := pole, StreamNameW := m.streamUnits, Offset := m.offset,
          isReadOnly := m.readOnly } := by
    cases hb : m.readOnly with
    | false =>
      rw [hb] at hr
      simp at hr
      subst hr
      exact ⟨1 + f, ty, hne.2.2.2.2.2.2.2, by rw [show fuel + 5 + f = fuel + 4 + (1 + f) by omega]⟩
    | true =>
      rw [hb, if_pos rfl] at hr hro
      rw [record_length] at hr
      subst hr
      refine ⟨f, 0x25, by decide, ?_⟩
      rw [show fuel + 5 + f = (fuel + 4 + f) + 1 by omega, recordLoop_step r (by omega) (u16_at r hro (by decide) (by simp at hlen; omega)) hne.2.2.2.2.2.2.2
        (j := k + 40) (mod' := { Name := m.name, StreamName := m.stream, StreamNamePole := pole, StreamNameW := m.streamUnits,
                                 Offset := m.offset, isReadOnly := true }) (by
          simp only [List.length_nil] at *
          unfold moduleRecord
          rw [if_neg (by decide), if_neg (by decide), if_neg (by decide), if_neg (by decide), if_neg (by decide), if_neg (by decide),
            if_neg (by decide), if_neg (by decide), if_pos rfl, r.u (by omega)])]
      rfl
  obtain ⟨f', id', hid', e7⟩ := e7
  rw [e7]
  clear e7
  -- private
  replace hpriv := at_cast hpriv (show _ = k + 34 + lr by omega)
  have e8 : ∃ f'' id'', id'' ≠ 0x2B ∧ recordLoop Abi.windows b len (fuel + 4 + f') id' (k + 34 + lr)
        { Name := m.name, StreamName := m.stream, StreamNamePole := pole, StreamNameW := m.streamUnits, Offset := m.offset,
          isReadOnly := m.readOnly } =
      recordLoop Abi.windows b len (fuel + 3 + f'') id'' (k + 34 + lr + lp) (moduleOf m pole) := by
    cases hb : m.isPrivate with
    | false =>
      rw [hb] at hp
      simp at hp
      subst hp
      refine ⟨1 + f', id', hid', ?_⟩
      rw [show fuel + 4 + f' = fuel + 3 + (1 + f') by omega]
      unfold moduleOf
      rw [hb]
      rfl
    | true =>
      rw [hb, if_pos rfl] at hp hpriv
      rw [record_length] at hp
      subst hp
      refine ⟨f', 0x28, by decide, ?_⟩
      rw [show fuel + 4 + f' = (fuel + 3 + f') + 1 by omega, recordLoop_step r (by omega) (u16_at r hpriv (by decide) (by simp at hlen; omega)) hid'
        (j := k + 34 + lr + 6) (mod' := moduleOf m pole) (by
          simp only [List.length_nil] at *
          unfold moduleRecord moduleOf
          rw [if_neg (by decide), if_neg (by decide), if_neg (by decide), if_neg (by decide), if_neg (by decide), if_neg (by decide),
            if_neg (by decide), if_neg (by decide), if_neg (by decide), if_pos rfl, r.u (by omega), hb])]
      rfl
  obtain ⟨f'', id'', hid'', e8⟩ := e8
  rw [e8]
  clear e8
  -- the terminator
  replace hterm := at_cast hterm (show _ = k + 34 + lr + lp by omega)
  rw [show fuel + 3 + f'' = (fuel + 2 + f'') + 1 by omega, recordLoop_step r (by omega) (u16_at r hterm (by decide) (by omega)) hid''
    (j := k + 34 + lr + lp + 2) (mod' := moduleOf m pole) (by
      unfold moduleRecord
      rw [if_neg (by decide), if_neg (by decide), if_neg (by decide), if_neg (by decide), if_neg (by decide), if_neg (by decide),
        if_neg (by decide), if_neg (by decide), if_neg (by decide), if_neg (by decide)])]
  rw [show fuel + 2 + f'' = (fuel + 1 + f'') + 1 by omega, recordLoop, if_neg (by simp)]
  congr 2
  omega

/-- The reported module is the stored one, with this source text. -/
def IsModule (x : Module) (m : ModuleInfo) (code : Bytes) : Prop :=
  x.Name = m.name ∧ x.StreamName = m.stream ∧ x.StreamNameW = m.streamUnits ∧ x.Offset = m.offset ∧
    x.isReadOnly = m.readOnly ∧ x.isPrivate = m.isPrivate ∧ x.Code = code

/-- The end of the stream. -/
theorem moduleLoop_end {abi : Abi} {b : Bytes} {len : Nat} (r : Room b len) {i : Nat} (h : At b i (record 0x10 []))
    (hl : i + 6 = len) (code : WStr → Nat → Res Bytes) (fuel : Nat) (mods : List Module) :
    moduleLoop abi b len code (fuel + 2) i mods = .ok mods := by
  have hsm := r.small
  have h0 := u16_at r h (by decide) (by omega)
  have hz : ∀ j, j = 2 ∨ j = 4 → ReadUShort b len (i + j) = .ok 0 := by
    intro j hj
    have : At b (i + j) (leBytes 2 0 ++ []) := by
      obtain ⟨pre, post, e, hp⟩ := h
      rcases hj with rfl | rfl
      · exact ⟨pre ++ [0x10, 0], [0, 0] ++ post, by rw [e]; simp [record, leBytes], by simp [hp]⟩
      · exact ⟨pre ++ [0x10, 0, 0, 0], post, by rw [e]; simp [record, leBytes], by simp [hp]⟩
    exact u16_at r this (by decide) (by omega)
  have hrec : recordLoop abi b len (len + 1) 0x10 i {} = .ok (i + 6, {}) := by
    obtain ⟨n, hn⟩ : ∃ n, len + 1 = n + 4 := ⟨len - 3, by omega⟩
    have pass : ∀ id j, id = 0x10 ∨ id = 0 → moduleRecord abi b len id j {} = .ok (j, {}) := by
      intro id j h
      rcases h with rfl | rfl <;> rfl
    rw [hn, show n + 4 = (n + 3) + 1 from rfl, recordLoop_step r (by omega) h0 (by decide) (pass _ _ (Or.inl rfl)),
      show n + 3 = (n + 2) + 1 from rfl, recordLoop_step r (by omega) (hz 2 (Or.inl rfl)) (by decide) (pass _ _ (Or.inr rfl)),
      show n + 2 = (n + 1) + 1 from rfl, Nat.add_assoc i 2 2, recordLoop_step r (by omega) (hz 4 (Or.inr rfl)) (by decide) (pass _ _ (Or.inr rfl)),
      Nat.add_assoc i 4 2, recordLoop, if_neg (by simp; omega)]
  rw [show fuel + 2 = (fuel + 1) + 1 from rfl, moduleLoop, if_pos (by omega), h0, Res.bind_ok, hrec, Res.bind_ok]
  dsimp only
  rw [if_pos rfl, moduleLoop, r.u (by omega), if_neg (by omega)]

/-- All modules, on Windows. -/
theorem moduleLoop_spec {b : Bytes} {len : Nat} (r : Room b len) (code : WStr → Nat → Res Bytes) (ms : List ModuleInfo) :
    ∀ (cs : List Bytes), cs.length = ms.length → (∀ m ∈ ms, ModuleFits m) →
      (∀ (j : Nat) (m : ModuleInfo) (c : Bytes), ms[j]? = some m → cs[j]? = some c → code m.streamUnits m.offset = .ok c) →
      ∀ (i fuel : Nat) (mods : List Module), At b i (ms.flatMap ModuleInfo.encode ++ record 0x10 []) →
        i + (ms.flatMap ModuleInfo.encode).length + 6 = len → ms.length + 2 ≤ fuel →
        ∃ res : List Module, moduleLoop Abi.windows b len code fuel i mods = .ok (mods ++ res) ∧ res.length = ms.length ∧
          ∀ (j : Nat) (x : Module) (m : ModuleInfo) (c : Bytes), res[j]? = some x → ms[j]? = some m → cs[j]? = some c →
            IsModule x m c := by
  have hsm := r.small
  induction ms with
  | nil =>
    intro cs _ _ _ i fuel mods h hl hf
    obtain ⟨n, rfl⟩ : ∃ n, fuel = n + 2 := ⟨fuel - 2, by simp at hf; omega⟩
    refine ⟨[], ?_, rfl, by simp⟩
    rw [moduleLoop_end r (by simpa using h) (by simpa using hl)]
    simp
  | cons m ms ih =>
    intro cs hcs hfit hcode i fuel mods h hl hf
    cases cs with
    | nil => simp at hcs
    | cons c cs =>
      rw [List.flatMap_cons, List.append_assoc] at h
      rw [List.flatMap_cons, List.length_append] at hl
      obtain ⟨h1, h2⟩ := at_append h
      have hm := hfit m (by simp)
      have h70 := encode_length m
      obtain ⟨n, rfl⟩ : ∃ n, fuel = n + 1 := ⟨fuel - 1, by omega⟩
      obtain ⟨g, hg⟩ : ∃ g, len + 1 = g + 13 := ⟨len - 12, by omega⟩
      obtain ⟨pole, hrec⟩ := recordLoop_spec r m hm h1 (by omega) g
      have hid : ReadUShort b len i = .ok 0x19 := by
        refine readUShort_num (num_at ?_ (by decide)) (by omega) (by omega)
        unfold ModuleInfo.encode record at h1
        simp only [List.append_assoc] at h1
        exact (at_append h1).1
      have hc : code m.streamUnits m.offset = .ok c := hcode 0 m c rfl rfl
      obtain ⟨res, hres, hlen, hall⟩ := ih cs (by simpa using hcs) (fun x hx => hfit x (by simp [hx]))
        (fun j m' c' h1 h2 => hcode (j + 1) m' c' (by simpa using h1) (by simpa using h2)) (i + m.encode.length) n
        (mods ++ [{ moduleOf m pole with Code := c }]) h2 (by omega) (by simp at hf; omega)
      refine ⟨{ moduleOf m pole with Code := c } :: res, ?_, by simp [hlen], ?_⟩
      · rw [moduleLoop, if_pos (by omega), hid, Res.bind_ok, hg, hrec, Res.bind_ok]
        dsimp only
        rw [if_neg (by simpa [moduleOf] using hm.named)]
        dsimp only [moduleOf]
        rw [hc, Res.bind_ok, r.u (by omega), show i + m.encode.length - 4 + 4 = i + m.encode.length by omega]
        rw [List.append_assoc] at hres
        exact hres
      · intro j x m' c' h1 h2 h3
        cases j with
        | zero =>
          simp at h1 h2 h3
          subst h1 h2 h3
          exact ⟨rfl, rfl, rfl, rfl, rfl, rfl, rfl⟩
        | succ j => exact hall j x m' c' (by simpa using h1) (by simpa using h2) (by simpa using h3)

end Fileid.Vba
