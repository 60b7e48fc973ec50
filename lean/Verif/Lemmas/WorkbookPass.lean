import Verif.Spec.Pass
import Verif.Lemmas.Records

/-!
# Encrypted workbooks
-/

namespace Fileid.Excel

open Common Spec Spec.Biff ExcelTables

/-- The members of a `FilePass` record object. For the CryptoAPI the verifier's hash is not the one that is stored, but
the first bytes of the record. -/
def passView (abi : Abi) : Pass → FilePass
  | .xor k v => { wEncryptionType := 0, key := k, verification := v }
  | .rc4 s v h => { wEncryptionType := 1, vMajor := 1, vMinor := 1, flags := some none, salt := s, encVerifier := v, verifierHash := h }
  | .api a =>
    { wEncryptionType := 1, vMajor := a.major, vMinor := 2, flags := some (some 6),
      cspName := units abi.wcharBytes (a.name.length / abi.wcharBytes) a.name,
      verifier := 46 + a.name.length,
      verifierHash := a.data.take 20 }

theorem passRead {b bs : Bytes} {off n : Nat} (h : At b off bs) (hn : bs.length = n) : readBuffer b off n = .ok bs := by
  unfold readBuffer
  rw [rdRange_of_at h hn.symm]

theorem units_take (w n : Nat) (b : Bytes) : units w n (b.take (n * w)) = units w n b := by
  induction n generalizing b with
  | zero => rfl
  | succ n ih =>
    rw [units, units, List.take_take, Nat.min_eq_left (by rw [Nat.succ_mul]; omega), List.drop_take,
      show (n + 1) * w - w = n * w by rw [Nat.succ_mul]; omega, ih]

theorem api_uint {b : Bytes} {off n : Nat} (h : At b off (leBytes 4 n)) (hn : n < 2 ^ 32) (hb : b.length < 2 ^ 32) :
    ReadUInt b b.length off true = .ok n := by
  have hl := h.length_le
  rw [leBytes_length] at hl
  exact readUInt_num (Vba.num_at h (by omega)) (by omega) (by omega)

theorem api_length (a : CryptoApi) (hs : a.salt.length = 16) (hv : a.verifier.length = 16) (hh : a.hash.length = 20) :
    a.data.length = 106 + a.name.length := by
  simp only [CryptoApi.data, CryptoApi.header, List.length_append, leBytes_length, hs, hv, hh]
  omega

/-- The parts of a record of the CryptoAPI. -/
theorem api_parts (a : CryptoApi) (hs : a.salt.length = 16) (hv : a.verifier.length = 16) :
    At a.data 0 (leBytes 2 1) ∧ At a.data 2 (leBytes 2 a.major) ∧ At a.data 4 (leBytes 2 2) ∧ At a.data 6 (leBytes 4 (packed a.flags)) ∧
    At a.data 10 (leBytes 4 (32 + a.name.length)) ∧ At a.data 14 a.header ∧ At a.data 46 a.name ∧
    At a.data (46 + a.name.length + 36) (leBytes 4 20) ∧
    At a.data (46 + a.name.length) (leBytes 4 16 ++ a.salt ++ a.verifier ++ leBytes 4 20) := by
  have h0 : At a.data 0 a.data := Asf.at_self _
  have hd : a.data = leBytes 2 1 ++ (leBytes 2 a.major ++ (leBytes 2 2 ++ (leBytes 4 (packed a.flags) ++
      (leBytes 4 (32 + a.name.length) ++ (a.header ++ (a.name ++ ((leBytes 4 16 ++ a.salt ++ a.verifier ++ leBytes 4 20) ++ a.hash))))))) := by
    simp only [CryptoApi.data, List.append_assoc]
  have hh : a.header.length = 32 := by simp [CryptoApi.header, leBytes_length]
  generalize a.data = d at h0 hd
  rw [hd] at h0
  rw [← hd] at h0
  have h0' : At d 0 (leBytes 2 1 ++ (leBytes 2 a.major ++ (leBytes 2 2 ++ (leBytes 4 (packed a.flags) ++
      (leBytes 4 (32 + a.name.length) ++ (a.header ++ (a.name ++ ((leBytes 4 16 ++ a.salt ++ a.verifier ++ leBytes 4 20) ++ a.hash)))))))) := hd ▸ h0
  obtain ⟨p0, h⟩ := at_append h0'
  obtain ⟨p2, h⟩ := at_append h
  obtain ⟨p4, h⟩ := at_append h
  obtain ⟨p6, h⟩ := at_append h
  obtain ⟨p10, h⟩ := at_append h
  obtain ⟨p14, h⟩ := at_append h
  obtain ⟨p46, h⟩ := at_append h
  obtain ⟨pv, _⟩ := at_append h
  have pz := (at_append pv).2
  simp only [leBytes_length, hh, List.length_append, hs, hv, Nat.zero_add, Nat.reduceAdd] at p2 p4 p6 p10 p14 p46 pv pz
  exact ⟨p0, p2, p4, p6, p10, p14, p46, pz, pv⟩

theorem mkFilePass_eq (abi : Abi) {p : Pass} (hp : p.Valid) : mkFilePass abi p.record.data = .ok (.filePass (passView abi p)) := by
  cases p with
  | xor k v =>
    obtain ⟨hk, hv⟩ := hp
    have h0 : At (leBytes 2 0 ++ leBytes 2 k ++ leBytes 2 v) 0 (leBytes 2 0 ++ leBytes 2 k ++ leBytes 2 v) := Asf.at_self _
    have hl : (leBytes 2 0 ++ leBytes 2 k ++ leBytes 2 v).length < 2 ^ 32 := by simp [leBytes_length]
    show mkFilePass abi (leBytes 2 0 ++ leBytes 2 k ++ leBytes 2 v) = _
    generalize hd : leBytes 2 0 ++ leBytes 2 k ++ leBytes 2 v = d at h0 hl
    rw [← hd, List.append_assoc] at h0
    obtain ⟨a, h0⟩ := at_append h0
    obtain ⟨b, c⟩ := at_append h0
    simp only [leBytes_length, Nat.zero_add] at b c
    rw [← List.append_assoc, hd] at a b c
    unfold mkFilePass
    dsimp only
    rw [Asf.ushort_at a (by decide) hl, Res.bind_ok, if_pos rfl, Asf.ushort_at b hk hl, Res.bind_ok, Asf.ushort_at c hv hl]
    rfl
  | rc4 s v h =>
    obtain ⟨hs, hv, hh⟩ := hp
    have h0 : At (leBytes 2 1 ++ leBytes 2 1 ++ leBytes 2 1 ++ s ++ v ++ h) 0 (leBytes 2 1 ++ leBytes 2 1 ++ leBytes 2 1 ++ s ++ v ++ h) :=
      Asf.at_self _
    have hl : (leBytes 2 1 ++ leBytes 2 1 ++ leBytes 2 1 ++ s ++ v ++ h).length < 2 ^ 32 := by simp [leBytes_length, hs, hv, hh]
    show mkFilePass abi (leBytes 2 1 ++ leBytes 2 1 ++ leBytes 2 1 ++ s ++ v ++ h) = _
    generalize hd : leBytes 2 1 ++ leBytes 2 1 ++ leBytes 2 1 ++ s ++ v ++ h = d at h0 hl
    rw [← hd] at h0
    simp only [List.append_assoc] at h0
    obtain ⟨a, h0⟩ := at_append h0
    obtain ⟨b, h0⟩ := at_append h0
    obtain ⟨c, h0⟩ := at_append h0
    obtain ⟨x, h0⟩ := at_append h0
    obtain ⟨y, z⟩ := at_append h0
    simp only [leBytes_length, Nat.zero_add, hs, hv] at b c x y z
    simp only [← List.append_assoc] at a b c x y z
    rw [hd] at a b c x y z
    unfold mkFilePass mkFilePassRc4
    dsimp only
    rw [Asf.ushort_at a (by decide) hl, Res.bind_ok, if_neg (by decide), if_pos rfl, Asf.ushort_at b (by decide) hl, Res.bind_ok,
      Asf.ushort_at c (by decide) hl, Res.bind_ok, if_neg (by decide), if_pos ⟨rfl, rfl⟩, passRead x hs, Res.bind_ok,
      passRead y hv, Res.bind_ok, passRead z hh]
    rfl
  | api a =>
    show mkFilePass abi a.data = _
    obtain ⟨hm, _, _, _, _, _, _, _, hc, hs, hv, hh, hl⟩ := hp
    have hl' : a.data.length < 2 ^ 32 := by omega
    obtain ⟨p0, p2, p4, _, p10, _, p46, pv, _⟩ := api_parts a hs hv
    unfold mkFilePass mkFilePassApi
    dsimp only
    have hlen := api_length a hs hv hh
    have hsz : sub32 (32 + a.name.length) 32 = a.name.length := by unfold sub32; omega
    have hmod : u32 (46 + a.name.length) = 46 + a.name.length := by unfold u32; omega
    have hw : ReadWString abi a.data a.data.length 46 a.name.length =
        .ok (units abi.wcharBytes (a.name.length / abi.wcharBytes) a.name) := by
      unfold ReadWString
      have hle : a.name.length / abi.wcharBytes * abi.wcharBytes ≤ a.name.length := Nat.div_mul_le_self _ _
      have hat : At a.data 46 (a.name.take (a.name.length / abi.wcharBytes * abi.wcharBytes)) := by
        rw [← List.take_append_drop (a.name.length / abi.wcharBytes * abi.wcharBytes) a.name] at p46
        exact (at_append p46).1
      rw [hmod, if_neg (by omega), if_neg (by omega)]
      dsimp only
      rw [rdRange_of_at hat (by rw [List.length_take]; omega), Res.bind_ok,
        units_take]
    rw [Asf.ushort_at p0 (by decide) hl', Res.bind_ok, if_neg (by decide), if_pos rfl, Asf.ushort_at p2 (by omega) hl', Res.bind_ok,
      Asf.ushort_at p4 (by decide) hl', Res.bind_ok, if_pos ⟨hm, rfl⟩, api_uint p10 (by omega) hl', Res.bind_ok, hsz, hw, Res.bind_ok,
      hmod, rdRange_of_at pv (by rw [leBytes_length]), Res.bind_ok, leVal_leBytes,
      passRead (n := 20 % 256 ^ 4) (show At a.data 0 (a.data.take 20) from ⟨[], a.data.drop 20, by simp, rfl⟩)
        (by rw [List.length_take]; omega)]
    rfl

theorem parse_pass (abi : Abi) (fmt : Fmt) (fuel : Nat) (e : Eng) {p : Pass} (hp : p.Valid) :
    ∃ v, ParseRecord abi fmt fuel e p.record.type p.record.data = .ok (some (e.master, Rec.make p.record.type p.record.data v)) ∧
      (e.version = 1536 → v = .filePass (passView abi p)) := by
  have ht : p.record.type = filePassType := by cases p <;> rfl
  have hc : (Tables.lookup biff8Classes p.record.type).getD [] = b!"FilePass" := by rw [ht]; decide +kernel
  have hs : ∀ data, simpleView abi fuel b!"FilePass" data = mkFilePass abi data := fun _ => rfl
  have hp8 : parseBiff8 abi fmt fuel e p.record.type p.record.data =
      fresh e p.record.type p.record.data (.ok (.filePass (passView abi p))) := by
    unfold parseBiff8
    dsimp only
    rw [hc, if_neg (by decide), if_neg (by decide), if_neg (by decide), if_neg (by decide), hs, mkFilePass_eq abi hp]
  unfold ParseRecord parseVersioned
  by_cases hv : e.version = 1536
  · rw [if_pos hv, hp8]
    exact ⟨_, rfl, fun _ => rfl⟩
  · rw [if_neg hv]
    have h85 : ¬ p.record.type = 0x85 := by rw [ht]; decide
    rw [if_neg h85]
    repeat' split
    all_goals exact ⟨_, rfl, fun h => absurd h hv⟩

/-- Only a `FilePass` record depends on the length of the stream. -/
theorem doRecord_max {abi : Abi} {fmt : Fmt} {fuel m1 m2 : Nat} {r : Record} (e : Eng) (hr : r.type ≠ filePassType) :
    doRecord abi fmt fuel m1 r e = doRecord abi fmt fuel m2 r e := by
  unfold doRecord
  cases hp : ParseRecord abi fmt fuel { e with index := u32 (e.index + 4) } r.type r.data with
  | throw x => rfl
  | ub u => rfl
  | fuel => rfl
  | ok x =>
    cases x with
    | none => rfl
    | some mq =>
      obtain ⟨m, q⟩ := mq
      obtain ⟨⟨v, rfl⟩, _⟩ := ParseRecord_made hp
      rw [Res.bind_ok, Res.bind_ok]
      dsimp only
      have : ∀ mx, effect { e with index := u32 (e.index + 4), master := m } mx (Rec.make r.type r.data v) =
          effect { e with index := u32 (e.index + 4), master := m } 0 (Rec.make r.type r.data v) := by
        intro mx
        unfold effect
        rw [show (Rec.make r.type r.data v).type = r.type from rfl, if_neg (show ¬ r.type = 0x2F from hr),
          if_neg (show ¬ r.type = 0x2F from hr)]
      rw [this m1, this m2]

/-- What a walk leaves is the same, but for the position. -/
def Same (a b : Eng × Res Unit) : Prop := { a.1 with index := 0 } = { b.1 with index := 0 } ∧ a.2 = b.2

theorem pass_effect (e : Eng) (max : Nat) (p : Pass) (v : View) :
    effect e max (Rec.make p.record.type p.record.data v) = .ok { e with index := u32 (e.index + max) } := by
  have ht : p.record.type = 0x2F := by cases p <;> rfl
  unfold effect
  rw [show (Rec.make p.record.type p.record.data v).type = p.record.type from rfl, ht]
  rfl

theorem pass_valid {p : Pass} (h : p.Valid) : p.record.Valid ∧ p.record.data.length < 2 ^ 16 := by
  cases p with
  | xor k v => exact ⟨⟨by show filePassType < _; decide, by simp [Pass.record, leBytes_length]⟩, by simp [Pass.record, leBytes_length]⟩
  | rc4 s v h' =>
    obtain ⟨a, b, c⟩ := h
    exact ⟨⟨by show filePassType < _; decide, by simp [Pass.record, leBytes_length, a, b, c]⟩, by simp [Pass.record, leBytes_length, a, b, c]⟩
  | api a => exact ⟨⟨by show filePassType < _; decide, h.2.2.2.2.2.2.2.2.2.2.2.2⟩, h.2.2.2.2.2.2.2.2.2.2.2.2⟩

/-- What a `FilePass` record does. -/
theorem doRecord_pass (abi : Abi) (fmt : Fmt) (fuel : Nat) {p : Pass} (hp : p.Valid) (e : Eng) : ∃ v,
    (e.version = 1536 → v = .filePass (passView abi p)) ∧
    ((∃ i, e.current = some (i, true)) ∧ (∀ max, doRecord abi fmt fuel max p.record e = .ub .dangling) ∨
     ∃ e' : Eng, (∀ max, doRecord abi fmt fuel max p.record e =
        .ok { e' with index := u32 (u32 (u32 (e.index + 4) + max) + p.record.data.length) }) ∧
      e'.master = e.master ++ [Rec.make p.record.type p.record.data v] ∧ e'.version = e.version ∧ e'.Version = e.Version) := by
  obtain ⟨v, hv, hv'⟩ := parse_pass abi fmt fuel { e with index := u32 (e.index + 4) } hp
  refine ⟨v, hv', ?_⟩
  have hd : ∀ max, doRecord abi fmt fuel max p.record e =
      (addRecord { e with index := u32 (u32 (e.index + 4) + max) } (Rec.make p.record.type p.record.data v) >>= fun e =>
        .ok { e with index := u32 (e.index + p.record.data.length) }) := by
    intro max
    unfold doRecord
    rw [hv, Res.bind_ok]
    dsimp only
    rw [pass_effect, Res.bind_ok]
  cases hc : e.current with
  | none =>
    refine Or.inr ⟨{ e with global := e.global ++ [e.master.length], master := e.master ++ [Rec.make p.record.type p.record.data v] }, ?_, rfl, rfl, rfl⟩
    intro max
    rw [hd]
    unfold addRecord
    dsimp only
    rw [hc]
    rfl
  | some c =>
    obtain ⟨i, m⟩ := c
    cases m with
    | true =>
      refine Or.inl ⟨⟨i, rfl⟩, fun max => ?_⟩
      rw [hd]
      unfold addRecord
      dsimp only
      rw [hc]
      rfl
    | false =>
      refine Or.inr ⟨{ e with sheets := addToSheet e.sheets i e.master.length, master := e.master ++ [Rec.make p.record.type p.record.data v] }, ?_, rfl, rfl, rfl⟩
      intro max
      rw [hd]
      unfold addRecord
      dsimp only
      rw [hc]
      rfl

/-- The walk at a `FilePass` record. -/
theorem walk_pass {abi : Abi} {fmt : Fmt} {fuel : Nat} {buffer pre rest : Bytes} {p : Pass} (hp : p.Valid) {e : Eng}
    (hb : buffer.length < 2 ^ 31 - 2 ^ 17) (hbuf : buffer = pre ++ (p.record.bytes ++ rest)) (ht : 0 < rest.length)
    (hi : e.index = pre.length) (n : Nat) {e' : Eng}
    (h : doRecord abi fmt fuel buffer.length p.record e =
      .ok { e' with index := u32 (u32 (u32 (e.index + 4) + buffer.length) + p.record.data.length) }) :
    ∃ i, walk abi fmt fuel buffer (n + 1) e = ({ e' with index := i }, if n = 0 then .fuel else .ok ()) := by
  have hl : buffer.length = pre.length + (p.record.bytes.length + rest.length) := by rw [hbuf]; simp
  have hbl := Record.bytes_length p.record
  have h54 := (pass_valid hp).2
  refine ⟨u32 (u32 (u32 (e.index + 4) + buffer.length) + p.record.data.length), ?_⟩
  rw [walk, if_pos (by unfold u32; omega), stepEngine_at (pass_valid hp).1 ⟨pre, rest, by rw [hbuf]; simp, hi.symm⟩ (by omega)
    (by omega), h]
  dsimp only
  cases n with
  | zero => rfl
  | succ n =>
    rw [walk, if_neg (by dsimp only; unfold u32; omega), if_neg (by omega)]

theorem walk_same {abi : Abi} {fmt : Fmt} {fuel : Nat} {B1 B2 rest1 rest2 : Bytes} {p : Pass} (hp : p.Valid)
    (h1 : B1.length < 2 ^ 31 - 2 ^ 17) (h2 : B2.length < 2 ^ 31 - 2 ^ 17) (t1 : 0 < rest1.length) (t2 : 0 < rest2.length) (rs : List Record)
    (hv : ∀ r ∈ rs, r.Valid) (hf : ∀ r ∈ rs, r.type ≠ filePassType) : ∀ (n : Nat) (e : Eng) (pre : Bytes),
    B1 = pre ++ (stream rs ++ (p.record.bytes ++ rest1)) → B2 = pre ++ (stream rs ++ (p.record.bytes ++ rest2)) →
    e.index = pre.length → Same (walk abi fmt fuel B1 n e) (walk abi fmt fuel B2 n e) := by
  induction rs with
  | nil =>
    intro n e pre hb1 hb2 hi
    cases n with
    | zero => exact ⟨rfl, rfl⟩
    | succ n =>
      have hb1' : B1 = pre ++ (p.record.bytes ++ rest1) := by rw [hb1]; rfl
      have hb2' : B2 = pre ++ (p.record.bytes ++ rest2) := by rw [hb2]; rfl
      obtain ⟨v, _, ⟨_, hub⟩ | ⟨e', hok, _⟩⟩ := doRecord_pass abi fmt fuel hp e
      · have key : ∀ (B rest : Bytes), B.length < 2 ^ 31 - 2 ^ 17 → B = pre ++ (p.record.bytes ++ rest) → 0 < rest.length →
            walk abi fmt fuel B (n + 1) e = (e, .ub .dangling) := by
          intro B rest hB hbuf ht
          have hl : B.length = pre.length + (p.record.bytes.length + rest.length) := by rw [hbuf]; simp
          have hbl := Record.bytes_length p.record
          rw [walk, if_pos (by unfold u32; omega),
            stepEngine_at (pass_valid hp).1 ⟨pre, rest, by rw [hbuf]; simp, hi.symm⟩ (by omega) (by omega), hub]
        rw [key B1 rest1 h1 hb1' t1, key B2 rest2 h2 hb2' t2]
        exact ⟨rfl, rfl⟩
      · obtain ⟨i1, w1⟩ := walk_pass hp h1 hb1' t1 hi n (hok _)
        obtain ⟨i2, w2⟩ := walk_pass hp h2 hb2' t2 hi n (hok _)
        rw [w1, w2]
        exact ⟨rfl, rfl⟩
  | cons r rs ih =>
    intro n e pre hb1 hb2 hi
    cases n with
    | zero => exact ⟨rfl, rfl⟩
    | succ n =>
      have hbl := Record.bytes_length r
      have l1 : B1.length = pre.length + (r.bytes.length + ((stream rs).length + (p.record.bytes.length + rest1.length))) := by
        rw [hb1, stream_cons]; simp
      have l2 : B2.length = pre.length + (r.bytes.length + ((stream rs).length + (p.record.bytes.length + rest2.length))) := by
        rw [hb2, stream_cons]; simp
      have s1 := stepEngine_at (abi := abi) (fmt := fmt) (fuel := fuel) (buffer := B1) (e := e) (hv r (by simp))
        ⟨pre, stream rs ++ (p.record.bytes ++ rest1), by rw [hb1, stream_cons]; simp, hi.symm⟩ (by omega) (by omega)
      have s2 := stepEngine_at (abi := abi) (fmt := fmt) (fuel := fuel) (buffer := B2) (e := e) (hv r (by simp))
        ⟨pre, stream rs ++ (p.record.bytes ++ rest2), by rw [hb2, stream_cons]; simp, hi.symm⟩ (by omega) (by omega)
      have hr := hf r (by simp)
      rw [walk, walk, if_pos (by unfold u32; omega), if_pos (by unfold u32; omega), s1, s2,
        doRecord_max (m1 := B2.length) (m2 := B1.length) e hr]
      cases hd : doRecord abi fmt fuel B1.length r e with
      | throw x => exact ⟨rfl, rfl⟩
      | ub u => exact ⟨rfl, rfl⟩
      | fuel => exact ⟨rfl, rfl⟩
      | ok e' =>
        dsimp only
        refine ih (fun q hq => hv q (by simp [hq])) (fun q hq => hf q (by simp [hq])) n e' (pre ++ r.bytes) ?_ ?_ ?_
        · rw [hb1, stream_cons]; simp
        · rw [hb2, stream_cons]; simp
        · rw [doRecord_index hr (by omega) hd, hi, List.length_append]

theorem effect_version {e e' : Eng} {max : Nat} {q : Rec} (h4 : e.index ≠ 4) (h : effect e max q = .ok e') :
    e'.version = e.version ∧ e'.Version = e.Version := by
  unfold effect at h
  split at h
  · cases h
    unfold subStreamBof
    dsimp only
    repeat' split
    all_goals exact ⟨rfl, rfl⟩
  · split at h
    · unfold boundSheet at h
      split at h
      · obtain ⟨_, _, h'⟩ := bind_ok_inv h
        cases h'; exact ⟨rfl, rfl⟩
      · split at h <;> (cases h; exact ⟨rfl, rfl⟩)
    · split at h <;> (cases h; exact ⟨rfl, rfl⟩)

theorem addRecord_version {e e' : Eng} {q : Rec} (h : addRecord e q = .ok e') : e'.version = e.version ∧ e'.Version = e.Version := by
  unfold addRecord at h
  split at h
  · cases h
  · cases h; exact ⟨rfl, rfl⟩
  · cases h; exact ⟨rfl, rfl⟩

theorem doRecords_version {abi : Abi} {fmt : Fmt} {fuel max : Nat} (rs : List Record) (hf : ∀ r ∈ rs, r.type ≠ filePassType) :
    ∀ (e e' : Eng), 4 ≤ e.index → e.index + (stream rs).length < 2 ^ 32 → doRecords abi fmt fuel max rs e = .ok e' →
    e'.version = e.version ∧ e'.Version = e.Version ∧ e'.index = e.index + (stream rs).length := by
  induction rs with
  | nil => intro e e' _ _ h; cases h; exact ⟨rfl, rfl, rfl⟩
  | cons r rs ih =>
    intro e e' h4 hi h
    rw [stream_cons, List.length_append] at hi ⊢
    rw [doRecords] at h
    obtain ⟨e1, h1, h2⟩ := bind_ok_inv h
    have hbl := Record.bytes_length r
    have hx := doRecord_index (hf r (by simp)) (by omega) h1
    obtain ⟨a, b, c⟩ := ih (fun q hq => hf q (by simp [hq])) e1 e' (by omega) (by omega) h2
    have hv : e1.version = e.version ∧ e1.Version = e.Version := by
      rcases doRecord_inv h1 with ⟨rfl, _⟩ | ⟨m, v, ea, eb, _, h5, h6, rfl, _, _⟩
      · exact ⟨rfl, rfl⟩
      · obtain ⟨x1, x2⟩ := effect_version (by dsimp only; unfold u32; omega) h5
        obtain ⟨y1, y2⟩ := addRecord_version h6
        exact ⟨y1.trans x1, y2.trans x2⟩
    exact ⟨a.trans hv.1, b.trans hv.2, by omega⟩

end Fileid.Excel
