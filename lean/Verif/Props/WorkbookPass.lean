import Verif.Lemmas.PassShow
import Verif.Lemmas.Excel
import Verif.Props.WorkbookSheets
import Verif.Props.OlessReport

/-!
# C90: encrypted workbooks
-/

namespace Fileid.Props

open Common Spec Spec.Biff Spec.Report Excel ExcelTables

/-- C90, part: what follows a `FilePass` record has no influence on what is listed or on how the walk ends. Missing:
streams of two gigabytes (less 128 KB) or more. -/
theorem C90_rest_ignored_partial (abi : Abi) (fmt : Fmt) (fuel : Nat) (rs : List Record) (p : Pass) (rest1 rest2 : Bytes)
    (hp : p.Valid) (hv : ∀ r ∈ rs, r.Valid) (hf : ∀ r ∈ rs, r.type ≠ filePassType) (t1 : 0 < rest1.length) (t2 : 0 < rest2.length)
    (h1 : (stream rs ++ (p.record.bytes ++ rest1)).length < 2 ^ 31 - 2 ^ 17) (h2 : (stream rs ++ (p.record.bytes ++ rest2)).length < 2 ^ 31 - 2 ^ 17)
    (a b : Eng × Res Unit) (ha : ParseStream abi fmt fuel (stream rs ++ (p.record.bytes ++ rest1)) = a)
    (hb : ParseStream abi fmt fuel (stream rs ++ (p.record.bytes ++ rest2)) = b) :
    a.2 = b.2 ∧ a.1.Version = b.1.Version ∧ a.1.master = b.1.master ∧ a.1.global = b.1.global ∧ a.1.sheets = b.1.sheets := by
  have hs := walk_same (abi := abi) (fmt := fmt) (fuel := fuel) hp h1 h2 t1 t2 rs hv hf fuel {} [] rfl rfl rfl
  rw [show walk abi fmt fuel (stream rs ++ (p.record.bytes ++ rest1)) fuel {} = a from ha,
    show walk abi fmt fuel (stream rs ++ (p.record.bytes ++ rest2)) fuel {} = b from hb] at hs
  obtain ⟨he, hr⟩ := hs
  simp only [Eng.mk.injEq] at he
  exact ⟨hr, he.2.2.1, he.2.2.2.1, he.2.2.2.2.1, he.2.2.2.2.2.1⟩

/-- The walk lists the record that describes the encryption last. -/
theorem pass_listed {abi : Abi} {fmt : Fmt} {fuel : Nat} {b : Record} {rs : List Record} {p : Pass} {rest : Bytes} {e : Eng}
    (hp : p.Valid) (hv : ∀ r ∈ b :: rs, r.Valid) (hf : ∀ r ∈ b :: rs, r.type ≠ filePassType)
    (hb : b.type ∈ bofTypes ∧ 2 ≤ b.data.length ∧ bofVersion b.data = 1536) (ht : 0 < rest.length)
    (hlen : (stream (b :: rs) ++ (p.record.bytes ++ rest)).length < 2 ^ 31 - 2 ^ 17)
    (h : ParseStream abi fmt fuel (stream (b :: rs) ++ (p.record.bytes ++ rest)) = (e, .ok ())) :
    ∃ kept before, kept.Sublist (b :: rs) ∧ ((b :: rs).filter fun r => r.type ∉ interpreted).Sublist kept ∧
      e.master = before ++ [Rec.make p.record.type p.record.data (.filePass (passView abi p))] ∧
      Pointwise (fun q r => q.type = r.type ∧ q.length = r.data.length ∧ r.data <+: q.data) before kept := by
  have hl := hlen
  rw [List.length_append, List.length_append] at hl
  -- with a single byte behind the record, the walk is the same
  obtain ⟨k, e0, hk, hall⟩ : ∃ n e0, doRecords abi fmt fuel (stream (b :: rs) ++ (p.record.bytes ++ rest)).length (b :: rs) {} = .ok e0 ∧
      fuel = (b :: rs).length + (n + 1) := by
    have key : ∀ (l : List Record) (n : Nat) (e1 : Eng) (pre : Bytes), (∀ r ∈ l, r.Valid) → (∀ r ∈ l, r.type ≠ filePassType) →
        stream (b :: rs) ++ (p.record.bytes ++ rest) = pre ++ (stream l ++ (p.record.bytes ++ rest)) → e1.index = pre.length →
        walk abi fmt fuel (stream (b :: rs) ++ (p.record.bytes ++ rest)) n e1 = (e, .ok ()) →
        ∃ k e0, doRecords abi fmt fuel (stream (b :: rs) ++ (p.record.bytes ++ rest)).length l e1 = .ok e0 ∧ n = l.length + (k + 1) := by
      intro l
      induction l with
      | nil =>
        intro n e1 pre _ _ _ _ hw
        cases n with
        | zero => cases hw
        | succ n => exact ⟨n, e1, rfl, by rw [List.length_nil]; omega⟩
      | cons r l ih =>
        intro n e1 pre hv' hf' hbuf hi hw
        have hbl := Record.bytes_length r
        have hll : (stream (b :: rs) ++ (p.record.bytes ++ rest)).length =
            pre.length + (r.bytes.length + ((stream l).length + (p.record.bytes.length + rest.length))) := by
          rw [hbuf, stream_cons]; simp
        cases n with
        | zero => cases hw
        | succ n =>
          rw [walk, if_pos (by unfold u32; omega), stepEngine_at (hv' r (by simp))
            ⟨pre, stream l ++ (p.record.bytes ++ rest), by rw [hbuf, stream_cons]; simp, hi.symm⟩ (by omega) (by omega)] at hw
          cases hd : doRecord abi fmt fuel (stream (b :: rs) ++ (p.record.bytes ++ rest)).length r e1 with
          | throw x => rw [hd] at hw; cases hw
          | ub x => rw [hd] at hw; cases hw
          | fuel => rw [hd] at hw; cases hw
          | ok e2 =>
            rw [hd] at hw
            dsimp only at hw
            obtain ⟨k, e0, h0, hn⟩ := ih n e2 (pre ++ r.bytes) (fun q hq => hv' q (by simp [hq])) (fun q hq => hf' q (by simp [hq]))
              (by rw [hbuf, stream_cons]; simp) (by rw [doRecord_index (hf' r (by simp)) (by omega) hd, hi, List.length_append]) hw
            exact ⟨k, e0, by rw [doRecords, hd, Res.bind_ok, h0], by rw [List.length_cons]; omega⟩
    exact key (b :: rs) fuel {} [] hv hf rfl rfl h
  have hshow := doRecords_shows (b :: rs) {} e0 [] .nil hk
  obtain ⟨kept, k1, k2, k3⟩ := hshow
  -- the engine at the record
  have hst : e0.version = 1536 ∧ e0.index = (stream (b :: rs)).length := by
    have hk' := hk
    rw [doRecords] at hk'
    obtain ⟨e1, h1, h2⟩ := bind_ok_inv hk'
    obtain ⟨e1', h1', p1, i1⟩ := first_step (abi := abi) (fmt := fmt) (fuel := fuel)
      (max := (stream (b :: rs) ++ (p.record.bytes ++ rest)).length) hb.1 hb.2.1 (hv b (by simp)).2
    rw [h1'] at h1
    injection h1 with h1
    subst h1
    rw [stream_cons, List.length_append] at hl ⊢
    obtain ⟨v1, _, v3⟩ := doRecords_version rs (fun r hr => hf r (by simp [hr])) e1' e0 p1.moved (by omega) h2
    exact ⟨by rw [v1, p1.version, hb.2.2], by rw [v3, i1]⟩
  have hw := walk_append (abi := abi) (fmt := fmt) (fuel := fuel) (rest := p.record.bytes ++ rest) (pre := [])
    (buffer := stream (b :: rs) ++ (p.record.bytes ++ rest)) (by omega) (by rw [List.length_append]; omega) (b :: rs) hv hf
    (k + 1) {} e0 rfl rfl hk
  unfold ParseStream at h
  rw [← hall] at hw
  rw [hw] at h
  obtain ⟨v, hvw, ⟨_, hub⟩ | ⟨e', hok, hm, _, _⟩⟩ := doRecord_pass abi fmt fuel hp e0
  · exfalso
    have hbl := Record.bytes_length p.record
    rw [walk, if_pos (by rw [hst.2, List.length_append, List.length_append]; unfold u32; omega),
      stepEngine_at (pass_valid hp).1 ⟨stream (b :: rs), rest, by simp, hst.2.symm⟩ (by omega)
        (by rw [hst.2, List.length_append, List.length_append]; omega), hub] at h
    cases h
  · obtain ⟨i, hwp⟩ := walk_pass hp hlen rfl ht hst.2 k (hok _)
    rw [hwp] at h
    injection h with h1 _
    have hv' := hvw hst.1
    subst hv'
    refine ⟨kept, e0.master, k1, k2, ?_, k3⟩
    rw [← h1]; exact hm

/-- C90, part: the last record listed for an encrypted BIFF8 workbook is the one that describes the encryption, and its
entry, in JSON and in XML, is a document that says exactly what the record says; the records before it are listed as in
C49. For the method of the CryptoAPI see `C90_api_shown_partial`. -/
theorem C90_shown_partial (abi : Abi) (fmt : Fmt) (fuel : Nat) (b : Record) (rs : List Record) (p : Pass) (rest : Bytes) (e : Eng)
    (hp : p.Valid) (hapi : ∀ a, p ≠ .api a) (hv : ∀ r ∈ b :: rs, r.Valid) (hf : ∀ r ∈ b :: rs, r.type ≠ filePassType)
    (hb : b.type ∈ bofTypes ∧ 2 ≤ b.data.length ∧ bofVersion b.data = 1536) (ht : 0 < rest.length)
    (hlen : (stream (b :: rs) ++ (p.record.bytes ++ rest)).length < 2 ^ 31 - 2 ^ 17)
    (h : ParseStream abi fmt fuel (stream (b :: rs) ++ (p.record.bytes ++ rest)) = (e, .ok ())) :
    ∃ kept before q json xml, kept.Sublist (b :: rs) ∧ ((b :: rs).filter fun r => r.type ∉ interpreted).Sublist kept ∧
      e.master = before ++ [q] ∧
      Pointwise (fun q r => q.type = r.type ∧ q.length = r.data.length ∧ r.data <+: q.data) before kept ∧
      q.toJson abi fmt = .ok json ∧ jsonDocument json = some p.json.events ∧
      q.toXml abi fmt = .ok xml ∧ xmlDocument xml = some p.xml.events := by
  obtain ⟨kept, before, k1, k2, hm, k3⟩ := pass_listed hp hv hf hb ht hlen h
  obtain ⟨json, xml, h1, h2, h3, h4⟩ := Report.pass_shown abi fmt hapi
  exact ⟨kept, before, _, json, xml, k1, k2, hm, k3, h1, h2, h3, h4⟩

/-- C90, part, for the method of the CryptoAPI on Windows: the record is listed last, and its entry says what the record
says, but for the hash of the verifier and the second reserved number. -/
theorem C90_api_shown_partial (abi : Abi) (fmt : Fmt) (fuel : Nat) (b : Record) (rs : List Record) (a : CryptoApi) (rest : Bytes) (e : Eng)
    (hw : abi.wcharBytes = 2)
    (hp : a.Valid) (hv : ∀ r ∈ b :: rs, r.Valid) (hf : ∀ r ∈ b :: rs, r.type ≠ filePassType)
    (hb : b.type ∈ bofTypes ∧ 2 ≤ b.data.length ∧ bofVersion b.data = 1536) (ht : 0 < rest.length)
    (hlen : (stream (b :: rs) ++ ((Pass.api a).record.bytes ++ rest)).length < 2 ^ 31 - 2 ^ 17)
    (h : ParseStream abi fmt fuel (stream (b :: rs) ++ ((Pass.api a).record.bytes ++ rest)) = (e, .ok ())) :
    ∃ kept before q json, kept.Sublist (b :: rs) ∧ ((b :: rs).filter fun r => r.type ∉ interpreted).Sublist kept ∧
      e.master = before ++ [q] ∧
      Pointwise (fun q r => q.type = r.type ∧ q.length = r.data.length ∧ r.data <+: q.data) before kept ∧
      q.toJson abi fmt = .ok json ∧ jsonDocument json = some (Pass.api { a with hash := a.data.take 20, reserved2 := a.reserved1 }).json.events ∧
      (LegalText a.csp ∧ 60 ∉ a.csp ∧ 62 ∉ a.csp →
        ∃ xml, q.toXml abi fmt = .ok xml ∧ xmlDocument xml = some (Pass.api { a with hash := a.data.take 20, reserved2 := a.reserved1 }).xml.events) := by
  obtain ⟨kept, before, k1, k2, hm, k3⟩ := pass_listed (p := .api a) hp hv hf hb ht hlen h
  obtain ⟨json, h1, h2, h3⟩ := Report.api_shown fmt hw hp
  exact ⟨kept, before, _, json, k1, k2, hm, k3, h1, h2, h3⟩

/-- C90 is false of the hash of the verifier: what is shown of it is the beginning of the record, so that two encryptions
with different hashes have the same entry. -/
theorem C90_api_hash_wrong (abi : Abi) (fmt : Fmt) (a : CryptoApi) (hash : Bytes) (hw : abi.wcharBytes = 2) (hp : a.Valid)
    (hh : hash.length = 20) :
    mkFilePass abi a.data = .ok (.filePass (passView abi (.api a))) ∧
    mkFilePass abi { a with hash := hash }.data = .ok (.filePass (passView abi (.api { a with hash := hash }))) ∧
    (Rec.make filePassType a.data (.filePass (passView abi (.api a)))).toJson abi fmt =
    (Rec.make filePassType { a with hash := hash }.data (.filePass (passView abi (.api { a with hash := hash })))).toJson abi fmt := by
  obtain ⟨h1, h2, h3, h4, h5, h6, h7, h8, h9, hs, hv, hh0, hl⟩ := hp
  have l1 := api_length a hs hv hh0
  have l2 := api_length { a with hash := hash } hs hv hh
  have hlen : { a with hash := hash }.data.length = a.data.length := by rw [l1, l2]; rfl
  have hp' : ({ a with hash := hash } : CryptoApi).Valid :=
    ⟨h1, h2, h3, h4, h5, h6, h7, h8, h9, hs, hv, hh, by rw [hlen]; exact hl⟩
  have hp : a.Valid := ⟨h1, h2, h3, h4, h5, h6, h7, h8, h9, hs, hv, hh0, hl⟩
  refine ⟨mkFilePass_eq abi (p := .api a) hp, mkFilePass_eq abi (p := .api { a with hash := hash }) hp', ?_⟩
  have ht : { a with hash := hash }.data.take 20 = a.data.take 20 := by
    unfold CryptoApi.data
    rw [List.take_append_of_le_length, List.take_append_of_le_length]
    · rfl
    · simp [leBytes_length, CryptoApi.header]; omega
    · simp [leBytes_length, CryptoApi.header]; omega
  have hf : Report.apiFields { a with hash := hash } = Report.apiFields a := by
    unfold Report.apiFields
    rw [ht]
    rfl
  unfold Rec.toJson
  rw [Report.api_fields fmt hw hp, Report.api_fields fmt hw hp', hf]
  simp only [Rec.baseFields, Rec.make, hlen]

/-- C90 is false on Linux for every encryption by the CryptoAPI whose provider has a name of two printable characters
or more: writing the report ends in an exception. -/
theorem C90_api_linux_wrong (fmt : Fmt) (a : CryptoApi) (c d : UInt8) (cs : Bytes) (hp : a.Valid) (hc : a.csp = c :: d :: cs)
    (hd : 32 ≤ d.toNat) :
    mkFilePass Abi.linux a.data = .ok (.filePass (passView Abi.linux (.api a))) ∧
    (Rec.make filePassType a.data (.filePass (passView Abi.linux (.api a)))).toJson Abi.linux fmt = .throw .rangeError ∧
    (Rec.make filePassType a.data (.filePass (passView Abi.linux (.api a)))).toXml Abi.linux fmt = .throw .rangeError := by
  refine ⟨mkFilePass_eq Abi.linux (p := .api a) hp, ?_⟩
  obtain ⟨_, hu, _, _, _, _, _, _, _, hs, hv, hh, hl⟩ := hp
  obtain ⟨_, _, _, p6, _, p14, _, _, pv⟩ := api_parts a hs hv
  have hname : a.name = c :: 0 :: d :: 0 :: (cs.flatMap (fun c => [c, 0]) ++ [0, 0]) := by
    unfold CryptoApi.name
    rw [hc]; rfl
  have hcsp : ∃ us, (passView Abi.linux (.api a)).cspName = leVal [c, 0, d, 0] :: us := by
    show ∃ us, units 4 (a.name.length / 4) a.name = _
    have : 4 ≤ a.name.length := by rw [hname]; simp
    obtain ⟨n, hn⟩ : ∃ n, a.name.length / 4 = n + 1 := ⟨a.name.length / 4 - 1, by omega⟩
    rw [hn, units, hname]
    exact ⟨_, rfl⟩
  obtain ⟨us, hcsp⟩ := hcsp
  have hconv : convert Abi.linux (passView Abi.linux (.api a)).cspName = .throw .rangeError := by
    rw [hcsp]
    refine convert_big _ _ ⟨_, List.mem_cons_self, ?_⟩
    have : leVal [c, 0, d, 0] = c.toNat + 256 * (0 + 256 * (d.toNat + 256 * (0 + 256 * 0))) := rfl
    omega
  have hlh : a.header.length = 32 := by simp [CryptoApi.header, leBytes_length]
  have hf : (Rec.make filePassType a.data (.filePass (passView Abi.linux (.api a)))).fields Abi.linux fmt = .throw .rangeError := by
    have hapi : filePassApiFields Abi.linux a.data (passView Abi.linux (.api a)) 6 = .throw .rangeError := by
      unfold filePassApiFields
      rw [rdRange_of_at p6 (by rw [leBytes_length]), Res.bind_ok, rdRange_of_at p14 hlh.symm, Res.bind_ok, hconv]
      rfl
    show filePassFields Abi.linux a.data (passView Abi.linux (.api a)) = _
    unfold filePassFields
    rw [if_neg (show ¬ (passView Abi.linux (.api a)).wEncryptionType = 0 from Nat.one_ne_zero),
      if_pos (show (passView Abi.linux (.api a)).wEncryptionType = 1 from rfl)]
    dsimp only
    show (filePassApiFields Abi.linux a.data (passView Abi.linux (.api a)) 6 >>= fun l => Res.ok (_ ++ l)) = _
    rw [hapi]
    rfl
  unfold Rec.toJson Rec.toXml
  rw [hf]
  exact ⟨rfl, rfl⟩

/-- An encryption by the CryptoAPI: RC4 with 128 bits. -/
def sampleApi : CryptoApi :=
  { major := 2, cryptoApi := true, docProps := false, external := false, aes := false, unused := 0, algId := 0x6801, algIdHash := 0x8004,
    keySize := 128, provider := 1, reserved1 := 0, reserved2 := 0, csp := b!"Microsoft Enhanced Cryptographic Provider v1.0",
    salt := List.replicate 16 7, verifier := List.replicate 16 8, hash := List.replicate 20 9 }

example : sampleApi.Valid := by unfold CryptoApi.Valid; decide +kernel

/-- A workbook that is encrypted this way. -/
example : (ParseStream Abi.windows Fmt.zero 99 (stream [⟨bofType, [0, 6, 5, 0]⟩, ⟨0x00E1, [1]⟩] ++
      ((Pass.api sampleApi).record.bytes ++ [0xFF, 0xEE, 0x99, 0x01]))).2 = .ok () ∧
    (ParseStream Abi.windows Fmt.zero 99 (stream [⟨bofType, [0, 6, 5, 0]⟩, ⟨0x00E1, [1]⟩] ++
      ((Pass.api sampleApi).record.bytes ++ [0xFF, 0xEE, 0x99, 0x01]))).1.global = [0, 1, 2] := by decide +kernel

/-- An obfuscated workbook. -/
example : (ParseStream Abi.linux Fmt.zero 99 (stream [⟨bofType, [0, 6, 5, 0]⟩, ⟨0x00E1, [1]⟩] ++
      ((Pass.xor 0x1234 0x5678).record.bytes ++ [0xFF, 0xEE, 0x99, 0x01]))).2 = .ok () ∧
    (ParseStream Abi.linux Fmt.zero 99 (stream [⟨bofType, [0, 6, 5, 0]⟩, ⟨0x00E1, [1]⟩] ++
      ((Pass.xor 0x1234 0x5678).record.bytes ++ [0xFF, 0xEE, 0x99, 0x01]))).1.global = [0, 1, 2] := by decide +kernel

/-- C90 is false of a `FilePass` record too short for the method it names: it is not listed, and the walk goes on with
what follows. -/
theorem C90_short_wrong : ((ParseStream Abi.linux Fmt.zero 99 (stream [⟨bofType, [0, 6, 5, 0]⟩, ⟨filePassType, []⟩, ⟨0x00E1, [1]⟩] ++ [0])).1.master.map
    fun q => q.type) = [bofType, 0x00E1] := by decide +kernel

end Fileid.Props
