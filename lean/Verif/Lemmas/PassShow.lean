import Verif.Lemmas.WorkbookPass

/-!
# Lemmas about the report of the encryption of a workbook
-/

namespace Fileid.Report

open Common Spec Spec.Biff Spec.Report Excel ExcelTables

/-- From the members to the entry. -/
theorem entry_json {abi : Abi} {fmt : Fmt} {type : Nat} {data name : Bytes} {v : View} {l : List Field} {ms : List (Bytes × JVal)}
    (hn : GetRecordTypeStr type = name) (hl : (Rec.make type data v).fields abi fmt = .ok l) (hr : Pointwise FieldReads l ms) :
    ∃ t, (Rec.make type data v).toJson abi fmt = .ok t ∧
      JClosed t (.obj ([(b!"Type", .text name), (b!"Length", .nat data.length)] ++ ms)) := by
  refine ⟨objJson ((Rec.make type data v).baseFields ++ l), by unfold Rec.toJson; rw [hl]; rfl, ?_⟩
  have h1 : FieldReads (.text b!"Type" (GetRecordTypeStr type)) (b!"Type", .text name) := by
    rw [← hn]; exact text_reads rfl (clear_recordType _)
  exact obj_fields (.cons h1 (.cons (numF_reads rfl) hr))

theorem entry_xml' {abi : Abi} {fmt : Fmt} {type : Nat} {data name : Bytes} {v : View} {l : List Field} {vs : List XVal}
    (hn : GetRecordTypeStr type = name) (hl : (Rec.make type data v).fields abi fmt = .ok l) (hr : Pointwise FieldReadsX l vs) :
    ∃ t, (Rec.make type data v).toXml abi fmt = .ok t ∧
      XReads t [.elem b!"Record" ([.leaf b!"Type" name, .leaf b!"Length" (dec data.length)] ++ vs)] := by
  have h1 : FieldReadsX (.text b!"Type" (GetRecordTypeStr type)) (.leaf b!"Type" name) := by
    rw [← hn]; exact textX_reads rfl (clear_recordType _)
  have h2 : XReads (objXml ((Rec.make type data v).baseFields ++ l))
      ([.leaf b!"Type" name, .leaf b!"Length" (dec data.length)] ++ vs) :=
    objX_fields (.cons h1 (.cons (numFX_reads (by decide)) hr))
  have he : (Rec.make type data v).toXml abi fmt =
      .ok (elemText b!"Record" (objXml ((Rec.make type data v).baseFields ++ l))) := by
    unfold Rec.toXml
    rw [hl, Res.bind_ok]
    simp only [elemText, List.append_assoc, List.cons_append, List.nil_append]
  exact ⟨_, he, xreads_elem (by decide) h2⟩

theorem entry_xml {abi : Abi} {fmt : Fmt} {type : Nat} {data name : Bytes} {v : View} {l : List Field} {vs : List XVal}
    (hn : GetRecordTypeStr type = name) (hl : (Rec.make type data v).fields abi fmt = .ok l) (hr : Pointwise FieldReadsX l vs) :
    ∃ t, (Rec.make type data v).toXml abi fmt = .ok t ∧
      xmlDocument t = some (XVal.elem b!"Record" ([.leaf b!"Type" name, .leaf b!"Length" (dec data.length)] ++ vs)).events := by
  have h1 : FieldReadsX (.text b!"Type" (GetRecordTypeStr type)) (.leaf b!"Type" name) := by
    rw [← hn]; exact textX_reads rfl (clear_recordType _)
  have h2 : XReads (objXml ((Rec.make type data v).baseFields ++ l))
      ([.leaf b!"Type" name, .leaf b!"Length" (dec data.length)] ++ vs) :=
    objX_fields (.cons h1 (.cons (numFX_reads (by decide)) hr))
  have he : (Rec.make type data v).toXml abi fmt =
      .ok (elemText b!"Record" (objXml ((Rec.make type data v).baseFields ++ l))) := by
    unfold Rec.toXml
    rw [hl, Res.bind_ok]
    simp only [elemText, List.append_assoc, List.cons_append, List.nil_append]
  exact ⟨_, he, xmlDocument_elem (by decide) h2⟩

theorem pass_name : GetRecordTypeStr filePassType = b!"FilePass" := by decide +kernel

theorem xorKey_reads (k : Nat) : FieldReads (.raw (b!"\"XorKey\": " ++ dec k) (b!"<XorKey>" ++ dec k ++ b!"</XorKey>"))
    (b!"XorKey", .nat k) :=
  ⟨{ key := b!"XorKey", mid := b!": ", val := dec k },
    by simp only [Field.toJson, JMember.text, List.cons_append, List.nil_append], Asf.member_gap rfl (jreads_nat _)⟩

theorem xorKeyX_reads (k : Nat) : FieldReadsX (.raw (b!"\"XorKey\": " ++ dec k) (b!"<XorKey>" ++ dec k ++ b!"</XorKey>"))
    (.leaf b!"XorKey" (dec k)) :=
  XReads.of (xreads_leaf (n := b!"XorKey") (by decide) (clear_dec k).xml)
    (by simp only [Field.toXml, elemText, List.append_assoc, List.cons_append, List.nil_append]) rfl

def versionField (a b : Nat) : Field :=
  .raw (b!"\"RC4Version\": {\"Major\":" ++ dec a ++ b!",\"Minor\":" ++ dec b ++ b!"}")
    (b!"<RC4Version><Major>" ++ dec a ++ b!"</Major><Minor>" ++ dec b ++ b!"</Minor></RC4Version>")

theorem version_reads (a b : Nat) : FieldReads (versionField a b)
    (b!"RC4Version", .obj (factsJ [(b!"Major", .num a), (b!"Minor", .num b)])) := by
  have := jclosed_obj (ms := [{ key := b!"Major", val := dec a }, { key := b!"Minor", val := dec b }])
    (.cons (Asf.member_nat _ rfl) (.cons (Asf.member_nat _ rfl) .nil))
  refine ⟨{ key := b!"RC4Version", mid := b!": ", val := _ }, ?_, Asf.member_gap rfl this.reads⟩
  simp only [versionField, Field.toJson, objText, membersText, JMember.text, List.append_assoc, List.cons_append, List.nil_append]

theorem versionX_reads (a b : Nat) : FieldReadsX (versionField a b)
    (.elem b!"RC4Version" (factsX [(b!"Major", .num a), (b!"Minor", .num b)])) := by
  refine XReads.of (xreads_elem (n := b!"RC4Version") (by decide)
    ((xreads_leaf (n := b!"Major") (by decide) (clear_dec a).xml).append
     (xreads_leaf (n := b!"Minor") (by decide) (clear_dec b).xml))) ?_ rfl
  simp only [versionField, Field.toXml, elemText, List.append_assoc, List.cons_append, List.nil_append]

theorem hex_reads {k : Bytes} (hk : jsonPlain k = true) (b : Bytes) : FieldReads (.text k (bin2hex b)) (k, .text (Asf.hexText b)) := by
  rw [← Fileid.Asf.bin2hex_hexText]; exact text_reads hk (clear_bin2hex _)

theorem hexX_reads {k : Bytes} (hk : isName k = true) (b : Bytes) : FieldReadsX (.text k (bin2hex b)) (.leaf k (Asf.hexText b)) := by
  rw [← Fileid.Asf.bin2hex_hexText]; exact textX_reads hk (clear_bin2hex _)

theorem pass_shown (abi : Abi) (fmt : Fmt) {p : Pass} (hapi : ∀ a, p ≠ .api a) : ∃ json xml,
    (Rec.make p.record.type p.record.data (.filePass (passView abi p))).toJson abi fmt = .ok json ∧
      jsonDocument json = some p.json.events ∧
    (Rec.make p.record.type p.record.data (.filePass (passView abi p))).toXml abi fmt = .ok xml ∧
      xmlDocument xml = some p.xml.events := by
  cases p with
  | api a => exact absurd rfl (hapi a)
  | xor k v =>
    have hf : (Rec.make filePassType (Pass.xor k v).record.data (.filePass (passView abi (.xor k v)))).fields abi fmt =
        .ok [ .text b!"EncryptionType" b!"XOR",
          .raw (b!"\"XorKey\": " ++ dec k) (b!"<XorKey>" ++ dec k ++ b!"</XorKey>"), numF b!"XorVerification" v] := rfl
    obtain ⟨j, h1, h2⟩ := entry_json (ms := (Pass.xor k v).members) pass_name hf
      (.cons (text_reads rfl (clear_lit _ (by decide))) (.cons (xorKey_reads k) (.cons (numF_reads rfl) .nil)))
    obtain ⟨x, h3, h4⟩ := entry_xml (vs := (Pass.xor k v).elements) pass_name hf
      (.cons (textX_reads (by decide) (clear_lit _ (by decide))) (.cons (xorKeyX_reads k) (.cons (numFX_reads (by decide)) .nil)))
    exact ⟨j, x, h1, h2.document, h3, h4⟩
  | rc4 s v h =>
    have hf : (Rec.make filePassType (Pass.rc4 s v h).record.data (.filePass (passView abi (.rc4 s v h)))).fields abi fmt =
        .ok ([ .text b!"EncryptionType" b!"RC4", versionField 1 1,
          .text b!"Salt" (bin2hex s), .text b!"EncryptedVerifier" (bin2hex v), .text b!"EncryptedVerifierHash" (bin2hex h)]) := rfl
    obtain ⟨j, h1, h2⟩ := entry_json (ms := (Pass.rc4 s v h).members) pass_name hf
      (.cons (text_reads rfl (clear_lit _ (by decide))) (.cons (version_reads 1 1) (.cons (hex_reads rfl s)
        (.cons (hex_reads rfl v) (.cons (hex_reads rfl h) .nil)))))
    obtain ⟨x, h3, h4⟩ := entry_xml (vs := (Pass.rc4 s v h).elements) pass_name hf
      (.cons (textX_reads (by decide) (clear_lit _ (by decide))) (.cons (versionX_reads 1 1) (.cons (hexX_reads (by decide) s)
        (.cons (hexX_reads (by decide) v) (.cons (hexX_reads (by decide) h) .nil)))))
    exact ⟨j, x, h1, h2.document, h3, h4⟩

/-! ## The CryptoAPI -/

theorem flags_lt {a : CryptoApi} (h : a.unused < 2 ^ 26) : ∀ f ∈ a.flags, f.2 < 2 ^ f.1 := by
  intro f hf
  simp only [CryptoApi.flags, List.mem_cons, List.not_mem_nil, or_false] at hf
  rcases hf with rfl | rfl | rfl | rfl | rfl | rfl | rfl
  · decide
  · decide
  · exact flag_lt _
  · exact flag_lt _
  · exact flag_lt _
  · exact flag_lt _
  · exact h

/-- The members for the flags. -/
def flagList (a : CryptoApi) : List Field :=
  [ numF b!"Reserved1" 0, numF b!"Reserved2" 0, numF b!"fCryptoAPI" a.cryptoApi.toNat,
    numF b!"fDocProps" a.docProps.toNat, numF b!"fExternal" a.external.toNat, numF b!"fAES" a.aes.toNat,
    numF b!"Unused" a.unused]

theorem flagsFields_eq {a : CryptoApi} (h : a.unused < 2 ^ 26) : flagsFields (packed a.flags) = flagList a := by
  have hl := flags_lt h
  have hb : ∀ (x y : List (Nat × Nat)) (w v k : Nat), a.flags = x ++ (w, v) :: y → widths x = k → bits (packed a.flags) k w = v := by
    intro x y w v k he hk
    rw [he] at hl ⊢
    rw [← hk]
    exact bits_packed (fun f hf => hl f (by simp [hf])) (hl (w, v) (by simp))
  unfold flagsFields flagList
  rw [hb [] _ 1 0 0 rfl rfl, hb [(1, 0)] _ 1 0 1 rfl rfl, hb [(1, 0), (1, 0)] _ 1 a.cryptoApi.toNat 2 rfl rfl,
    hb [(1, 0), (1, 0), flag a.cryptoApi] _ 1 a.docProps.toNat 3 rfl rfl,
    hb [(1, 0), (1, 0), flag a.cryptoApi, flag a.docProps] _ 1 a.external.toNat 4 rfl rfl,
    hb [(1, 0), (1, 0), flag a.cryptoApi, flag a.docProps, flag a.external] _ 1 a.aes.toNat 5 rfl rfl,
    hb [(1, 0), (1, 0), flag a.cryptoApi, flag a.docProps, flag a.external, flag a.aes] [] 26 a.unused 6 rfl rfl]

theorem flags_small {a : CryptoApi} (h : a.unused < 2 ^ 26) : packed a.flags < 2 ^ 32 := packed_lt (flags_lt h)

/-- The members for the header. -/
def headerList (a : CryptoApi) : List Field :=
  [ nested b!"Flags" (flagList a), numF b!"SizeExtra" 0, numF b!"AlgID" a.algId, numF b!"AlgIDHash" a.algIdHash,
    numF b!"KeySize" a.keySize, numF b!"ProviderType" a.provider, numF b!"Reserved1" a.reserved1, numF b!"Reserved2" a.reserved1]

theorem four_at {d : Bytes} {i n : Nat} (h : At d i (leBytes 4 n)) (hn : n < 2 ^ 32) : leVal ((d.drop i).take 4) = n := by
  have := h.eq_take_drop
  rw [leBytes_length] at this
  rw [this, leVal_leBytes, Nat.mod_eq_of_lt (by omega)]

theorem encHeader_eq {a : CryptoApi} (hp : a.Valid) : encHeaderFields a.header = headerList a := by
  obtain ⟨_, hu, h1, h2, h3, h4, h5, _⟩ := hp
  have h0 : At a.header 0 (leBytes 4 (packed a.flags) ++ (leBytes 4 0 ++ (leBytes 4 a.algId ++ (leBytes 4 a.algIdHash ++
      (leBytes 4 a.keySize ++ (leBytes 4 a.provider ++ (leBytes 4 a.reserved1 ++ leBytes 4 a.reserved2))))))) :=
    ⟨[], [], by simp [CryptoApi.header], rfl⟩
  obtain ⟨p0, h⟩ := at_append h0
  obtain ⟨p4, h⟩ := at_append h
  obtain ⟨p8, h⟩ := at_append h
  obtain ⟨p12, h⟩ := at_append h
  obtain ⟨p16, h⟩ := at_append h
  obtain ⟨p20, h⟩ := at_append h
  obtain ⟨p24, h⟩ := at_append h
  simp only [leBytes_length, Nat.zero_add, Nat.reduceAdd] at p4 p8 p12 p16 p20 p24
  unfold encHeaderFields headerList
  dsimp only
  rw [four_at p0 (flags_small hu), four_at p4 (by decide), four_at p8 h1, four_at p12 h2, four_at p16 h3, four_at p20 h4,
    four_at p24 h5, flagsFields_eq hu]

def verifierList (a : CryptoApi) : List Field :=
  [ numF b!"SaltSize" 16, .text b!"Salt" (bin2hex a.salt), .text b!"EncryptedVerifier" (bin2hex a.verifier),
    numF b!"VerifierHashSize" 20]

theorem verifier_eq {a : CryptoApi} (hs : a.salt.length = 16) (hv : a.verifier.length = 16) :
    verifierFields (leBytes 4 16 ++ a.salt ++ a.verifier ++ leBytes 4 20) = verifierList a := by
  have h0 : At (leBytes 4 16 ++ a.salt ++ a.verifier ++ leBytes 4 20) 0 (leBytes 4 16 ++ (a.salt ++ (a.verifier ++ leBytes 4 20))) :=
    ⟨[], [], by simp, rfl⟩
  generalize leBytes 4 16 ++ a.salt ++ a.verifier ++ leBytes 4 20 = d at h0
  obtain ⟨p0, h⟩ := at_append h0
  obtain ⟨p4, h⟩ := at_append h
  obtain ⟨p20, p36⟩ := at_append h
  simp only [leBytes_length, hs, hv, Nat.zero_add, Nat.reduceAdd] at p4 p20 p36
  have e4 := p4.eq_take_drop
  have e20 := p20.eq_take_drop
  rw [hs] at e4
  rw [hv] at e20
  have e0 := four_at p0 (by decide)
  rw [List.drop_zero] at e0
  unfold verifierFields verifierList
  rw [e0, e4, e20, four_at p36 (by decide)]

theorem name_length (a : CryptoApi) : a.name.length = 2 * (a.csp.length + 1) := by
  unfold CryptoApi.name
  rw [List.length_append, wide_length]
  simp; omega

theorem name_units (a : CryptoApi) : units 2 (a.csp.length + 1) a.name = a.csp.map UInt8.toNat ++ [0] := by
  unfold CryptoApi.name
  induction a.csp with
  | nil => rfl
  | cons c s ih =>
    rw [List.flatMap_cons, List.length_cons, units]
    show leVal [c, 0] :: units 2 (s.length + 1) _ = _
    rw [List.map_cons, List.cons_append]
    congr 1

def apiFields (a : CryptoApi) : List Field :=
  [ .text b!"EncryptionType" b!"RC4", versionField a.major 2, nested b!"Flags" (flagList a),
    nested b!"EncryptionHeader" (headerList a), .esc b!"CSPName" a.csp, nested b!"EncryptionVerifierHeader" (verifierList a),
    .text b!"EncryptedVerifierHash" (bin2hex (a.data.take 20))]

theorem api_fields {abi : Abi} (fmt : Fmt) {a : CryptoApi} (hw : abi.wcharBytes = 2) (hp : a.Valid) :
    (Rec.make filePassType a.data (.filePass (passView abi (.api a)))).fields abi fmt = .ok (apiFields a) := by
  have hp' := hp
  obtain ⟨_, hu, _, _, _, _, _, _, hc, hs, hv, hh, hl⟩ := hp
  obtain ⟨_, _, _, p6, _, p14, _, _, pv⟩ := api_parts a hs hv
  have hcsp : (passView abi (.api a)).cspName = a.csp.map UInt8.toNat ++ [0] := by
    show units abi.wcharBytes (a.name.length / abi.wcharBytes) a.name = _
    rw [hw, name_length, Nat.mul_div_cancel_left _ (by decide), name_units]
  have hconv : convert abi (passView abi (.api a)).cspName = .ok (a.csp ++ [0]) := by
    rw [hcsp, Propset.convert_ascii]
    · rw [List.map_append, Propset.ofNat_toNat_map]; rfl
    · intro u hu
      simp only [List.mem_append, List.mem_map, List.mem_singleton] at hu
      rcases hu with ⟨c, hc', rfl⟩ | rfl
      · exact (hc c hc').2
      · decide
  have hnul : erasenulls (a.csp ++ [0]) = a.csp := by
    have h0 : (0 : UInt8) ∉ a.csp := fun h => by have := (hc 0 h).1; simp at this
    have := Propset.erasenulls_id h0
    rw [Props.C14_erasenulls] at this ⊢
    rw [List.filter_append, this]
    simp
  have hlh : a.header.length = 32 := by simp [CryptoApi.header, leBytes_length]
  have hapi : filePassApiFields abi a.data (passView abi (.api a)) 6 = .ok
      [ nested b!"Flags" (flagList a), nested b!"EncryptionHeader" (headerList a), .esc b!"CSPName" a.csp,
        nested b!"EncryptionVerifierHeader" (verifierList a), .text b!"EncryptedVerifierHash" (bin2hex (a.data.take 20))] := by
    unfold filePassApiFields
    rw [rdRange_of_at p6 (by rw [leBytes_length]), Res.bind_ok, rdRange_of_at p14 hlh.symm, Res.bind_ok, hconv, Res.bind_ok,
      show (passView abi (.api a)).verifier = 46 + a.name.length from rfl,
      rdRange_of_at pv (by simp [leBytes_length, hs, hv]), Res.bind_ok, leVal_leBytes, Nat.mod_eq_of_lt (by exact flags_small hu),
      flagsFields_eq hu, encHeader_eq hp', verifier_eq hs hv, hnul]
    rfl
  show filePassFields abi a.data (passView abi (.api a)) = _
  unfold filePassFields
  rw [if_neg (show ¬ (passView abi (.api a)).wEncryptionType = 0 from Nat.one_ne_zero), if_pos (show (passView abi (.api a)).wEncryptionType = 1 from rfl)]
  dsimp only
  show (filePassApiFields abi a.data (passView abi (.api a)) 6 >>= fun l => Res.ok (_ ++ l)) = _
  rw [hapi]
  rfl

/-- What the program says of an encryption by the CryptoAPI: for the verifier's hash the first bytes of the record, and
for the second reserved number the first. -/
def misread (a : CryptoApi) : CryptoApi := { a with hash := a.data.take 20, reserved2 := a.reserved1 }

theorem misread_length {a : CryptoApi} (hp : a.Valid) : (misread a).data.length = a.data.length := by
  obtain ⟨_, _, _, _, _, _, _, _, _, hs, hv, hh, _⟩ := hp
  have hl := api_length a hs hv hh
  rw [hl, api_length (misread a) hs hv (by show (a.data.take 20).length = 20; rw [List.length_take]; omega)]
  rfl

theorem flag_facts (a : CryptoApi) : Pointwise FieldReads (flagList a) (factsJ a.flagFacts) := by
  unfold flagList
  show Pointwise FieldReads _ [_, _, _, _, _, _, _]
  read_fields

theorem flag_elems (a : CryptoApi) : Pointwise FieldReadsX (flagList a) (factsX a.flagFacts) := by
  unfold flagList
  show Pointwise FieldReadsX _ [_, _, _, _, _, _, _]
  read_elems

theorem header_facts (a : CryptoApi) : Pointwise FieldReads (headerList a)
    ((b!"Flags", .obj (factsJ (misread a).flagFacts)) :: factsJ (misread a).headerFacts) := by
  unfold headerList
  refine .cons (nested_reads rfl (flag_facts a)) ?_
  show Pointwise FieldReads _ [_, _, _, _, _, _, _]
  read_fields

theorem header_elems (a : CryptoApi) : Pointwise FieldReadsX (headerList a)
    (.elem b!"Flags" (factsX (misread a).flagFacts) :: factsX (misread a).headerFacts) := by
  unfold headerList
  refine .cons (nestedX_reads (by decide) (flag_elems a)) ?_
  show Pointwise FieldReadsX _ [_, _, _, _, _, _, _]
  read_elems

theorem verifier_facts (a : CryptoApi) : Pointwise FieldReads (verifierList a) (factsJ (misread a).verifierFacts) :=
  .cons (numF_reads rfl) (.cons (hex_reads rfl _) (.cons (hex_reads rfl _) (.cons (numF_reads rfl) .nil)))

theorem verifier_elems (a : CryptoApi) : Pointwise FieldReadsX (verifierList a) (factsX (misread a).verifierFacts) :=
  .cons (numFX_reads (by decide)) (.cons (hexX_reads (by decide) _) (.cons (hexX_reads (by decide) _) (.cons (numFX_reads (by decide)) .nil)))

theorem api_shown {abi : Abi} (fmt : Fmt) {a : CryptoApi} (hw : abi.wcharBytes = 2) (hp : a.Valid) : ∃ json,
    (Rec.make filePassType a.data (.filePass (passView abi (.api a)))).toJson abi fmt = .ok json ∧
      jsonDocument json = some (Pass.api (misread a)).json.events ∧
    (LegalText a.csp ∧ 60 ∉ a.csp ∧ 62 ∉ a.csp → ∃ xml,
      (Rec.make filePassType a.data (.filePass (passView abi (.api a)))).toXml abi fmt = .ok xml ∧
        xmlDocument xml = some (Pass.api (misread a)).xml.events) := by
  have hf := api_fields fmt hw hp
  have h0 : (0 : UInt8) ∉ a.csp := fun h => by have := (hp.2.2.2.2.2.2.2.2.1 0 h).1; simp at this
  obtain ⟨j, h1, h2⟩ := entry_json (ms := (Pass.api (misread a)).members) pass_name hf
    (.cons (text_reads rfl (clear_lit _ (by decide))) (.cons (version_reads _ 2) (.cons (nested_reads rfl (flag_facts a))
      (.cons (nested_reads rfl (header_facts a)) (.cons (esc_text rfl h0) (.cons (nested_reads rfl (verifier_facts a))
        (.cons (hex_reads rfl _) .nil)))))))
  have hl : (Pass.api (misread a)).record.data.length = a.data.length := misread_length hp
  refine ⟨j, h1, ?_, fun hx => ?_⟩
  · unfold Pass.json
    rw [hl]
    exact h2.document
  · obtain ⟨x, h3, h4⟩ := entry_xml (vs := (Pass.api (misread a)).elements) pass_name hf
      (.cons (textX_reads (by decide) (clear_lit _ (by decide))) (.cons (versionX_reads _ 2) (.cons (nestedX_reads (by decide) (flag_elems a))
        (.cons (nestedX_reads (by decide) (header_elems a)) (.cons (escX_leaf (by decide) hx) (.cons (nestedX_reads (by decide) (verifier_elems a))
          (.cons (hexX_reads (by decide) _) .nil)))))))
    refine ⟨x, h3, ?_⟩
    unfold Pass.xml
    rw [hl]
    exact h4

end Fileid.Report
