import Verif.Spec.RecordsMore
import Verif.Lemmas.PassShow
import Verif.Lemmas.RecordsSure

/-!
# Lemmas about further records of a workbook
-/

namespace Fileid.Excel

open Common Spec Spec.Biff ExcelTables

/-- The walk through a workbook stream that ends without an error lists a record that is parsed as `v`, behind the
records listed for those before it. -/
theorem record_listed {abi : Abi} {fmt : Fmt} {fuel : Nat} {b0 : Record} {before after : List Record} {r : Record} {v : View} {tail : Bytes} {e : Eng}
    (hv : ∀ x ∈ b0 :: before ++ r :: after, x.Valid ∧ x.type ≠ filePassType)
    (hb : b0.type ∈ bofTypes ∧ 2 ≤ b0.data.length ∧ bofVersion b0.data = 0x0600)
    (hlen : (stream (b0 :: before ++ r :: after) ++ tail).length + 4 ≤ 2 ^ 32) (ht : 0 < tail.length ∧ tail.length ≤ 4)
    (hp : ∀ e : Eng, e.version = 1536 → ParseRecord abi fmt fuel e r.type r.data = .ok (some (e.master, Rec.make r.type r.data v)))
    (hnc : ∀ x ∈ after.takeWhile (·.type ∈ interpreted), x.type ≠ continueType)
    (h : ParseStream abi fmt fuel (stream (b0 :: before ++ r :: after) ++ tail) = (e, .ok ())) :
    ∃ a b kept, e.master = a ++ Rec.make r.type r.data v :: b ∧ kept.Sublist (b0 :: before) ∧
      ((b0 :: before).filter fun r => r.type ∉ interpreted).Sublist kept ∧ kept.length = a.length := by
  unfold ParseStream at h
  obtain ⟨k, hk, hall⟩ := walk_inv hlen ht _ (fun r hr => (hv r hr).1) (fun r hr => (hv r hr).2) fuel {} e (.ok ()) [] rfl rfl h
  rw [hall rfl, List.take_length, doRecords_append] at hk
  obtain ⟨e1, h1, hk⟩ := bind_ok_inv hk
  rw [doRecords] at hk
  obtain ⟨e2, h2, h3⟩ := bind_ok_inv hk
  obtain ⟨kept, k1, k2, k3⟩ := doRecords_shows (b0 :: before) {} e1 [] .nil h1
  have hparse : ParseRecord abi fmt fuel { e1 with index := u32 (e1.index + 4) } r.type r.data =
      .ok (some (e1.master, Rec.make r.type r.data v)) := by
    obtain ⟨hb1, hb2, hb3⟩ := hb
    rw [doRecords] at h1
    obtain ⟨e0, h0, h1⟩ := bind_ok_inv h1
    obtain ⟨e0', h0', p1, i1⟩ := first_step (abi := abi) (fmt := fmt) (fuel := fuel)
      (max := (stream (b0 :: before ++ r :: after) ++ tail).length) hb1 hb2 (hv b0 (by simp)).1.2
    rw [h0'] at h0
    injection h0 with h0
    subst h0
    have hl : b0.bytes.length + (stream before).length < 2 ^ 32 := by
      rw [List.cons_append, stream_cons, stream_append] at hlen
      simp only [List.length_append] at hlen
      omega
    obtain ⟨v1, _, _⟩ := doRecords_version before (fun r hr => (hv r (by simp [hr])).2) e0' e1 p1.moved (by omega) h1
    exact hp _ (show e1.version = 1536 by rw [v1, p1.version, hb3])
  rcases doRecord_inv h2 with ⟨_, hp⟩ | ⟨m, v, _, _, hp, _, _, _, hm1, _⟩
  · exfalso
    rw [hparse] at hp
    cases hp
  · rw [hparse] at hp
    injection hp with hp
    injection hp with hp
    injection hp with hp1 hp2
    rw [← hp1, ← hp2] at hm1
    obtain ⟨a, b, hab, hlen'⟩ := doRecords_keeps after e2 e e1.master _ hnc hm1 h3
    exact ⟨a, b, kept, hab, k1, k2, by rw [hlen', Report.Pointwise_length k3]; rfl⟩

/-! ## Numbers read with their bytes swapped -/

theorem ushort_swapped {data : Bytes} {off n : Nat} (h : At data off (leBytes 2 n)) (hn : n < 2 ^ 16) (hb : data.length < 2 ^ 32) :
    ReadUShort data data.length off true = .ok (swapped n) := by
  have hl := h.length_le
  rw [leBytes_length] at hl
  obtain ⟨h0, h1⟩ := at_cons h
  obtain ⟨h1, -⟩ := at_cons h1
  unfold ReadUShort
  rw [show u32 (off + 1) = off + 1 from Nat.mod_eq_of_lt (by omega), if_neg (by omega), if_pos rfl, h0, h1, Res.bind_ok, Res.bind_ok, or16]
  simp only [UInt8.toNat_ofNat']
  unfold swapped u16
  rw [show n % 256 % 2 ^ 8 = n % 256 by omega, show n / 256 % 256 % 2 ^ 8 = n / 256 by omega]
  congr 1
  omega

theorem uint_swapped {data : Bytes} {off m n : Nat} (h : At data off (leBytes 2 m ++ leBytes 2 n)) (hn : n < 2 ^ 16) (hb : data.length < 2 ^ 32) :
    ∃ v, ReadUInt data data.length off = .ok v ∧ u16 v = swapped n := by
  have hl := h.length_le
  rw [List.length_append, leBytes_length, leBytes_length] at hl
  obtain ⟨h0, h1⟩ := at_cons h
  obtain ⟨h1, h2⟩ := at_cons h1
  obtain ⟨h2, h3⟩ := at_cons h2
  obtain ⟨h3, -⟩ := at_cons h3
  unfold ReadUInt
  rw [show u32 (off + 1) = off + 1 from Nat.mod_eq_of_lt (by omega), show u32 (off + 2) = off + 1 + 1 from Nat.mod_eq_of_lt (by omega),
    show u32 (off + 3) = off + 1 + 1 + 1 from Nat.mod_eq_of_lt (by omega), if_neg (by omega), h0, h1, h2, h3,
    Res.bind_ok, Res.bind_ok, Res.bind_ok, Res.bind_ok, if_neg (by decide), or32]
  refine ⟨_, rfl, ?_⟩
  simp only [UInt8.toNat_ofNat']
  unfold swapped u16 u32
  rw [show n % 256 % 2 ^ 8 = n % 256 by omega, show n / 256 % 256 % 2 ^ 8 = n / 256 by omega]
  generalize m % 256 % 2 ^ 8 = a
  generalize m / 256 % 256 % 2 ^ 8 = b
  omega

end Fileid.Excel

namespace Fileid.Report

open Common Spec Spec.Biff Spec.Report Excel ExcelTables Props

theorem at_join {c : Bytes} {o : Nat} {xs ys : Bytes} (h1 : At c o xs) (h2 : At c (o + xs.length) ys) : At c o (xs ++ ys) := by
  obtain ⟨p, q, rfl, rfl⟩ := h1
  obtain ⟨p', q', e, hp⟩ := h2
  have h := congrArg (List.drop (p.length + xs.length)) e
  rw [List.drop_left' (by simp), List.append_assoc, List.drop_left' hp] at h
  exact ⟨p, q', by rw [h]; simp, rfl⟩

/-! ## What is shown -/

theorem says_json {l : List Field} {ps : List (Bytes × Fact)} (h : Pointwise Says l ps) : Pointwise FieldReads l (factsJ ps) := by
  induction h with
  | nil => exact .nil
  | cons h _ ih => exact .cons h.1 ih

theorem says_xml {l : List Field} {ps : List (Bytes × Fact)} (h : Pointwise Says l ps) : Pointwise FieldReadsX l (factsX ps) := by
  induction h with
  | nil => exact .nil
  | cons h _ ih => exact .cons h.2 ih

theorem text_says {k s : Bytes} (hk : jsonPlain k = true) (hk' : isName k = true) (hs : Clear s) : Says (.text k s) (k, .text s) :=
  ⟨text_reads hk hs, textX_reads hk' hs⟩

theorem color_says {k : Bytes} (hk : jsonPlain k = true) (hk' : isName k = true) (r g b x : UInt8) :
    Says (rgbField k [r, g, b, x]) (k, .color r.toNat g.toNat b.toNat x.toNat) := by
  refine ⟨raw_reads hk rfl (obj_fields (.cons (numF_reads rfl) (.cons (numF_reads rfl) (.cons (numF_reads rfl)
    (.cons (numF_reads rfl) .nil))))).reads, ?_⟩
  have := xreads_elem hk' (xreads_elem (n := b!"LongRGB") (by decide) (objX_fields (l := [
    numF b!"red" r.toNat, numF b!"green" g.toNat, numF b!"blue" b.toNat,
    numF b!"reserved" x.toNat]) (.cons (numFX_reads (by decide)) (.cons (numFX_reads (by decide))
    (.cons (numFX_reads (by decide)) (.cons (numFX_reads (by decide)) .nil))))))
  refine XReads.of this ?_ rfl
  simp only [rgbField, Field.toXml, elemText, List.append_assoc, List.cons_append, List.nil_append]
  rfl

theorem nums_says (ixs : List Nat) :
    Says (.raw (b!"\"rgixfe\":[" ++ vectorJoin (ixs.map dec) b!"," ++ b!"]")
      (b!"<rgixfe>" ++ (ixs.map (fun x => b!"<ixfe>" ++ dec x ++ b!"</ixfe>")).flatten ++ b!"</rgixfe>"))
      (b!"rgixfe", .nums b!"ixfe" ixs) := by
  constructor
  · have harr : Pointwise JReads (ixs.map dec) (ixs.map .nat) := pointwise_map fun n _ => jreads_nat n
    refine raw_reads rfl ?_ (arr_join harr).reads
    simp only [List.append_assoc, List.cons_append, List.nil_append]
  · have harr : XReads (ixs.map (fun x => b!"<ixfe>" ++ dec x ++ b!"</ixfe>")).flatten (ixs.map (numX b!"ixfe")) :=
      xreads_flatten (pointwise_map fun n _ => XReads.of (xreads_leaf (n := b!"ixfe") (by decide) (clear_dec n).xml)
        (by simp only [elemText, List.append_assoc, List.cons_append, List.nil_append]) rfl)
    refine XReads.of (xreads_elem (n := b!"rgixfe") (by decide) harr) ?_ rfl
    simp only [Field.toXml, elemText, List.append_assoc, List.cons_append, List.nil_append]

/-- Prove that members state their facts, one after the other. -/
macro "say_fields" : tactic =>
  `(tactic| repeat first
    | exact Pointwise.nil
    | (apply Pointwise.cons
       first
       | exact numF_says rfl rfl (by assumption)
       | exact numF_says rfl rfl (by with_reducible rfl)
       | exact color_says rfl rfl _ _ _ _))

/-- A bit field in the lowest byte. -/
theorem byte_flags {a b : List (Nat × Nat)} {l : List (Nat × Nat)} {w v k : Nat} (hl : l = a ++ (w, v) :: b)
    (ha : ∀ f ∈ a, f.2 < 2 ^ f.1) (hv : v < 2 ^ w) (hk : k = widths a) (h8 : k + w ≤ 8) :
    bits (UInt8.ofNat (packed l)).toNat k w = v := by
  rw [UInt8.toNat_ofNat']
  subst hl hk
  rw [bits_mod h8, bits_packed ha hv]

theorem row_shown {r : Row} (h : r.Valid) : ∃ v, mkRow r.data = .ok v ∧ ∀ abi fmt, ∃ l facts,
    (Rec.make 0x0208 r.data v).fields abi fmt = .ok l ∧ Pointwise Says l facts ∧ Other.Shown (.row r) facts := by
  obtain ⟨h1, h2, h3, h4, h5, h6, h7⟩ := h
  have hs : At r.data 0 (leBytes 2 r.row ++ leBytes 2 r.first ++ leBytes 2 r.last ++ leBytes 2 r.height ++ leBytes 2 0 ++ leBytes 2 r.unused ++
    [UInt8.ofNat (packed r.flags), 1] ++ leBytes 2 (packed r.style)) := Asf.at_self _
  have hl : r.data.length = 16 := by simp [Row.data, leBytes_length]
  have hfl : packed r.flags < 2 ^ 8 := packed_two _ 8 (by unfold Row.flags; fits) rfl
  have hst : packed r.style < 2 ^ 16 := packed_two _ 16 (by unfold Row.style; fits) rfl
  obtain ⟨q, a14⟩ := at_append hs
  obtain ⟨q, a12⟩ := at_append q
  obtain ⟨q, a10⟩ := at_append q
  obtain ⟨q, a8⟩ := at_append q
  obtain ⟨q, a6⟩ := at_append q
  obtain ⟨q, a4⟩ := at_append q
  obtain ⟨a0, a2⟩ := at_append q
  simp only [List.length_append, leBytes_length, List.length_cons, List.length_nil, Nat.zero_add, Nat.reduceAdd] at a2 a4 a6 a8 a10 a12 a14
  have hw : [UInt8.ofNat (packed r.flags), 1] = leBytes 2 (packed r.flags + 256) := by
    simp only [leBytes]
    rw [show (packed r.flags + 256) % 256 = packed r.flags by omega, show (packed r.flags + 256) / 256 % 256 = 1 by omega]
    rfl
  have join : ∀ {i : Nat} {x y : Bytes}, x.length = 2 → At r.data i x → At r.data (i + 2) y → At r.data i (x ++ y) := by
    intro i x y hx h1 h2
    exact at_join h1 (by rw [hx]; exact h2)
  obtain ⟨v2, r2, e2⟩ := uint_swapped (join (leBytes_length _ _) a2 a4) h3 (by omega)
  obtain ⟨v4, r4, e4⟩ := uint_swapped (join (leBytes_length _ _) a4 a6) h4 (by omega)
  obtain ⟨v6, r6, e6⟩ := uint_swapped (join (leBytes_length _ _) a6 a8) (by omega) (by omega)
  obtain ⟨v8, r8, e8⟩ := uint_swapped (join (leBytes_length _ _) a8 a10) h5 (by omega)
  obtain ⟨v10, r10, e10⟩ := uint_swapped (join (leBytes_length _ _) a10 (hw ▸ a12)) (by omega) (by omega)
  obtain ⟨b12, c13⟩ := at_cons a12
  obtain ⟨b13, -⟩ := at_cons c13
  have b15 : rd r.data 15 = .ok (UInt8.ofNat (packed r.style / 256 % 256)) := by
    obtain ⟨_, q⟩ := at_cons a14
    exact (at_cons q).1
  refine ⟨.row r.row (swapped r.last) (swapped r.height) (swapped 0) (swapped r.unused) (swapped (packed r.flags + 256))
    (UInt8.ofNat (packed r.flags)) 1 (packed r.style / 16) (UInt8.ofNat (packed r.style / 256 % 256)), ?_, fun abi fmt => ⟨_, _, rfl, ?_, .row⟩⟩
  · unfold mkRow
    dsimp only
    rw [Asf.ushort_at a0 h1 (by omega), r2, r4, r6, r8, r10, b12, b13, b15, Asf.ushort_at a14 hst (by omega), ← e2, ← e4, ← e6, ← e8, ← e10]
    rfl
  · have f0 : bits (UInt8.ofNat (packed r.flags)).toNat 0 3 = r.level :=
      byte_flags (a := []) (b := r.flags.drop 1) rfl (by simp) h6 rfl (by decide)
    have f3 : bits (UInt8.ofNat (packed r.flags)).toNat 3 1 = 0 :=
      byte_flags (a := [(3, r.level)]) (b := r.flags.drop 2) rfl (by fits) (by decide) rfl (by decide)
    have f4 : bits (UInt8.ofNat (packed r.flags)).toNat 4 1 = r.collapsed.toNat :=
      byte_flags (a := [(3, r.level), (1, 0)]) (b := r.flags.drop 3) rfl (by fits) (toNat_lt _) rfl (by decide)
    have f5 : bits (UInt8.ofNat (packed r.flags)).toNat 5 1 = r.hidden.toNat :=
      byte_flags (a := [(3, r.level), (1, 0), flag r.collapsed]) (b := r.flags.drop 4) rfl (by fits) (toNat_lt _) rfl (by decide)
    have f6 : bits (UInt8.ofNat (packed r.flags)).toNat 6 1 = r.manual.toNat :=
      byte_flags (a := [(3, r.level), (1, 0), flag r.collapsed, flag r.hidden]) (b := r.flags.drop 5) rfl (by fits) (toNat_lt _) rfl (by decide)
    have f7 : bits (UInt8.ofNat (packed r.flags)).toNat 7 1 = r.formatted.toNat :=
      byte_flags (a := [(3, r.level), (1, 0), flag r.collapsed, flag r.hidden, flag r.manual]) (b := []) rfl (by fits) (toNat_lt _) rfl (by decide)
    have hi : ∀ k w : Nat, k + w ≤ 8 → bits (UInt8.ofNat (packed r.style / 256 % 256)).toNat k w = bits (packed r.style % 2 ^ 16) (8 + k) w := by
      intro k w hk
      rw [UInt8.toNat_ofNat', bits_mod (by omega), bits_mod (by omega), show (256 : Nat) = 2 ^ 8 from rfl, bits_mod (by omega)]
      unfold bits
      rw [Nat.div_div_eq_div_mul, Nat.pow_add]
    have g4 : bits (UInt8.ofNat (packed r.style / 256 % 256)).toNat 4 1 = r.above.toNat := by
      rw [hi _ _ (by omega)]
      exact small_flags (a := [(12, r.format)]) (b := r.style.drop 2) rfl (by fits) (toNat_lt _) rfl (by decide)
    have g5 : bits (UInt8.ofNat (packed r.style / 256 % 256)).toNat 5 1 = r.below.toNat := by
      rw [hi _ _ (by omega)]
      exact small_flags (a := [(12, r.format), flag r.above]) (b := r.style.drop 3) rfl (by fits) (toNat_lt _) rfl (by decide)
    have g6 : bits (UInt8.ofNat (packed r.style / 256 % 256)).toNat 6 1 = r.phonetic.toNat := by
      rw [hi _ _ (by omega)]
      exact small_flags (a := [(12, r.format), flag r.above, flag r.below]) (b := r.style.drop 4) rfl (by fits) (toNat_lt _) rfl (by decide)
    have g7 : bits (UInt8.ofNat (packed r.style / 256 % 256)).toNat 7 1 = 0 := by
      rw [hi _ _ (by omega)]
      exact small_flags (a := [(12, r.format), flag r.above, flag r.below, flag r.phonetic]) (b := []) rfl (by fits) (by decide) rfl (by decide)
    have hun : swapped (packed r.flags + 256) = 256 * packed r.flags + 1 := by unfold swapped; omega
    have h0 : swapped 0 = 0 := rfl
    show Pointwise Says (rowFields _ _ _ _ _ _ _ _ _ _) _
    unfold rowFields
    rw [f0, f3, f4, f5, f6, f7, g4, g5, g6, g7, hun, h0]
    repeat first
      | exact Pointwise.nil
      | refine Pointwise.cons (numF_says rfl rfl rfl) ?_

theorem area_shown {a : Area} (h : a.Valid) : ∃ v, mkAreaFormat a.data = .ok v ∧ ∀ abi fmt, ∃ l facts,
    (Rec.make 0x100A a.data v).fields abi fmt = .ok l ∧ Pointwise Says l facts ∧ Other.Shown (.area a) facts := by
  obtain ⟨h1, h2, h3⟩ := h
  have hs : At a.data 0 ([a.fore.1, a.fore.2.1, a.fore.2.2, 0] ++ [a.back.1, a.back.2.1, a.back.2.2, 0] ++ leBytes 2 a.pattern ++
    leBytes 2 (packed [flag a.auto, flag a.invert, (14, 0)]) ++ leBytes 2 a.foreIndex ++ leBytes 2 a.backIndex) := Asf.at_self _
  have hl : a.data.length = 16 := by simp [Area.data, leBytes_length]
  obtain ⟨q, a14⟩ := at_append hs
  obtain ⟨q, a12⟩ := at_append q
  obtain ⟨q, a10⟩ := at_append q
  obtain ⟨q, a8⟩ := at_append q
  obtain ⟨a0, a4⟩ := at_append q
  simp only [List.length_append, leBytes_length, List.length_cons, List.length_nil, Nat.zero_add, Nat.reduceAdd] at a4 a8 a10 a12 a14
  have hp : packed [flag a.auto, flag a.invert, (14, 0)] = a.auto.toNat + 2 * a.invert.toNat := by
    simp [packed, flag]
  have ha := Bool.toNat_le a.auto
  have hi := Bool.toNat_le a.invert
  rw [hp] at a10
  have b10 : rd a.data 10 = .ok (UInt8.ofNat ((a.auto.toNat + 2 * a.invert.toNat) % 256)) := (at_cons a10).1
  refine ⟨.areaFormat [a.fore.1, a.fore.2.1, a.fore.2.2, 0] [a.back.1, a.back.2.1, a.back.2.2, 0] (swapped a.pattern)
    (UInt8.ofNat ((a.auto.toNat + 2 * a.invert.toNat) % 256)) ((a.auto.toNat + 2 * a.invert.toNat) % 16384) (swapped a.foreIndex) (swapped a.backIndex),
    ?_, fun abi fmt => ⟨_, _, rfl, ?_, .area⟩⟩
  · unfold mkAreaFormat
    dsimp only
    rw [rdRange_of_at (n := 4) a0 rfl, rdRange_of_at (n := 4) a4 rfl, ushort_swapped a8 h1 (by omega), b10, Asf.ushort_at a10 (by omega) (by omega),
      ushort_swapped a12 h2 (by omega), ushort_swapped a14 h3 (by omega)]
    rfl
  · have e : (UInt8.ofNat ((a.auto.toNat + 2 * a.invert.toNat) % 256)).toNat = a.auto.toNat + 2 * a.invert.toNat := by
      rw [UInt8.toNat_ofNat']; omega
    have f0 : bits (UInt8.ofNat ((a.auto.toNat + 2 * a.invert.toNat) % 256)).toNat 0 1 = a.auto.toNat := by
      rw [e]; unfold bits; omega
    have f1 : bits (UInt8.ofNat ((a.auto.toNat + 2 * a.invert.toNat) % 256)).toNat 1 1 = a.invert.toNat := by
      rw [e]; unfold bits; omega
    have f2 : (a.auto.toNat + 2 * a.invert.toNat) % 16384 = a.auto.toNat + 2 * a.invert.toNat := by omega
    say_fields

theorem mulBlankLoop_reads {data : Bytes} (hd : data.length < 2 ^ 16) : ∀ (l : List Nat) (i : Nat), (∀ f ∈ l, f < 2 ^ 16) →
    At data i (l.flatMap (leBytes 2)) → mulBlankLoop data l.length i = .ok l := by
  intro l
  induction l with
  | nil => intro i _ _; rfl
  | cons f l ih =>
    intro i hf h
    rw [List.flatMap_cons] at h
    obtain ⟨h1, h2⟩ := at_append h
    rw [leBytes_length] at h2
    have := h1.length_le
    rw [leBytes_length] at this
    rw [List.length_cons, mulBlankLoop, Asf.ushort_at h1 (hf f (by simp)) (by omega), Res.bind_ok,
      show u32 (i + 2) = i + 2 from Nat.mod_eq_of_lt (by omega), ih _ (fun x hx => hf x (by simp [hx])) h2]
    rfl

theorem blanks_shown {row column : Nat} {formats : List Nat} (h : (Other.blanks row column formats).Valid) :
    ∃ v, mkMulBlank (Other.blanks row column formats).data = .ok v ∧ ∀ abi fmt, ∃ l facts,
    (Rec.make 0x00BE (Other.blanks row column formats).data v).fields abi fmt = .ok l ∧ Pointwise Says l facts ∧
      Other.Shown (.blanks row column formats) facts := by
  obtain ⟨hd, h1, h2, h3, h4⟩ := h
  have hs : At (Other.blanks row column formats).data 0 (leBytes 2 row ++ leBytes 2 column ++ formats.flatMap (leBytes 2) ++
    leBytes 2 (column + formats.length - 1)) := Asf.at_self _
  have hl : (Other.blanks row column formats).data.length = 6 + 2 * formats.length := by
    simp only [Other.data, List.length_append, leBytes_length, flatMap_length (leBytes_length 2)]
    omega
  generalize (Other.blanks row column formats).data = data at *
  obtain ⟨q, aL⟩ := at_append hs
  obtain ⟨q, a4⟩ := at_append q
  obtain ⟨a0, a2⟩ := at_append q
  simp only [List.length_append, leBytes_length, flatMap_length (leBytes_length 2), Nat.zero_add, Nat.reduceAdd] at a2 a4 aL
  refine ⟨.mulBlank row column (column + formats.length - 1) formats, ?_, fun abi fmt => ⟨_, _, rfl, ?_,
    .blanks (first := ColNumToName column) (last := ColNumToName (column + formats.length - 1)) ?_
      (ColNumToName_spec _).2 (ColNumToName_spec _).2⟩⟩
  · unfold mkMulBlank mulBlankEntries
    rw [Asf.ushort_at a0 h1 (by omega), Res.bind_ok, Asf.ushort_at a2 (by omega) (by omega), Res.bind_ok,
      show sub32 data.length 2 = 4 + 2 * formats.length by unfold sub32; omega, Asf.ushort_at aL (by omega) (by omega), Res.bind_ok,
      show sub32 (column + formats.length - 1 + 1) column = formats.length by unfold sub32; omega, mulBlankLoop_reads hd _ _ h4 a4]
    rfl
  · show Pointwise Says (mulBlankFields row column (column + formats.length - 1) formats) _
    unfold mulBlankFields
    rw [if_pos h3]
    exact .cons (numF_says rfl rfl rfl) (.cons (text_says rfl rfl (clear_column _)) (.cons (text_says rfl rfl (clear_column _)) (.cons (nums_says _) .nil)))
  · intro c hc
    rcases List.mem_append.1 hc with hc | hc
    · exact (ColNumToName_spec _).1 c hc
    · exact (ColNumToName_spec _).1 c hc

theorem number_shown {row column format value : Nat} {hundredths : Bool} (h : (Other.number row column format hundredths value).Valid) :
    ∃ v, mkRK (Other.number row column format hundredths value).data = .ok v ∧ ∀ abi fmt, ∃ l facts,
    (Rec.make 0x027E (Other.number row column format hundredths value).data v).fields abi fmt = .ok l ∧ Pointwise Says l facts ∧
      Other.Shown (.number row column format hundredths value) facts := by
  obtain ⟨hd, h1, h2, h3, h4⟩ := h
  have hs : At (Other.number row column format hundredths value).data 0 (leBytes 2 row ++ leBytes 2 column ++ leBytes 2 format ++
    leBytes 4 (packed [flag hundredths, (1, 1), (30, value)])) := Asf.at_self _
  have hl : (Other.number row column format hundredths value).data.length = 10 := by simp [Other.data, leBytes_length]
  generalize (Other.number row column format hundredths value).data = data at *
  obtain ⟨q, a6⟩ := at_append hs
  obtain ⟨q, a4⟩ := at_append q
  obtain ⟨a0, a2⟩ := at_append q
  simp only [List.length_append, leBytes_length, Nat.zero_add, Nat.reduceAdd] at a2 a4 a6
  have hp : packed [flag hundredths, (1, 1), (30, value)] = hundredths.toNat + 2 * (1 + 2 * value) := by simp [packed, flag]
  have hb := Bool.toNat_le hundredths
  rw [hp] at a6
  refine ⟨.rk row column format, ?_, fun abi fmt => ?_⟩
  · unfold mkRK
    rw [Asf.ushort_at a0 h1 (by omega), Asf.ushort_at a2 h2 (by omega), Asf.ushort_at a4 h3 (by omega)]
    rfl
  · have hf : (Rec.make 0x027E data (.rk row column format)).fields abi fmt = rkFields fmt data row column format := rfl
    unfold rkFields at hf
    rw [rdRange_of_at (n := 4) a6 (by rw [leBytes_length]), Res.bind_ok] at hf
    refine ⟨_, _, hf, ?_, .number (letters := ColNumToName column) (ColNumToName_spec _).1 (ColNumToName_spec _).2⟩
    rw [leVal_leBytes, Nat.mod_eq_of_lt (by omega)]
    have f0 : bits (hundredths.toNat + 2 * (1 + 2 * value)) 0 1 = hundredths.toNat := by unfold bits; omega
    have f1 : bits (hundredths.toNat + 2 * (1 + 2 * value)) 1 1 = 1 := by unfold bits; omega
    have f2 : bits (hundredths.toNat + 2 * (1 + 2 * value)) 2 30 = value := by unfold bits; omega
    have fv : rkValue fmt (hundredths.toNat + 2 * (1 + 2 * value)) = dec (if hundredths then value / 100 else value) := by
      unfold rkValue
      rw [f0, f1, f2, if_pos rfl]
      cases hundredths <;> rfl
    rw [f0, f1, f2, fv]
    refine .cons (numF_says rfl rfl rfl) (.cons (numF_says rfl rfl rfl) (.cons (numF_says rfl rfl rfl) (.cons (numF_says rfl rfl rfl)
      (.cons (numF_says rfl rfl rfl) (.cons (numF_says rfl rfl rfl) (.cons (text_says rfl rfl ((clear_column _).append (clear_dec _)))
      (.cons (numF_says rfl rfl rfl) .nil)))))))

theorem self_shown {sheets : Nat} (h : (Other.self sheets).Valid) :
    ∃ v, mkSupBook (Other.self sheets).data = .ok v ∧ ∀ abi fmt, ∃ l facts,
    (Rec.make 0x01AE (Other.self sheets).data v).fields abi fmt = .ok l ∧ Pointwise Says l facts ∧ Other.Shown (.self sheets) facts := by
  obtain ⟨hd, h1⟩ := h
  have hs : At (Other.self sheets).data 0 (leBytes 2 sheets ++ leBytes 2 0x0401) := Asf.at_self _
  have hl : (Other.self sheets).data.length = 4 := by simp [Other.data, leBytes_length]
  obtain ⟨a0, a2⟩ := at_append hs
  rw [leBytes_length] at a2
  refine ⟨.supBook sheets 0x0401 none [], ?_, fun abi fmt => ⟨_, _, rfl, ?_, .self⟩⟩
  · unfold mkSupBook
    rw [Asf.ushort_at a0 h1 (by omega), Res.bind_ok, Asf.ushort_at a2 (by omega) (by omega), Res.bind_ok]
    unfold supBookPath
    rw [if_neg (by omega), Res.bind_ok, if_neg (by dsimp only; omega)]
  · show Pointwise Says [numF b!"ctab" sheets, numF b!"cch" 0x0401] _
    say_fields

theorem protect_shown (b : Bool) : ∃ v, mkWinProtect (Other.protect b).data = .ok v ∧ ∀ abi fmt, ∃ l facts,
    (Rec.make 0x0019 (Other.protect b).data v).fields abi fmt = .ok l ∧ Pointwise Says l facts ∧ Other.Shown (.protect b) facts := by
  have hb := Bool.toNat_le b
  refine ⟨.winProtect (swapped b.toNat), ?_, fun abi fmt => ⟨_, _, rfl, ?_, .protect⟩⟩
  · show mkWinProtect (leBytes 2 b.toNat) = _
    unfold mkWinProtect
    rw [ushort_swapped (Asf.at_self _) (by omega) (by rw [leBytes_length]; decide)]
    rfl
  · say_fields

theorem other_shown (abi : Abi) (fuel : Nat) {o : Other} (h : o.Valid) : ∃ v, simpleView abi fuel o.typeName o.data = .ok v ∧ ∀ fmt, ∃ l facts,
    (Rec.make o.type o.data v).fields abi fmt = .ok l ∧ Pointwise Says l facts ∧ Other.Shown o facts := by
  cases o with
  | protect b => obtain ⟨v, h1, h2⟩ := protect_shown b; exact ⟨v, h1, h2 abi⟩
  | row r => obtain ⟨v, h1, h2⟩ := row_shown h.2; exact ⟨v, h1, h2 abi⟩
  | area a => obtain ⟨v, h1, h2⟩ := area_shown h.2; exact ⟨v, h1, h2 abi⟩
  | blanks row column formats => obtain ⟨v, h1, h2⟩ := blanks_shown h; exact ⟨v, h1, h2 abi⟩
  | number row column format hundredths value => obtain ⟨v, h1, h2⟩ := number_shown h; exact ⟨v, h1, h2 abi⟩
  | self sheets => obtain ⟨v, h1, h2⟩ := self_shown h; exact ⟨v, h1, h2 abi⟩

theorem other_class (o : Other) : (Tables.lookup biff8Classes o.type).getD [] = o.typeName ∧ GetRecordTypeStr o.type = o.typeName := by
  have : ∀ e ∈ [((0x0019 : Nat), b!"WinProtect"), (0x0208, b!"Row"), (0x100A, b!"AreaFormat"), (0x00BE, b!"MulBlank"), (0x027E, b!"RK"),
      (0x01AE, b!"SupBook")], (Tables.lookup biff8Classes e.1).getD [] = e.2 ∧ GetRecordTypeStr e.1 = e.2 := by decide +kernel
  cases o <;> exact this (_, _) (by simp)

theorem other_parse {abi : Abi} {fmt : Fmt} {fuel : Nat} {o : Other} {v : View} (hv : simpleView abi fuel o.typeName o.data = .ok v)
    (e : Eng) (he : e.version = 1536) : ParseRecord abi fmt fuel e o.type o.data = .ok (some (e.master, Rec.make o.type o.data v)) := by
  unfold ParseRecord parseVersioned parseBiff8
  have hmem : o.typeName ∈ [b!"WinProtect", b!"Row", b!"AreaFormat", b!"MulBlank", b!"RK", b!"SupBook"] := by cases o <;> simp [Other.typeName]
  have hne : ∀ n ∈ [b!"Formula", b!"ExternName", b!"LabelSst", b!"Continue"], o.typeName ≠ n :=
    (by decide : ∀ t ∈ [b!"WinProtect", b!"Row", b!"AreaFormat", b!"MulBlank", b!"RK", b!"SupBook"],
      ∀ n ∈ [b!"Formula", b!"ExternName", b!"LabelSst", b!"Continue"], t ≠ n) _ hmem
  rw [if_pos he, (other_class o).1, if_neg (hne _ (by simp)), if_neg (hne _ (by simp)), if_neg (hne _ (by simp)), if_neg (hne _ (by simp)), hv]
  rfl

end Fileid.Report
