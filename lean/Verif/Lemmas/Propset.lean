import Verif.Model.Propset
import Verif.Spec.Propset
import Verif.Lemmas.Read
import Verif.Props.Readers
import Verif.Props.Text
import Verif.Props.Time

/-!
# Lemmas about property sets
-/

namespace Fileid.Propset

open Common Tables Spec Spec.Oleps

/-! ## Names -/

theorem lookup_some_mem {t : List (Nat × Bytes)} {k : Nat} {v : Bytes} (h : lookup t k = some v) : (k, v) ∈ t := by
  unfold lookup at h
  cases hf : t.find? (fun e => decide (e.1 = k)) with
  | none => rw [hf] at h; cases h
  | some e =>
    rw [hf] at h
    have h1 := List.mem_of_find?_eq_some hf
    have h2 := List.find?_some hf
    simp only [decide_eq_true_eq] at h2
    simp only [Option.map_some, Option.some.injEq] at h
    rw [← h, ← h2]; exact h1

theorem lookup_none_ne {t : List (Nat × Bytes)} {k : Nat} (h : lookup t k = none) : ∀ e ∈ t, e.1 ≠ k := by
  unfold lookup at h
  cases hf : t.find? (fun e => decide (e.1 = k)) with
  | none =>
    rw [List.find?_eq_none] at hf
    intro e he heq
    exact hf e he (by simp [heq])
  | some e => rw [hf] at h; cases h

theorem nameOf_default {names : List (Nat × Bytes)} {d : Bytes} {k : Nat} (h : ∀ e ∈ names, e.1 ≠ k) :
    nameOf names d k = d := by
  induction names with
  | nil => rfl
  | cons e es ih => rw [nameOf, if_neg (h e (by simp)), ih fun e' he' => h e' (by simp [he'])]

theorem typeName_eq (ty : Nat) : PropertyTypeToString ty = typeName ty := by
  unfold PropertyTypeToString
  cases hl : lookup propertyTypes ty with
  | some v =>
    have hm := lookup_some_mem hl
    have key : ∀ e ∈ propertyTypes, typeName e.1 = e.2 := by decide +kernel
    exact (key _ hm).symm
  | none =>
    have hn := lookup_none_ne hl
    have k1 : ∀ e ∈ baseTypes, e.1 = 0x0C ∨ ∃ e' ∈ propertyTypes, e'.1 = e.1 := by decide +kernel
    have k2 : ∀ v ∈ vectorTypes, ∃ e' ∈ propertyTypes, e'.1 = v + 0x1000 := by decide +kernel
    have k3 : ∀ v ∈ arrayTypes, ∃ e' ∈ propertyTypes, e'.1 = v + 0x2000 := by decide +kernel
    unfold typeName
    dsimp only [Option.getD_none]
    split
    · split
      · rfl
      · rename_i h0C
        rw [nameOf_default]
        intro e he heq
        rcases k1 e he with h | ⟨e', he', h⟩
        · exact h0C (heq.symm.trans h)
        · exact hn e' he' (h.trans heq)
    · rename_i hge
      split
      · rename_i hv
        obtain ⟨e', he', h⟩ := k2 _ hv
        exact absurd (by omega) (hn e' he')
      · split
        · rename_i hv
          obtain ⟨e', he', h⟩ := k3 _ hv.2
          exact absurd (by omega) (hn e' he')
        · rfl

theorem docNames_eq (fid : Bytes) (h : fid = documentSummaryInformation) (id : Nat) :
    PropertyIdentifierToString .docSummary id = propertyName fid id := by
  subst h
  unfold PropertyIdentifierToString
  dsimp only
  cases hl : lookup docSummaryNames id with
  | some v =>
    have key : ∀ e ∈ docSummaryNames, propertyName documentSummaryInformation e.1 = e.2 := by decide +kernel
    exact (key _ (lookup_some_mem hl)).symm
  | none =>
    have hn := lookup_none_ne hl
    have k0 : ∀ v ∈ [0, 1, 0x80000000, 0x80000003], ∃ e' ∈ docSummaryNames, e'.1 = v := by decide +kernel
    have k1 : ∀ v ∈ List.range documentProperties.length, ∃ e' ∈ docSummaryNames, e'.1 = v + 2 := by decide +kernel
    have ne : ∀ v ∈ [0, 1, 0x80000000, 0x80000003], id ≠ v := by
      intro v hv heq
      obtain ⟨e', he', h⟩ := k0 v hv
      exact hn e' he' (h.trans heq.symm)
    unfold propertyName
    dsimp only [Option.getD_none]
    rw [if_neg (by decide), if_pos rfl, if_neg (ne _ (by simp)), if_neg (ne _ (by simp)),
      if_neg (ne _ (by simp)), if_neg (ne _ (by simp)), List.getElem?_eq_none]
    · rfl
    · apply Nat.le_of_not_lt
      intro hlt
      obtain ⟨e', he', h⟩ := k1 (id - 2) (by simpa using hlt)
      have a0 := ne 0 (by simp)
      have a1 := ne 1 (by simp)
      exact hn e' he' (by omega)

theorem summaryNames_eq (fid : Bytes) (h : fid = summaryInformation) (id : Nat) :
    PropertyIdentifierToString .summary id = propertyName fid id := by
  subst h
  unfold PropertyIdentifierToString
  dsimp only
  cases hl : lookup summaryNames id with
  | some v =>
    have key : ∀ e ∈ summaryNames, propertyName summaryInformation e.1 = e.2 := by decide +kernel
    exact (key _ (lookup_some_mem hl)).symm
  | none =>
    have hn := lookup_none_ne hl
    have k0 : ∀ v ∈ [0, 1], ∃ e' ∈ summaryNames, e'.1 = v := by decide +kernel
    have k1 : ∀ v ∈ List.range summaryProperties.length, ∃ e' ∈ summaryNames, e'.1 = v + 2 := by decide +kernel
    have ne : ∀ v ∈ [0, 1], id ≠ v := by
      intro v hv heq
      obtain ⟨e', he', h⟩ := k0 v hv
      exact hn e' he' (h.trans heq.symm)
    unfold propertyName
    dsimp only [Option.getD_none]
    rw [if_pos rfl, if_neg (ne _ (by simp)), if_neg (ne _ (by simp)), List.getElem?_eq_none]
    · rfl
    · apply Nat.le_of_not_lt
      intro hlt
      obtain ⟨e', he', h⟩ := k1 (id - 2) (by simpa using hlt)
      have a0 := ne 0 (by simp)
      have a1 := ne 1 (by simp)
      exact hn e' he' (by omega)

/-- The format identifier is recognised and gives every property its name. -/
theorem formatId_spec (fid : Bytes) (h : fid.length = 16) :
    ∃ f, FormatIdFromGuid fid = .ok f ∧ ∀ id, PropertyIdentifierToString f id = propertyName fid id := by
  have e1 : guid_SummaryInformation = summaryInformation := by decide
  have e2 : guid_DocumentSummaryInformation = documentSummaryInformation := by decide
  have l1 : summaryInformation.length = 16 := by decide
  have l2 : documentSummaryInformation.length = 16 := by decide
  have l3 : guid_UserDefinedProperties.length = 16 := by decide
  unfold FormatIdFromGuid
  rw [e1, e2, Props.C22_guid_equality _ _ (by omega) (by omega), Props.C22_guid_equality _ _ (by omega) (by omega),
    Props.C22_guid_equality _ _ (by omega) (by omega), List.take_of_length_le (by omega),
    List.take_of_length_le (by omega), List.take_of_length_le (by omega), List.take_of_length_le (by omega)]
  simp only [Res.bind_ok, decide_eq_true_eq]
  by_cases h1 : fid = summaryInformation
  · exact ⟨.summary, by rw [if_pos h1], summaryNames_eq fid h1⟩
  · by_cases h2 : fid = documentSummaryInformation
    · exact ⟨.docSummary, by rw [if_neg h1, if_pos h2], docNames_eq fid h2⟩
    · have hn : ∀ id, propertyName fid id = b!"Unknown Property Identifier (" ++ dec id ++ b!")" := by
        intro id; unfold propertyName; dsimp only; rw [if_neg h1, if_neg h2]
      by_cases h3 : fid = guid_UserDefinedProperties
      · exact ⟨.userDefined, by rw [if_neg h1, if_neg h2, if_pos h3], fun id => by rw [hn]; rfl⟩
      · exact ⟨.unknown, by rw [if_neg h1, if_neg h2, if_neg h3], fun id => by rw [hn]; rfl⟩

/-! ## Values -/

theorem rdRange_num {c : Bytes} {off n v : Nat} (h : Num c off n v) : ∃ bs, rdRange c off n = .ok bs ∧ leVal bs = v := by
  have hl := h.length_le
  exact ⟨_, rdRange_ok hl, h.eq.symm⟩

theorem num_split {c : Bytes} {off a b v : Nat} (h : Num c off (a + b) v) :
    ∃ lo hi, Num c off a lo ∧ Num c (off + a) b hi ∧ v = lo + 256 ^ a * hi := by
  obtain ⟨bs, hat, hlen, hv⟩ := h
  have e : bs = bs.take a ++ bs.drop a := (List.take_append_drop a bs).symm
  rw [e] at hat
  obtain ⟨h1, h2⟩ := at_append hat
  have ht : (bs.take a).length = a := by rw [List.length_take]; omega
  rw [ht] at h2
  refine ⟨_, _, ⟨_, h1, ht, rfl⟩, ⟨_, h2, by rw [List.length_drop]; omega, rfl⟩, ?_⟩
  have key : ∀ xs ys : Bytes, littleEndian (xs ++ ys) = littleEndian xs + 256 ^ xs.length * littleEndian ys := by
    intro xs ys
    induction xs with
    | nil => simp [littleEndian_nil]
    | cons x xs ih =>
      rw [List.cons_append, littleEndian_cons, littleEndian_cons, ih, List.length_cons, Nat.pow_succ,
        Nat.mul_add, Nat.mul_comm (256 ^ xs.length) 256, Nat.mul_assoc, Nat.add_assoc]
  have hk := key (bs.take a) (bs.drop a)
  rw [ht, List.take_append_drop] at hk
  rw [← hv, hk]

theorem units_of_unitsAt (c : Bytes) (us : List Nat) : ∀ off, UnitsAt c off us → ∀ n, n = 2 * us.length →
    units 2 us.length ((c.drop off).take n) = us := by
  induction us with
  | nil => intro off _ n _; rfl
  | cons u us ih =>
    intro off h n hn
    rw [List.length_cons] at hn
    have h0 := h 0 u rfl
    have hl := h0.length_le
    rw [List.length_cons, units]
    congr 1
    · rw [List.take_take, Nat.min_eq_left (by omega)]
      have := h0.eq
      simpa using this.symm
    · rw [List.drop_take, List.drop_drop]
      refine ih (off + 2) ?_ (n - 2) (by omega)
      intro k v hk
      have := h (k + 1) v (by simpa using hk)
      rwa [show off + 2 + 2 * k = off + 2 * (k + 1) by omega]

theorem unitsAt_length {c : Bytes} {off : Nat} {us : List Nat} (h : UnitsAt c off us) (h0 : us ≠ []) :
    off + 2 * us.length ≤ c.length := by
  have hp : 0 < us.length := List.length_pos_iff.2 h0
  have := (h (us.length - 1) us[us.length - 1] (List.getElem?_eq_getElem _)).length_le
  omega

theorem convert_ascii (abi : Abi) (us : List Nat) (h : ∀ u ∈ us, u < 128) :
    Excel.convert abi us = .ok (us.map UInt8.ofNat) := by
  induction us with
  | nil => rfl
  | cons u us ih =>
    have hu := h u (by simp)
    rw [Excel.convert, if_neg (by omega), if_neg (by omega), ih fun v hv => h v (by simp [hv]), Res.bind_ok]
    simp [Excel.utf8, if_pos hu]

/-- What the program keeps of a value. -/
def kept : Val → Value
  | .int i => .int (toU64 i)
  | .bool b => .bool b
  | .time t => .int t
  | .text cs => .str (cs.map UInt8.ofNat)
  | .single n => .float (.single n)
  | .double n => .float (.double n)

theorem erasenulls_id {s : Bytes} (h : 0 ∉ s) : erasenulls s = s := by
  rw [Props.C14_erasenulls, List.filter_eq_self]
  intro x hx
  have : x ≠ 0 := fun h0 => h (h0 ▸ hx)
  simpa using this

theorem ofNat_toNat_map (s : Bytes) : (s.map UInt8.toNat).map UInt8.ofNat = s := by
  rw [List.map_map]
  conv => rhs; rw [← List.map_id s]
  apply List.map_congr_left
  intro x _; simp

theorem toNat_ofNat_map {us : List Nat} (h : ∀ u ∈ us, u < 128) : (us.map UInt8.ofNat).map UInt8.toNat = us := by
  rw [List.map_map]
  conv => rhs; rw [← List.map_id us]
  apply List.map_congr_left
  intro x hx
  have := h x hx
  simp only [Function.comp, UInt8.toNat_ofNat', id]
  omega

/-- The encodings the program reads. -/
def Readable (abi : Abi) (ty : Nat) (v : Val) : Prop :=
  ty ∈ [2, 4, 5, 8, 0x0B, 0x1E, 0x40] ∨
    ty = 0x1F ∧ ∃ us, v = .text us ∧ (us = [] ∨ abi.wcharBytes = 2 ∧ ∀ u ∈ us, u < 128)

theorem readValue_spec (abi : Abi) (c : Bytes) (h32 : c.length < 2 ^ 32) (off ty : Nat)
    (v : Val) (h : Stored c off ty v) (hr : Readable abi ty v) :
    readValue abi c c.length (u32 (off + 4)) ty = .ok (kept v) := by
  have key : ∀ {n w}, Num c (off + 4) n w → u32 (off + 4) = off + 4 := by
    intro n w hn
    have := hn.length_le
    unfold u32; omega
  have low : ∀ {t}, Num c off 2 t → off + 2 ≤ c.length := fun hn => hn.length_le
  cases h with
  | i2 ht hn =>
    have hl := hn.length_le
    rw [key hn]
    unfold readValue
    rw [if_neg (by decide), if_pos rfl, Props.ReadSShort_eq, readUShort_num hn (by omega) (by omega)]
    rfl
  | i4 ht hn =>
    exfalso
    rcases hr with hr | ⟨hr, -⟩
    · revert hr; decide
    · exact absurd hr (by decide)
  | ui4 ht hn =>
    exfalso
    rcases hr with hr | ⟨hr, -⟩
    · revert hr; decide
    · exact absurd hr (by decide)
  | i8 ht hn =>
    exfalso
    rcases hr with hr | ⟨hr, -⟩
    · revert hr; decide
    · exact absurd hr (by decide)
  | r4 ht hn =>
    have hl := hn.length_le
    obtain ⟨bs, hb, he⟩ := rdRange_num hn
    rw [key hn]
    unfold readValue
    rw [if_neg (by decide), if_neg (by decide), if_neg (by decide), if_pos rfl]
    unfold ReadFloatBits
    rw [if_neg (by unfold u32; omega), hb]
    simp only [Res.bind_ok, he, kept]
  | r8 ht hn =>
    have hl := hn.length_le
    obtain ⟨bs, hb, he⟩ := rdRange_num hn
    rw [key hn]
    unfold readValue
    rw [if_neg (by decide), if_neg (by decide), if_neg (by decide), if_neg (by decide), if_pos rfl]
    unfold ReadDoubleBits
    rw [if_neg (by unfold u32; omega), hb]
    simp only [Res.bind_ok, he, kept]
  | «true» ht hn =>
    have hl := hn.length_le
    rw [key hn]
    unfold readValue
    rw [if_pos rfl, readUShort_num hn (by omega) (by omega)]
    rfl
  | «false» ht hn =>
    have hl := hn.length_le
    rw [key hn]
    unfold readValue
    rw [if_pos rfl, readUShort_num hn (by omega) (by omega)]
    rfl
  | filetime ht hn =>
    have hl := hn.length_le
    rw [key hn]
    obtain ⟨lo, hi, h1, h2, e⟩ := num_split (a := 4) (b := 4) hn
    have e4 : u32 (off + 4 + 4) = off + 4 + 4 := by unfold u32; omega
    have hlo := h1.lt
    unfold readValue
    rw [if_neg (by decide), if_neg (by decide), if_neg (by decide), if_neg (by decide), if_neg (by decide),
      if_pos rfl, readUInt_num h1 (by omega) (by omega), Res.bind_ok, e4, readUInt_num h2 (by omega) (by omega),
      Res.bind_ok, ← Nat.shiftLeft_add_eq_or_of_lt (by omega), Nat.shiftLeft_eq]
    simp only [kept, e]
    congr 2
    omega
  | @codepage _ k s hty ht hn hat h0 =>
    have hl := hat.length_le
    rw [List.length_append, List.length_replicate] at hl
    rw [key hn]
    have e4 : u32 (off + 4 + 4) = off + 8 := by unfold u32; omega
    have hs := hn.length_le
    have hread : ReadString c c.length (off + 8) (s.length + k) = .ok (s ++ List.replicate k 0) := by
      unfold ReadString
      rw [if_neg (by unfold u32; omega)]
      exact rdRange_of_at hat (by simp)
    have her : erasenulls (s ++ List.replicate k 0) = s := by
      rw [Props.C14_erasenulls, List.filter_append]
      have := erasenulls_id h0
      rw [Props.C14_erasenulls] at this
      rw [this]
      simp
    have hres : (do
        let size ← ReadUInt c c.length (off + 4) Bool.true
        let tmpStr ← ReadString c c.length (u32 (off + 4 + 4)) size
        Res.ok (Value.str (erasenulls tmpStr))) = .ok (kept (.text (s.map UInt8.toNat))) := by
      rw [readUInt_num hn (by omega) (by omega), Res.bind_ok, e4, hread, Res.bind_ok, her]
      simp only [kept, ofNat_toNat_map]
    rcases hty with rfl | rfl
    · exact hres
    · exact hres
  | @wide us ht hn hu h0 =>
    have hl := unitsAt_length hu (by simp)
    rw [List.length_append, List.length_singleton] at hl
    rw [key hn]
    have e4 : u32 (off + 4 + 4) = off + 8 := by unfold u32; omega
    have es : u32 (sub32 (us.length + 1) 1 * 2) = 2 * us.length := by unfold sub32 u32; omega
    have hus : us = [] ∨ abi.wcharBytes = 2 ∧ ∀ u ∈ us, u < 128 := by
      rcases hr with hr | ⟨-, us', e, hr⟩
      · exact absurd hr (by decide)
      · injection e with e
        subst e
        exact hr
    have hread : ReadWString abi c c.length (off + 8) (2 * us.length) = .ok us := by
      unfold ReadWString
      rw [if_neg (by unfold u32; omega), if_neg (by unfold u32; omega)]
      dsimp only
      rcases hus with rfl | ⟨h2, -⟩
      · simp only [List.length_nil, Nat.mul_zero, Nat.zero_div, Nat.zero_mul]
        rw [rdRange_ok (by omega)]
        rfl
      · rw [h2, Nat.mul_div_cancel_left _ (by omega), rdRange_ok (by omega), Res.bind_ok,
          units_of_unitsAt c us (off + 8) _ _ (by omega)]
        intro i u hi
        exact hu i u (by rw [List.getElem?_append_left (List.getElem?_eq_some_iff.1 hi).1]; exact hi)
    have hasc : ∀ u ∈ us, u < 128 := by
      rcases hus with rfl | ⟨-, h⟩
      · simp
      · exact h
    have hnz : (0 : UInt8) ∉ us.map UInt8.ofNat := by
      intro hm
      obtain ⟨u, hu', e⟩ := List.mem_map.1 hm
      have h128 := hasc u hu'
      have := congrArg UInt8.toNat e
      simp only [UInt8.toNat_ofNat'] at this
      have hu0 : u = 0 := by
        have : u % 256 = 0 := this
        omega
      exact h0 (hu0 ▸ hu')
    show (do
        let size ← ReadUInt c c.length (off + 4) Bool.true
        let tmpwStr ← ReadWString abi c c.length (u32 (off + 4 + 4)) (u32 (sub32 size 1 * 2))
        let s ← Excel.convert abi tmpwStr
        Res.ok (Value.str (erasenulls s))) = _
    rw [readUInt_num hn (by omega) (by omega), Res.bind_ok, e4, es, hread, Res.bind_ok,
      convert_ascii abi us hasc, Res.bind_ok, erasenulls_id hnz]
    rfl

theorem stored_type {c : Bytes} {off ty : Nat} {v : Val} (h : Stored c off ty v) : Num c off 2 ty := by
  cases h <;> assumption

theorem stored_offset {c : Bytes} {off ty : Nat} {v : Val} (h : Stored c off ty v) : off + 2 ≤ c.length :=
  (stored_type h).length_le

/-- The property the program makes of a stored one. -/
def made (f : FormatId) (p : Prop_) : Property := { PID := p.id, FMTID := f, type := p.ty, value := kept p.val }

theorem ReadProperty_spec (abi : Abi) (c : Bytes) (h32 : c.length < 2 ^ 32) (off id ty : Nat)
    (v : Val) (h : Stored c off ty v) (hr : Readable abi ty v) :
    ReadProperty abi c c.length off id = .ok { PID := id, type := ty, value := kept v } := by
  obtain ⟨bs, hb, he⟩ := rdRange_num (stored_type h)
  unfold ReadProperty
  rw [hb, Res.bind_ok]
  dsimp only
  rw [he, readValue_spec abi c h32 off ty v h hr, Res.bind_ok]

theorem propertyLoop_spec (abi : Abi) (c : Bytes) (h32 : c.length < 2 ^ 32) (fid : Bytes)
    (f : FormatId) (hf : FormatIdFromGuid fid = .ok f) (base : Nat) (rest : List Prop_) :
    ∀ (i : Nat) (children : List Property),
    (∀ j p, rest[j]? = some p → ∃ o, Num c (base + 8 + 8 * (i + j)) 4 p.id ∧
      Num c (base + 12 + 8 * (i + j)) 4 o ∧ Stored c (base + o) p.ty p.val ∧ Readable abi p.ty p.val) →
    propertyLoop abi c fid base rest.length (u32 (base + 8 + 8 * i)) children =
      .ok (children ++ rest.map (made f)) := by
  induction rest with
  | nil => intro i children _; simp [propertyLoop]
  | cons p rest ih =>
    intro i children h
    obtain ⟨o, h1, h2, h3, h4⟩ := h 0 p rfl
    simp only [Nat.add_zero] at h1 h2
    have l1 := h1.length_le
    have l2 := h2.length_le
    have l3 := stored_offset h3
    have ei : u32 (base + 8 + 8 * i) = base + 8 + 8 * i := by unfold u32; omega
    have eb : u32 (base + o) = base + o := by unfold u32; omega
    have en : u32 (base + 8 + 8 * i + 8) = u32 (base + 8 + 8 * (i + 1)) := by congr 1
    obtain ⟨bs1, hb1, he1⟩ := rdRange_num h1
    obtain ⟨bs2, hb2, he2⟩ := rdRange_num h2
    rw [List.length_cons, propertyLoop, ei, hb1, Res.bind_ok,
      show base + 8 + 8 * i + 4 = base + 12 + 8 * i by omega, hb2, Res.bind_ok, he1, he2, eb,
      ReadProperty_spec abi c h32 _ p.id p.ty p.val h3 h4, Res.bind_ok, hf, Res.bind_ok, en]
    rw [ih (i + 1) _ ?_]
    · simp [made]
    · intro j q hj
      have := h (j + 1) q (by simpa using hj)
      rwa [show i + (j + 1) = i + 1 + j by omega] at this

theorem setLoop_spec (abi : Abi) (c : Bytes) (h32 : c.length < 2 ^ 32)
    (fmt : Bytes → FormatId) (hfmt : ∀ fid : Bytes, fid.length = 16 → FormatIdFromGuid fid = .ok (fmt fid))
    (rest : List (Bytes × List Prop_)) : ∀ (i : Nat) (children : List Property),
    (∀ j s, rest[j]? = some s → ∃ base, s.1.length = 16 ∧ At c (28 + 20 * (i + j)) s.1 ∧
      Num c (44 + 20 * (i + j)) 4 base ∧ SetAt c base s.2) →
    (∀ s ∈ rest, ∀ p ∈ s.2, Readable abi p.ty p.val) →
    setLoop abi c rest.length i children =
      .ok (children ++ rest.flatMap fun s => s.2.map (made (fmt s.1))) := by
  induction rest with
  | nil => intro i children _ _; simp [setLoop]
  | cons s rest ih =>
    intro i children h hr
    obtain ⟨base, h1, h2, h3, h4, h5⟩ := h 0 s rfl
    simp only [Nat.add_zero] at h2 h3
    have l3 := h3.length_le
    have l4 := h4.length_le
    have ei : u32 (28 + i * 20) = 28 + 20 * i := by unfold u32; omega
    obtain ⟨bs3, hb3, he3⟩ := rdRange_num h3
    obtain ⟨bs4, hb4, he4⟩ := rdRange_num h4
    rw [List.length_cons, setLoop]
    dsimp only
    rw [ei, if_neg (by omega), rdRange_of_at h2 h1.symm, Res.bind_ok, show 28 + 20 * i + 16 = 44 + 20 * i by omega,
      hb3, Res.bind_ok, he3, if_neg (by omega), hb4, Res.bind_ok, he4]
    have := propertyLoop_spec abi c h32 s.1 (fmt s.1) (hfmt s.1 h1) base s.2 0 children (by
      intro j p hj
      obtain ⟨o, a, b, d⟩ := h5 j p hj
      refine ⟨o, ?_, ?_, d, hr s (by simp) p (List.mem_of_getElem? hj)⟩
      · rwa [Nat.zero_add]
      · rwa [Nat.zero_add])
    rw [Nat.mul_zero, Nat.add_zero] at this
    rw [this, Res.bind_ok, ih (i + 1) _ ?_ (fun s' hs' => hr s' (by simp [hs']))]
    · simp
    · intro j q hj
      have := h (j + 1) q (by simpa using hj)
      rwa [show i + (j + 1) = i + 1 + j by omega] at this

end Fileid.Propset
