import Verif.Model.Vba
import Verif.Spec.Vba
import Verif.Lemmas.Read

/-!
# Lemmas about VBA decompression
-/

namespace Fileid.Vba

open Common Spec Spec.Ovba

/-! ## Copy tokens -/

theorem ceilLog2_le (d : Nat) : d ≤ 2 ^ ceilLog2 d := by
  unfold ceilLog2
  split
  · simpa using ‹d ≤ 1›
  · have := @Nat.lt_log2_self (d - 1)
    omega

theorem ceilLog2_lt (d k : Nat) (h : d ≤ 2 ^ k) : ceilLog2 d ≤ k := by
  unfold ceilLog2
  split
  · omega
  · have : (d - 1).log2 < k := (Nat.log2_lt (by omega)).2 (by omega)
    omega

theorem bitCount_spec {d k : Nat} (h : IsBitCount d k) : bitCount d = k := by
  obtain ⟨h4, hd, hk⟩ := h
  unfold bitCount
  have h1 := ceilLog2_lt d k hd
  have h2 := ceilLog2_le d
  rcases hk with rfl | hk
  · omega
  · by_cases hlt : ceilLog2 d ≤ k - 1
    · have : 2 ^ ceilLog2 d ≤ 2 ^ (k - 1) := Nat.pow_le_pow_right (by omega) hlt
      omega
    · omega

theorem bitCount_ge (d : Nat) : 4 ≤ bitCount d := by unfold bitCount; omega

theorem masks (k : Nat) (h4 : 4 ≤ k) (h16 : k ≤ 16) (t : Nat) (ht : t < 65536) :
    t &&& (0xFFFF >>> k) = t % 2 ^ (16 - k) ∧
    (t &&& (0xFFFF - 0xFFFF >>> k)) >>> (16 - k) = t / 2 ^ (16 - k) := by
  have e1 : 0xFFFF >>> k = 2 ^ (16 - k) - 1 := by
    have : ∀ k : Fin 17, 0xFFFF >>> k.val = 2 ^ (16 - k.val) - 1 := by decide
    exact this ⟨k, by omega⟩
  have e2 : (0xFFFF - (2 ^ (16 - k) - 1)) >>> (16 - k) = 2 ^ k - 1 := by
    have : ∀ k : Fin 17, (0xFFFF - (2 ^ (16 - k.val) - 1)) >>> (16 - k.val) = 2 ^ k.val - 1 := by decide
    exact this ⟨k, by omega⟩
  rw [e1]
  refine ⟨Nat.and_two_pow_sub_one_eq_mod _ _, ?_⟩
  rw [Nat.shiftRight_and_distrib, e2, Nat.and_two_pow_sub_one_eq_mod, Nat.shiftRight_eq_div_pow, Nat.mod_eq_of_lt]
  apply Nat.div_lt_of_lt_mul
  rw [← Nat.pow_add, show 16 - k + k = 16 by omega]
  omega

theorem unpack_eq (t d : Nat) (h16 : bitCount d ≤ 16) (ht : t < 65536) :
    unpack t d = .ok (u16 (t % 2 ^ (16 - bitCount d) + 3), u16 (t / 2 ^ (16 - bitCount d) + 1)) := by
  unfold unpack
  rw [if_neg (by omega)]
  dsimp only
  obtain ⟨h1, h2⟩ := masks (bitCount d) (bitCount_ge d) h16 t ht
  rw [h1, h2]

theorem unpack_spec {d k offset length t : Nat} (hk : IsBitCount d k) (hd : d ≤ 4096) (h1 : 1 ≤ offset)
    (h2 : offset ≤ d) (h3 : 3 ≤ length) (h4 : length ≤ 2 ^ (16 - k) + 2)
    (ht : t = (offset - 1) * 2 ^ (16 - k) + (length - 3)) : unpack t d = .ok (length, offset) := by
  have hb := bitCount_spec hk
  have hk12 : k ≤ 12 := by
    obtain ⟨_, _, h⟩ := hk
    by_cases hk : k ≤ 12
    · exact hk
    · have : 2 ^ 12 ≤ 2 ^ (k - 1) := Nat.pow_le_pow_right (by omega) (by omega)
      omega
  have hp : 2 ^ (16 - k) ≤ 2 ^ 12 := Nat.pow_le_pow_right (by omega) (by have := hk.1; omega)
  have hpp : 0 < 2 ^ (16 - k) := Nat.pow_pos (by omega)
  have hlt : t < 65536 := by
    have hdk : d ≤ 2 ^ k := hk.2.1
    have e : 2 ^ k * 2 ^ (16 - k) = 65536 := by rw [← Nat.pow_add, show k + (16 - k) = 16 by omega]
    have : (offset - 1) * 2 ^ (16 - k) + 2 ^ (16 - k) ≤ 2 ^ k * 2 ^ (16 - k) := by
      rw [← Nat.succ_mul]
      exact Nat.mul_le_mul_right _ (by omega)
    omega
  rw [unpack_eq t d (by omega) hlt, hb]
  have e1 : t % 2 ^ (16 - k) = length - 3 := by
    rw [ht, Nat.mul_comm, Nat.mul_add_mod, Nat.mod_eq_of_lt (by omega)]
  have e2 : t / 2 ^ (16 - k) = offset - 1 := by
    rw [ht, Nat.mul_comm, Nat.mul_add_div hpp, Nat.div_eq_of_lt (by omega), Nat.add_zero]
  rw [e1, e2]
  congr 2
  · unfold u16; omega
  · unfold u16; omega

/-! ## Copying -/

theorem repeatFrom_length (offset n : Nat) (out : Bytes) : (repeatFrom offset n out).length = out.length + n := by
  induction n generalizing out with
  | zero => rfl
  | succ n ih => unfold repeatFrom; rw [ih]; simp; omega

theorem repeatFrom_append (pre : Bytes) (offset n : Nat) (out : Bytes) (_h1 : 1 ≤ offset) (h : offset ≤ out.length) :
    repeatFrom offset n (pre ++ out) = pre ++ repeatFrom offset n out := by
  induction n generalizing out with
  | zero => rfl
  | succ n ih =>
    unfold repeatFrom
    rw [List.append_assoc, show (pre ++ out).getD ((pre ++ out).length - offset) 0 = out.getD (out.length - offset) 0 by
      rw [List.getD_eq_getElem?_getD, List.getD_eq_getElem?_getD, List.length_append,
        List.getElem?_append_right (by omega)]
      congr 2
      omega]
    exact ih _ (by simp; omega)

theorem copyLoop_spec (cap stop : Nat) : ∀ (k n : Nat) (out : Bytes) (offset : Nat), n + offset = out.length →
    1 ≤ offset → stop = n + k → out.length + k ≤ cap → copyLoop cap stop k n out = .ok (repeatFrom offset k out) := by
  intro k
  induction k with
  | zero => intro n out offset _ _ _ _; rfl
  | succ k ih =>
    intro n out offset hn h1 hs hc
    unfold copyLoop
    rw [if_pos ⟨by omega, by omega⟩]
    unfold put
    rw [if_pos (by omega), Res.bind_ok, ih (n + 1) _ offset (by simp; omega) h1 (by omega) (by simp; omega)]
    conv => rhs; unfold repeatFrom
    rw [show out.length - offset = n by omega]

/-! ## Tokens -/

theorem expand_length (out : Bytes) (t : Token) : out.length < (t.expand out).length ∨ ∃ o, t = .copy o 0 := by
  cases t with
  | literal b => simp [Token.expand]
  | copy o l =>
    cases l with
    | zero => exact Or.inr ⟨o, rfl⟩
    | succ l => left; show _ < (repeatFrom _ _ _).length; rw [repeatFrom_length]; omega

theorem expand_length_le (out : Bytes) (t : Token) : out.length ≤ (t.expand out).length := by
  cases t with
  | literal b => simp [Token.expand]
  | copy o l => show _ ≤ (repeatFrom _ _ _).length; rw [repeatFrom_length]; omega

theorem tokens_length_le {out bs out' : Bytes} {ts : List Token} (h : TokensBytes out ts bs out') :
    out.length ≤ out'.length := by
  induction h with
  | nil => omega
  | @cons out t ts b bs out' _ _ ih => have := expand_length_le out t; omega

theorem token_bytes_pos {d : Nat} {t : Token} {b : Bytes} (h : TokenBytes d t b) : 0 < b.length := by
  cases h <;> simp

theorem tokens_bytes_pos {out bs out' : Bytes} {ts : List Token} (h : TokensBytes out ts bs out') :
    ts.length ≤ bs.length := by
  induction h with
  | nil => simp
  | cons h _ ih => have := token_bytes_pos h; simp; omega

theorem chunk_data_le {out bs out' : Bytes} (h : ChunkData out bs out') : out.length ≤ out'.length := by
  induction h with
  | last _ _ _ h => exact tokens_length_le h
  | more _ _ h _ ih => have := tokens_length_le h; omega

variable {c : Bytes} {len cap cend : Nat}

theorem token_spec {pre out b : Bytes} {t : Token} (h : TokenBytes out.length t b) (cur : Nat) (flag : Bool)
    (hflag : flag = true ↔ ∃ o l, t = .copy o l) (hat : At c cur b) (hlen : cur + b.length ≤ len)
    (h32 : len < 2 ^ 22) (hcap : pre.length + (t.expand out).length ≤ cap) (hcap32 : cap < 2 ^ 32)
    (hout : (t.expand out).length ≤ 4096) :
    token c len cap pre.length flag cur (pre ++ out) = .ok (cur + b.length, pre ++ t.expand out) := by
  have hle := expand_length_le out t
  cases h with
  | literal x =>
    have hf : flag = false := by
      cases flag with
      | false => rfl
      | true => obtain ⟨o, l, e⟩ := hflag.1 rfl; cases e
    unfold token
    rw [if_pos hf, (at_cons hat).1, Res.bind_ok]
    unfold put
    simp only [Token.expand, List.length_append, List.length_cons, List.length_nil] at hcap hlen ⊢
    rw [if_pos (by omega), Res.bind_ok, List.append_assoc]
    congr 2
    unfold u32
    omega
  | @copy offset length k lo hi hk h1 h2 h3 h4 ht =>
    have hf : flag = true := hflag.2 ⟨_, _, rfl⟩
    have hex : (Token.expand out (.copy offset length)).length = out.length + length := repeatFrom_length _ _ _
    rw [hex] at hcap hout
    unfold token
    simp only [List.length_cons, List.length_nil] at hlen ⊢
    rw [if_neg (by simp [hf]), readUShort_num ⟨_, hat, rfl, rfl⟩ (by omega) (by omega), Res.bind_ok,
      show sub32 (pre ++ out).length pre.length = out.length by unfold sub32; rw [List.length_append]; omega,
      unpack_spec hk (by omega) h1 h2 h3 h4 ht, Res.bind_ok]
    dsimp only
    have e : sub32 (pre ++ out).length offset = pre.length + out.length - offset := by
      unfold sub32; rw [List.length_append]; omega
    rw [e, show u32 (pre.length + out.length - offset + length) = pre.length + out.length - offset + length by
      unfold u32; omega,
      copyLoop_spec cap _ length _ (pre ++ out) offset (by rw [List.length_append]; omega) h1 rfl
        (by rw [List.length_append]; omega), Res.bind_ok, repeatFrom_append _ _ _ _ h1 h2]
    congr 2
    unfold u32
    omega

theorem tokenLoop_skip (flags : UInt8) (start k cur : Nat) (out : Bytes) (h : cend ≤ cur) :
    tokenLoop c len cap start cend flags k cur out = .ok (cur, out) := by
  induction k with
  | zero => rfl
  | succ k ih => unfold tokenLoop; rw [if_neg (by omega), ih]

theorem tokenLoop_spec {pre : Bytes} (flags : UInt8) : ∀ {out bs out' : Bytes} {ts : List Token},
    TokensBytes out ts bs out' → ∀ (k cur : Nat), k ≤ 8 → ts.length ≤ k → (ts.length = k ∨ cur + bs.length = cend) →
    (∀ i t, ts[i]? = some t → (flags.toNat.testBit (8 - k + i) = true ↔ ∃ o l, t = .copy o l)) →
    At c cur bs → cur + bs.length ≤ cend → cend ≤ len → len < 2 ^ 22 → pre.length + out'.length ≤ cap →
    cap < 2 ^ 32 → out'.length ≤ 4096 →
    tokenLoop c len cap pre.length cend flags k cur (pre ++ out) = .ok (cur + bs.length, pre ++ out') := by
  intro out bs out' ts h
  induction h with
  | @nil out =>
    intro k cur _ _ hk _ _ _ _ _ _ _ _
    simp only [List.length_nil, Nat.add_zero] at hk ⊢
    rcases hk with rfl | hk
    · rfl
    · exact tokenLoop_skip flags _ k cur _ (by omega)
  | @cons out t ts b bs out' hb hts ih =>
    intro k cur hk8 hk hend hfl hat hcur hcend hlen hcap hcap32 hout
    obtain ⟨k, rfl⟩ : ∃ k', k = k' + 1 := ⟨k - 1, by simp at hk; omega⟩
    have hbp := token_bytes_pos hb
    have hle := tokens_length_le hts
    obtain ⟨hat1, hat2⟩ := at_append hat
    rw [List.length_append] at hcur hend ⊢
    simp only [List.length_cons] at hk hend
    unfold tokenLoop
    rw [if_pos (by omega), token_spec (pre := pre) hb cur (flags.toNat.testBit (8 - (k + 1)))
      (by have := hfl 0 t (by simp); rwa [Nat.add_zero] at this) hat1 (by omega) hlen (by omega) hcap32 (by omega),
      Res.bind_ok]
    dsimp only
    rw [ih k (cur + b.length) (by omega) (by omega) (by omega) ?_ hat2 (by omega) hcend hlen hcap hcap32 hout,
      Nat.add_assoc]
    intro i t' hi
    have := hfl (i + 1) t' (by simpa using hi)
    rwa [show 8 - (k + 1) + (i + 1) = 8 - k + i by omega] at this

theorem sequenceLoop_spec {pre : Bytes} : ∀ {out bs out' : Bytes}, ChunkData out bs out' →
    ∀ (fuel cur : Nat), bs.length < fuel → At c cur bs → cur + bs.length = cend → cend ≤ len → len < 2 ^ 22 →
    pre.length + out'.length ≤ cap → cap < 2 ^ 32 → out'.length ≤ 4096 →
    sequenceLoop c len cap pre.length cend fuel cur (pre ++ out) = .ok (cend, pre ++ out') := by
  intro out bs out' h
  induction h with
  | @last out ts flags bs out' h1 h8 hfl hts =>
    intro fuel cur hf hat hcur hcend hlen hcap hcap32 hout
    obtain ⟨fuel, rfl⟩ : ∃ f, fuel = f + 2 := ⟨fuel - 2, by simp at hf; omega⟩
    obtain ⟨hfb, hat'⟩ := at_cons hat
    have hpos := tokens_bytes_pos hts
    simp only [List.length_cons] at hcur
    unfold sequenceLoop
    rw [if_pos (by omega), hfb, Res.bind_ok, show u32 (cur + 1) = cur + 1 by unfold u32; omega]
    dsimp only
    rw [if_pos (by omega), tokenLoop_spec flags hts 8 (cur + 1) (by omega) h8 (Or.inr (by omega))
      (fun i t ht => by rw [show 8 - 8 + i = i by omega]; exact hfl i t ht) hat' (by omega) hcend hlen hcap hcap32 hout, Res.bind_ok]
    dsimp only
    unfold sequenceLoop
    rw [if_neg (by omega), show cur + 1 + bs.length = cend by omega]
  | @more out ts flags bs out' rest out'' h8 hfl hts hrest ih =>
    intro fuel cur hf hat hcur hcend hlen hcap hcap32 hout
    obtain ⟨fuel, rfl⟩ : ∃ f, fuel = f + 1 := ⟨fuel - 1, by omega⟩
    rw [List.cons_append] at hat
    obtain ⟨hfb, hat'⟩ := at_cons hat
    obtain ⟨hat1, hat2⟩ := at_append hat'
    have hpos := tokens_bytes_pos hts
    have hle := chunk_data_le hrest
    simp only [List.cons_append, List.length_cons, List.length_append] at hcur hf
    unfold sequenceLoop
    rw [if_pos (by omega), hfb, Res.bind_ok, show u32 (cur + 1) = cur + 1 by unfold u32; omega]
    dsimp only
    rw [if_pos (by omega), tokenLoop_spec flags hts 8 (cur + 1) (by omega) (by omega) (Or.inl h8)
      (fun i t ht => by rw [show 8 - 8 + i = i by omega]; exact hfl i t ht) hat1 (by omega) hcend hlen (by omega) hcap32 (by omega), Res.bind_ok]
    dsimp only
    exact ih fuel _ (by omega) hat2 (by omega) hcend hlen hcap hcap32 hout

theorem chunk_data_pos {out bs out' : Bytes} (h : ChunkData out bs out') : 2 ≤ bs.length := by
  cases h with
  | last h1 _ _ h => have := tokens_bytes_pos h; simp; omega
  | more h1 _ h _ => have := tokens_bytes_pos h; simp; omega

/-- Well-formed chunks are walked over, each adding what it decompresses to. -/
theorem chunkLoop_spec : ∀ (chunks : List (Bytes × Bytes)) (fuel cur : Nat) (pre : Bytes),
    (∀ ch ∈ chunks, Chunk ch.1 ch.2) → At c cur (chunks.flatMap (·.1)) →
    cur + (chunks.flatMap (·.1)).length ≤ len → chunks.length < fuel → len < 2 ^ 22 → cap = 1024 * len →
    pre.length ≤ 1024 * cur →
    ∃ fuel', fuel' + chunks.length = fuel ∧ chunkLoop c len cap fuel cur pre =
      chunkLoop c len cap fuel' (cur + (chunks.flatMap (·.1)).length) (pre ++ chunks.flatMap (·.2)) ∧
      (pre ++ chunks.flatMap (·.2)).length ≤ 1024 * (cur + (chunks.flatMap (·.1)).length) := by
  intro chunks
  induction chunks with
  | nil => intro fuel cur pre _ _ _ _ _ _ hp; exact ⟨fuel, by simp, by simp, by simpa using hp⟩
  | cons ch chunks ih =>
    intro fuel cur pre hch hat hcur hf hlen hcap hpre
    obtain ⟨fuel, rfl⟩ : ∃ f, fuel = f + 1 := ⟨fuel - 1, by simp at hf; omega⟩
    have hc := hch ch (by simp)
    obtain ⟨bs, out⟩ := ch
    rw [List.flatMap_cons] at hat hcur
    rw [List.length_append] at hcur
    obtain ⟨hat1, hat2⟩ := at_append hat
    cases hc with
    | @mk lo hi data _ hd hout hdl hh =>
      have hpos := chunk_data_pos hd
      dsimp only at hat1 hat2 hcur
      have hdat := (at_cons (at_cons hat1).2).2
      have hhead : Num c cur 2 (littleEndian [lo, hi]) := by
        refine ⟨[lo, hi], ?_, rfl, rfl⟩
        exact (at_append (xs := [lo, hi]) (ys := data) hat1).1
      simp only [List.length_cons] at hcur hat2
      have hseq := sequenceLoop_spec (c := c) (len := len) (cap := cap) (cend := cur + (data.length + 2)) (pre := pre) hd
        (len + 1) (cur + 2) (by omega) (by simpa using hdat) (by omega) (by omega) hlen (by omega) (by omega) hout
      rw [List.append_nil] at hseq
      have step : chunkLoop c len cap (fuel + 1) cur pre =
          chunkLoop c len cap fuel (cur + (data.length + 2)) (pre ++ out) := by
        conv => lhs; unfold chunkLoop
        rw [if_pos (by omega), readUShort_num hhead (by omega) (by omega), Res.bind_ok, hh]
        rw [show chunkSignature (data.length + 2 - 3 + 3 * 2 ^ 12 + 2 ^ 15) = 3 by unfold chunkSignature; omega,
          show chunkSize (data.length + 2 - 3 + 3 * 2 ^ 12 + 2 ^ 15) = data.length + 2 by unfold chunkSize; omega,
          show chunkFlag (data.length + 2 - 3 + 3 * 2 ^ 12 + 2 ^ 15) = 1 by unfold chunkFlag; omega]
        dsimp only
        rw [if_neg (by simp), if_pos rfl,
          show u32 (cur + (data.length + 2)) = cur + (data.length + 2) by unfold u32; omega,
          show u32 (cur + 2) = cur + 2 by unfold u32; omega, if_neg (by omega), hseq, Res.bind_ok]
      obtain ⟨fuel', hf', he, hl⟩ := ih fuel (cur + (data.length + 2)) (pre ++ out) (fun x hx => hch x (by simp [hx]))
        hat2 (by omega) (by simp at hf; omega) hlen hcap (by rw [List.length_append]; dsimp only at hout; omega)
      refine ⟨fuel', by simp; omega, ?_, ?_⟩
      · rw [step, he]
        simp only [List.flatMap_cons, List.length_append, List.length_cons, List.append_assoc]
        congr 1
        omega
      · simp only [List.flatMap_cons, List.length_append, List.length_cons] at hl ⊢
        omega

/-! ## Arbitrary input -/

/-- A computation that ends, with a result that satisfies `P`, or reads outside the input. -/
def OkOrRead {α : Type} (r : Res α) (P : α → Prop) : Prop := (∃ x, r = .ok x ∧ P x) ∨ r = .ub .oobRead

theorem OkOrRead.bind {α β : Type} {r : Res α} {P : α → Prop} {f : α → Res β} {Q : β → Prop} (h : OkOrRead r P)
    (hf : ∀ x, P x → OkOrRead (f x) Q) : OkOrRead (r >>= f) Q := by
  rcases h with ⟨x, rfl, hx⟩ | rfl
  · rw [Res.bind_ok]; exact hf x hx
  · exact Or.inr rfl

theorem OkOrRead.mono {α : Type} {r : Res α} {P Q : α → Prop} (h : OkOrRead r P) (hq : ∀ x, P x → Q x) :
    OkOrRead r Q := by
  rcases h with ⟨x, rfl, hx⟩ | rfl
  · exact Or.inl ⟨x, rfl, hq x hx⟩
  · exact Or.inr rfl

theorem rd_okOrRead (c : Bytes) (i : Nat) : OkOrRead (rd c i) (fun _ => i < c.length) := by
  by_cases h : i < c.length
  · exact Or.inl ⟨_, rd_lt h, h⟩
  · exact Or.inr (rd_ge (by omega))

theorem readUShort_okOrRead (c : Bytes) (i : Nat) (h : i < c.length) (h32 : c.length < 2 ^ 32) :
    OkOrRead (ReadUShort c c.length i) (fun v => i + 2 ≤ c.length ∧ v < 65536) := by
  by_cases h2 : i + 2 ≤ c.length
  · have hv := num_of_le h2
    refine Or.inl ⟨_, readUShort_num hv (by omega) (by omega), h2, ?_⟩
    obtain ⟨bs, _, hb, e⟩ := hv
    have := littleEndian_lt bs
    rw [hb] at this
    rw [← e]
    simpa using this
  · right
    unfold ReadUShort
    rw [if_neg (by unfold u32; omega)]
    have e : u32 (i + 1) = i + 1 := by unfold u32; omega
    simp only [e, rd_lt h, rd_ge (show c.length ≤ i + 1 by omega), Res.bind_ok, Res.bind_ub]
    rfl

theorem copyLoop_ok (cap stop : Nat) : ∀ (k n : Nat) (out : Bytes), out.length + k ≤ cap →
    ∃ out', copyLoop cap stop k n out = .ok out' ∧ out.length ≤ out'.length ∧ out'.length ≤ out.length + k := by
  intro k
  induction k with
  | zero => intro n out _; exact ⟨out, rfl, by omega, by omega⟩
  | succ k ih =>
    intro n out h
    unfold copyLoop
    split
    · unfold put
      rw [if_pos (by omega), Res.bind_ok]
      obtain ⟨out', e, h1, h2⟩ := ih (n + 1) (out ++ [out.getD n 0]) (by simp; omega)
      simp only [List.length_append, List.length_singleton] at h1 h2
      exact ⟨out', e, by omega, by omega⟩
    · exact ⟨out, rfl, by omega, by omega⟩

/-- How much a chunk can have produced: it began at `cur0` in the input and `s` in the output. -/
def Inv (len cur0 s cur w : Nat) : Prop :=
  cur0 + 3 ≤ cur ∧ cur ≤ len ∧ s ≤ w ∧ w - s ≤ 1024 * (cur - cur0) ∧ w - s ≤ 4104 + 5 * (cur - cur0)

theorem copy_length (d t : Nat) (h : bitCount d ≤ 16) :
    (d ≤ 4096 → d + u16 (t % 2 ^ (16 - bitCount d) + 3) ≤ 4114) ∧
    (4096 < d → u16 (t % 2 ^ (16 - bitCount d) + 3) ≤ 10) := by
  have h1 : d ≤ 2 ^ bitCount d := by
    have := ceilLog2_le d
    have h2 : 2 ^ ceilLog2 d ≤ 2 ^ bitCount d := Nat.pow_le_pow_right (by omega) (by unfold bitCount; omega)
    omega
  have h4 := bitCount_ge d
  have hl : ∀ k, d ≤ 2 ^ k → 4 ≤ k → bitCount d ≤ k := by
    intro k hk h4
    have := ceilLog2_lt d k hk
    unfold bitCount; omega
  have hb : d ≤ 4096 → bitCount d ≤ 12 := fun h => hl 12 (by omega) (by omega)
  have hb' : 4096 < d → 13 ≤ bitCount d := by
    intro h
    by_cases hk : bitCount d ≤ 12
    · have : 2 ^ bitCount d ≤ 2 ^ 12 := Nat.pow_le_pow_right (by omega) hk
      omega
    · omega
  have hm := Nat.mod_lt t (show 0 < 2 ^ (16 - bitCount d) from Nat.pow_pos (by omega))
  have h3 := ceilLog2_lt
  clear hl h3
  generalize hk : bitCount d = k at *
  have hu : ∀ x, u16 x ≤ x := fun x => Nat.mod_le _ _
  have hu' := hu (t % 2 ^ (16 - k) + 3)
  generalize u16 (t % 2 ^ (16 - k) + 3) = l at *
  generalize t % 2 ^ (16 - k) = m at *
  have : k = 4 ∨ k = 5 ∨ k = 6 ∨ k = 7 ∨ k = 8 ∨ k = 9 ∨ k = 10 ∨ k = 11 ∨ k = 12 ∨ k = 13 ∨ k = 14 ∨ k = 15 ∨ k = 16 := by
    omega
  rcases this with rfl | rfl | rfl | rfl | rfl | rfl | rfl | rfl | rfl | rfl | rfl | rfl | rfl <;>
    simp only [Nat.reducePow, Nat.reduceSub] at * <;> omega

theorem token_safe (c : Bytes) (cur0 s : Nat) (flag : Bool) (cur : Nat) (out : Bytes) (h32 : c.length < 2 ^ 22)
    (hs : s ≤ 1024 * cur0) (hcur : cur < c.length) (hc : cur ≤ cur0 + 4098)
    (hi : Inv c.length cur0 s cur out.length) :
    OkOrRead (token c c.length (1024 * c.length) s flag cur out)
      (fun r => Inv c.length cur0 s r.1 r.2.length ∧ cur < r.1) := by
  obtain ⟨i1, i2, i3, i4, i5⟩ := hi
  unfold token
  split
  · refine (rd_okOrRead c cur).bind fun b _ => ?_
    unfold put
    rw [if_pos (by omega), Res.bind_ok, show u32 (cur + 1) = cur + 1 by unfold u32; omega]
    refine Or.inl ⟨_, rfl, ⟨?_, ?_, ?_, ?_, ?_⟩, ?_⟩ <;> simp <;> omega
  · refine (readUShort_okOrRead c cur hcur (by omega)).bind fun t ht => ?_
    rw [show sub32 out.length s = out.length - s by unfold sub32; omega]
    have hb : bitCount (out.length - s) ≤ 16 := by
      have := ceilLog2_lt (out.length - s) 16 (by omega)
      unfold bitCount; omega
    have hl := copy_length (out.length - s) t hb
    rw [unpack_eq t _ hb ht.2, Res.bind_ok]
    dsimp only
    generalize u16 (t % 2 ^ (16 - bitCount (out.length - s)) + 3) = l at *
    obtain ⟨out', e, o1, o2⟩ := copyLoop_ok (1024 * c.length)
      (u32 (sub32 out.length (u16 (t / 2 ^ (16 - bitCount (out.length - s)) + 1)) + l)) l
      (sub32 out.length (u16 (t / 2 ^ (16 - bitCount (out.length - s)) + 1))) out (by
        by_cases h : out.length - s ≤ 4096
        · have := hl.1 h; omega
        · have := hl.2 (by omega); omega)
    rw [e, Res.bind_ok, show u32 (cur + 2) = cur + 2 by unfold u32; omega]
    refine Or.inl ⟨_, rfl, ?_, Nat.lt_add_of_pos_right (by omega)⟩
    have : out'.length - s ≤ 4104 + 5 * (cur + 2 - cur0) := by
      by_cases h : out.length - s ≤ 4096
      · have := hl.1 h; omega
      · have := hl.2 (by omega); omega
    exact ⟨by dsimp only; omega, by dsimp only; omega, by dsimp only; omega, by dsimp only; omega, this⟩

theorem tokenLoop_safe (c : Bytes) (cur0 s cend : Nat) (flags : UInt8) (h32 : c.length < 2 ^ 22)
    (hs : s ≤ 1024 * cur0) (hcend : cend ≤ c.length) (hc : cend ≤ cur0 + 4098) : ∀ (k cur : Nat) (out : Bytes),
    Inv c.length cur0 s cur out.length →
    OkOrRead (tokenLoop c c.length (1024 * c.length) s cend flags k cur out)
      (fun r => Inv c.length cur0 s r.1 r.2.length ∧ cur ≤ r.1) := by
  intro k
  induction k with
  | zero => intro cur out hi; exact Or.inl ⟨_, rfl, hi, Nat.le_refl _⟩
  | succ k ih =>
    intro cur out hi
    unfold tokenLoop
    split
    · refine (token_safe c cur0 s _ cur out h32 hs (by omega) (by omega) hi).bind fun r hr => ?_
      exact (ih r.1 r.2 hr.1).mono fun x hx => ⟨hx.1, by have := hr.2; have := hx.2; omega⟩
    · exact ih cur out hi

theorem sequenceLoop_safe (c : Bytes) (cur0 s cend : Nat) (h32 : c.length < 2 ^ 22)
    (hs : s ≤ 1024 * cur0) (hcend : cend ≤ c.length) (hc : cend ≤ cur0 + 4098) : ∀ (fuel cur : Nat) (out : Bytes),
    c.length < cur + fuel → cur0 + 2 ≤ cur → cur ≤ c.length → s ≤ out.length →
    out.length - s ≤ 1024 * (cur - cur0) → out.length - s ≤ 4104 + 5 * (cur - cur0) →
    OkOrRead (sequenceLoop c c.length (1024 * c.length) s cend fuel cur out)
      (fun r => cur ≤ r.1 ∧ r.1 ≤ c.length ∧ r.2.length ≤ 1024 * r.1) := by
  intro fuel
  induction fuel with
  | zero => intro cur out h _ h2; omega
  | succ fuel ih =>
    intro cur out hf i1 i2 i3 i4 i5
    unfold sequenceLoop
    split
    · refine (rd_okOrRead c cur).bind fun flags hcur => ?_
      rw [show u32 (cur + 1) = cur + 1 by unfold u32; omega]
      dsimp only
      split
      · refine (tokenLoop_safe c cur0 s cend flags h32 hs hcend hc 8 (cur + 1) out
          ⟨by omega, by omega, by omega, by omega, by omega⟩).bind fun r hr => ?_
        obtain ⟨⟨j1, j2, j3, j4, j5⟩, j6⟩ := hr
        exact (ih r.1 r.2 (by omega) (by omega) j2 j3 j4 j5).mono fun x hx => ⟨by have := hx.1; omega, hx.2⟩
      · exact (ih (cur + 1) out (by omega) (by omega) (by omega) i3 (by omega) (by omega)).mono
          fun x hx => ⟨by have := hx.1; omega, hx.2⟩
    · exact Or.inl ⟨_, rfl, Nat.le_refl _, i2, by dsimp only; omega⟩

theorem rawLoop_safe (c : Bytes) (h32 : c.length < 2 ^ 22) : ∀ (k cur : Nat) (out : Bytes),
    cur ≤ c.length → out.length ≤ 1024 * cur →
    OkOrRead (rawLoop c (1024 * c.length) k cur out)
      (fun r => cur ≤ r.1 ∧ r.1 ≤ c.length ∧ r.2.length ≤ 1024 * r.1) := by
  intro k
  induction k with
  | zero => intro cur out h1 h2; exact Or.inl ⟨_, rfl, Nat.le_refl _, h1, h2⟩
  | succ k ih =>
    intro cur out h1 h2
    unfold rawLoop
    refine (rd_okOrRead c cur).bind fun b hb => ?_
    unfold put
    rw [if_pos (by omega), Res.bind_ok, show u32 (cur + 1) = cur + 1 by unfold u32; omega]
    exact (ih (cur + 1) _ (by omega) (by simp; omega)).mono fun x hx => ⟨by have := hx.1; omega, hx.2⟩

theorem chunkLoop_safe (c : Bytes) (h32 : c.length < 2 ^ 22) : ∀ (fuel cur : Nat) (out : Bytes),
    c.length < cur + fuel → cur ≤ c.length → out.length ≤ 1024 * cur →
    OkOrRead (chunkLoop c c.length (1024 * c.length) fuel cur out)
      (fun r => ∀ o, r = some o → o.length ≤ 1024 * c.length) := by
  intro fuel
  induction fuel with
  | zero => intro cur out h1 h2; omega
  | succ fuel ih =>
    intro cur out hf h1 h2
    unfold chunkLoop
    split
    · refine (readUShort_okOrRead c cur (by omega) (by omega)).bind fun header hh => ?_
      split
      · exact Or.inl ⟨_, rfl, fun o e => by cases e⟩
      · dsimp only
        have hsz : chunkSize header ≤ 4098 := by unfold chunkSize; omega
        rw [show u32 (cur + chunkSize header) = cur + chunkSize header by unfold u32; omega,
          show u32 (cur + 2) = cur + 2 by unfold u32; omega]
        have hce : (if c.length < cur + chunkSize header then c.length else cur + chunkSize header) ≤ c.length := by
          split <;> omega
        have hce' : (if c.length < cur + chunkSize header then c.length else cur + chunkSize header) ≤ cur + 4098 := by
          split <;> omega
        generalize (if c.length < cur + chunkSize header then c.length else cur + chunkSize header) = cend at *
        split
        · refine (sequenceLoop_safe c cur out.length cend h32 h2 hce hce' (c.length + 1) (cur + 2) out (by omega)
              (by omega) hh.1 (by omega) (by omega) (by omega)).bind fun r hr => ?_
          exact ih r.1 r.2 (by omega) hr.2.1 hr.2.2
        · refine (rawLoop_safe c h32 cend (cur + 2) out hh.1 (by omega)).bind fun r hr => ?_
          exact ih r.1 r.2 (by omega) hr.2.1 hr.2.2
    · exact Or.inl ⟨_, rfl, fun o e => by cases e; omega⟩

end Fileid.Vba
