import Verif.Lemmas.Vba

/-!
# Decompression of VBA streams (C47, C48)
-/

namespace Fileid.Props

open Common Vba Spec Spec.Ovba

/-! ## C47: decompression inverts compression

Full statement: for every container of MS-OVBA 2.4.1, whether its chunks are compressed or raw, the decompressor
yields the bytes its chunks denote. It is false for raw chunks (`C47_raw_false`) and for containers of 4 MB and
more (`C48_wrap_false`); `C47_partial` proves it for smaller containers of compressed chunks. -/

/-- A compressed container of less than 4 MB is decompressed to the bytes its tokens denote: the number reported is
their number and the buffer begins with them. Missing: raw chunks, where it is false. -/
theorem C47_partial (bs out : Bytes) (h : Container bs out) (hlen : bs.length < 2 ^ 22) :
    ∃ rest, Decompress bs.length bs = .ok (out.length, some (out ++ rest)) ∧
      (out ++ rest).length = 1024 * bs.length ∧ ∀ b ∈ rest, b = 0 := by
  obtain ⟨chunks, hch, rfl, rfl⟩ := h
  generalize hbs : (1 : UInt8) :: chunks.flatMap (·.1) = bs at *
  have hl : bs.length = 1 + (chunks.flatMap (·.1)).length := by rw [← hbs]; simp; omega
  have hn : chunks.length ≤ (chunks.flatMap (·.1)).length := by
    clear hbs hl
    induction chunks with
    | nil => simp
    | cons ch chunks ih =>
      have h1 := ih (fun c hc => hch c (by simp [hc]))
      have h2 : 0 < ch.1.length := by
        have := hch ch (by simp)
        obtain ⟨b, o⟩ := ch
        cases this
        simp
      simp only [List.flatMap_cons, List.length_append, List.length_cons]
      omega
  obtain ⟨fuel', hf, e, hle⟩ := chunkLoop_spec (c := bs) (len := bs.length) (cap := 1024 * bs.length) chunks
    (bs.length + 1) 1 [] hch ⟨[1], [], by rw [← hbs]; simp, rfl⟩ (by omega) (by omega) hlen rfl (by simp)
  obtain ⟨f, rfl⟩ : ∃ f, fuel' = f + 1 := ⟨fuel' - 1, by omega⟩
  rw [List.nil_append] at e hle
  refine ⟨List.replicate (1024 * bs.length - (chunks.flatMap (·.2)).length) 0, ?_, ?_, ?_⟩
  · unfold Decompress
    rw [show u32 (bs.length * 1024) = 1024 * bs.length by unfold u32; omega]
    dsimp only
    rw [show rd bs 0 = .ok 1 by rw [← hbs]; rfl, Res.bind_ok, if_neg (by simp), e]
    unfold chunkLoop
    rw [if_neg (by omega), Res.bind_ok]
  · simp only [List.length_append, List.length_replicate]
    omega
  · intro b hb
    exact (List.mem_replicate.1 hb).2

/-- Ten bytes that denote twelve: "a", "b", "c", a copy of nine bytes from three back. -/
example : Container ([1] ++ [0x05, 0xB0, 0x08, 0x61, 0x62, 0x63, 0x06, 0x20]) b!"abcabcabcabc" := by
  refine ⟨[([0x05, 0xB0, 0x08, 0x61, 0x62, 0x63, 0x06, 0x20], b!"abcabcabcabc")], ?_, rfl, rfl⟩
  intro c hc
  rw [List.mem_singleton] at hc
  subst hc
  refine .mk (.last (ts := [.literal 0x61, .literal 0x62, .literal 0x63, .copy 3 9]) (by decide) (by decide) ?_ ?_)
    (by decide) (by decide) (by decide)
  · intro i t ht
    match i, ht with
    | 0, ht => cases ht; simp
    | 1, ht => cases ht; simp; decide
    | 2, ht => cases ht; simp; decide
    | 3, ht => cases ht; simp; decide
  · exact .cons (b := [0x61]) (.literal _) (.cons (b := [0x62]) (.literal _) (.cons (b := [0x63]) (.literal _)
      (.cons (b := [0x06, 0x20]) (.copy (k := 4) ⟨by decide, by decide, Or.inl rfl⟩ (by decide) (by decide) (by decide)
        (by decide) (by decide)) .nil)))

/-- The container of a raw chunk (section 2.4.1.1.6): header and 4096 bytes. -/
def rawContainer (data : Bytes) : Bytes := [1, 0xFF, 0x3F] ++ data

/-- A raw chunk is not decompressed: the loop copies as many bytes as the chunk's end position, not as many as the
chunk has, and so runs out of the input. -/
theorem C47_raw_false (data : Bytes) (h : data.length = 4096) :
    Decompress (rawContainer data).length (rawContainer data) = .ub .oobRead := by
  have hl : (rawContainer data).length = 4099 := by simp [rawContainer, h]
  have hraw : ∀ (k cur : Nat) (out : Bytes), cur ≤ 4099 → out.length ≤ 1024 * cur → 4099 < cur + k →
      rawLoop (rawContainer data) (1024 * 4099) k cur out = .ub .oobRead := by
    intro k
    induction k with
    | zero => intro cur out h1 _ h2; omega
    | succ k ih =>
      intro cur out h1 h2 h3
      unfold rawLoop
      by_cases hc : cur < 4099
      · rw [rd_lt (by omega), Res.bind_ok]
        unfold put
        rw [if_pos (by omega), Res.bind_ok, show u32 (cur + 1) = cur + 1 by unfold u32; omega]
        exact ih _ _ (by omega) (by simp; omega) (by omega)
      · rw [rd_ge (by omega)]
        rfl
  have hhead : ReadUShort (rawContainer data) 4099 1 = .ok 0x3FFF := by
    refine readUShort_num (v := 0x3FFF) ⟨[0xFF, 0x3F], ⟨[1], data, rfl, rfl⟩, rfl, by decide⟩ (by omega) (by omega)
  unfold Decompress
  rw [hl, show rd (rawContainer data) 0 = .ok 1 from rfl, Res.bind_ok, if_neg (by simp),
    show u32 (4099 * 1024) = 1024 * 4099 by decide]
  unfold chunkLoop
  rw [if_pos (by omega), hhead, Res.bind_ok, if_neg (by decide)]
  rw [if_neg (by decide),
    show (if 4099 < u32 (1 + chunkSize 16383) then 4099 else u32 (1 + chunkSize 16383)) = 4099 by decide,
    hraw 4099 (u32 (1 + 2)) [] (by decide) (by decide) (by decide)]
  rfl

/-- Such data. -/
example : (List.replicate 4096 (0x41 : UInt8)).length = 4096 := List.length_replicate

/-! ## C48: decompression stays within its buffers

Full statement: for every input, nothing is read outside the input and nothing is written outside the output. Reading
is false for three kinds of input and writing is false for inputs of 4 MB (below). `C48_partial` proves that smaller
inputs are never written out of bounds, whatever they contain, and that decompression ends. -/

/-- For every non-empty input of less than 4 MB decompression ends, either with no more than 1024 bytes for every
byte of the input, all inside the buffer, or by reading outside the input: there is no write out of bounds, no
invalid shift and no endless loop. Missing: that the reads are inside the input, where it is false. -/
theorem C48_partial (bs : Bytes) (hlen : bs.length < 2 ^ 22) :
    (∃ n, ∃ buffer, Decompress bs.length bs = .ok (n, buffer) ∧
      ∀ out, buffer = some out → n ≤ out.length ∧ out.length = 1024 * bs.length) ∨
    Decompress bs.length bs = .ub .oobRead := by
  unfold Decompress
  rw [show u32 (bs.length * 1024) = 1024 * bs.length by unfold u32; omega]
  dsimp only
  rcases rd_okOrRead bs 0 with ⟨b, e, h0⟩ | e
  · rw [e, Res.bind_ok]
    split
    · exact Or.inl ⟨0, none, rfl, fun _ e => by cases e⟩
    · rcases chunkLoop_safe bs hlen (bs.length + 1) 1 [] (by omega) (by omega) (by simp) with ⟨r, e, hr⟩ | e
      · rw [e, Res.bind_ok]
        left
        cases r with
        | none => exact ⟨0, none, rfl, fun _ e => by cases e⟩
        | some out =>
          have := hr out rfl
          refine ⟨out.length, _, rfl, fun o ho => ?_⟩
          cases ho
          simp only [List.length_append, List.length_replicate]
          omega
      · rw [e]; exact Or.inr rfl
  · rw [e]; exact Or.inr rfl

/-- A well-formed container followed by one byte is read out of bounds: every chunk header is read with two bytes. -/
theorem C48_trailing_false (bs out : Bytes) (h : Container bs out) (x : UInt8) (hlen : bs.length + 1 < 2 ^ 22) :
    Decompress (bs ++ [x]).length (bs ++ [x]) = .ub .oobRead := by
  obtain ⟨chunks, hch, rfl, rfl⟩ := h
  generalize hbs : (1 : UInt8) :: chunks.flatMap (·.1) ++ [x] = c at *
  have hl : c.length = 2 + (chunks.flatMap (·.1)).length := by rw [← hbs]; simp; omega
  have hlen' : c.length < 2 ^ 22 := by simp only [List.length_cons] at hlen; omega
  have hn : chunks.length ≤ (chunks.flatMap (·.1)).length := by
    clear hbs hl hlen
    induction chunks with
    | nil => simp
    | cons ch chunks ih =>
      have h1 := ih (fun c hc => hch c (by simp [hc]))
      have h2 : 0 < ch.1.length := by
        have := hch ch (by simp)
        obtain ⟨b, o⟩ := ch
        cases this
        simp
      simp only [List.flatMap_cons, List.length_append, List.length_cons]
      omega
  obtain ⟨fuel', hf, e, hle⟩ := chunkLoop_spec (c := c) (len := c.length) (cap := 1024 * c.length) chunks
    (c.length + 1) 1 [] hch ⟨[1], [x], by rw [← hbs]; simp, rfl⟩ (by omega) (by omega) hlen' rfl (by simp)
  obtain ⟨f, rfl⟩ : ∃ f, fuel' = f + 1 := ⟨fuel' - 1, by omega⟩
  unfold Decompress
  rw [show u32 (c.length * 1024) = 1024 * c.length by unfold u32; omega]
  dsimp only
  rw [show rd c 0 = .ok 1 by rw [← hbs]; rfl, Res.bind_ok, if_neg (by simp), e]
  unfold chunkLoop
  rw [if_pos (by omega)]
  rcases readUShort_okOrRead c (1 + (chunks.flatMap (·.1)).length) (by omega) (by omega) with ⟨v, _, h2, _⟩ | e
  · omega
  · rw [e]; rfl

/-- The empty container. -/
example : Container [1] [] := ⟨[], by simp, rfl, rfl⟩

/-- An empty stream is read out of bounds. -/
theorem C48_empty_false : Decompress 0 [] = .ub .oobRead := rfl

/-- Input of 4 MB: the size of the output buffer, 1024 times as much, is 0 modulo 2^32, and the first byte is
written outside it. -/
theorem C48_wrap_false (rest : Bytes) (h : rest.length = 2 ^ 22 - 5) :
    Decompress ([1, 0x01, 0xB0, 0, 0x41] ++ rest).length ([1, 0x01, 0xB0, 0, 0x41] ++ rest) = .ub .oobWrite := by
  have hhead : ReadUShort ([1, 0x01, 0xB0, 0, 0x41] ++ rest) (2 ^ 22) 1 = .ok 0xB001 :=
    readUShort_num (v := 0xB001) ⟨[0x01, 0xB0], ⟨[1], [0, 0x41] ++ rest, rfl, rfl⟩, rfl, by decide⟩ (by omega) (by omega)
  have hl : ([1, 0x01, 0xB0, 0, 0x41] ++ rest).length = 2 ^ 22 := by rw [List.length_append, h]; rfl
  rw [hl]
  unfold Decompress
  rw [show rd ([1, 0x01, 0xB0, 0, 0x41] ++ rest) 0 = .ok 1 from rfl, Res.bind_ok, if_neg (by simp),
    show u32 (2 ^ 22 * 1024) = 0 by decide]
  unfold chunkLoop
  rw [if_pos (by omega), hhead, Res.bind_ok, if_neg (by decide), if_pos (by decide),
    show (if 2 ^ 22 < u32 (1 + chunkSize 0xB001) then 2 ^ 22 else u32 (1 + chunkSize 0xB001)) = 5 by decide,
    show u32 (1 + 2) = 3 by decide]
  unfold sequenceLoop
  rw [if_pos (by omega), show rd ([1, 0x01, 0xB0, 0, 0x41] ++ rest) 3 = .ok 0 from rfl, Res.bind_ok,
    show u32 (3 + 1) = 4 by decide]
  rw [if_pos (by omega)]
  unfold tokenLoop
  rw [if_pos (by omega)]
  unfold token
  rw [if_pos (by decide), show rd ([1, 0x01, 0xB0, 0, 0x41] ++ rest) 4 = .ok 0x41 from rfl, Res.bind_ok]
  rfl

/-- Such input exists. -/
example : (List.replicate (2 ^ 22 - 5) (0 : UInt8)).length = 2 ^ 22 - 5 := List.length_replicate

end Fileid.Props
