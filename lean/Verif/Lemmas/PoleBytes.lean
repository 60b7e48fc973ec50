import Verif.Lemmas.PoleStore

/-!
# Lemmas about the writing side of the compound-file library: bytes in the file
-/

namespace Fileid.Pole

open Spec

theorem putAt_get (file : Bytes) (pos : Nat) (bs : Bytes) (a : Nat) : (putAt file pos bs)[a]? =
    if a < pos then (if a < file.length then file[a]? else some 0)
    else if a < pos + bs.length then bs[a - pos]? else file[a]? := by
  unfold putAt
  rw [List.append_assoc, List.append_assoc, List.getElem?_append]
  by_cases h1 : a < file.length ∧ a < pos
  · rw [if_pos (by simp; omega), if_pos h1.2, if_pos h1.1, List.getElem?_take, if_pos h1.2]
  · rw [if_neg (by simp; omega), List.getElem?_append]
    by_cases h2 : a < pos
    · rw [if_pos (by simp; omega), if_pos h2, if_neg (by omega), List.getElem?_replicate, if_pos (by simp; omega)]
    · rw [if_neg (by simp; omega), List.getElem?_append, if_neg h2]
      have e : a - (List.take pos file).length - (List.replicate (pos - file.length) (0 : UInt8)).length = a - pos := by
        simp
        omega
      rw [e]
      by_cases h3 : a < pos + bs.length
      · rw [if_pos (by omega), if_pos h3]
      · rw [if_neg (by omega), if_neg h3, List.getElem?_drop]
        congr 1
        omega

theorem putAt_in {file : Bytes} {pos : Nat} {bs : Bytes} {k : Nat} (h : k < bs.length) :
    (putAt file pos bs)[pos + k]? = bs[k]? := by
  rw [putAt_get, if_neg (by omega), if_pos (by omega)]
  congr 1
  omega

theorem putAt_out {file : Bytes} {pos : Nat} {bs : Bytes} {a : Nat} {v : UInt8} (hv : file[a]? = some v)
    (h : a < pos ∨ pos + bs.length ≤ a) : (putAt file pos bs)[a]? = some v := by
  have := (List.getElem?_eq_some_iff.1 hv).1
  rw [putAt_get]
  by_cases h1 : a < pos
  · rw [if_pos h1, if_pos this, hv]
  · rw [if_neg h1, if_neg (by omega), hv]

theorem saveBigBlock_eq {file : Bytes} {bs block offset : Nat} {data : Bytes} (h : offset + data.length ≤ bs) :
    saveBigBlock file bs block offset data = putAt file (bs * (block + 1) + offset) data ∨ data = [] := by
  unfold saveBigBlock saveLoop
  by_cases h0 : data.length > 0
  · left
    rw [if_pos h0]
    dsimp only
    rw [if_neg (by omega), List.take_length]
    rfl
  · right
    exact List.length_eq_zero_iff.1 (by omega)

/-- Both loops that write: `base` is the place of a block in the file, `sz` its size. -/
def genSave (base : Nat → Nat) (sz : Nat) : Bytes → List Nat → Nat → Bytes → Bytes
  | file, [], _, _ => file
  | file, block :: rest, offset, data =>
    if data.length > 0 then
      genSave base sz (putAt file (base block + offset) (data.take (sz - offset))) rest 0 (data.drop (sz - offset))
    else file

theorem take_if (data : Bytes) (k : Nat) :
    data.take (if data.length > k then k else data.length) = data.take k ∧
    data.drop (if data.length > k then k else data.length) = data.drop k := by
  split
  · exact ⟨rfl, rfl⟩
  · rw [List.take_length, List.drop_length, List.take_of_length_le (by omega), List.drop_of_length_le (by omega)]
    exact ⟨rfl, rfl⟩

theorem saveBigLoop_eq (bs : Nat) (blocks : List Nat) : ∀ (file : Bytes) (offset bytes : Nat) (data : Bytes),
    offset < bs → offset + data.length ≤ bs * blocks.length →
    saveBigLoop bs file blocks offset bytes data =
      (genSave (fun b => bs * (b + 1)) bs file blocks offset data, bytes + data.length) := by
  induction blocks with
  | nil =>
    intro file offset bytes data _ hl
    have : data = [] := List.length_eq_zero_iff.1 (by rw [List.length_nil, Nat.mul_zero] at hl; omega)
    subst this
    rfl
  | cons b rest ih =>
    intro file offset bytes data ho hl
    unfold saveBigLoop genSave
    by_cases h0 : data.length > 0
    · rw [if_pos h0, if_pos h0]
      dsimp only
      have e : (if data.length < bs - offset then data.length else bs - offset) =
          if data.length > bs - offset then bs - offset else data.length := by split <;> split <;> omega
      rw [e, (take_if data _).1, (take_if data _).2]
      have hsave := saveBigBlock_eq (file := file) (block := b) (offset := offset)
        (show offset + (data.take (bs - offset)).length ≤ bs by simp; omega)
      rcases hsave with hsave | hsave
      · rw [hsave, ih _ _ _ _ (by omega) (by
          simp only [List.length_drop, List.length_cons, Nat.mul_succ] at hl ⊢
          rcases Nat.lt_or_ge (bs - offset) data.length with h | h
          · omega
          · rw [show data.length - (bs - offset) = 0 by omega]; omega)]
        congr 1
        simp only [List.length_drop]
        split <;> omega
      · have := congrArg List.length hsave
        simp only [List.length_take, List.length_nil] at this
        omega
    · rw [if_neg h0, if_neg h0]
      congr 1
      omega

/-- The place of a small block in the file. -/
def smallBase (bs ss : Nat) (sb : List Nat) (b : Nat) : Nat := bs * (sb.getD (b * ss / bs) 0 + 1) + b * ss % bs

theorem saveSmallLoop_eq (bs ss : Nat) (sb : List Nat) (hdvd : ss ∣ bs) (hss : 0 < ss) (hbs : 0 < bs) (blocks : List Nat) :
    ∀ (file : Bytes) (offset bytes : Nat) (data : Bytes),
    offset < ss → offset + data.length ≤ ss * blocks.length → (∀ x ∈ blocks, x * ss / bs < sb.length) →
    saveSmallLoop bs ss sb file blocks offset bytes data =
      (genSave (smallBase bs ss sb) ss file blocks offset data,
        bytes + data.length) := by
  induction blocks with
  | nil =>
    intro file offset bytes data _ hl _
    have : data = [] := List.length_eq_zero_iff.1 (by rw [List.length_nil, Nat.mul_zero] at hl; omega)
    subst this
    rfl
  | cons b rest ih =>
    intro file offset bytes data ho hl hx
    unfold saveSmallLoop genSave
    by_cases h0 : data.length > 0
    · rw [if_pos h0, if_pos h0]
      dsimp only
      have hb := hx b (by simp)
      rw [List.getElem?_eq_getElem hb]
      dsimp only
      rw [(take_if data _).1, (take_if data _).2]
      have hin : b * ss % bs + ss ≤ bs := by
        obtain ⟨q, hq⟩ := hdvd
        rw [hq, Nat.mul_comm b ss, Nat.mul_mod_mul_left]
        have : 0 < q := by
          rcases Nat.eq_zero_or_pos q with h | h
          · rw [h] at hq; omega
          · exact h
        have := Nat.mod_lt b this
        calc ss * (b % q) + ss = ss * (b % q + 1) := by rw [Nat.mul_succ]
          _ ≤ ss * q := Nat.mul_le_mul_left _ this
      have hsave := saveBigBlock_eq (file := file) (block := sb[b * ss / bs]) (bs := bs) (offset := b * ss % bs + offset)
        (show b * ss % bs + offset + (data.take (ss - offset)).length ≤ bs by simp; omega)
      rcases hsave with hsave | hsave
      · rw [hsave, ih _ _ _ _ (by omega) (by
          simp only [List.length_drop, List.length_cons, Nat.mul_succ] at hl ⊢
          rcases Nat.lt_or_ge (ss - offset) data.length with h | h
          · omega
          · rw [show data.length - (ss - offset) = 0 by omega]; omega) (fun x hm => hx x (List.mem_cons_of_mem _ hm))]
        congr 1
        · unfold smallBase
          rw [List.getD_eq_getElem?_getD, List.getElem?_eq_getElem hb, Option.getD_some, Nat.add_assoc]
        · simp only [List.length_drop]
          split <;> omega
      · have := congrArg List.length hsave
        simp only [List.length_take, List.length_nil] at this
        omega
    · rw [if_neg h0, if_neg h0]
      congr 1
      omega

/-- The place of byte `q` of a chain. -/
def placeOf (base : Nat → Nat) (sz : Nat) (blocks : List Nat) (q : Nat) : Option Nat :=
  (blocks[q / sz]?).map fun b => base b + q % sz

/-- The blocks do not overlap. -/
def Disjoint (base : Nat → Nat) (sz : Nat) (blocks : List Nat) : Prop :=
  ∀ x ∈ blocks, ∀ y ∈ blocks, x ≠ y → ∀ a b, a < sz → b < sz → base x + a ≠ base y + b

theorem genSave_spec (base : Nat → Nat) (sz : Nat) (hsz : 0 < sz) (blocks : List Nat) :
    ∀ (file : Bytes) (offset : Nat) (data : Bytes), offset < sz → offset + data.length ≤ sz * blocks.length →
    blocks.Nodup → Disjoint base sz blocks →
    (∀ k, k < data.length → ∃ a, placeOf base sz blocks (offset + k) = some a ∧
      (genSave base sz file blocks offset data)[a]? = data[k]?) ∧
    (∀ a v, file[a]? = some v → (∀ k, k < data.length → placeOf base sz blocks (offset + k) ≠ some a) →
      (genSave base sz file blocks offset data)[a]? = some v) := by
  induction blocks with
  | nil =>
    intro file offset data _ hl _ _
    have : data = [] := List.length_eq_zero_iff.1 (by rw [List.length_nil, Nat.mul_zero] at hl; omega)
    subst this
    exact ⟨fun k hk => absurd hk (by simp), fun a v h _ => h⟩
  | cons b rest ih =>
    intro file offset data ho hl hnd hdj
    unfold genSave
    by_cases h0 : data.length > 0
    · rw [if_pos h0]
      have hnd' := List.nodup_cons.1 hnd
      have hdj' : Disjoint base sz rest := fun x hx y hy =>
        hdj x (List.mem_cons_of_mem _ hx) y (List.mem_cons_of_mem _ hy)
      obtain ⟨i1, i2⟩ := ih (putAt file (base b + offset) (data.take (sz - offset))) 0 (data.drop (sz - offset)) hsz (by
          simp only [List.length_drop, List.length_cons, Nat.mul_succ] at hl ⊢
          rcases Nat.lt_or_ge (sz - offset) data.length with h | h
          · omega
          · rw [show data.length - (sz - offset) = 0 by omega]; omega) hnd'.2 hdj'
      have hplace : ∀ k, k < (data.drop (sz - offset)).length →
          placeOf base sz (b :: rest) (offset + (sz - offset + k)) = placeOf base sz rest (0 + k) := fun k hk => by
        unfold placeOf
        rw [show offset + (sz - offset + k) = k + sz by omega, Nat.add_div_right _ hsz, Nat.add_mod_right,
          List.getElem?_cons_succ, Nat.zero_add]
      have hfirst : ∀ k, k < sz - offset → placeOf base sz (b :: rest) (offset + k) = some (base b + (offset + k)) :=
        fun k hk => by
          unfold placeOf
          rw [Nat.div_eq_of_lt (by omega), Nat.mod_eq_of_lt (by omega)]
          rfl
      have hapart : ∀ k q, k < sz - offset → placeOf base sz rest q ≠ some (base b + (offset + k)) := fun k q hk hq => by
        unfold placeOf at hq
        cases hr : rest[q / sz]? with
        | none => rw [hr] at hq; cases hq
        | some y =>
          rw [hr] at hq
          have hy : y ∈ rest := List.mem_of_getElem? hr
          have hyb : y ≠ b := fun h => hnd'.1 (h ▸ hy)
          simp only [Option.map_some, Option.some.injEq] at hq
          exact hdj y (List.mem_cons_of_mem _ hy) b (by simp) hyb (q % sz) (offset + k) (Nat.mod_lt _ hsz) (by omega) hq
      constructor
      · intro k hk
        by_cases hk1 : k < sz - offset
        · refine ⟨_, hfirst k hk1, ?_⟩
          have hin : (putAt file (base b + offset) (data.take (sz - offset)))[base b + (offset + k)]? = data[k]? := by
            rw [← Nat.add_assoc, putAt_in (by simp; omega), List.getElem?_take, if_pos hk1]
          rw [List.getElem?_eq_getElem hk] at hin ⊢
          exact i2 _ _ hin (fun k' _ => hapart k _ hk1)
        · obtain ⟨a, h1, h2⟩ := i1 (k - (sz - offset)) (by simp; omega)
          refine ⟨a, ?_, ?_⟩
          · rw [← h1, ← hplace _ (by simp; omega)]
            congr 1
            omega
          · rw [h2, List.getElem?_drop]
            congr 1
            omega
      · intro a v hv hno
        refine i2 a v ?_ ?_
        · refine putAt_out hv ?_
          rcases Nat.lt_or_ge a (base b + offset) with h | h
          · exact Or.inl h
          · right
            rcases Nat.lt_or_ge a (base b + offset + (data.take (sz - offset)).length) with h2 | h2
            · exfalso
              simp only [List.length_take] at h2
              refine hno (a - (base b + offset)) (by omega) ?_
              rw [hfirst _ (by omega)]
              congr 1
              omega
            · exact h2
        · intro k hk
          rw [← hplace k hk]
          exact hno _ (by simp at hk; omega)
    · rw [if_neg h0]
      exact ⟨fun k hk => absurd hk (by omega), fun a v h _ => h⟩

/-! ## Reading -/

theorem mwr_get {m m' : Mem} {i : Nat} {bs : Mem} (h : mwr m i bs = .ok m') (k : Nat) :
    m'[k]? = if k < i then m[k]? else if k < i + bs.length then bs[k - i]? else m[k]? := by
  unfold mwr at h
  split at h
  · rename_i hl
    cases h
    rw [List.append_assoc, List.getElem?_append]
    have ht : (List.take i m).length = i := by simp; omega
    rw [ht]
    split
    · rename_i hk
      rw [List.getElem?_take, if_pos hk]
    · rw [List.getElem?_append]
      by_cases h2 : k < i + bs.length
      · rw [if_pos (by omega), if_pos h2]
      · rw [if_neg (by omega), if_neg h2, List.getElem?_drop]
        congr 1
        omega
  · cases h

/-- How a block is loaded: what the file has at its place is in the buffer afterwards. -/
def Loads (load : Nat → Mem → Res Mem) (file : Bytes) (base : Nat → Nat) (sz b : Nat) : Prop :=
  ∀ buf : Mem, buf.length = sz → ∃ buf', load b buf = .ok buf' ∧ buf'.length = sz ∧
    ∀ q v, q < sz → file[base b + q]? = some v → buf'[q]? = some (some v)

theorem readLoop_bytes (load : Nat → Mem → Res Mem) (file : Bytes) (base : Nat → Nat) (sz : Nat) (hsz : 0 < sz)
    (maxlen : Nat) (blocks : List Nat) : ∀ (offset total : Nat) (buf data : Mem),
    (∀ b ∈ blocks, Loads load file base sz b) → offset < sz → maxlen ≤ data.length → total ≤ maxlen →
    offset + (maxlen - total) ≤ sz * blocks.length → buf.length = sz →
    ∃ data', readLoop load sz maxlen blocks offset total buf data = .ok (maxlen, data') ∧ data'.length = data.length ∧
      (∀ k, k < total ∨ maxlen ≤ k → data'[k]? = data[k]?) ∧
      (∀ k a v, k < maxlen - total → placeOf base sz blocks (offset + k) = some a → file[a]? = some v →
        data'[total + k]? = some (some v)) := by
  induction blocks with
  | nil =>
    intro offset total buf data _ _ _ ht hl _
    rw [List.length_nil, Nat.mul_zero] at hl
    have : total = maxlen := by omega
    subst this
    exact ⟨data, rfl, rfl, fun _ _ => rfl, fun k a v hk => absurd hk (by omega)⟩
  | cons b rest ih =>
    intro offset total buf data hload ho hd ht hl hbuf
    unfold readLoop
    by_cases h0 : total < maxlen
    · rw [if_pos h0]
      obtain ⟨buf', h1, h2, h3⟩ := hload b (by simp) buf hbuf
      rw [h1]
      have hcount : ∃ count, count = (if sz - offset > maxlen - total then maxlen - total else sz - offset) := ⟨_, rfl⟩
      obtain ⟨count, hc⟩ := hcount
      have hc1 : count = min (maxlen - total) (sz - offset) := by rw [hc]; split <;> omega
      simp only [Res.bind_ok]
      rw [← hc, mslice_ok (by omega)]
      simp only [Res.bind_ok]
      have hlen : ((buf'.drop offset).take count).length = count := by simp; omega
      have hw := mwr_ok (m := data) (i := total) (bs := (buf'.drop offset).take count) (by omega)
      rw [hw]
      have hget := mwr_get hw
      have hlen1 := mwr_length hw
      generalize List.take total data ++ (buf'.drop offset).take count ++
        List.drop (total + ((buf'.drop offset).take count).length) data = data1 at hget hlen1
      simp only [Res.bind_ok]
      obtain ⟨data', i1, i2, i3, i4⟩ := ih 0 (total + count) buf' data1 (fun x hx => hload x (List.mem_cons_of_mem _ hx)) hsz
        (by omega) (by omega) (by
          simp only [List.length_cons, Nat.mul_succ] at hl
          rcases Nat.lt_or_ge (sz - offset) (maxlen - total) with h | h
          · omega
          · rw [show maxlen - (total + count) = 0 by omega]; omega) h2
      refine ⟨data', i1, by rw [i2, hlen1], fun k hk => ?_, fun k a v hk hp hv => ?_⟩
      · rw [i3 k (by omega), hget]
        by_cases hk2 : k < total
        · rw [if_pos hk2]
        · rw [if_neg hk2, if_neg (by omega)]
      · by_cases hkc : k < count
        · rw [i3 _ (by omega), hget, if_neg (by omega), if_pos (by omega), Nat.add_sub_cancel_left, List.getElem?_take,
            if_pos hkc, List.getElem?_drop]
          unfold placeOf at hp
          rw [Nat.div_eq_of_lt (by omega), Nat.mod_eq_of_lt (by omega)] at hp
          simp only [List.getElem?_cons_zero, Option.map_some, Option.some.injEq] at hp
          exact h3 (offset + k) v (by omega) (by rw [hp]; exact hv)
        · have := i4 (k - count) a v (by omega) (by
            rw [← hp]
            unfold placeOf
            rw [show offset + k = 0 + (k - count) + sz by omega, Nat.add_div_right _ hsz, Nat.add_mod_right,
              List.getElem?_cons_succ]) hv
          rw [← this]
          congr 1
          omega
    · rw [if_neg h0]
      have : total = maxlen := by omega
      subst this
      exact ⟨data, rfl, rfl, fun _ _ => rfl, fun k a v hk => absurd hk (by omega)⟩

theorem sub64_le {a b : Nat} (h : b ≤ a) (h2 : a - b < 2 ^ 64) : sub64 a b = a - b := by
  unfold sub64
  have h3 : (18446744073709551616 : Nat) = 2 ^ 64 := by decide
  omega

theorem loads_big (file : Bytes) (bs b : Nat) (hbs : 0 < bs) (h64 : bs < 2 ^ 64) :
    Loads (fun b buf => loadBigBlock file bs b buf bs) file (fun b => bs * (b + 1)) bs b := by
  intro buf hbuf
  unfold loadBigBlock loadBigBlocks loadLoop
  dsimp only
  rw [if_pos hbs, Nat.sub_zero, if_neg (Nat.lt_irrefl bs)]
  generalize hp : (if bs * (b + 1) + bs > file.length then sub64 file.length (bs * (b + 1)) else bs) = p
  by_cases hpos : bs * (b + 1) ≤ file.length
  · rw [if_pos hpos]
    have hp' : p = min bs (file.length - bs * (b + 1)) := by
      rw [← hp]
      split
      · rw [sub64_le hpos (by omega)]; omega
      · omega
    have hlen : (((file.drop (bs * (b + 1))).take p).map some).length = p := by simp; omega
    have hw := mwr_ok (m := buf) (i := 0) (bs := ((file.drop (bs * (b + 1))).take p).map some) (by omega)
    rw [hw]
    have hget := mwr_get hw
    have hlen1 := mwr_length hw
    refine ⟨_, rfl, by rw [hlen1, hbuf], fun q v hq hv => ?_⟩
    have hlt := (List.getElem?_eq_some_iff.1 hv).1
    rw [hget, if_neg (by omega), if_pos (by omega), Nat.sub_zero, List.getElem?_map, List.getElem?_take, if_pos (by omega),
      List.getElem?_drop, hv]
    rfl
  · rw [if_neg hpos]
    have hw := mwr_ok (m := buf) (i := 0) (bs := []) (by simp)
    rw [hw]
    have hlen1 := mwr_length hw
    refine ⟨_, rfl, by rw [hlen1, hbuf], fun q v hq hv => ?_⟩
    have hlt := (List.getElem?_eq_some_iff.1 hv).1
    omega

theorem mod_room {x ss bs : Nat} (hdvd : ss ∣ bs) (hbs : 0 < bs) : x * ss % bs + ss ≤ bs := by
  obtain ⟨q, hq⟩ := hdvd
  rw [hq, Nat.mul_comm x ss, Nat.mul_mod_mul_left]
  have : 0 < q := by
    rcases Nat.eq_zero_or_pos q with h | h
    · rw [h] at hq; omega
    · exact h
  have := Nat.mod_lt x this
  calc ss * (x % q) + ss = ss * (x % q + 1) := by rw [Nat.mul_succ]
    _ ≤ ss * q := Nat.mul_le_mul_left _ this

theorem loads_small (io : StorageIO) (b : Nat) (hss : 0 < io.sbat.blockSize) (hbs : 0 < io.bbat.blockSize)
    (hdvd : io.sbat.blockSize ∣ io.bbat.blockSize) (h64 : io.bbat.blockSize < 2 ^ 64)
    (hin : b * io.sbat.blockSize / io.bbat.blockSize < io.sb_blocks.length) :
    Loads (fun b buf => loadSmallBlock io b buf io.bbat.blockSize) io.file
      (smallBase io.bbat.blockSize io.sbat.blockSize io.sb_blocks) io.sbat.blockSize b := by
  intro buf hbuf
  unfold loadSmallBlock
  dsimp only
  rw [if_neg (by omega), List.getElem?_eq_getElem hin]
  dsimp only
  obtain ⟨big, h1, h2, h3⟩ := loads_big io.file io.bbat.blockSize (io.sb_blocks[b * io.sbat.blockSize / io.bbat.blockSize])
    hbs h64 (newMem io.bbat.blockSize) (by simp [newMem])
  dsimp only at h1 h3
  rw [h1]
  have hroom := mod_room (x := b) hdvd hbs
  simp only [Res.bind_ok]
  rw [if_neg (show ¬ io.bbat.blockSize < io.bbat.blockSize - b * io.sbat.blockSize % io.bbat.blockSize by omega)]
  have hp : (if io.sbat.blockSize < io.bbat.blockSize - b * io.sbat.blockSize % io.bbat.blockSize then io.sbat.blockSize
      else io.bbat.blockSize - b * io.sbat.blockSize % io.bbat.blockSize) = io.sbat.blockSize := by split <;> omega
  rw [hp, mslice_ok (by omega)]
  simp only [Res.bind_ok]
  have hlen : ((big.drop (b * io.sbat.blockSize % io.bbat.blockSize)).take io.sbat.blockSize).length =
    io.sbat.blockSize := by simp; omega
  have hw := mwr_ok (m := buf) (i := 0)
    (bs := (big.drop (b * io.sbat.blockSize % io.bbat.blockSize)).take io.sbat.blockSize) (by omega)
  rw [hw]
  have hget := mwr_get hw
  have hlen1 := mwr_length hw
  refine ⟨_, rfl, by rw [hlen1, hbuf], fun q v hq hv => ?_⟩
  rw [hget, if_neg (by omega), if_pos (by omega), Nat.sub_zero, List.getElem?_take, if_pos hq, List.getElem?_drop]
  refine h3 _ v (by omega) ?_
  unfold smallBase at hv
  rw [List.getD_eq_getElem?_getD, List.getElem?_eq_getElem hin, Option.getD_some, Nat.add_assoc] at hv
  exact hv

end Fileid.Pole
