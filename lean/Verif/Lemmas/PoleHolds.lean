import Verif.Lemmas.PoleBytes
import Verif.Spec.Storage

/-!
# Lemmas about the writing side of the compound-file library: what the storage holds
-/

namespace Fileid.Pole

open Spec

/-! ## Places -/

theorem bigPlace_eq (bs : Nat) (l : List Nat) (p : Nat) : bigPlace bs l p = placeOf (fun b => bs * (b + 1)) bs l p := rfl

theorem mul_split {x ss bs r : Nat} (hdvd : ss ∣ bs) (hbs : 0 < bs) (hr : r < ss) :
    (x * ss + r) / bs = x * ss / bs ∧ (x * ss + r) % bs = x * ss % bs + r := by
  have hroom := mod_room (x := x) hdvd hbs
  have hd := Nat.div_add_mod (x * ss) bs
  constructor
  · rw [Nat.div_eq_iff hbs]
    rw [Nat.mul_comm bs] at hd
    constructor <;> omega
  · have e : x * ss + r = (x * ss % bs + r) + bs * (x * ss / bs) := by omega
    rw [e, Nat.add_mul_mod_self_left, Nat.mod_eq_of_lt (by omega)]

theorem smallPlace_eq {bs ss : Nat} {mini l : List Nat} {p : Nat} (hss : 0 < ss) (hbs : 0 < bs) (hdvd : ss ∣ bs)
    (hin : ∀ x ∈ l, x * ss / bs < mini.length) :
    smallPlace bs ss mini l p = placeOf (smallBase bs ss mini) ss l p := by
  unfold smallPlace placeOf
  cases h : l[p / ss]? with
  | none => rfl
  | some x =>
    have hx := hin x (List.mem_of_getElem? h)
    obtain ⟨h1, h2⟩ := mul_split (x := x) hdvd hbs (Nat.mod_lt p hss)
    unfold bigPlace smallBase
    simp only [Option.bind_some, Option.map_some]
    rw [h1, h2, List.getElem?_eq_getElem hx, List.getD_eq_getElem?_getD, List.getElem?_eq_getElem hx]
    simp only [Option.map_some, Option.getD_some]
    rw [Nat.add_assoc]

theorem bigPlace_some {bs : Nat} (hbs : 0 < bs) {l : List Nat} {p a : Nat} (h : bigPlace bs l p = some a) :
    ∃ b, l[p / bs]? = some b ∧ a / bs = b + 1 ∧ a % bs = p % bs := by
  unfold bigPlace at h
  cases hl : l[p / bs]? with
  | none => rw [hl] at h; cases h
  | some b =>
    rw [hl] at h
    simp only [Option.map_some, Option.some.injEq] at h
    have := Nat.mod_lt p hbs
    refine ⟨b, rfl, ?_, ?_⟩
    · rw [← h, Nat.mul_add_div hbs, Nat.div_eq_of_lt this, Nat.add_zero]
    · rw [← h, Nat.mul_add_mod_self_left, Nat.mod_mod]

theorem getElem?_inj {l : List Nat} (h : l.Nodup) {i j x : Nat} (hi : l[i]? = some x) (hj : l[j]? = some x) : i = j :=
  (List.getElem?_inj (List.getElem?_eq_some_iff.1 hi).1 h).1 (hi.trans hj.symm)

theorem div_mod_inj {p q n : Nat} (h1 : p / n = q / n) (h2 : p % n = q % n) : p = q := by
  rw [← Nat.div_add_mod p n, ← Nat.div_add_mod q n, h1, h2]

theorem owned_nodup {ω : Type} {fat : List Nat} {own : ω → List Nat} (h : Owned fat own) (hsz : fat.length ≤ 0xfffffffc)
    (i : ω) : (own i).Nodup := by
  by_cases hne : own i = []
  · rw [hne]; exact List.nodup_nil
  · exact linked_nodup hsz (h.linked i hne)

theorem owned_same {ω : Type} [DecidableEq ω] {fat : List Nat} {own : ω → List Nat} (h : Owned fat own) {i j : ω} {x : Nat}
    (hi : x ∈ own i) (hj : x ∈ own j) : i = j :=
  Decidable.byContradiction fun hne => h.apart i j hne x hi hj

theorem bigPlace_inj {bs : Nat} (hbs : 0 < bs) {fat : List Nat} {own : Owner → List Nat} (h : Owned fat own)
    (hsz : fat.length ≤ 0xfffffffc) {i j : Owner} {p q a : Nat} (hp : bigPlace bs (own i) p = some a)
    (hq : bigPlace bs (own j) q = some a) : i = j ∧ p = q := by
  obtain ⟨b, h1, h2, h3⟩ := bigPlace_some hbs hp
  obtain ⟨b', h1', h2', h3'⟩ := bigPlace_some hbs hq
  have : b = b' := by omega
  subst this
  have hij := owned_same h (List.mem_of_getElem? h1) (List.mem_of_getElem? h1')
  subst hij
  exact ⟨rfl, div_mod_inj (getElem?_inj (owned_nodup h hsz i) h1 h1') (by omega)⟩

theorem smallPlace_inj {bs ss : Nat} (hbs : 0 < bs) (hss : 0 < ss) (hdvd : ss ∣ bs) {fat sfat : List Nat}
    {own : Owner → List Nat} {sown : Nat → List Nat} (h : Owned fat own) (hs : Owned sfat sown)
    (hsz : fat.length ≤ 0xfffffffc) (hssz : sfat.length ≤ 0xfffffffc) {i j p q a : Nat}
    (hp : smallPlace bs ss (own .mini) (sown i) p = some a) (hq : smallPlace bs ss (own .mini) (sown j) q = some a) :
    i = j ∧ p = q := by
  unfold smallPlace at hp hq
  cases hx : (sown i)[p / ss]? with
  | none => rw [hx] at hp; cases hp
  | some x =>
    cases hy : (sown j)[q / ss]? with
    | none => rw [hy] at hq; cases hq
    | some y =>
      rw [hx] at hp
      rw [hy] at hq
      have e := (bigPlace_inj hbs h hsz hp hq).2
      have m1 : p % ss = q % ss := by
        have := congrArg (· % ss) e
        simpa [Nat.mul_add_mod_self_right, Nat.mod_mod] using this
      have hxy : x = y := by
        have : x * ss = y * ss := by omega
        exact Nat.eq_of_mul_eq_mul_right hss this
      subst hxy
      have hij := owned_same hs (List.mem_of_getElem? hx) (List.mem_of_getElem? hy)
      subst hij
      exact ⟨rfl, div_mod_inj (getElem?_inj (owned_nodup hs hssz i) hx hy) m1⟩

/-- No byte of the file belongs to two places. -/
theorem place_inj {w : Writer} {L : Layout} {c : Contents} (H : Holds w L c) (hf : Fits w) {i j p q a : Nat}
    {e e' : DirEntry} (hp : place w L i e p = some a) (hq : place w L j e' q = some a) : i = j ∧ p = q := by
  have cross : ∀ {i j p q : Nat}, smallPlace w.io.bbat.blockSize w.io.sbat.blockSize (L.big .mini) (L.small i) p = some a →
      bigPlace w.io.bbat.blockSize (L.big (.stream j)) q = some a → False := fun {i j p q} h1 h2 => by
    unfold smallPlace at h1
    cases hx : (L.small i)[p / w.io.sbat.blockSize]? with
    | none => rw [hx] at h1; cases h1
    | some x =>
      rw [hx] at h1
      have := (bigPlace_inj H.bigPos H.big hf.1 h1 h2).1
      cases this
  unfold place at hp hq
  split at hp <;> split at hq
  · exact smallPlace_inj H.bigPos H.smallPos H.divides H.big H.small hf.1 hf.2 hp hq
  · exact (cross hp hq).elim
  · exact (cross hq hp).elim
  · have := bigPlace_inj H.bigPos H.big hf.1 hp hq
    exact ⟨by injection this.1, this.2⟩

/-! ## Reading -/

theorem placeOf_drop (base : Nat → Nat) {sz : Nat} (hsz : 0 < sz) (l : List Nat) (pos k : Nat) :
    placeOf base sz (l.drop (pos / sz)) (pos % sz + k) = placeOf base sz l (pos + k) := by
  unfold placeOf
  have e : pos + k = pos % sz + k + sz * (pos / sz) := by have := Nat.div_add_mod pos sz; omega
  rw [e, Nat.add_mul_div_left _ _ hsz, Nat.add_mul_mod_self_left, List.getElem?_drop, Nat.add_comm (pos / sz)]

theorem room_of_last {sz : Nat} (hsz : 0 < sz) {l : List Nat} {pos n : Nat} (hn : 0 < n) (h : (pos + n - 1) / sz < l.length) :
    pos % sz + n ≤ sz * (l.drop (pos / sz)).length := by
  have h1 : pos + n ≤ sz * l.length := by
    have h2 := Nat.div_add_mod (pos + n - 1) sz
    have h3 := Nat.mod_lt (pos + n - 1) hsz
    have h4 : sz * ((pos + n - 1) / sz + 1) ≤ sz * l.length := Nat.mul_le_mul_left _ h
    rw [Nat.mul_succ] at h4
    omega
  have h2 := Nat.div_add_mod pos sz
  rw [List.length_drop, Nat.mul_sub]
  omega

theorem placeOf_lt {base : Nat → Nat} {sz : Nat} {l : List Nat} {q a : Nat} (h : placeOf base sz l q = some a) :
    q / sz < l.length := by
  unfold placeOf at h
  cases hl : l[q / sz]? with
  | none => rw [hl] at h; cases h
  | some b => exact (List.getElem?_eq_some_iff.1 hl).1

theorem mem_eq_of_get {m m' : Mem} {bytes : Bytes} (hlen : m'.length = m.length) (hle : bytes.length ≤ m.length)
    (h1 : ∀ k : Nat, bytes.length ≤ k → m'[k]? = m[k]?) (h2 : ∀ (k : Nat) (v : UInt8), bytes[k]? = some v → m'[k]? = some (some v)) :
    m' = bytes.map some ++ m.drop bytes.length := by
  apply List.ext_getElem?
  intro k
  rw [List.getElem?_append]
  by_cases hk : k < bytes.length
  · rw [if_pos (by simpa using hk), List.getElem?_map, List.getElem?_eq_getElem hk]
    exact h2 k _ (List.getElem?_eq_getElem hk)
  · rw [if_neg (by simpa using hk), List.getElem?_drop, h1 k (by omega)]
    congr 1
    simp
    omega

/-- The base of the blocks of a stream and their size. -/
theorem stream_place {w : Writer} {L : Layout} {c : Contents} (H : Holds w L c) {i : Nat} {e : DirEntry}
    (he : w.io.dirtree[i]? = some e) (hs : IsStream e) : ∃ base sz,
      sz = (if e.size < w.io.header.threshold then w.io.sbat.blockSize else w.io.bbat.blockSize) ∧
      base = (if e.size < w.io.header.threshold then smallBase w.io.bbat.blockSize w.io.sbat.blockSize (L.big .mini)
        else fun b => w.io.bbat.blockSize * (b + 1)) ∧
      (∀ p, place w L i e p = placeOf base sz (L.chain i) p) ∧
      (∀ b ∈ L.chain i, Loads (if e.size < w.io.header.threshold then
          fun b buf => loadSmallBlock w.io b buf w.io.bbat.blockSize
        else fun b buf => loadBigBlock w.io.file w.io.bbat.blockSize b buf w.io.bbat.blockSize) w.io.file base sz b) := by
  have hent := (H.entry i e he hs).2
  unfold place Layout.chain
  by_cases hlt : e.size < w.io.header.threshold
  · simp only [hlt, if_true] at hent ⊢
    rw [hent.2, List.append_nil]
    refine ⟨smallBase w.io.bbat.blockSize w.io.sbat.blockSize (L.big .mini), _, rfl, rfl, fun p =>
      smallPlace_eq H.smallPos H.bigPos H.divides (H.inMini i), fun b hb => ?_⟩
    have := loads_small w.io b H.smallPos H.bigPos H.divides H.bigLt (by rw [H.mini]; exact H.inMini i b hb)
    rw [H.mini] at this
    exact this
  · simp only [hlt, if_false] at hent ⊢
    rw [hent.2, List.nil_append]
    exact ⟨fun b => w.io.bbat.blockSize * (b + 1), _, rfl, rfl, fun p => bigPlace_eq _ _ _, fun b _ =>
      loads_big _ _ _ H.bigPos H.bigLt⟩

theorem readAt_holds {w : Writer} {L : Layout} {c : Contents} (H : Holds w L c) {s : WStream} {e : DirEntry}
    (he : w.io.dirtree[s.idx]? = some e) (hs : IsStream e) (hb : s.blocks = L.chain s.idx) (pos n : Nat) (m : Mem)
    (bytes : Bytes) (hn : pos + n < 2 ^ 64) (hpos : pos ≤ c.size s.idx) (hlen : bytes.length = min n (c.size s.idx - pos))
    (hm : bytes.length ≤ m.length) (hk : c.Has s.idx pos bytes) :
    s.readAt w pos m n = .ok (bytes.length, bytes.map some ++ m.drop bytes.length) := by
  unfold WStream.readAt Writer.entryOf
  rw [he]
  simp only [Res.bind_ok]
  unfold StreamIO.readAt
  by_cases h0 : n = 0
  · rw [if_pos h0]
    have : bytes = [] := List.length_eq_zero_iff.1 (by omega)
    subst this
    rfl
  rw [if_neg h0]
  have hsize := (H.entry s.idx e he hs).1
  obtain ⟨base, sz, hsz, _, hplace, hload⟩ := stream_place H he hs
  have hszpos : 0 < sz := by
    rw [hsz]
    split
    · exact H.smallPos
    · exact H.bigPos
  dsimp only
  have h64 : u64 (pos + n) = pos + n := Nat.mod_eq_of_lt (by simpa using hn)
  have hmax : (if u64 (pos + n) > e.size then sub64 e.size pos else n) = bytes.length := by
    rw [h64, hsize]
    split
    · rw [sub64_le hpos (by omega)]; omega
    · omega
  have hdec : (if decide (e.size < w.io.header.threshold) = true then w.io.sbat.blockSize else w.io.bbat.blockSize) = sz := by
    rw [hsz]
    simp only [decide_eq_true_eq]
  have hdec2 : (if decide (e.size < w.io.header.threshold) = true then
        fun b buf => loadSmallBlock w.io b buf w.io.bbat.blockSize
      else fun b buf => loadBigBlock w.io.file w.io.bbat.blockSize b buf w.io.bbat.blockSize) =
      (if e.size < w.io.header.threshold then fun b buf => loadSmallBlock w.io b buf w.io.bbat.blockSize
      else fun b buf => loadBigBlock w.io.file w.io.bbat.blockSize b buf w.io.bbat.blockSize) := by
    simp only [decide_eq_true_eq]
  rw [hmax, hdec, hdec2, hb]
  -- the places of the bytes
  have hat : ∀ k v, bytes[k]? = some v → ∃ a, placeOf base sz (L.chain s.idx) (pos + k) = some a ∧ w.io.file[a]? = some v :=
    fun k v hkv => by
      obtain ⟨_, e', a, h1, _, h3, h4⟩ := H.known s.idx (pos + k) v (hk k v hkv)
      rw [he] at h1
      cases h1
      exact ⟨a, by rw [← hplace]; exact h3, h4⟩
  by_cases hb0 : bytes.length = 0
  · have hbn : bytes = [] := List.length_eq_zero_iff.1 hb0
    subst hbn
    split
    · rfl
    · rename_i hidx
      obtain ⟨data', r1, r2, r3, _⟩ := readLoop_bytes _ w.io.file base sz hszpos 0 ((L.chain s.idx).drop (pos / sz)) (pos % sz) 0
        (newMem sz) m (fun b hbm => hload b (List.mem_of_mem_drop hbm)) (Nat.mod_lt _ hszpos) (Nat.zero_le _) (Nat.le_refl _)
        (by
          have h1 := Nat.mod_lt pos hszpos
          have h2 : 1 ≤ ((L.chain s.idx).drop (pos / sz)).length := by rw [List.length_drop]; omega
          have h3 := Nat.mul_le_mul_left sz h2
          omega) (by simp [newMem])
      rw [List.length_nil, r1]
      congr 2
      exact mem_eq_of_get r2 (Nat.zero_le _) (fun k _ => r3 k (Or.inr (Nat.zero_le _))) (fun k v hkv => by cases hkv)
  · obtain ⟨al, h1, _⟩ := hat (bytes.length - 1) bytes[bytes.length - 1] (List.getElem?_eq_getElem (by omega))
    have hlast := placeOf_lt h1
    have hroom := room_of_last hszpos (l := L.chain s.idx) (pos := pos) (n := bytes.length) (by omega)
      (by rw [show pos + bytes.length - 1 = pos + (bytes.length - 1) by omega]; exact hlast)
    have hidx : pos / sz < (L.chain s.idx).length := by
      rcases Nat.lt_or_ge (pos / sz) (L.chain s.idx).length with h | h
      · exact h
      · rw [List.drop_of_length_le h] at hroom
        rw [List.length_nil, Nat.mul_zero] at hroom
        omega
    rw [if_neg (by omega)]
    obtain ⟨data', r1, r2, r3, r4⟩ := readLoop_bytes _ w.io.file base sz hszpos bytes.length ((L.chain s.idx).drop (pos / sz))
      (pos % sz) 0 (newMem sz) m (fun b hbm => hload b (List.mem_of_mem_drop hbm)) (Nat.mod_lt _ hszpos) hm (Nat.zero_le _)
      hroom (by simp [newMem])
    rw [r1]
    congr 2
    refine mem_eq_of_get r2 hm (fun k hk => r3 k (Or.inr hk)) (fun k v hkv => ?_)
    obtain ⟨a, h2, h3⟩ := hat k v hkv
    have := r4 k a v ((List.getElem?_eq_some_iff.1 hkv).1) (by rw [placeOf_drop base hszpos]; exact h2) h3
    rwa [Nat.zero_add] at this

/-! ## Writing into the sectors of a stream -/

theorem holds_io {w w' : Writer} {L : Layout} {c : Contents} (h : w'.io = w.io) (H : Holds w L c) : Holds w' L c := by
  obtain ⟨io, _⟩ := w
  obtain ⟨io', _⟩ := w'
  simp only at h
  subst h
  exact ⟨H.smallPos, H.bigPos, H.divides, H.bigLt, H.big, H.small, H.mini, H.miniFat, H.dir, H.inMini, H.entry, H.other,
    H.known⟩

theorem chain_disjoint {w : Writer} {L : Layout} {c : Contents} (H : Holds w L c) (hf : Fits w) {i : Nat} {e : DirEntry}
    {base : Nat → Nat} {sz : Nat} (hsz : 0 < sz) (hplace : ∀ p, place w L i e p = placeOf base sz (L.chain i) p) :
    Disjoint base sz (L.chain i) := by
  intro x hx y hy hne a b ha hb heq
  obtain ⟨ix, h1⟩ := List.getElem?_of_mem hx
  obtain ⟨iy, h2⟩ := List.getElem?_of_mem hy
  have hp : ∀ {i' x a : Nat}, (L.chain i)[i']? = some x → a < sz → place w L i e (sz * i' + a) = some (base x + a) :=
    fun {i' x a} h ha => by
      rw [hplace]
      unfold placeOf
      rw [Nat.mul_add_div hsz, Nat.div_eq_of_lt ha, Nat.add_zero, h, Nat.mul_add_mod_self_left, Nat.mod_eq_of_lt ha]
      rfl
  have h3 := hp h1 ha
  have h4 := hp h2 hb
  rw [← heq] at h4
  have h5 := (place_inj H hf h3 h4).2
  have h6 : ix = iy := by
    have := congrArg (· / sz) h5
    simpa [Nat.mul_add_div hsz, Nat.div_eq_of_lt ha, Nat.div_eq_of_lt hb] using this
  rw [h6, h2] at h1
  exact hne (Option.some.inj h1).symm

theorem write_file {w : Writer} {L : Layout} {c : Contents} (H : Holds w L c) (hf : Fits w) {i : Nat} {e : DirEntry}
    (he : w.io.dirtree[i]? = some e) (hs : IsStream e) {pos : Nat} {data : Bytes} (h0 : 0 < data.length)
    (hle : pos + data.length ≤ c.size i) {base : Nat → Nat} {sz : Nat} (hsz : 0 < sz)
    (hplace : ∀ p, place w L i e p = placeOf base sz (L.chain i) p)
    (hlast : (pos + data.length - 1) / sz < (L.chain i).length) :
    Holds { w with io := { w.io with
      file := genSave base sz w.io.file ((L.chain i).drop (pos / sz)) (pos % sz) data } } L (c.write i pos data) := by
  have hnd : (L.chain i).Nodup := by
    have hent := (H.entry i e he hs).2
    unfold Layout.chain
    split at hent
    · rw [hent.2, List.append_nil]; exact owned_nodup H.small hf.2 i
    · rw [hent.2, List.nil_append]; exact owned_nodup H.big hf.1 _
  obtain ⟨g1, g2⟩ := genSave_spec base sz hsz ((L.chain i).drop (pos / sz)) w.io.file (pos % sz) data (Nat.mod_lt _ hsz)
    (room_of_last hsz h0 hlast) (hnd.sublist (List.drop_sublist _ _))
    (fun x hx y hy => chain_disjoint H hf hsz hplace x (List.mem_of_mem_drop hx) y (List.mem_of_mem_drop hy))
  generalize genSave base sz w.io.file ((L.chain i).drop (pos / sz)) (pos % sz) data = file' at g1 g2
  have hsize : ∀ j, (c.write i pos data).size j = c.size j := fun j => by
    unfold Contents.write replaced
    dsimp only
    split
    · rename_i h; rw [h]; omega
    · rfl
  refine ⟨H.smallPos, H.bigPos, H.divides, H.bigLt, H.big, H.small, H.mini, H.miniFat, H.dir, H.inMini, ?_, H.other, ?_⟩
  · intro j ej hj hsj
    rw [hsize]
    exact H.entry j ej hj hsj
  · intro j p v hv
    rw [hsize]
    unfold Contents.write at hv
    dsimp only at hv
    by_cases hin : j = i ∧ pos ≤ p ∧ p < pos + data.length
    · rw [if_pos hin] at hv
      obtain ⟨rfl, h1, h2⟩ := hin
      obtain ⟨a, h3, h4⟩ := g1 (p - pos) (by omega)
      rw [placeOf_drop base hsz, show pos + (p - pos) = p by omega, ← hplace] at h3
      exact ⟨by omega, e, a, he, hs, h3, by rw [h4]; exact hv⟩
    · rw [if_neg hin] at hv
      obtain ⟨h1, ej, a, h2, h3, h4, h5⟩ := H.known j p v hv
      refine ⟨h1, ej, a, h2, h3, h4, g2 a v h5 (fun k hk hc => hin ?_)⟩
      rw [placeOf_drop base hsz, ← hplace] at hc
      obtain ⟨h6, h7⟩ := place_inj H hf h4 hc
      exact ⟨h6, by omega, by omega⟩

/-! ## A stream gets further sectors -/

theorem smallPlace_mono {bs ss : Nat} {mini l : List Nat} {p a : Nat} (x y : List Nat)
    (h : smallPlace bs ss mini l p = some a) : smallPlace bs ss (mini ++ x) (l ++ y) p = some a := by
  unfold smallPlace bigPlace at h ⊢
  cases hl : l[p / ss]? with
  | none => rw [hl] at h; cases h
  | some b =>
    rw [List.getElem?_append_left (List.getElem?_eq_some_iff.1 hl).1, hl]
    rw [hl] at h
    simp only [Option.bind_some] at h ⊢
    cases hm : mini[(b * ss + p % ss) / bs]? with
    | none => rw [hm] at h; cases h
    | some m =>
      rw [List.getElem?_append_left (List.getElem?_eq_some_iff.1 hm).1, hm]
      rw [hm] at h
      exact h

theorem bigPlace_mono {bs : Nat} {l : List Nat} {p a : Nat} (y : List Nat) (h : bigPlace bs l p = some a) :
    bigPlace bs (l ++ y) p = some a := by
  unfold bigPlace at h ⊢
  cases hl : l[p / bs]? with
  | none => rw [hl] at h; cases h
  | some b =>
    rw [List.getElem?_append_left (List.getElem?_eq_some_iff.1 hl).1, hl]
    rw [hl] at h
    exact h

/-- The entry with the number of its first sector. -/
def startAt (e : DirEntry) (blocks : List Nat) : DirEntry :=
  match blocks.head? with
  | none => e
  | some b => { e with start := b }

theorem startAt_size (e : DirEntry) (blocks : List Nat) : (startAt e blocks).size = e.size := by
  unfold startAt; split <;> rfl

theorem startAt_stream {e : DirEntry} {blocks : List Nat} (h : IsStream e) : IsStream (startAt e blocks) := by
  unfold startAt; split <;> exact h

theorem startAt_begins {e : DirEntry} {old extra : List Nat} (h : Begins e.start old) :
    Begins (startAt e (old ++ extra)).start (old ++ extra) := by
  unfold startAt
  cases hh : (old ++ extra).head? with
  | none =>
    have h1 : old ++ extra = [] := List.head?_eq_none_iff.1 hh
    have h2 : old = [] := (List.append_eq_nil_iff.1 h1).1
    rw [h1]
    subst h2
    exact h
  | some b => exact Or.inr hh

theorem set_get_dir {t : DirTree} {i j : Nat} {e e' x : DirEntry} (he : t[i]? = some e) (h : (t.set i e')[j]? = some x) :
    (j = i ∧ x = e') ∨ (j ≠ i ∧ t[j]? = some x) := by
  by_cases hij : j = i
  · subst hij
    rw [List.getElem?_set_self (List.getElem?_eq_some_iff.1 he).1] at h
    exact Or.inl ⟨rfl, (Option.some.inj h).symm⟩
  · rw [List.getElem?_set_ne (fun h => hij h.symm)] at h
    exact Or.inr ⟨hij, h⟩

/-- The storage with more sectors for one stream holds what it held. -/
theorem grown_holds {w w1 : Writer} {L L1 : Layout} {c : Contents} (H : Holds w L c) {i : Nat} {e : DirEntry}
    (he : w.io.dirtree[i]? = some e) (hs : IsStream e) (extra : List Nat) (hsame : Same w w1)
    (hbig : Owned w1.io.bbat.data L1.big) (hsmall : Owned w1.io.sbat.data L1.small) (hmini : w1.io.sb_blocks = L1.big .mini)
    (hfat : Begins w1.io.header.sbat_start (L1.big .miniFat)) (hdir : L1.big .dir = L.big .dir)
    (hin : ∀ i, ∀ x ∈ L1.small i, x * w.io.sbat.blockSize / w.io.bbat.blockSize < (L1.big .mini).length)
    (hmg : ∃ x, L1.big .mini = L.big .mini ++ x)
    (hother : ∀ j, j ≠ i → L1.small j = L.small j ∧ L1.big (.stream j) = L.big (.stream j))
    (hself : if e.size < w.io.header.threshold then L1.small i = L.small i ++ extra ∧ L1.big (.stream i) = L.big (.stream i)
      else L1.small i = L.small i ∧ L1.big (.stream i) = L.big (.stream i) ++ extra) :
    Holds { w1 with io := { w1.io with dirtree := w1.io.dirtree.set i (startAt e (L1.chain i)) } } L1 c := by
  have hthr := hsame.threshold
  have hent := (H.entry i e he hs).2
  have hdir1 : w1.io.dirtree = w.io.dirtree := hsame.dirtree
  have hchain : (if e.size < w.io.header.threshold then L1.chain i = L.small i ++ extra ∧ L1.small i = L.small i ++ extra ∧
        L1.big (.stream i) = [] else L1.chain i = L.big (.stream i) ++ extra ∧
        L1.big (.stream i) = L.big (.stream i) ++ extra ∧ L1.small i = []) := by
    unfold Layout.chain
    split
    · rename_i h
      rw [if_pos h] at hself hent
      rw [hself.1, hself.2, hent.2, List.append_nil]
      exact ⟨rfl, rfl, rfl⟩
    · rename_i h
      rw [if_neg h] at hself hent
      rw [hself.1, hself.2, hent.2, List.nil_append]
      exact ⟨rfl, rfl, rfl⟩
  have hplace : ∀ j ej p a, w.io.dirtree[j]? = some ej → IsStream ej → place w L j ej p = some a →
      (if ej.size < w.io.header.threshold then
        smallPlace w.io.bbat.blockSize w.io.sbat.blockSize (L1.big .mini) (L1.small j) p
      else bigPlace w.io.bbat.blockSize (L1.big (.stream j)) p) = some a := by
    intro j ej p a hj hsj h
    unfold place at h
    obtain ⟨x, hx⟩ := hmg
    by_cases hji : j = i
    · subst hji
      rw [he] at hj
      cases hj
      split at h
      · rename_i hlt
        rw [if_pos hlt] at hself ⊢
        rw [hself.1, hx]
        exact smallPlace_mono _ _ h
      · rename_i hlt
        rw [if_neg hlt] at hself ⊢
        rw [hself.2]
        exact bigPlace_mono _ h
    · rw [(hother j hji).1, (hother j hji).2, hx]
      split at h
      · rename_i hlt
        rw [if_pos hlt]
        have := smallPlace_mono x [] h
        rwa [List.append_nil] at this
      · rename_i hlt
        rw [if_neg hlt]
        exact h
  constructor
  · show 0 < w1.io.sbat.blockSize; rw [hsame.smallSize]; exact H.smallPos
  · show 0 < w1.io.bbat.blockSize; rw [hsame.bigSize]; exact H.bigPos
  · show w1.io.sbat.blockSize ∣ w1.io.bbat.blockSize; rw [hsame.smallSize, hsame.bigSize]; exact H.divides
  · show w1.io.bbat.blockSize < _; rw [hsame.bigSize]; exact H.bigLt
  · exact hbig
  · exact hsmall
  · exact hmini
  · exact hfat
  · show Begins w1.io.header.dirent_start _; rw [hsame.dirent_start, hdir]; exact H.dir
  · intro j x hx
    show x * w1.io.sbat.blockSize / w1.io.bbat.blockSize < _
    rw [hsame.smallSize, hsame.bigSize]
    exact hin j x hx
  · intro j ej hj hsj
    show ej.size = c.size j ∧ if ej.size < w1.io.header.threshold then _ else _
    rw [hthr]
    simp only [hdir1] at hj
    rcases set_get_dir he hj with ⟨rfl, rfl⟩ | ⟨hji, hj⟩
    · rw [startAt_size]
      refine ⟨(H.entry j e he hs).1, ?_⟩
      split
      · rename_i h
        rw [if_pos h] at hchain hent
        rw [hchain.1, hchain.2.1]
        exact ⟨startAt_begins hent.1, hchain.2.2⟩
      · rename_i h
        rw [if_neg h] at hchain hent
        rw [hchain.1, hchain.2.1]
        exact ⟨startAt_begins hent.1, hchain.2.2⟩
    · rw [(hother j hji).1, (hother j hji).2]
      exact H.entry j ej hj hsj
  · intro j hj
    simp only [hdir1] at hj
    have hji : j ≠ i := by
      rintro rfl
      refine hj (startAt e (L1.chain j)) ?_ (startAt_stream hs)
      rw [List.getElem?_set_self (List.getElem?_eq_some_iff.1 he).1]
    rw [(hother j hji).1, (hother j hji).2]
    refine H.other j (fun e' he' => hj e' ?_)
    rw [List.getElem?_set_ne (fun h => hji h.symm)]
    exact he'
  · intro j p v hv
    obtain ⟨h1, ej, a, h2, h3, h4, h5⟩ := H.known j p v hv
    have h6 := hplace j ej p a h2 h3 h4
    have hfile : w1.io.file[a]? = some v := by rw [hsame.file]; exact h5
    refine ⟨h1, ?_⟩
    by_cases hji : j = i
    · subst hji
      rw [he] at h2
      cases h2
      refine ⟨startAt e (L1.chain j), a, ?_, startAt_stream hs, ?_, hfile⟩
      · simp only [hdir1]
        rw [List.getElem?_set_self (List.getElem?_eq_some_iff.1 he).1]
      · unfold place
        simp only
        rw [startAt_size, hthr, hsame.bigSize, hsame.smallSize]
        exact h6
    · refine ⟨ej, a, ?_, h3, ?_, hfile⟩
      · simp only [hdir1]
        rw [List.getElem?_set_ne (fun h => hji h.symm)]
        exact h2
      · unfold place
        simp only
        rw [hthr, hsame.bigSize, hsame.smallSize]
        exact h6

end Fileid.Pole
