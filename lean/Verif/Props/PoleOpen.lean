import Verif.Lemmas.PoleOpen
import Verif.Props.Pole

/-!
# Opening a compound file: C45 (names), C68 (contents)
-/

namespace Fileid.Props

open Spec Pole

/-! ## Directory entries -/

/-- The fields of a directory entry read from 128 bytes, other than its name. -/
structure EntryAt (dir : Bytes) (off : Nat) (e : DirEntry) : Prop where
  start : Num dir (off + 0x74) 4 e.start
  size : Num dir (off + 0x78) 4 e.size
  prev : Num dir (off + 0x44) 4 e.prev
  next : Num dir (off + 0x48) 4 e.next
  child : Num dir (off + 0x4c) 4 e.child
  isDir : e.dir = false ↔ At dir (off + 0x42) [2]
  valid : e.valid = true ↔
    (At dir (off + 0x42) [1] ∨ At dir (off + 0x42) [2] ∨ At dir (off + 0x42) [5]) ∧ ¬ Num dir (off + 0x40) 2 0

theorem at_one {c : Bytes} {i : Nat} {b : UInt8} (h : i < c.length) : At c i [b] ↔ c[i] = b := by
  rw [at_iff, List.drop_eq_getElem_cons h]
  simp only [List.length_singleton, List.take_succ_cons, List.take_zero, List.cons.injEq, and_true]
  exact ⟨fun h => h.2, fun e => ⟨by omega, e⟩⟩

/-- C68: an entry is read without leaving its 128 bytes. -/
theorem C68_entry (abi : Abi) (habi : abi.wcharBytes ≤ 4) (dir : Bytes) (off : Nat) (h : off + 128 ≤ dir.length) :
    ∃ e, loadEntry abi (dir.map some) off = .ok e ∧ EntryAt dir off e := by
  unfold loadEntry
  rw [readU16_some _ _ (by omega), Res.bind_ok]
  have hnum : Num dir (off + 0x40) 2 (leVal ((dir.drop (0x40 + off)).take 2)) := by
    rw [Nat.add_comm 0x40]; exact num_of_le (by omega)
  generalize leVal ((dir.drop (0x40 + off)).take 2) = nl at *
  obtain ⟨r, hr, hr64, _, _⟩ := actualLen_ok dir off (if nl > 64 then 64 else nl) (by split <;> omega) (by omega) 33 0
    rfl (by omega) (by omega)
  obtain ⟨us, hu, _, _⟩ := wchars_some dir abi.wcharBytes (r / 2) off (by
    have h1 : r / 2 ≤ 32 := by omega
    have h2 := Nat.mul_le_mul habi h1
    omega)
  dsimp only
  rw [hr, Res.bind_ok, hu, Res.bind_ok, mrd_some _ _ (by omega), Res.bind_ok, readU32_some _ _ (by omega), Res.bind_ok,
    readU32_some _ _ (by omega), Res.bind_ok, readU32_some _ _ (by omega), Res.bind_ok,
    readU32_some _ _ (by omega), Res.bind_ok, readU32_some _ _ (by omega), Res.bind_ok]
  refine ⟨_, rfl, ?_⟩
  have hn : ∀ k, k + 4 ≤ 128 → Num dir (off + k) 4 (leVal ((dir.drop (k + off)).take 4)) := fun k hk => by
    rw [Nat.add_comm k]; exact num_of_le (by omega)
  refine ⟨hn 0x74 (by omega), hn 0x78 (by omega), hn 0x44 (by omega), hn 0x48 (by omega), hn 0x4c (by omega), ?_, ?_⟩
  · rw [at_one (by omega)]
    simp [Nat.add_comm]
  · rw [at_one (by omega), at_one (by omega), at_one (by omega)]
    have h0 : ¬ Num dir (off + 0x40) 2 0 ↔ ¬ (if nl > 64 then 64 else nl) < 1 := by
      constructor
      · intro hz hlt
        apply hz
        have : nl = 0 := by split at hlt <;> omega
        rw [← this]; exact hnum
      · intro hz h'
        have := num_unique hnum h'
        subst this
        simp at hz
    rw [h0]
    simp only [decide_eq_true_eq, Nat.add_comm]
    constructor
    · rintro ⟨h1 | h1 | h1, h2⟩
      · exact ⟨Or.inr (Or.inl h1), h2⟩
      · exact ⟨Or.inl h1, h2⟩
      · exact ⟨Or.inr (Or.inr h1), h2⟩
    · rintro ⟨h1 | h1 | h1, h2⟩
      · exact ⟨Or.inr (Or.inl h1), h2⟩
      · exact ⟨Or.inl h1, h2⟩
      · exact ⟨Or.inr (Or.inr h1), h2⟩

/-- C68: the directory is the list of its 128-byte entries. -/
theorem C68_directory (abi : Abi) (habi : abi.wcharBytes ≤ 4) (dir : Bytes) :
    ∃ t, loadTree abi (dir.map some) dir.length = .ok t ∧ t.length = dir.length / 128 ∧
      ∀ i e, t[i]? = some e → loadEntry abi (dir.map some) (128 * i) = .ok e ∧ EntryAt dir (128 * i) e := by
  have gen : ∀ n p, p + 128 * n ≤ dir.length →
      ∃ t, loadEntries abi (dir.map some) p n = .ok t ∧ t.length = n ∧
        ∀ i e, t[i]? = some e → loadEntry abi (dir.map some) (p + 128 * i) = .ok e ∧ EntryAt dir (p + 128 * i) e := by
    intro n
    induction n with
    | zero => intro p _; exact ⟨[], rfl, rfl, fun i e h => by simp at h⟩
    | succ n ih =>
      intro p hp
      obtain ⟨e, he, hat⟩ := C68_entry abi habi dir p (by omega)
      obtain ⟨t, h1, h2, h3⟩ := ih (p + 128) (by omega)
      refine ⟨e :: t, ?_, by simp [h2], ?_⟩
      · rw [loadEntries, he, Res.bind_ok, h1]
        rfl
      · intro i e' hi
        cases i with
        | zero =>
          simp at hi
          subst hi
          exact ⟨he, hat⟩
        | succ i =>
          have := h3 i e' (by simpa using hi)
          rwa [show p + 128 + 128 * i = p + 128 * (i + 1) by omega] at this
  obtain ⟨t, h1, h2, h3⟩ := gen (dir.length / 128) 0 (by omega)
  refine ⟨t, h1, h2, fun i e h => ?_⟩
  have := h3 i e h
  rwa [Nat.zero_add] at this

theorem mwr_full {m bs : Mem} (h : bs.length = m.length) : mwr m 0 bs = .ok bs := by
  rw [mwr_ok (by omega), Nat.zero_add, h]
  simp

/-- The blocks of the FAT are found through the header and the DIFAT chain. -/
theorem getbbatBlocks_spec {file : Bytes} {hd : CfbHeader} {h : Header} {fs : List Nat}
    (hg : hd.Good) (hs : hd.difat.length = 109) (h1 : h.num_bat = hd.fatCount) (h2 : h.num_mbat = hd.difatCount)
    (h3 : h.mbat_start = hd.difatStart) (h4 : h.bb_blocks = hd.difat) (hf : FatSectors file hd fs)
    (hl : fs.length = hd.fatCount) : getbbatBlocks file h (2 ^ hd.shift) = .ok fs := by
  have h64 : 2 ^ hd.shift < 2 ^ 64 := Nat.pow_lt_pow_right (by decide) (by have := hg.shift; omega)
  unfold getbbatBlocks
  rw [h1, h2, h3, h4]
  rcases hf with ⟨hle, rfl⟩ | ⟨hgt, rest, hd', rfl⟩
  · dsimp only
    rw [if_neg (by omega), Res.bind_ok]
    simp [hs]
    omega
  · have hk : 0 < hd.difatCount := by
      generalize hd.difatCount = k at hd'
      cases hd' <;> omega
    dsimp only
    rw [if_pos ⟨hgt, hk⟩, List.take_of_length_le (by omega),
      metaLoop_difat h64 hd' _ _ true _ hd.difat _ (by simp [newMem]) (by omega) (Or.inl ⟨rfl, rfl, rfl⟩), Res.bind_ok,
      hl]
    simp

theorem loadTable_spec {file : Bytes} {ss : Nat} {t : AllocTable} {blocks : List Nat} {bytes : Bytes} {ws : List Nat}
    (hc : Content file ss blocks bytes) (hw : Words bytes ws) (h64 : bytes.length < 2 ^ 64) :
    ∃ t', loadTable file ss t blocks = .ok t' ∧ t'.blockSize = t.blockSize ∧
      t'.data = if ws = [] then t.data else ws := by
  unfold loadTable
  have hl := content_length hc
  rw [← hl]
  by_cases h : bytes.length > 0
  · rw [if_pos h, loadBigBlocks_content hc (by simp [newMem]) h64, Res.bind_ok]
    obtain ⟨t', h1, h2, h3⟩ := C41_load t bytes ws hw
    refine ⟨t', h1, h3, ?_⟩
    have := hw.1
    rw [if_neg (fun e => by rw [e, List.length_nil] at this; omega), h2]
  · rw [if_neg h]
    refine ⟨t, rfl, rfl, ?_⟩
    have := hw.1
    rw [if_pos (List.length_eq_zero_iff.1 (by omega))]

theorem follow_chainOrNone {t : AllocTable} (hsz : t.data.length ≤ 0xfffffffc) {s : Nat} {l : List Nat}
    (h : ChainOrNone t.data s l) : t.follow s = .ok l := by
  rcases h with h | ⟨h, rfl⟩
  · exact follow_chain hsz h
  · exact follow_outside h

theorem chainOrNone_length {fat : List Nat} {s : Nat} {l : List Nat} (h : ChainOrNone fat s l) :
    l.length ≤ fat.length := by
  rcases h with h | ⟨_, rfl⟩
  · exact chain_length h
  · simp

theorem small_content {file : Bytes} {shift n : Nat} {l : List Nat} {c : Bytes} (hs : shift < 31) (hn : n ≤ 2 ^ 32)
    (hl : l.length ≤ n) (h : Content file (2 ^ shift) l c) : c.length < 2 ^ 64 := by
  rw [content_length h]
  have h1 : 2 ^ shift ≤ 2 ^ 30 := Nat.pow_le_pow_right (by decide) (by omega)
  have h2 := Nat.mul_le_mul (Nat.le_trans hl hn) h1
  omega

/-- C68: opening a well-formed compound file reads its FAT, mini FAT, directory and the sectors of the mini
stream. -/
theorem C68_open (abi : Abi) (habi : abi.wcharBytes ≤ 4) (file : Bytes) (hd : CfbHeader) (fat minifat : List Nat)
    (dir : Bytes) (mini : List Nat) (h : CfbImage file hd fat minifat dir mini) :
    ∃ io, openStorage abi (some file) = .ok (.opened io) ∧ io.file = file ∧
      io.header.threshold = 4096 ∧ io.bbat.blockSize = 2 ^ hd.shift ∧ io.bbat.data = fat ∧
      io.sbat.blockSize = 2 ^ hd.miniShift ∧ io.sbat.data = (if minifat = [] then List.replicate 128 0xffffffff else minifat) ∧ io.sb_blocks = mini ∧
      io.dirtree.length = dir.length / 128 ∧ Header.load ((file.take 512).map some) = .ok io.header ∧
      ∀ i e, io.dirtree[i]? = some e → loadEntry abi (dir.map some) (128 * i) = .ok e ∧ EntryAt dir (128 * i) e := by
  obtain ⟨hst, hgood, ⟨fs, fb, hfs, hfl, hfc, hfw⟩, hsz, ⟨ms, mb, hms, hmc, hmw⟩, ⟨ds, hds, hdc⟩, ⟨ss, hss, hmi⟩⟩ := h
  obtain ⟨hh, h0, h1, h2, h3, h4, h5, h6, h7, h8, _, h10, h11, h12, h13⟩ := C38_layout file hst.length
  have e1 := num_unique h3 hst.shift
  have e2 := num_unique h4 hst.miniShift
  have e3 := num_unique h5 hst.fatCount
  have e4 := num_unique h6 hst.dirStart
  have e5 := num_unique h7 hst.cutoff
  have e6 := num_unique h8 hst.miniFatStart
  have e7 := num_unique h10 hst.difatStart
  have e8 := num_unique h11 hst.difatCount
  have e9 : hh.bb_blocks = hd.difat := by
    apply List.ext_getElem (by rw [h12, hst.slots])
    intro i hi hi'
    exact num_unique (h13 i _ (List.getElem?_eq_getElem hi)) (hst.difat i _ (List.getElem?_eq_getElem hi'))
  have e10 : hh.id = pole_magic := by
    have a1 := h1.eq_take_drop
    have a2 := hst.signature.eq_take_drop
    rw [h2] at a1
    exact a1.symm.trans a2
  have hval : hh.valid = true := by
    obtain ⟨g1, g2, g3, g4, g5⟩ := hgood
    unfold Header.valid
    rw [e1, e2, e3, e5, e8, if_neg (by omega), if_neg (by omega), if_neg (by omega), if_neg (by omega),
      if_neg (by omega), if_neg (by omega)]
  have hfat32 : hd.fatCount ≤ 2 ^ 32 := by have := hst.fatCount.lt; simp at this; omega
  obtain ⟨bbat, t1, t2, t3⟩ := loadTable_spec (t := { blockSize := 2 ^ hd.shift }) hfc hfw
    (small_content hgood.shift.2 hfat32 (by omega) hfc)
  have hne : fat ≠ [] := by
    rintro rfl
    cases hds with
    | last h _ => simp at h
    | next h _ _ => simp at h
  rw [if_neg hne] at t3
  obtain ⟨sbat, u1, u2, u3⟩ := loadTable_spec (t := { blockSize := 2 ^ hd.miniShift }) hmc hmw
    (small_content hgood.shift.2 (by omega) (chainOrNone_length hms) hmc)
  obtain ⟨t, v1, v2, v3⟩ := C68_directory abi habi dir
  refine ⟨⟨file, hh, bbat, sbat, t, mini⟩, ?_, rfl, by rw [e5, hgood.cutoff], t2, t3, u2, u3, rfl, v2, h0, v3⟩
  · unfold openStorage
    dsimp only
    have hmw0 : mwr (newMem 512) 0 ((file.take 512).map some) = .ok ((file.take 512).map some) := by
      have := hst.length
      exact mwr_full (by rw [List.length_map, List.length_take, newMem, List.length_replicate]; omega)
    rw [hmw0, Res.bind_ok, h0, Res.bind_ok, if_neg (by rw [e10]; simp), if_neg (by rw [hval]; simp)]
    unfold loadContents
    dsimp only
    rw [e1, e2, e6, e4, getbbatBlocks_spec hgood hst.slots e3 e8 e7 e9 hfs hfl, Res.bind_ok, t1, Res.bind_ok,
      follow_chainOrNone (by rw [t3]; exact hsz) (by rw [t3]; exact hms), Res.bind_ok, u1, Res.bind_ok,
      follow_chain (by rw [t3]; exact hsz) (by rw [t3]; exact hds), Res.bind_ok, ← content_length hdc,
      loadBigBlocks_content hdc (by simp [newMem]) (small_content hgood.shift.2 (by omega) (chain_length hds) hdc),
      Res.bind_ok, v1, Res.bind_ok, readU32_num hss, Res.bind_ok,
      follow_chainOrNone (by rw [t3]; exact hsz) (by rw [t3]; exact hmi), Res.bind_ok]

/-! ## Images that cannot be opened safely -/

theorem mrd_cases (m : Mem) (i : Nat) : (∃ b, mrd m i = .ok b) ∨ ∃ u, mrd m i = .ub u := by
  unfold mrd
  split
  · exact Or.inr ⟨_, rfl⟩
  · exact Or.inr ⟨_, rfl⟩
  · exact Or.inl ⟨_, rfl⟩

theorem bind_cases {α β : Type} {r : Res α} {f : α → Res β} (h : (∃ a, r = .ok a) ∨ ∃ u, r = .ub u)
    (hf : ∀ a, (∃ b, f a = .ok b) ∨ ∃ u, f a = .ub u) : (∃ b, (r >>= f) = .ok b) ∨ ∃ u, (r >>= f) = .ub u := by
  rcases h with ⟨a, rfl⟩ | ⟨u, rfl⟩
  · exact hf a
  · exact Or.inr ⟨u, rfl⟩

theorem readU16_cases (m : Mem) (i : Nat) : (∃ b, readU16 m i = .ok b) ∨ ∃ u, readU16 m i = .ub u :=
  bind_cases (mrd_cases _ _) fun _ => bind_cases (mrd_cases _ _) fun _ => Or.inl ⟨_, rfl⟩

theorem readU32_cases (m : Mem) (i : Nat) : (∃ b, readU32 m i = .ok b) ∨ ∃ u, readU32 m i = .ub u :=
  bind_cases (mrd_cases _ _) fun _ => bind_cases (mrd_cases _ _) fun _ => bind_cases (mrd_cases _ _) fun _ =>
    bind_cases (mrd_cases _ _) fun _ => Or.inl ⟨_, rfl⟩

theorem readId_cases (m : Mem) (i n : Nat) : (∃ b, readId m i n = .ok b) ∨ ∃ u, readId m i n = .ub u := by
  induction n generalizing i with
  | zero => exact Or.inl ⟨_, rfl⟩
  | succ n ih => exact bind_cases (mrd_cases _ _) fun _ => bind_cases (ih _) fun _ => Or.inl ⟨_, rfl⟩

/-- Words of which one byte was never written. -/
theorem readWords_uninit (m : Mem) (n k : Nat) (hk : k < n) : ∀ i, m[i + 4 * k + 3]? = some none →
    ∃ u, readWords m i n = .ub u := by
  induction n generalizing k with
  | zero => omega
  | succ n ih =>
    intro i h
    rw [readWords]
    rcases readU32_cases m i with ⟨w, hw⟩ | ⟨u, hu⟩
    · cases k with
      | zero =>
        exfalso
        unfold readU32 at hw
        have h3 : mrd m (i + 3) = .ub .uninit := by unfold mrd; rw [show i + 3 = i + 4 * 0 + 3 by omega, h]
        rcases mrd_cases m i with ⟨a, ha⟩ | ⟨u, ha⟩ <;> rw [ha] at hw <;> try (cases hw; done)
        rw [Res.bind_ok] at hw
        rcases mrd_cases m (i + 1) with ⟨a, ha⟩ | ⟨u, ha⟩ <;> rw [ha] at hw <;> try (cases hw; done)
        rw [Res.bind_ok] at hw
        rcases mrd_cases m (i + 2) with ⟨a, ha⟩ | ⟨u, ha⟩ <;> rw [ha] at hw <;> try (cases hw; done)
        rw [Res.bind_ok, h3] at hw
        cases hw
      | succ k =>
        rw [hw, Res.bind_ok]
        obtain ⟨u, hu⟩ := ih k (by omega) (i + 4) (by rw [← h]; congr 1; omega)
        rw [hu]
        exact ⟨u, rfl⟩
    · rw [hu]
      exact ⟨u, rfl⟩

/-- C69 is false: every file of fewer than 512 bytes makes the reader use header bytes it never read. -/
theorem C69_short_file_false (abi : Abi) (c : Bytes) (h : c.length < 512) :
    ∃ u, openStorage abi (some c) = .ub u := by
  unfold openStorage
  dsimp only
  rw [List.take_of_length_le (by omega), mwr_ok (by simp only [newMem, List.length_map, List.length_replicate]; omega),
    Res.bind_ok]
  have key : ∃ u, Header.load ((newMem 512).take 0 ++ c.map some ++ (newMem 512).drop (0 + (c.map some).length)) =
      .ub u := by
    generalize hm : (newMem 512).take 0 ++ c.map some ++ (newMem 512).drop (0 + (c.map some).length) = m
    have hu : m[0x4c + 4 * 108 + 3]? = some none := by
      rw [← hm, List.getElem?_append_right (by simp; omega), List.getElem?_drop, newMem, List.getElem?_replicate,
        if_pos (by simp; omega)]
    unfold Header.load
    have step : ∀ {α : Type} {r : Res α} {f : α → Res Header}, ((∃ a, r = .ok a) ∨ ∃ u, r = .ub u) →
        (∀ a, ∃ u, f a = .ub u) → ∃ u, (r >>= f) = .ub u := by
      intro α r f hr hf
      rcases hr with ⟨a, rfl⟩ | ⟨u, rfl⟩
      · exact hf a
      · exact ⟨u, rfl⟩
    refine step (readU16_cases _ _) fun _ => step (readU16_cases _ _) fun _ => step (readU32_cases _ _) fun _ =>
      step (readU32_cases _ _) fun _ => step (readU32_cases _ _) fun _ => step (readU32_cases _ _) fun _ =>
      step (readU32_cases _ _) fun _ => step (readU32_cases _ _) fun _ => step (readU32_cases _ _) fun _ =>
      step (readId_cases _ _ _) fun _ => ?_
    obtain ⟨u, hu⟩ := readWords_uninit m 109 108 (by decide) 0x4c hu
    rw [hu]
    exact ⟨u, rfl⟩
  obtain ⟨u, hu⟩ := key
  rw [hu]
  exact ⟨u, rfl⟩

/-- C69: a file that holds a header and is not a compound file, or whose header is not acceptable, is refused
without anything else being read. -/
theorem C69_refused_partial (abi : Abi) (c : Bytes) (h : 512 ≤ c.length) :
    (¬ At c 0 [0xd0, 0xcf, 0x11, 0xe0, 0xa1, 0xb1, 0x1a, 0xe1] → openStorage abi (some c) = .ok .notOle) ∧
    (∀ hd : CfbHeader, hd.Stored c → ¬ hd.Good → openStorage abi (some c) = .ok .badOle) ∧
    openStorage abi none = .ok .openFailed := by
  obtain ⟨hh, h0, h1, h2, h3, h4, h5, h6, h7, h8, _, h10, h11, h12, h13⟩ := C38_layout c h
  have hmw0 : mwr (newMem 512) 0 ((c.take 512).map some) = .ok ((c.take 512).map some) :=
    mwr_full (by rw [List.length_map, List.length_take, newMem, List.length_replicate]; omega)
  have ho : openStorage abi (some c) = if hh.id ≠ pole_magic then .ok .notOle
      else if ¬ hh.valid then .ok .badOle else loadContents abi c hh := by
    unfold openStorage
    dsimp only
    rw [hmw0, Res.bind_ok, h0, Res.bind_ok]
  refine ⟨fun hn => ?_, fun hd hst hb => ?_, rfl⟩
  · rw [ho, if_pos]
    intro e
    rw [e] at h1
    exact hn h1
  · have e10 : hh.id = pole_magic := by
      have a1 := h1.eq_take_drop
      have a2 := hst.signature.eq_take_drop
      rw [h2] at a1
      exact a1.symm.trans a2
    rw [ho, if_neg (by rw [e10]; simp), if_pos]
    intro hv
    apply hb
    unfold Header.valid at hv
    rw [num_unique h3 hst.shift, num_unique h4 hst.miniShift, num_unique h5 hst.fatCount, num_unique h7 hst.cutoff,
      num_unique h11 hst.difatCount] at hv
    repeat (first | (split at hv; · cases hv))
    refine ⟨?_, ?_, ?_, ?_, ?_⟩ <;> omega

/-- C69 is false: a header whose directory start is no sector of the FAT makes the reader read behind an empty
buffer. -/
theorem C69_no_directory_false (abi : Abi) (file : Bytes) (hd : CfbHeader) (fat minifat : List Nat)
    (hst : hd.Stored file) (hgood : hd.Good)
    (hfat : ∃ fs bytes, FatSectors file hd fs ∧ fs.length = hd.fatCount ∧ Content file (2 ^ hd.shift) fs bytes ∧
      Words bytes fat) (hsz : fat.length ≤ 0xfffffffc)
    (hmf : ∃ ms bytes, ChainOrNone fat hd.miniFatStart ms ∧ Content file (2 ^ hd.shift) ms bytes ∧
      Words bytes minifat)
    (hdir : fat.length ≤ hd.dirStart) : openStorage abi (some file) = .ub .oobRead := by
  obtain ⟨fs, fb, hfs, hfl, hfc, hfw⟩ := hfat
  obtain ⟨ms, mb, hms, hmc, hmw⟩ := hmf
  obtain ⟨hh, h0, h1, h2, h3, h4, h5, h6, h7, h8, _, h10, h11, h12, h13⟩ := C38_layout file hst.length
  have e1 := num_unique h3 hst.shift
  have e2 := num_unique h4 hst.miniShift
  have e3 := num_unique h5 hst.fatCount
  have e4 := num_unique h6 hst.dirStart
  have e5 := num_unique h7 hst.cutoff
  have e6 := num_unique h8 hst.miniFatStart
  have e7 := num_unique h10 hst.difatStart
  have e8 := num_unique h11 hst.difatCount
  have e9 : hh.bb_blocks = hd.difat := by
    apply List.ext_getElem (by rw [h12, hst.slots])
    intro i hi hi'
    exact num_unique (h13 i _ (List.getElem?_eq_getElem hi)) (hst.difat i _ (List.getElem?_eq_getElem hi'))
  have e10 : hh.id = pole_magic := by
    have a1 := h1.eq_take_drop
    have a2 := hst.signature.eq_take_drop
    rw [h2] at a1
    exact a1.symm.trans a2
  have hval : hh.valid = true := by
    obtain ⟨g1, g2, g3, g4, g5⟩ := hgood
    unfold Header.valid
    rw [e1, e2, e3, e5, e8, if_neg (by omega), if_neg (by omega), if_neg (by omega), if_neg (by omega),
      if_neg (by omega), if_neg (by omega)]
  have hfat32 : hd.fatCount ≤ 2 ^ 32 := by have := hst.fatCount.lt; simp at this; omega
  obtain ⟨bbat, t1, t2, t3⟩ := loadTable_spec (t := { blockSize := 2 ^ hd.shift }) hfc hfw
    (small_content hgood.shift.2 hfat32 (by omega) hfc)
  have hne : fat ≠ [] := by
    rintro rfl
    have a1 := hfw.1
    have a2 := content_length hfc
    rw [hfl] at a2
    have := Nat.mul_pos hgood.fatCount (Nat.two_pow_pos hd.shift)
    simp at a1
    rw [a1, List.length_nil] at a2
    omega
  rw [if_neg hne] at t3
  obtain ⟨sbat, u1, u2, u3⟩ := loadTable_spec (t := { blockSize := 2 ^ hd.miniShift }) hmc hmw
    (small_content hgood.shift.2 (by omega) (chainOrNone_length hms) hmc)
  unfold openStorage
  dsimp only
  have hmw0 : mwr (newMem 512) 0 ((file.take 512).map some) = .ok ((file.take 512).map some) := by
    have := hst.length
    exact mwr_full (by rw [List.length_map, List.length_take, newMem, List.length_replicate]; omega)
  rw [hmw0, Res.bind_ok, h0, Res.bind_ok, if_neg (by rw [e10]; simp), if_neg (by rw [hval]; simp)]
  unfold loadContents
  dsimp only
  rw [e1, e2, e6, e4, getbbatBlocks_spec hgood hst.slots e3 e8 e7 e9 hfs hfl, Res.bind_ok, t1, Res.bind_ok,
    follow_chainOrNone (by rw [t3]; exact hsz) (by rw [t3]; exact hms), Res.bind_ok, u1, Res.bind_ok,
    follow_outside (by rw [t3]; exact hdir), Res.bind_ok]
  simp [loadBigBlocks, loadLoop, newMem, loadTree, loadEntries, readU32, mrd]

/-! ## C45 -/

/-- The low byte of a 16-bit unit. -/
theorem unit_low {c : Bytes} {i u : Nat} (h : Num c i 2 u) (hi : i < c.length) : (c[i]).toNat = u % 256 := by
  have hl := h.length_le
  rw [h.eq, two_bytes _ _ hl]
  have := c[i].toNat_lt
  simp [leVal]

theorem actualLen_units (dir : Bytes) (off : Nat) (us : List Nat) (hu : UnitsAt dir off us)
    (hz : ∀ u ∈ us, u % 256 ≠ 0) (hend : Num dir (off + 2 * us.length) 2 0) :
    ∀ (n k f : Nat), k + n = us.length → n < f →
      actualLen (dir.map some) off (2 * (us.length + 1)) f (2 * k) = .ok (2 * us.length) := by
  intro n
  induction n with
  | zero =>
    intro k f hk hf
    obtain ⟨f, rfl⟩ : ∃ g, f = g + 1 := ⟨f - 1, by omega⟩
    have hl := hend.length_le
    rw [actualLen, if_pos (by omega), show k = us.length by omega, mrd_some _ _ (by omega), Res.bind_ok, if_neg]
    intro hc
    apply hc
    have := unit_low hend (by omega)
    exact UInt8.toNat_inj.1 (by simpa using this)
  | succ n ih =>
    intro k f hk hf
    obtain ⟨f, rfl⟩ : ∃ g, f = g + 1 := ⟨f - 1, by omega⟩
    have hkl : k < us.length := by omega
    have hn := hu k _ (List.getElem?_eq_getElem hkl)
    have hl := hn.length_le
    rw [actualLen, if_pos (by omega), mrd_some _ _ (by omega), Res.bind_ok, if_pos, ← ih (k + 1) f (by omega) (by omega)]
    · rfl
    · intro hc
      have := unit_low hn (by omega)
      rw [hc] at this
      exact hz _ (List.getElem_mem hkl) this.symm

/-- The name of an entry, up to the units it is read with. -/
theorem loadEntry_name (abi : Abi) (habi : abi.wcharBytes ≤ 4) (dir : Bytes) (off : Nat)
    (h : off + 128 ≤ dir.length) (us : List Nat) (hu : UnitsAt dir off us) (hz : ∀ u ∈ us, u % 256 ≠ 0)
    (hl : us.length < 32) (hend : Num dir (off + 2 * us.length) 2 0)
    (hnl : Num dir (off + 0x40) 2 (2 * (us.length + 1))) (e : DirEntry)
    (he : loadEntry abi (dir.map some) off = .ok e) :
    wchars (dir.map some) abi.wcharBytes off us.length = .ok e.name := by
  unfold loadEntry at he
  rw [Nat.add_comm 0x40, readU16_num hnl, Res.bind_ok] at he
  dsimp only at he
  rw [if_neg (by omega), actualLen_units dir off us hu hz hend us.length 0 33 (by omega) (by omega), Res.bind_ok,
    Nat.mul_div_cancel_left _ (by decide)] at he
  obtain ⟨ws, hw, _, _⟩ := wchars_some dir abi.wcharBytes us.length off (by
    have h2 := Nat.mul_le_mul habi (Nat.le_of_lt hl)
    omega)
  rw [hw, Res.bind_ok, mrd_some _ _ (by omega), Res.bind_ok, readU32_some _ _ (by omega), Res.bind_ok,
    readU32_some _ _ (by omega), Res.bind_ok, readU32_some _ _ (by omega), Res.bind_ok,
    readU32_some _ _ (by omega), Res.bind_ok, readU32_some _ _ (by omega), Res.bind_ok] at he
  cases he
  exact hw

/-- C45, on Windows: a name none of whose units has a zero low byte, stored with its terminator and its length, is
read as it is. Missing for the full property: names with a unit such as U+0100, and Linux; for both it is false. -/
theorem C45_windows_partial (dir : Bytes) (off : Nat) (h : off + 128 ≤ dir.length) (us : List Nat)
    (hu : UnitsAt dir off us) (hz : ∀ u ∈ us, u % 256 ≠ 0) (hl : us.length < 32)
    (hend : Num dir (off + 2 * us.length) 2 0) (hnl : Num dir (off + 0x40) 2 (2 * (us.length + 1))) :
    ∃ e, loadEntry Abi.windows (dir.map some) off = .ok e ∧ e.name = us := by
  obtain ⟨e, he, _⟩ := C68_entry Abi.windows (by decide) dir off h
  refine ⟨e, he, ?_⟩
  have := loadEntry_name Abi.windows (by decide) dir off h us hu hz hl hend hnl e he
  obtain ⟨ws, hw, hwl, hwn⟩ := wchars_some dir 2 us.length off (by omega)
  have h2 : Abi.windows.wcharBytes = 2 := rfl
  rw [h2, hw] at this
  cases this
  apply List.ext_getElem hwl
  intro k h1 h3
  exact num_unique (hwn k _ (List.getElem?_eq_getElem h1)) (hu k _ (List.getElem?_eq_getElem h3))

/-- C45 is false on Linux, where `wchar_t` has four bytes: the name read from an entry whose name has two units or
more is never its name; its first unit is made of the first two. -/
theorem C45_linux_false (dir : Bytes) (off : Nat) (h : off + 128 ≤ dir.length) (us : List Nat)
    (hu : UnitsAt dir off us) (hz : ∀ u ∈ us, u % 256 ≠ 0) (hl : us.length < 32) (h2 : 2 ≤ us.length)
    (hend : Num dir (off + 2 * us.length) 2 0) (hnl : Num dir (off + 0x40) 2 (2 * (us.length + 1))) :
    ∃ e, loadEntry Abi.linux (dir.map some) off = .ok e ∧ e.name ≠ us ∧
      e.name[0]? = some (us[0] + 65536 * us[1]) := by
  obtain ⟨e, he, _⟩ := C68_entry Abi.linux (by decide) dir off h
  have := loadEntry_name Abi.linux (by decide) dir off h us hu hz hl hend hnl e he
  obtain ⟨ws, hw, hwl, hwn⟩ := wchars_some dir 4 us.length off (by omega)
  have h4 : Abi.linux.wcharBytes = 4 := rfl
  rw [h4, hw] at this
  cases this
  have n0 := hwn 0 _ (List.getElem?_eq_getElem (by omega))
  have u0 := hu 0 _ (List.getElem?_eq_getElem (by omega))
  have u1 := hu 1 _ (List.getElem?_eq_getElem (by omega))
  have hv : e.name[0] = us[0] + 65536 * us[1] := by
    simp only [Nat.mul_zero, Nat.add_zero, Nat.mul_one] at n0 u0 u1
    rw [n0.eq, u0.eq, u1.eq, four_bytes _ _ n0.length_le, two_bytes _ _ u0.length_le, two_bytes _ _ u1.length_le]
    simp only [leVal, Nat.add_assoc, Nat.reduceAdd]
    omega
  refine ⟨e, he, ?_, by rw [List.getElem?_eq_getElem (by omega), hv]⟩
  intro hc
  have hb : us[0] = us[0] + 65536 * us[1] := by
    rw [← hv]
    simp only [hc]
  exact hz us[1] (List.getElem_mem _) (by omega)

/-- C45 is false on Windows too: the name of this entry is U+0100; it is read as the empty name. -/
theorem C45_windows_false :
    ∃ (dir : Bytes) (e : DirEntry), UnitsAt dir 0 [0x100] ∧ Num dir 0x40 2 4 ∧
      loadEntry Abi.windows (dir.map some) 0 = .ok e ∧ e.valid = true ∧ e.name = [] := by
  refine ⟨[0, 1] ++ List.replicate 62 0 ++ [4, 0, 2] ++ List.replicate 61 0,
    { valid := true, name := [], dir := false }, ?_, ?_, by decide +kernel, rfl, rfl⟩
  · intro k u hu
    cases k with
    | zero =>
      simp at hu
      subst hu
      exact ⟨[0, 1], ⟨[], _, rfl, rfl⟩, rfl, by decide⟩
    | succ k => simp at hu
  · exact ⟨[4, 0], ⟨[0, 1] ++ List.replicate 62 0, 2 :: List.replicate 61 0, by simp, by simp⟩, rfl, by decide⟩

end Fileid.Props
