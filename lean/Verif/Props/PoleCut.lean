import Verif.Props.PoleOpen
import Verif.Lemmas.PoleBytes
import Verif.Spec.CfbCut
import Verif.Props.PoleSample

/-!
# Compound files that were cut off: C69
-/

namespace Fileid.Props

open Spec Pole

/-- What is loaded from a list of blocks one of which ends behind the end of the file, by more than `g` bytes: the
byte `g` bytes before the end of the buffer is never written. -/
theorem loadLoop_cut {file : Bytes} {bs g N : Nat} (hb' : bs ≤ 2 ^ 30) (hg : g < bs) (hN : N ≤ 2 ^ 62) :
    ∀ (blocks : List Nat) (bytes : Nat) (m : Mem), (∀ s ∈ blocks, s < 2 ^ 32) → m.length = N →
      m[N - 1 - g]? = some none →
      (N ≤ bytes ∨ bytes + bs * blocks.length + g < N ∨
        (bytes + bs * blocks.length ≤ N ∧ ∃ s ∈ blocks, file.length + g < bs * (s + 2))) →
      ∃ m', loadLoop file bs N blocks bytes m = .ok m' ∧ m'.length = N ∧ m'[N - 1 - g]? = some none := by
  intro blocks
  induction blocks with
  | nil =>
    intro bytes m _ hl hu _
    exact ⟨m, rfl, hl, hu⟩
  | cons s rest ih =>
    intro bytes m hs hl hu h
    rw [loadLoop]
    by_cases hlt : bytes < N
    · rw [if_pos hlt]
      dsimp only
      have hmul : bs * (s :: rest).length = bs * rest.length + bs := by rw [List.length_cons, Nat.mul_succ]
      rw [hmul] at h
      have hp : (if bs < N - bytes then bs else N - bytes) = bs := by
        split
        · rfl
        · omega
      rw [hp]
      have hs1 : s < 2 ^ 32 := hs s (by simp)
      have hpos : bs * (s + 1) ≤ 2 ^ 30 * 2 ^ 32 := Nat.mul_le_mul hb' (by omega)
      have h2 : bs * (s + 2) = bs * (s + 1) + bs := by rw [show s + 2 = (s + 1) + 1 by omega, Nat.mul_succ]
      -- what has to be known about one step
      have key : ∀ (got : Mem) (p : Nat), bytes + got.length ≤ N →
          (bytes + got.length + g < N) →
          (N ≤ u64 (bytes + p) ∨ u64 (bytes + p) + bs * rest.length + g < N ∨
            (u64 (bytes + p) + bs * rest.length ≤ N ∧ ∃ s ∈ rest, file.length + g < bs * (s + 2))) →
          ∃ m', (mwr m bytes got >>= fun m => loadLoop file bs N rest (u64 (bytes + p)) m) = .ok m' ∧
            m'.length = N ∧ m'[N - 1 - g]? = some none := by
        intro got p hfit hlow hnext
        have hm := mwr_ok (m := m) (i := bytes) (bs := got) (by rw [hl]; exact hfit)
        have hget := mwr_get hm (N - 1 - g)
        have hlen := mwr_length hm
        rw [hm, Res.bind_ok]
        refine ih _ _ (fun t ht => hs t (by simp [ht])) (by omega) ?_ hnext
        rw [hget]
        split
        · exact hu
        · rw [if_neg (by omega)]
          exact hu
      generalize hP : bs * (s + 1) = pos at *
      -- either this block is cut off by more than `g` bytes, or a later one is, or too few bytes are left anyway
      have hcase : bytes + bs * rest.length + bs + g < N ∨ (bytes + bs * rest.length + bs ≤ N ∧ file.length + g < pos + bs) ∨
          (bytes + bs * rest.length + bs ≤ N ∧ bs ≤ bs * rest.length ∧
            ∃ s ∈ rest, file.length + g < bs * (s + 2)) := by
        rcases h with h | h | ⟨h, t, ht, hc⟩
        · omega
        · exact Or.inl (by omega)
        · rcases List.mem_cons.mp ht with rfl | ht
          · rw [h2] at hc
            exact Or.inr (Or.inl ⟨by omega, hc⟩)
          · have : 0 < rest.length := List.length_pos_of_mem ht
            exact Or.inr (Or.inr ⟨by omega, Nat.le_mul_of_pos_right _ this, t, ht, hc⟩)
      by_cases hcut : pos + bs > file.length
      · rw [if_pos hcut]
        by_cases hin : pos ≤ file.length
        · have hsub : sub64 file.length pos = file.length - pos := by unfold sub64; omega
          rw [hsub, if_pos hin]
          have hgot : (((file.drop pos).take (file.length - pos)).map some).length = file.length - pos := by simp
          have hu64 : u64 (bytes + (file.length - pos)) = bytes + (file.length - pos) := by unfold u64; omega
          apply key
          · rw [hgot]; omega
          · rw [hgot]; rcases hcase with h | h | ⟨h, h', _⟩ <;> omega
          · rw [hu64]
            rcases hcase with h | h | ⟨h, h', hx⟩
            · exact Or.inr (Or.inl (by omega))
            · exact Or.inr (Or.inl (by omega))
            · exact Or.inr (Or.inr ⟨by omega, hx⟩)
        · have hsub : u64 (bytes + sub64 file.length pos) =
              if pos - file.length ≤ bytes then bytes - (pos - file.length)
              else bytes + 18446744073709551616 - (pos - file.length) := by
            unfold sub64 u64
            split <;> omega
          rw [if_neg hin]
          apply key
          · simp; omega
          · simp; rcases hcase with h | h | ⟨h, h', _⟩ <;> omega
          · rw [hsub]
            split
            · exact Or.inr (Or.inl (by rcases hcase with h | h | ⟨h, h', _⟩ <;> omega))
            · exact Or.inl (by omega)
      · rw [if_neg hcut, if_pos (by omega)]
        have hgot : (((file.drop pos).take bs).map some).length = bs := by simp; omega
        have hu64 : u64 (bytes + bs) = bytes + bs := by unfold u64; omega
        apply key
        · rw [hgot]; omega
        · rw [hgot]; rcases hcase with h | h | ⟨h, h', _⟩ <;> omega
        · rw [hu64]
          rcases hcase with h | h | ⟨h, h', hx⟩
          · exact Or.inr (Or.inl (by omega))
          · omega
          · exact Or.inr (Or.inr ⟨by omega, hx⟩)
    · rw [if_neg hlt]
      exact ⟨m, rfl, hl, hu⟩

/-- A buffer that was loaded from such blocks. -/
theorem loadBigBlocks_cut {file : Bytes} {bs g : Nat} {blocks : List Nat} (hb : bs ≤ 2 ^ 30) (hg : g < bs)
    (hn : blocks.length ≤ 2 ^ 32) (hs : ∀ s ∈ blocks, s < 2 ^ 32)
    (hcut : ∃ s ∈ blocks, file.length + g < bs * (s + 2)) :
    ∃ m, loadBigBlocks file bs blocks (newMem (blocks.length * bs)) (blocks.length * bs) = .ok m ∧
      m.length = blocks.length * bs ∧ m[blocks.length * bs - 1 - g]? = some none := by
  have hN : blocks.length * bs ≤ 2 ^ 32 * 2 ^ 30 := Nat.mul_le_mul hn hb
  have h0 : bs ≤ blocks.length * bs := by
    obtain ⟨s, hm, _⟩ := hcut
    exact Nat.le_mul_of_pos_left _ (List.length_pos_of_mem hm)
  refine loadLoop_cut hb hg (by omega) blocks 0 _ hs (by simp [newMem]) ?_ (Or.inr (Or.inr ⟨?_, hcut⟩))
  · rw [newMem, List.getElem?_replicate, if_pos (by omega)]
  · rw [Nat.mul_comm]; omega

/-- An allocation table that was cut off. -/
theorem loadTable_cut {file : Bytes} {shift : Nat} {t : AllocTable} {blocks : List Nat} (hb : 6 < shift ∧ shift < 31)
    (hn : blocks.length ≤ 2 ^ 32) (hs : ∀ s ∈ blocks, s < 2 ^ 32)
    (hcut : ∃ s ∈ blocks, file.length < 2 ^ shift * (s + 2)) :
    ∃ u, loadTable file (2 ^ shift) t blocks = .ub u := by
  have hp : 2 ^ shift ≤ 2 ^ 30 := Nat.pow_le_pow_right (by decide) (by omega)
  obtain ⟨m, h1, h2, h3⟩ := loadBigBlocks_cut (g := 0) hp (Nat.two_pow_pos _) hn hs (by simpa using hcut)
  obtain ⟨k, hk⟩ : ∃ k, blocks.length * 2 ^ shift = 4 * k :=
    ⟨blocks.length * 2 ^ (shift - 2), by
      rw [show shift = (shift - 2) + 2 by omega, Nat.pow_add, show shift - 2 + 2 - 2 = shift - 2 by omega,
        ← Nat.mul_assoc, Nat.mul_comm _ (2 ^ 2)]⟩
  have hpos : 0 < blocks.length * 2 ^ shift := by
    obtain ⟨s, hm, _⟩ := hcut
    exact Nat.mul_pos (List.length_pos_of_mem hm) (Nat.two_pow_pos _)
  unfold loadTable
  rw [if_pos hpos, h1, Res.bind_ok]
  unfold AllocTable.load
  rw [hk] at h3 hpos ⊢
  rw [show 4 * k / 4 = k by omega]
  obtain ⟨u, hu⟩ := readWords_uninit m k (k - 1) (by omega) 0 (by rw [← h3]; congr 1; omega)
  rw [hu]
  exact ⟨u, rfl⟩

theorem readU32_uninit {m : Mem} {i : Nat} (h : m[i + 3]? = some none) : ∃ u, readU32 m i = .ub u := by
  rcases readU32_cases m i with ⟨w, hw⟩ | h'
  · exfalso
    unfold readU32 at hw
    have h3 : mrd m (i + 3) = .ub .uninit := by unfold mrd; rw [h]
    rcases mrd_cases m i with ⟨a, ha⟩ | ⟨u, ha⟩ <;> rw [ha] at hw <;> try (cases hw; done)
    rw [Res.bind_ok] at hw
    rcases mrd_cases m (i + 1) with ⟨a, ha⟩ | ⟨u, ha⟩ <;> rw [ha] at hw <;> try (cases hw; done)
    rw [Res.bind_ok] at hw
    rcases mrd_cases m (i + 2) with ⟨a, ha⟩ | ⟨u, ha⟩ <;> rw [ha] at hw <;> try (cases hw; done)
    rw [Res.bind_ok, h3] at hw
    cases hw
  · exact h'

theorem actualLen_cases (m : Mem) (p nl : Nat) : ∀ n j, nl + 2 ≤ 2 * n + j → 0 < n → (∃ a, actualLen m p nl n j = .ok a) ∨
    ∃ u, actualLen m p nl n j = .ub u := by
  intro n
  induction n with
  | zero => intro j _ h; omega
  | succ n ih =>
    intro j h _
    rw [actualLen]
    split
    · refine bind_cases (mrd_cases _ _) fun b => ?_
      split
      · exact ih _ (by omega) (by omega)
      · exact Or.inl ⟨_, rfl⟩
    · exact Or.inl ⟨_, rfl⟩

theorem wchars_cases (m : Mem) (k : Nat) : ∀ n p, (∃ a, wchars m k p n = .ok a) ∨ ∃ u, wchars m k p n = .ub u := by
  intro n
  induction n with
  | zero => intro p; exact Or.inl ⟨_, rfl⟩
  | succ n ih =>
    intro p
    exact bind_cases (readId_cases _ _ _) fun _ => bind_cases (ih _) fun _ => Or.inl ⟨_, rfl⟩

theorem nameLen_cases (m : Mem) (p nl : Nat) : (∃ a, actualLen m p (if nl > 64 then 64 else nl) 33 0 = .ok a) ∨
    ∃ u, actualLen m p (if nl > 64 then 64 else nl) 33 0 = .ub u :=
  actualLen_cases _ _ _ _ _ (by split <;> omega) (by decide)

theorem ub_bind {α β : Type} {r : Res α} {f : α → Res β} (hr : (∃ a, r = .ok a) ∨ ∃ u, r = .ub u)
    (hf : ∀ a, ∃ u, f a = .ub u) : ∃ u, (r >>= f) = .ub u := by
  rcases hr with ⟨a, rfl⟩ | ⟨u, rfl⟩
  · exact hf a
  · exact ⟨u, rfl⟩

theorem ub_bind' {α β : Type} {r : Res α} {f : α → Res β} (hr : ∃ u, r = .ub u) : ∃ u, (r >>= f) = .ub u := by
  obtain ⟨u, rfl⟩ := hr
  exact ⟨u, rfl⟩

theorem loadEntry_cases (abi : Abi) (m : Mem) (p : Nat) :
    (∃ e, loadEntry abi m p = .ok e) ∨ ∃ u, loadEntry abi m p = .ub u := by
  unfold loadEntry
  exact bind_cases (readU16_cases _ _) fun _ => bind_cases (nameLen_cases _ _ _) fun _ =>
    bind_cases (wchars_cases _ _ _ _) fun _ => bind_cases (mrd_cases _ _) fun _ =>
    bind_cases (readU32_cases _ _) fun _ => bind_cases (readU32_cases _ _) fun _ =>
    bind_cases (readU32_cases _ _) fun _ => bind_cases (readU32_cases _ _) fun _ =>
    bind_cases (readU32_cases _ _) fun _ => Or.inl ⟨_, rfl⟩

theorem loadEntry_uninit (abi : Abi) {m : Mem} {p : Nat} (h : m[p + 123]? = some none) :
    ∃ u, loadEntry abi m p = .ub u := by
  unfold loadEntry
  refine ub_bind (readU16_cases _ _) fun _ => ub_bind (nameLen_cases _ _ _) fun _ =>
    ub_bind (wchars_cases _ _ _ _) fun _ => ub_bind (mrd_cases _ _) fun _ =>
    ub_bind (readU32_cases _ _) fun _ => ub_bind' (readU32_uninit ?_)
  rw [← h]; congr 1; omega

theorem loadEntries_uninit (abi : Abi) {m : Mem} : ∀ n p, 0 < n → m[p + 128 * n - 5]? = some none →
    ∃ u, loadEntries abi m p n = .ub u := by
  intro n
  induction n with
  | zero => intro p h; omega
  | succ n ih =>
    intro p _ h
    rw [loadEntries]
    by_cases h0 : n = 0
    · subst h0
      exact ub_bind' (loadEntry_uninit abi (by rw [← h]; congr 1))
    · exact ub_bind (loadEntry_cases _ _ _) fun _ =>
        ub_bind' (ih _ (by omega) (by rw [← h]; congr 1; omega))

/-- The header of a stored compound file is accepted, and what is read then is the part behind it. -/
theorem open_contents (abi : Abi) {file : Bytes} {hd : CfbHeader} (hst : hd.Stored file) (hgood : hd.Good) :
    ∃ hh : Header, openStorage abi (some file) = loadContents abi file hh ∧ hh.b_shift = hd.shift ∧
      hh.s_shift = hd.miniShift ∧ hh.num_bat = hd.fatCount ∧ hh.dirent_start = hd.dirStart ∧
      hh.sbat_start = hd.miniFatStart ∧ hh.mbat_start = hd.difatStart ∧ hh.num_mbat = hd.difatCount ∧
      hh.bb_blocks = hd.difat := by
  obtain ⟨hh, h0, h1, h2, h3, h4, h5, h6, h7, h8, _, h10, h11, h12, h13⟩ := C38_layout file hst.length
  have e1 := num_unique h3 hst.shift
  have e2 := num_unique h4 hst.miniShift
  have e3 := num_unique h5 hst.fatCount
  have e4 := num_unique h6 hst.dirStart
  have e5 := num_unique h7 hst.cutoff
  have e6 := num_unique h8 hst.miniFatStart
  have e7 := num_unique h10 hst.difatStart
  have e8 := num_unique h11 hst.difatCount
  have e9 : hh.bb_blocks = hd.difat := by
    apply List.ext_getElem (by rw [h12, hst.slots])
    intro i hi hi'
    exact num_unique (h13 i _ (List.getElem?_eq_getElem hi)) (hst.difat i _ (List.getElem?_eq_getElem hi'))
  have e10 : hh.id = pole_magic := by
    have a1 := h1.eq_take_drop
    have a2 := hst.signature.eq_take_drop
    rw [h2] at a1
    exact a1.symm.trans a2
  have hval : hh.valid = true := by
    obtain ⟨g1, g2, g3, g4, g5⟩ := hgood
    unfold Header.valid
    rw [e1, e2, e3, e5, e8, if_neg (by omega), if_neg (by omega), if_neg (by omega), if_neg (by omega),
      if_neg (by omega), if_neg (by omega)]
  have hmw0 : mwr (newMem 512) 0 ((file.take 512).map some) = .ok ((file.take 512).map some) := by
    have := hst.length
    exact mwr_full (by rw [List.length_map, List.length_take, newMem, List.length_replicate]; omega)
  refine ⟨hh, ?_, e1, e2, e3, e4, e6, e7, e8, e9⟩
  unfold openStorage
  dsimp only
  rw [hmw0, Res.bind_ok, h0, Res.bind_ok, if_neg (by rw [e10]; simp), if_neg (by rw [hval]; simp)]

/-- The numbers of the sectors that hold the FAT are stored in 32 bits. -/
theorem difat_lt {file : Bytes} {ss k s need : Nat} {l : List Nat} (h : Difat file ss k s need l) :
    ∀ x ∈ l, x < 2 ^ 32 := by
  induction h with
  | last _ hw _ =>
    intro x hx
    obtain ⟨i, hi⟩ := List.getElem?_of_mem (List.mem_of_mem_take hx)
    simpa using (hw.2 i x hi).lt
  | next _ hw _ _ ih =>
    intro x hx
    rcases List.mem_append.mp hx with hx | hx
    · obtain ⟨i, hi⟩ := List.getElem?_of_mem (List.mem_append_left _ hx)
      simpa using (hw.2 i x hi).lt
    · exact ih x hx

theorem fatSectors_lt {file : Bytes} {hd : CfbHeader} {fs : List Nat} (hst : hd.Stored file)
    (h : FatSectors file hd fs) : ∀ x ∈ fs, x < 2 ^ 32 := by
  have hd1 : ∀ x ∈ hd.difat, x < 2 ^ 32 := by
    intro x hx
    obtain ⟨i, hi⟩ := List.getElem?_of_mem hx
    simpa using (hst.difat i x hi).lt
  rcases h with ⟨_, rfl⟩ | ⟨_, rest, hr, rfl⟩
  · exact fun x hx => hd1 x (List.mem_of_mem_take hx)
  · intro x hx
    rcases List.mem_append.mp hx with hx | hx
    · exact hd1 x hx
    · exact difat_lt hr x hx

theorem chainOrNone_lt {fat : List Nat} {s : Nat} {l : List Nat} (h : ChainOrNone fat s l) :
    ∀ x ∈ l, x < fat.length := by
  rcases h with h | ⟨_, rfl⟩
  · exact chain_lt h
  · simp

/-- C69 is false: a compound file that ends before the end of its FAT makes the reader use bytes it never read. -/
theorem C69_fat_cut_false (abi : Abi) (file : Bytes) (hd : CfbHeader) (fs : List Nat) (hst : hd.Stored file)
    (hgood : hd.Good) (hfs : FatSectors file hd fs) (hfl : fs.length = hd.fatCount)
    (hcut : ∃ s ∈ fs, file.length < 2 ^ hd.shift * (s + 2)) : ∃ u, openStorage abi (some file) = .ub u := by
  obtain ⟨hh, h0, e1, e2, e3, e4, e6, e7, e8, e9⟩ := open_contents abi hst hgood
  have hfat32 : hd.fatCount ≤ 2 ^ 32 := by have := hst.fatCount.lt; simp at this; omega
  rw [h0]
  unfold loadContents
  dsimp only
  rw [e1, getbbatBlocks_spec hgood hst.slots e3 e8 e7 e9 hfs hfl, Res.bind_ok]
  exact ub_bind' (loadTable_cut hgood.shift (by omega) (fatSectors_lt hst hfs) hcut)

/-- C69 is false: so does a compound file that ends before the end of its mini FAT. -/
theorem C69_minifat_cut_false (abi : Abi) (file : Bytes) (hd : CfbHeader) (fat ms : List Nat)
    (hst : hd.Stored file) (hgood : hd.Good)
    (hfat : ∃ fs bytes, FatSectors file hd fs ∧ fs.length = hd.fatCount ∧ Content file (2 ^ hd.shift) fs bytes ∧
      Words bytes fat) (hsz : fat.length ≤ 0xfffffffc)
    (hmf : Chain fat hd.miniFatStart ms)
    (hcut : ∃ s ∈ ms, file.length < 2 ^ hd.shift * (s + 2)) : ∃ u, openStorage abi (some file) = .ub u := by
  obtain ⟨fs, fb, hfs, hfl, hfc, hfw⟩ := hfat
  obtain ⟨hh, h0, e1, e2, e3, e4, e6, e7, e8, e9⟩ := open_contents abi hst hgood
  have hfat32 : hd.fatCount ≤ 2 ^ 32 := by have := hst.fatCount.lt; simp at this; omega
  obtain ⟨bbat, t1, t2, t3⟩ := loadTable_spec (t := { blockSize := 2 ^ hd.shift }) hfc hfw
    (small_content hgood.shift.2 hfat32 (by omega) hfc)
  have hne : fat ≠ [] := by rintro rfl; cases hmf <;> simp_all
  rw [if_neg hne] at t3
  rw [h0]
  unfold loadContents
  dsimp only
  rw [e1, e6, getbbatBlocks_spec hgood hst.slots e3 e8 e7 e9 hfs hfl, Res.bind_ok, t1, Res.bind_ok,
    follow_chain (by rw [t3]; exact hsz) (by rw [t3]; exact hmf), Res.bind_ok]
  have hl := chain_length hmf
  exact ub_bind' (loadTable_cut hgood.shift (by omega) (fun x hx => by have := chain_lt hmf x hx; omega) hcut)

/-- C69 is false: so does a compound file that ends before the last field of its last directory entry. (The last
four bytes of an entry are not used.) -/
theorem C69_directory_cut_false (abi : Abi) (file : Bytes) (hd : CfbHeader) (fat minifat ds : List Nat)
    (hst : hd.Stored file) (hgood : hd.Good)
    (hfat : ∃ fs bytes, FatSectors file hd fs ∧ fs.length = hd.fatCount ∧ Content file (2 ^ hd.shift) fs bytes ∧
      Words bytes fat) (hsz : fat.length ≤ 0xfffffffc)
    (hmf : ∃ ms bytes, ChainOrNone fat hd.miniFatStart ms ∧ Content file (2 ^ hd.shift) ms bytes ∧
      Words bytes minifat)
    (hdir : Chain fat hd.dirStart ds)
    (hcut : ∃ s ∈ ds, file.length + 4 < 2 ^ hd.shift * (s + 2)) : ∃ u, openStorage abi (some file) = .ub u := by
  obtain ⟨fs, fb, hfs, hfl, hfc, hfw⟩ := hfat
  obtain ⟨ms, mb, hms, hmc, hmw⟩ := hmf
  obtain ⟨hh, h0, e1, e2, e3, e4, e6, e7, e8, e9⟩ := open_contents abi hst hgood
  have hfat32 : hd.fatCount ≤ 2 ^ 32 := by have := hst.fatCount.lt; simp at this; omega
  obtain ⟨bbat, t1, t2, t3⟩ := loadTable_spec (t := { blockSize := 2 ^ hd.shift }) hfc hfw
    (small_content hgood.shift.2 hfat32 (by omega) hfc)
  have hne : fat ≠ [] := by rintro rfl; cases hdir <;> simp_all
  rw [if_neg hne] at t3
  obtain ⟨sbat, u1, u2, u3⟩ := loadTable_spec (t := { blockSize := 2 ^ hd.miniShift }) hmc hmw
    (small_content hgood.shift.2 (by omega) (chainOrNone_length hms) hmc)
  have hl := chain_length hdir
  have hp : 2 ^ hd.shift ≤ 2 ^ 30 := Nat.pow_le_pow_right (by decide) (by have := hgood.shift.2; omega)
  have hp' : 2 ^ 7 ≤ 2 ^ hd.shift := Nat.pow_le_pow_right (by decide) (by have := hgood.shift.1; omega)
  obtain ⟨m, b1, b2, b3⟩ := loadBigBlocks_cut (g := 4) (blocks := ds) hp (by omega) (by omega)
    (fun x hx => by have := chain_lt hdir x hx; omega) hcut
  obtain ⟨k, hk⟩ : ∃ k, ds.length * 2 ^ hd.shift = 128 * k :=
    ⟨ds.length * 2 ^ (hd.shift - 7), by
      have := hgood.shift.1
      rw [show hd.shift = (hd.shift - 7) + 7 by omega, Nat.pow_add, show hd.shift - 7 + 7 - 7 = hd.shift - 7 by omega,
        ← Nat.mul_assoc, Nat.mul_comm _ (2 ^ 7)]⟩
  have hpos : 0 < ds.length * 2 ^ hd.shift := by
    obtain ⟨s, hm, _⟩ := hcut
    exact Nat.mul_pos (List.length_pos_of_mem hm) (Nat.two_pow_pos _)
  rw [h0]
  unfold loadContents
  dsimp only
  rw [e1, e2, e4, e6, getbbatBlocks_spec hgood hst.slots e3 e8 e7 e9 hfs hfl, Res.bind_ok, t1, Res.bind_ok,
    follow_chainOrNone (by rw [t3]; exact hsz) (by rw [t3]; exact hms), Res.bind_ok, u1, Res.bind_ok,
    follow_chain (by rw [t3]; exact hsz) (by rw [t3]; exact hdir), Res.bind_ok, b1, Res.bind_ok]
  unfold loadTree
  rw [hk] at b3 hpos ⊢
  rw [show 128 * k / 128 = k by omega]
  exact ub_bind' (loadEntries_uninit abi k 0 (by omega) (by rw [← b3]; congr 1; omega))

/-! ## The beginning of a compound file -/

theorem at_cut {c : Bytes} {off n : Nat} {bs : Bytes} (h : At c off bs) (hn : off + bs.length ≤ n) :
    At (c.take n) off bs := by
  rw [at_iff] at h ⊢
  refine ⟨by rw [List.length_take]; omega, ?_⟩
  rw [List.drop_take, List.take_take, show min bs.length (n - off) = bs.length by omega]
  exact h.2

theorem num_cut {c : Bytes} {off n w v : Nat} (h : Num c off w v) (hn : off + w ≤ n) : Num (c.take n) off w v := by
  obtain ⟨bs, h1, h2, h3⟩ := h
  exact ⟨bs, at_cut h1 (by omega), h2, h3⟩

theorem stored_cut {c : Bytes} {hd : CfbHeader} {n : Nat} (h : hd.Stored c) (hn : 512 ≤ n) : hd.Stored (c.take n) := by
  refine ⟨at_cut h.signature (by simp; omega), by rw [List.length_take]; have := h.length; omega,
    num_cut h.shift (by omega), num_cut h.miniShift (by omega), num_cut h.fatCount (by omega),
    num_cut h.dirStart (by omega), num_cut h.cutoff (by omega), num_cut h.miniFatStart (by omega),
    num_cut h.difatStart (by omega), num_cut h.difatCount (by omega), h.slots, fun i b hi => ?_⟩
  have := (List.getElem?_eq_some_iff.1 hi).1
  have := h.slots
  exact num_cut (h.difat i b hi) (by omega)

theorem content_cut {c : Bytes} {ss n : Nat} {l : List Nat} {bs : Bytes} (h : Content c ss l bs)
    (hn : ∀ s ∈ l, ss * (s + 2) ≤ n) : Content (c.take n) ss l bs := by
  induction h with
  | nil => exact .nil
  | cons hs _ ih =>
    rename_i k rest _ _ _
    have h1 := hn k (by simp)
    rw [show k + 2 = (k + 1) + 1 by omega, Nat.mul_succ] at h1
    exact .cons ⟨at_cut hs.1 (by rw [hs.2]; exact h1), hs.2⟩ (ih fun s hm => hn s (by simp [hm]))

/-- C69 is false: the beginning of a compound file, cut off before the end of a sector of its FAT, mini FAT or
directory (by more than the last four bytes, that a directory entry does not use), makes the reader use bytes it
never read. -/
theorem C69_cut_false (abi : Abi) (file : Bytes) (hd : CfbHeader) (fat minifat : List Nat) (dir : Bytes)
    (mini : List Nat) (h : CfbImage file hd fat minifat dir mini) (hfew : hd.fatCount ≤ 109) (n : Nat)
    (hcut : ∃ s, TableSector file hd fat s ∧ n + 4 < 2 ^ hd.shift * (s + 2)) :
    ∃ u, openStorage abi (some (file.take n)) = .ub u := by
  by_cases hn : 512 ≤ n
  case neg => exact C69_short_file_false abi _ (by rw [List.length_take]; omega)
  have hlen : (file.take n).length ≤ n := by rw [List.length_take]; omega
  have hst := stored_cut h.stored hn
  obtain ⟨fs, fb, hfs, hfl, hfc, hfw⟩ := h.hfat
  have hfs' : fs = hd.difat.take hd.fatCount := by
    rcases hfs with ⟨_, e⟩ | ⟨h, _⟩
    · exact e
    · omega
  have hfsn : FatSectors (file.take n) hd fs := Or.inl ⟨hfew, hfs'⟩
  by_cases h1 : ∃ s ∈ fs, n < 2 ^ hd.shift * (s + 2)
  · obtain ⟨s, hs, hs'⟩ := h1
    exact C69_fat_cut_false abi _ hd fs hst h.good hfsn hfl ⟨s, hs, by omega⟩
  have h1 : ∀ s ∈ fs, 2 ^ hd.shift * (s + 2) ≤ n := fun s hs =>
    Nat.le_of_not_lt fun hx => h1 ⟨s, hs, hx⟩
  have hfat : ∃ fs bytes, FatSectors (file.take n) hd fs ∧ fs.length = hd.fatCount ∧
      Content (file.take n) (2 ^ hd.shift) fs bytes ∧ Words bytes fat :=
    ⟨fs, fb, hfsn, hfl, content_cut hfc h1, hfw⟩
  obtain ⟨ms, mb, hms, hmc, hmw⟩ := h.hminifat
  by_cases h2 : ∃ s ∈ ms, n < 2 ^ hd.shift * (s + 2)
  · obtain ⟨s, hs, hs'⟩ := h2
    rcases hms with hms | ⟨_, rfl⟩
    · exact C69_minifat_cut_false abi _ hd fat ms hst h.good hfat h.hfatSize hms ⟨s, hs, by omega⟩
    · simp at hs
  have h2 : ∀ s ∈ ms, 2 ^ hd.shift * (s + 2) ≤ n := fun s hs =>
    Nat.le_of_not_lt fun hx => h2 ⟨s, hs, hx⟩
  obtain ⟨s, hs, hs'⟩ := hcut
  cases hs with
  | fat hf hs =>
    rcases hf with ⟨_, rfl⟩ | ⟨h, _⟩
    · have := h1 s (by rw [hfs']; exact hs)
      omega
    · omega
  | miniFat hm hs =>
    rcases hms with hms | ⟨hx, rfl⟩
    · have := h2 s (chain_unique hms hm ▸ hs)
      omega
    · have := chain_lt hm
      obtain ⟨t, ht⟩ := chain_head hm
      have := this hd.miniFatStart (by rw [ht]; simp)
      omega
  | directory hc hs =>
    exact C69_directory_cut_false abi _ hd fat minifat _ hst h.good hfat h.hfatSize
      ⟨ms, mb, hms, content_cut hmc h2, hmw⟩ hc ⟨s, hs, by omega⟩

/-- The sample without the end of its mini FAT. -/
example : ∃ u, openStorage .linux (some (Sample.image.take 2000)) = .ub u := by
  refine C69_cut_false _ _ _ _ _ _ _ Sample.is_image (by decide) 2000 ⟨2, ?_, by decide⟩
  exact .miniFat (ms := [2]) (.last (e := 0xfffffffe) (by decide +kernel) (by decide +kernel)) (by decide)

/-- C69: nothing else of the file is needed to see what is in it: cut off behind these sectors, it is opened, and the
same storages and streams are found in it. -/
theorem C69_uncut_partial (abi : Abi) (habi : abi.wcharBytes ≤ 4) (file : Bytes) (hd : CfbHeader)
    (fat minifat : List Nat) (dir : Bytes) (mini : List Nat) (h : CfbImage file hd fat minifat dir mini)
    (hfew : hd.fatCount ≤ 109) (n : Nat) (hn : 512 ≤ n)
    (hall : ∀ s, TableSector file hd fat s → 2 ^ hd.shift * (s + 2) ≤ n) :
    ∃ io io', openStorage abi (some file) = .ok (.opened io) ∧
      openStorage abi (some (file.take n)) = .ok (.opened io') ∧
      ∀ path, io'.entries abi path = io.entries abi path ∧ io'.isDirectory abi path = io.isDirectory abi path ∧
        io'.exists abi path = io.exists abi path := by
  obtain ⟨fs, fb, hfs, hfl, hfc, hfw⟩ := h.hfat
  have hfs' : fs = hd.difat.take hd.fatCount := by
    rcases hfs with ⟨_, e⟩ | ⟨h, _⟩
    · exact e
    · omega
  obtain ⟨ms, mb, hms, hmc, hmw⟩ := h.hminifat
  obtain ⟨ds, hds, hdc⟩ := h.hdir
  have h' : CfbImage (file.take n) hd fat minifat dir mini :=
    ⟨stored_cut h.stored hn, h.good,
      ⟨fs, fb, Or.inl ⟨hfew, hfs'⟩, hfl, content_cut hfc fun s hs => hall s (.fat hfs hs), hfw⟩, h.hfatSize,
      ⟨ms, mb, hms, content_cut hmc fun s hs => by
        rcases hms with hms | ⟨_, rfl⟩
        · exact hall s (.miniFat hms hs)
        · simp at hs, hmw⟩,
      ⟨ds, hds, content_cut hdc fun s hs => hall s (.directory hds hs)⟩, h.hmini⟩
  obtain ⟨io, a1, _, _, _, _, _, _, _, a2, _, a3⟩ := C68_open abi habi _ _ _ _ _ _ h
  obtain ⟨io', b1, _, _, _, _, _, _, _, b2, _, b3⟩ := C68_open abi habi _ _ _ _ _ _ h'
  have hd' : io'.dirtree = io.dirtree := by
    apply List.ext_getElem (by rw [a2, b2])
    intro i hi hi'
    have x := (a3 i _ (List.getElem?_eq_getElem hi')).1
    rw [(b3 i _ (List.getElem?_eq_getElem hi)).1] at x
    exact Res.ok.inj x
  refine ⟨io, io', a1, b1, fun path => ?_⟩
  unfold StorageIO.entries StorageIO.isDirectory StorageIO.exists
  rw [hd']
  exact ⟨rfl, rfl, rfl⟩

/-- The sample without its mini stream. -/
example : ∃ io io', openStorage .linux (some Sample.image) = .ok (.opened io) ∧
      openStorage .linux (some (Sample.image.take 2048)) = .ok (.opened io') ∧
      ∀ path, io'.entries .linux path = io.entries .linux path ∧
        io'.isDirectory .linux path = io.isDirectory .linux path ∧
        io'.exists .linux path = io.exists .linux path := by
  have c1 : Chain Sample.fat 1 [1] := .last (e := 0xfffffffe) (by decide +kernel) (by decide +kernel)
  have c2 : Chain Sample.fat 2 [2] := .last (e := 0xfffffffe) (by decide +kernel) (by decide +kernel)
  refine C69_uncut_partial _ (by decide) _ _ _ _ _ _ Sample.is_image (by decide) 2048 (by decide) fun s hs => ?_
  cases hs with
  | fat hf hs =>
    rcases hf with ⟨_, rfl⟩ | ⟨h, _⟩
    · have e : s = 0 := by simpa [Sample.hd] using hs
      subst e
      decide
    · exact absurd h (by decide)
  | miniFat hm hs =>
    have e : s = 2 := by simpa [← chain_unique c2 hm] using hs
    subst e
    decide
  | directory hm hs =>
    have e : s = 1 := by simpa [← chain_unique c1 hm] using hs
    subst e
    decide

end Fileid.Props
