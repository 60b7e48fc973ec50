import Verif.Lemmas.PoleHolds

/-!
# Lemmas about the writing side of the compound-file library: `write` and `setSize`
-/

namespace Fileid.Pole

open Spec

/-- What `write` and `setSize` leave as it is: everything of the directory but the start and size of the entry. -/
structure SameDir (w w' : Writer) (i : Nat) : Prop where
  writeable : w'.writeable = w.writeable
  length : w'.io.dirtree.length = w.io.dirtree.length
  entry : ∀ j e, w.io.dirtree[j]? = some e → ∃ e', w'.io.dirtree[j]? = some e' ∧
    { e with start := e'.start, size := e'.size } = e' ∧ (j ≠ i → e' = e)

theorem SameDir.refl (w : Writer) (i : Nat) : SameDir w w i := ⟨rfl, rfl, fun _ e h => ⟨e, h, rfl, fun _ => rfl⟩⟩

theorem SameDir.trans {a b c : Writer} {i : Nat} (h : SameDir a b i) (h' : SameDir b c i) : SameDir a c i := by
  refine ⟨by rw [h'.writeable, h.writeable], by rw [h'.length, h.length], fun j e he => ?_⟩
  obtain ⟨e1, h1, h2, h3⟩ := h.entry j e he
  obtain ⟨e2, h4, h5, h6⟩ := h'.entry j e1 h1
  refine ⟨e2, h4, ?_, fun hj => by rw [h6 hj, h3 hj]⟩
  rw [← h5, ← h2]

theorem sameDir_set {w w' : Writer} {i : Nat} {e e' : DirEntry} (he : w.io.dirtree[i]? = some e)
    (hw : w'.writeable = w.writeable) (hd : w'.io.dirtree = w.io.dirtree.set i e')
    (hee : { e with start := e'.start, size := e'.size } = e') : SameDir w w' i := by
  refine ⟨hw, by rw [hd, List.length_set], fun j ej hj => ?_⟩
  by_cases hji : j = i
  · subst hji
    rw [he] at hj
    cases hj
    exact ⟨e', by rw [hd, List.getElem?_set_self (List.getElem?_eq_some_iff.1 he).1], hee, fun h => absurd rfl h⟩
  · exact ⟨ej, by rw [hd, List.getElem?_set_ne (fun h => hji h.symm)]; exact hj, rfl, fun _ => rfl⟩

/-- After the blocks are there: the data goes to its places, and the entry gets the first block. -/
theorem store_holds {w w1 : Writer} {L L1 : Layout} {c : Contents} (H : Holds w L c) {i : Nat} {e : DirEntry}
    (he : w.io.dirtree[i]? = some e) (hs : IsStream e) (hsame : Same w w1) (hf : Fits w1)
    (H1 : Holds { w1 with io := { w1.io with dirtree := w1.io.dirtree.set i (startAt e (L1.chain i)) } } L1 c)
    {pos : Nat} {data : Bytes} (h0 : 0 < data.length) (hle : pos + data.length ≤ c.size i)
    (hlast : (pos + data.length - 1) / (if e.size < w.io.header.threshold then w.io.sbat.blockSize else w.io.bbat.blockSize) <
      (L1.chain i).length) (w2 : Writer) (total : Nat)
    (hw2 : (w2.io.file, total) = (if e.size < w.io.header.threshold then
        saveSmallLoop w1.io.bbat.blockSize w.io.sbat.blockSize w1.io.sb_blocks w1.io.file
          ((L1.chain i).drop (pos / w.io.sbat.blockSize)) (pos % w.io.sbat.blockSize) 0 data
      else saveBigLoop w.io.bbat.blockSize w1.io.file ((L1.chain i).drop (pos / w.io.bbat.blockSize))
          (pos % w.io.bbat.blockSize) 0 data))
    (hio : w2.io = { w1.io with file := w2.io.file, dirtree := w1.io.dirtree.set i (startAt e (L1.chain i)) }) :
    Holds w2 L1 (c.write i pos data) ∧ total = data.length := by
  generalize hwe : ({ w1 with io := { w1.io with dirtree := w1.io.dirtree.set i (startAt e (L1.chain i)) } } : Writer) = we at H1
  have hget : we.io.dirtree[i]? = some (startAt e (L1.chain i)) := by
    rw [← hwe]
    simp only
    rw [hsame.dirtree, List.getElem?_set_self (List.getElem?_eq_some_iff.1 he).1]
  have hfe : Fits we := by rw [← hwe]; exact hf
  have hbs : we.io.bbat.blockSize = w.io.bbat.blockSize := by rw [← hwe]; exact hsame.bigSize
  have hss : we.io.sbat.blockSize = w.io.sbat.blockSize := by rw [← hwe]; exact hsame.smallSize
  have hthr : we.io.header.threshold = w.io.header.threshold := by rw [← hwe]; exact hsame.threshold
  have hfile : we.io.file = w1.io.file := by rw [← hwe]
  have hsb : we.io.sb_blocks = w1.io.sb_blocks := by rw [← hwe]
  obtain ⟨base, sz, hsz, hbase, hplace, _⟩ := stream_place H1 hget (startAt_stream hs)
  rw [startAt_size, hthr, hss, hbs] at hsz
  rw [startAt_size, hthr, hss, hbs] at hbase
  rw [← hsz] at hlast
  have hszpos : 0 < sz := by
    rw [hsz]
    split
    · exact H.smallPos
    · exact H.bigPos
  have hres := write_file H1 hfe hget (startAt_stream hs) h0 hle hszpos hplace hlast
  have hroom := room_of_last hszpos h0 hlast
  have hsave : (w2.io.file, total) = (genSave base sz we.io.file ((L1.chain i).drop (pos / sz)) (pos % sz) data,
      data.length) := by
    rw [hw2]
    by_cases hlt : e.size < w.io.header.threshold
    · rw [if_pos hlt]
      rw [if_pos hlt] at hsz hbase
      subst hsz
      rw [saveSmallLoop_eq _ _ _ (by rw [hsame.bigSize]; exact H.divides) H.smallPos (by rw [hsame.bigSize]; exact H.bigPos) _ _ _ _ _
        (Nat.mod_lt _ H.smallPos) hroom, Nat.zero_add, hfile, hbase, ← H1.mini, hsb, hsame.bigSize]
      intro x hx
      have hm := H1.mini
      rw [hsb] at hm
      rw [hm, hsame.bigSize]
      have hxm : x ∈ L1.small i := by
        have := List.mem_of_mem_drop hx
        have hent := (H1.entry i _ hget (startAt_stream hs)).2
        rw [startAt_size, hthr, if_pos hlt] at hent
        unfold Layout.chain at this
        rwa [hent.2, List.append_nil] at this
      have := H1.inMini i x hxm
      rwa [hss, hbs] at this
    · rw [if_neg hlt]
      rw [if_neg hlt] at hsz hbase
      subst hsz
      rw [saveBigLoop_eq _ _ _ _ _ _ (Nat.mod_lt _ H.bigPos) hroom, Nat.zero_add, hfile, hbase]
  simp only [Prod.mk.injEq] at hsave
  refine ⟨holds_io ?_ hres, hsave.2⟩
  rw [hio, ← hsave.1, ← hwe]

theorem startAt_eq (e : DirEntry) (blocks : List Nat) :
    { e with start := (startAt e blocks).start, size := (startAt e blocks).size } = startAt e blocks := by
  unfold startAt; split <;> rfl

theorem set_same {t : DirTree} {i : Nat} {e : DirEntry} (h : t[i]? = some e) : t.set i e = t := by
  apply List.ext_getElem?
  intro j
  by_cases hij : i = j
  · subst hij
    rw [List.getElem?_set_self (List.getElem?_eq_some_iff.1 h).1, h]
  · rw [List.getElem?_set_ne hij]

theorem saveBigLoop_out {a : Nat} {v : UInt8} (blocks : List Nat) : ∀ (file : Bytes) (offset k : Nat) (data : Bytes), offset ≤ 512 →
    file[a]? = some v → (∀ b ∈ blocks, a < 512 * (b + 1) ∨ 512 * (b + 2) ≤ a) → (saveBigLoop 512 file blocks offset k data).1[a]? = some v := by
  induction blocks with
  | nil => exact fun file offset k data _ h _ => h
  | cons b rest ih =>
    intro file offset k data ho h hb
    unfold saveBigLoop
    split
    · dsimp only
      refine ih _ _ _ _ (by omega) ?_ fun x hx => hb x (List.mem_cons_of_mem _ hx)
      have hlen : offset + (data.take (if data.length < 512 - offset then data.length else 512 - offset)).length ≤ 512 := by
        rw [List.length_take]; split <;> omega
      rcases saveBigBlock_eq (file := file) (block := b) hlen with h1 | h1
      · rw [h1]
        refine putAt_out h ?_
        have := hb b (by simp)
        omega
      · rw [h1]; exact h
    · exact h

theorem saveSmallLoop_out {a : Nat} {v : UInt8} {sb : List Nat} (hb : ∀ b ∈ sb, a < 512 * (b + 1) ∨ 512 * (b + 2) ≤ a) (blocks : List Nat) :
    ∀ (file : Bytes) (offset k : Nat) (data : Bytes), offset ≤ 64 → file[a]? = some v →
    (saveSmallLoop 512 64 sb file blocks offset k data).1[a]? = some v := by
  induction blocks with
  | nil => exact fun file offset k data _ h => h
  | cons b rest ih =>
    intro file offset k data ho h
    unfold saveSmallLoop
    split
    · dsimp only
      cases hs : sb[b * 64 / 512]? with
      | none => exact h
      | some x =>
        dsimp only
        refine ih _ _ _ _ (by omega) ?_
        have hlen : b * 64 % 512 + offset + (data.take (if data.length > 64 - offset then 64 - offset else data.length)).length ≤ 512 := by
          rw [List.length_take]; split <;> omega
        rcases saveBigBlock_eq (file := file) (block := x) hlen with h1 | h1
        · rw [h1]
          refine putAt_out h ?_
          have := hb x (List.mem_of_getElem? hs)
          omega
        · rw [h1]; exact h
    · exact h

theorem writeBlocks_holds {w : Writer} {L : Layout} {c : Contents} (H : Holds w L c) {s : WStream} {e : DirEntry}
    (he : w.io.dirtree[s.idx]? = some e) (hs : IsStream e) (hb : s.blocks = L.chain s.idx) {pos : Nat} {data : Bytes}
    (h0 : 0 < data.length) (hle : pos + data.length ≤ c.size s.idx) {w' : Writer} {s' : WStream} {n : Nat}
    (h : s.writeBlocks w e pos data = .ok (w', s', n)) (hf : Fits w') :
    ∃ L', Holds w' L' (c.write s.idx pos data) ∧ n = data.length ∧
      s' = { s with blocks := L'.chain s.idx, pos := u64 (s.pos + data.length) } ∧
      (∀ j, j ≠ s.idx → L'.chain j = L.chain j) ∧ SameDir w w' s.idx ∧ Readies w L.big w' L'.big := by
  unfold WStream.writeBlocks at h
  dsimp only at h
  have hent := (H.entry s.idx e he hs).2
  -- the blocks
  have key : ∀ (w1 : Writer) (L1 : Layout), Same w w1 → Fits w1 →
      Holds { w1 with io := { w1.io with dirtree := w1.io.dirtree.set s.idx (startAt e (L1.chain s.idx)) } } L1 c →
      (∀ j, j ≠ s.idx → L1.chain j = L.chain j) → Readies w L.big w1 L1.big →
      (pos + data.length - 1) / (if e.size < w.io.header.threshold then w.io.sbat.blockSize else w.io.bbat.blockSize) <
        (L1.chain s.idx).length →
      ∀ r : Bytes × Nat, r = (if e.size < w.io.header.threshold then
        saveSmallLoop w1.io.bbat.blockSize w.io.sbat.blockSize w1.io.sb_blocks w1.io.file
          ((L1.chain s.idx).drop (pos / w.io.sbat.blockSize)) (pos % w.io.sbat.blockSize) 0 data
      else saveBigLoop w.io.bbat.blockSize w1.io.file ((L1.chain s.idx).drop (pos / w.io.bbat.blockSize))
          (pos % w.io.bbat.blockSize) 0 data) →
      Res.ok ((match (L1.chain s.idx).head? with
        | none => ({ w1 with io := { w1.io with file := r.1 } } : Writer)
        | some b => if e.start ≠ b then ({ w1 with io := { w1.io with file := r.1 } } : Writer).setEntry s.idx { e with start := b }
          else { w1 with io := { w1.io with file := r.1 } }),
        ({ s with blocks := L1.chain s.idx, pos := u64 (s.pos + data.length) } : WStream), r.2) = .ok (w', s', n) →
      ∃ L', Holds w' L' (c.write s.idx pos data) ∧ n = data.length ∧
        s' = { s with blocks := L'.chain s.idx, pos := u64 (s.pos + data.length) } ∧
        (∀ j, j ≠ s.idx → L'.chain j = L.chain j) ∧ SameDir w w' s.idx ∧ Readies w L.big w' L'.big := by
    intro w1 L1 hsame hf1 H1 hch hred hlast r hr hout
    have hd1 : w1.io.dirtree[s.idx]? = some e := by rw [hsame.dirtree]; exact he
    injection hout with hout
    injection hout with hw' hout
    injection hout with hs' hn
    have hio : w'.io = { w1.io with file := r.1, dirtree := w1.io.dirtree.set s.idx (startAt e (L1.chain s.idx)) } ∧
        w'.writeable = w1.writeable := by
      rw [← hw']
      unfold startAt
      cases (L1.chain s.idx).head? with
      | none =>
        dsimp only
        rw [set_same hd1]
        exact ⟨rfl, rfl⟩
      | some b =>
        dsimp only
        split
        · exact ⟨rfl, rfl⟩
        · rename_i hne
          have : ({ e with start := b } : DirEntry) = e := by
            have hb : e.start = b := Decidable.byContradiction hne
            rw [← hb]
          rw [this, set_same hd1]
          exact ⟨rfl, rfl⟩
    have hfl : w'.io.file = r.1 := by rw [hio.1]
    obtain ⟨hH, ht⟩ := store_holds H he hs hsame hf1 H1 h0 hle hlast w' r.2 (by rw [hfl]; exact hr) (by rw [hio.1])
    refine ⟨L1, hH, by rw [← hn]; exact ht, hs'.symm, hch, ?_, hred.trans ⟨?_, fun {old} _ hR => ?_⟩⟩
    rotate_left
    · rw [hio.1]; exact Nat.le_refl _
    · have hkeep : ∀ a v, InSystem (fatSectors w1 ++ L1.big .miniFat ++ L1.big .dir) a → w1.io.file[a]? = some v → r.1[a]? = some v := by
        intro a v ha hv
        have hout : ∀ o, (o = .mini ∨ o = .stream s.idx) → ∀ b ∈ L1.big o, a < 512 * (b + 1) ∨ 512 * (b + 2) ≤ a := fun o ho b hb => by
          rcases ha with ha | ⟨b', hb', ha⟩
          · omega
          · have hne : b' ≠ b := by
              rintro rfl
              simp only [List.mem_append] at hb'
              rcases hb' with (hb' | hb') | hb'
              · exact hR.big.apart _ hb' o hb
              · exact H1.big.apart .miniFat o (by rcases ho with rfl | rfl <;> simp) _ hb' hb
              · exact H1.big.apart .dir o (by rcases ho with rfl | rfl <;> simp) _ hb' hb
            omega
        have hb1 : w.io.bbat.blockSize = 512 := by rw [← hsame.bigSize]; exact hR.big.blockSize
        have hb2 : w.io.sbat.blockSize = 64 := by rw [← hsame.smallSize]; exact hR.small.blockSize
        rw [hr, hb1, hb2, hR.big.blockSize]
        split
        · have hm : w1.io.sb_blocks = L1.big .mini := H1.mini
          exact saveSmallLoop_out (by rw [hm]; exact hout _ (Or.inl rfl)) _ _ _ _ _ (by omega) hv
        · rename_i hlt
          refine saveBigLoop_out _ _ _ _ _ (by omega) hv fun b hb => hout _ (Or.inr rfl) b ?_
          have hb := List.mem_of_mem_drop hb
          unfold Layout.chain at hb
          have hself := (H1.entry s.idx (startAt e (L1.chain s.idx)) (by
            show (w1.io.dirtree.set _ _)[s.idx]? = _
            rw [List.getElem?_set_self (List.getElem?_eq_some_iff.1 hd1).1]) (startAt_stream hs)).2
          rw [startAt_size, if_neg (by show ¬ e.size < w1.io.header.threshold; rw [hsame.threshold]; exact hlt)] at hself
          rw [hself.2, List.nil_append] at hb
          exact hb
      rw [← hw']
      cases hh : (L1.chain s.idx).head? with
      | none => exact ready_file hR _ hkeep
      | some b =>
        dsimp only
        split
        · have hv := hR.dir.values e (List.mem_of_getElem? hd1)
          refine ready_setEntry (ready_file hR _ hkeep) (List.getElem?_eq_some_iff.1 hd1).1 ⟨?_, hv.2⟩
          show b < 2 ^ 32
          have hb : b ∈ L1.chain s.idx := List.mem_of_head? hh
          unfold Layout.chain at hb
          rcases List.mem_append.1 hb with hb | hb
          · have := linked_lt (H1.small.linked s.idx (List.ne_nil_of_mem hb)) _ hb
            have := hf1.2
            simp only at *
            omega
          · have := linked_lt (H1.big.linked _ (List.ne_nil_of_mem hb)) _ hb
            have := hf1.1
            simp only at *
            omega
        · exact ready_file hR _ hkeep
    exact sameDir_set he (by rw [hio.2, hsame.writeable]) (by rw [hio.1, hsame.dirtree]) (startAt_eq _ _)
  by_cases hlt : e.size < w.io.header.threshold
  · simp only [hlt, decide_true, if_true] at h hent
    have hbl : s.blocks = L.small s.idx := by rw [hb]; unfold Layout.chain; rw [hent.2, List.append_nil]
    rw [hbl] at h
    obtain ⟨⟨w1, blocks⟩, h1, h⟩ := bind_inv h
    dsimp only at h
    have hfw : Fits w1 := by
      have hd : w'.io.bbat = w1.io.bbat ∧ w'.io.sbat = w1.io.sbat := by
        injection h with h
        injection h with h _
        rw [← h]
        cases blocks.head? with
        | none => exact ⟨rfl, rfl⟩
        | some b => dsimp only; split <;> exact ⟨rfl, rfl⟩
      unfold Fits at hf ⊢
      rw [hd.1, hd.2] at hf
      exact hf
    obtain ⟨own', extra, e1, e2, e3, e4, e5, e6, e7, e8, e9, e10⟩ := extendsSmall_spec _ w w1 blocks L.big L.small s.idx h1 hfw.1
      hfw.2 H.big H.small H.miniFat H.mini H.inMini
    have hL1 : ∃ L1 : Layout, L1 = ⟨own', replaced L.small s.idx (L.small s.idx ++ extra)⟩ := ⟨_, rfl⟩
    obtain ⟨L1, hL1⟩ := hL1
    have hself : L1.small s.idx = L.small s.idx ++ extra := by rw [hL1]; exact replaced_self _ _ _
    have hbs : L1.big (.stream s.idx) = [] := by rw [hL1]; rw [← hent.2]; exact e4.other _ (by simp) (by simp)
    have hchain : L1.chain s.idx = blocks := by unfold Layout.chain; rw [hself, hbs, List.append_nil, e1]
    have hother : ∀ j, j ≠ s.idx → L1.small j = L.small j ∧ L1.big (.stream j) = L.big (.stream j) := fun j hj => by
      rw [hL1]
      exact ⟨replaced_ne _ _ hj, e4.other _ (by simp) (by simp)⟩
    have H1 := grown_holds (L1 := L1) H he hs extra e8 (by rw [hL1]; exact e3) (by rw [hL1]; exact e5) (by rw [hL1]; exact e7)
      (by rw [hL1]; exact e6) (by rw [hL1]; exact e4.other _ (by simp) (by simp)) (by rw [hL1]; exact e9)
      (by rw [hL1]; exact e4.mini) hother (by rw [if_pos hlt, hbs, hent.2]; exact ⟨hself, rfl⟩)
    refine key w1 L1 e8 hfw H1 (fun j hj => by unfold Layout.chain; rw [(hother j hj).1, (hother j hj).2]) (by rw [hL1]; exact e10) ?_ _ rfl ?_
    · rw [if_pos hlt, hchain, e1, List.length_append, e2]
      omega
    · rw [hchain, if_pos hlt]
      simp only [e8.bigSize] at h ⊢
      exact h
  · simp only [hlt, decide_false, Bool.false_eq_true, if_false] at h hent
    have hbl : s.blocks = L.big (.stream s.idx) := by rw [hb]; unfold Layout.chain; rw [hent.2, List.nil_append]
    rw [hbl] at h
    obtain ⟨⟨w1, blocks⟩, h1, h⟩ := bind_inv h
    dsimp only at h
    injection h1 with h1
    have hfw : Fits w1 := by
      have hd : w'.io.bbat = w1.io.bbat ∧ w'.io.sbat = w1.io.sbat := by
        injection h with h
        injection h with h _
        rw [← h]
        cases blocks.head? with
        | none => exact ⟨rfl, rfl⟩
        | some b => dsimp only; split <;> exact ⟨rfl, rfl⟩
      unfold Fits at hf ⊢
      rw [hd.1, hd.2] at hf
      exact hf
    have hw1 := congrArg Prod.fst h1
    have hbk := congrArg Prod.snd h1
    dsimp only at hw1 hbk
    obtain ⟨extra, e1, e2, e3, e4⟩ := extends_spec _ w L.big H.big (.stream s.idx) (by rw [hw1]; exact hfw.1)
    have hcar := extends_carries _ w L.big H.big (.stream s.idx) (by rw [hw1]; exact hfw.1) extra e1
    have hnum := extends_numSmall ((pos + data.length - 1) / w.io.bbat.blockSize + 1 - (L.big (.stream s.idx)).length) w (L.big (.stream s.idx))
    rw [hw1] at e3 e4 hcar hnum
    rw [hbk] at e1
    have hL1 : ∃ L1 : Layout, L1 = ⟨replaced L.big (.stream s.idx) (L.big (.stream s.idx) ++ extra), L.small⟩ := ⟨_, rfl⟩
    obtain ⟨L1, hL1⟩ := hL1
    have hself : L1.big (.stream s.idx) = L.big (.stream s.idx) ++ extra := by rw [hL1]; exact replaced_self _ _ _
    have hss : L1.small s.idx = [] := by rw [hL1]; exact hent.2
    have hchain : L1.chain s.idx = blocks := by unfold Layout.chain; rw [hself, hss, List.nil_append, e1]
    have hother : ∀ j, j ≠ s.idx → L1.small j = L.small j ∧ L1.big (.stream j) = L.big (.stream j) := fun j hj => by
      rw [hL1]
      exact ⟨rfl, replaced_ne _ _ (by simpa using hj)⟩
    have hsys : ∀ o : Owner, (∀ j, o ≠ .stream j) → L1.big o = L.big o := fun o ho => by
      rw [hL1]; exact replaced_ne _ _ (ho _)
    have H1 := grown_holds (L1 := L1) H he hs extra e3.same (by rw [hL1]; exact e4) (by rw [hL1, e3.sbat]; exact H.small)
      (by rw [hsys .mini (by simp), e3.sb_blocks]; exact H.mini)
      (by rw [hsys .miniFat (by simp), e3.sbat_start]; exact H.miniFat) (hsys .dir (by simp))
      (by rw [hsys .mini (by simp), hL1]; exact H.inMini)
      ⟨[], by rw [hsys .mini (by simp), List.append_nil]⟩ hother (by rw [if_neg hlt, hss, hent.2]; exact ⟨rfl, hself⟩)
    refine key w1 L1 e3.same hfw H1 (fun j hj => by unfold Layout.chain; rw [(hother j hj).1, (hother j hj).2])
      ⟨hcar.le, fun hfew hR => ⟨by rw [hL1]; exact hcar.good hfew hR.big, small_aside hR.small e3 hnum (hsys _ (by simp)),
        dir_same hR.dir e3.dirtree (fun d => by rw [e3.dirDirty]; exact ⟨Or.inl, fun h => h.elim id fun h => h.2⟩) (hsys _ (by simp))
          (Or.inl e3.sb_blocks), by rw [e3.file]; exact hR.file⟩⟩ ?_ _ rfl ?_
    · rw [if_neg hlt, hchain, e1, List.length_append, e2]
      omega
    · rw [hchain, if_neg hlt]
      exact h

/-! ## `setSize` -/

theorem freeSmall_fold (own : Nat → List Nat) (l : List (Nat × Nat)) : ∀ w : Writer, Owned w.io.sbat.data own →
    (∀ x ∈ l, ∀ j, x.1 ∉ own j) →
    Owned (l.foldl (fun (w : Writer) (x : Nat × Nat) => (w.setSmall x.1 Avail).markSmall x.2) w).io.sbat.data own ∧
    Same w (l.foldl (fun (w : Writer) (x : Nat × Nat) => (w.setSmall x.1 Avail).markSmall x.2) w) ∧
    (l.foldl (fun (w : Writer) (x : Nat × Nat) => (w.setSmall x.1 Avail).markSmall x.2) w).io.bbat = w.io.bbat ∧
    (l.foldl (fun (w : Writer) (x : Nat × Nat) => (w.setSmall x.1 Avail).markSmall x.2) w).io.sb_blocks = w.io.sb_blocks ∧
    ∀ o, (∀ x ∈ l, x.1 < w.io.sbat.data.length) →
      Readies w o (l.foldl (fun (w : Writer) (x : Nat × Nat) => (w.setSmall x.1 Avail).markSmall x.2) w) o := by
  induction l with
  | nil => exact fun w h _ => ⟨h, Same.refl w, rfl, rfl, fun o _ => Readies.refl w o⟩
  | cons x l ih =>
    intro w h hx
    rw [List.foldl_cons]
    have hs : Same w ((w.setSmall x.1 Avail).markSmall x.2) := by
      constructor <;> first | rfl | exact set_blockSize _ _ _
    obtain ⟨h1, h2, h3, h4, h5⟩ := ih ((w.setSmall x.1 Avail).markSmall x.2)
      ⟨fun i hi => linked_set (h.linked i hi) (hx x (by simp) i), h.apart⟩ (fun y hy => hx y (List.mem_cons_of_mem _ hy))
    refine ⟨h1, hs.trans h2, h3, h4, fun o ho => ?_⟩
    have hlen : ((w.setSmall x.1 Avail).markSmall x.2).io.sbat.data.length = w.io.sbat.data.length := by
      show (AllocTable.set _ _ _).data.length = _
      rw [set_length]
      have := ho x (by simp)
      omega
    refine Readies.trans (w1 := (w.setSmall x.1 Avail).markSmall x.2) (own1 := o) ⟨Nat.le_refl _, fun _ hR => ⟨core_same hR.big rfl rfl rfl rfl rfl rfl, ?_,
      dir_same hR.dir rfl (fun d => ⟨Or.inl, fun h => h.elim id fun h => h.2⟩) rfl (Or.inl rfl), hR.file⟩⟩ (h5 o fun y hy => by rw [hlen]; exact ho y (List.mem_cons_of_mem _ hy))
    refine ⟨hR.small.count, hR.small.some_sbat, by rw [hlen]; exact hR.small.cover, fun y hy => ?_, fun v hv => ?_, (set_blockSize _ _ _).trans hR.small.blockSize, hR.small.slotPrefix⟩
    · obtain ⟨hy1, hy2⟩ := used_set_avail.1 hy
      have hval : ((w.setSmall x.1 Avail).markSmall x.2).io.sbat.data[y]? = w.io.sbat.data[y]? := set_other hy1 hy2
      rw [hval]
      exact (hR.small.saved y hy1).imp (fun h => mem_markDirty.2 (Or.inl h)) id
    · rcases set_mem hv with h1 | h1 | h1
      · exact hR.small.values v h1
      · rw [h1]; decide
      · rw [h1]; decide

theorem freeBig_fold (own : Owner → List Nat) (l : List (Nat × Nat)) : ∀ w : Writer, Owned w.io.bbat.data own →
    (∀ x ∈ l, ∀ j, x.1 ∉ own j) →
    Owned (l.foldl (fun (w : Writer) (x : Nat × Nat) => (w.setBig x.1 Avail).markBig x.2) w).io.bbat.data own ∧
    Aside w (l.foldl (fun (w : Writer) (x : Nat × Nat) => (w.setBig x.1 Avail).markBig x.2) w) ∧
    (l.foldl (fun (w : Writer) (x : Nat × Nat) => (w.setBig x.1 Avail).markBig x.2) w).io.header = w.io.header ∧
    ∀ o : Owner → List Nat, (∀ x ∈ l, x.1 < w.io.bbat.data.length) → (∀ x ∈ l, x.1 ∉ fatSectors w) →
      (∀ old : Snap, Good old w o → Good old (l.foldl (fun (w : Writer) (x : Nat × Nat) => (w.setBig x.1 Avail).markBig x.2) w) o) := by
  induction l with
  | nil => exact fun w h _ => ⟨h, Aside.refl w, rfl, fun o _ _ _ => id⟩
  | cons x l ih =>
    intro w h hx
    rw [List.foldl_cons]
    obtain ⟨h1, h2, h4, h3⟩ := ih ((w.setBig x.1 Avail).markBig x.2)
      ⟨fun i hi => linked_set (h.linked i hi) (hx x (by simp) i), h.apart⟩ (fun y hy => hx y (List.mem_cons_of_mem _ hy))
    refine ⟨h1, ((aside_setBig _ _ _).trans (aside_markBig _ _)).trans h2, h4, fun o ho hfs => ?_⟩
    have hlen : ((w.setBig x.1 Avail).markBig x.2).io.bbat.data.length = w.io.bbat.data.length := by
      show (AllocTable.set _ _ _).data.length = _
      rw [set_length]
      have := ho x (by simp)
      omega
    have h5 := h3 o (fun y hy => by rw [hlen]; exact ho y (List.mem_cons_of_mem _ hy)) fun y hy => hfs y (List.mem_cons_of_mem _ hy)
    exact fun old hg => h5 old (core_markBig (core_free hg (ho x (by simp)) (hfs x (by simp)) (by simp)) _ (by simp) (by simp))

theorem mem_zipIdx_fst {l : List Nat} {x : Nat × Nat} (h : x ∈ l.zipIdx) : x.1 ∈ l := by
  obtain ⟨a, k⟩ := x
  exact List.fst_mem_of_mem_zipIdx h

theorem replaced_nil_not_mem {ω : Type} [DecidableEq ω] {fat : List Nat} {own : ω → List Nat} (h : Owned fat own) (k : ω)
    {x : Nat} (hx : x ∈ own k) (j : ω) : x ∉ replaced own k [] j := by
  unfold replaced
  split
  · simp
  · rename_i hjk
    exact h.apart k j (fun h => hjk h.symm) x hx

/-- An entry gets another size, its stream keeps its sectors or loses them. -/
theorem sized_holds {w w1 : Writer} {L L1 : Layout} {c : Contents} (H : Holds w L c) {i n : Nat} {e e' : DirEntry}
    (he : w.io.dirtree[i]? = some e) (hs : IsStream e) (hee : { e with start := e'.start, size := e'.size } = e')
    (hn : e'.size = n) (hsame : Same w w1)
    (hbig : Owned w1.io.bbat.data L1.big) (hsmall : Owned w1.io.sbat.data L1.small) (hmini : w1.io.sb_blocks = w.io.sb_blocks)
    (hsys : ∀ o : Owner, (∀ j, o ≠ .stream j) → L1.big o = L.big o)
    (hother : ∀ j, j ≠ i → L1.small j = L.small j ∧ L1.big (.stream j) = L.big (.stream j))
    (hself : if n < w.io.header.threshold then Begins e'.start (L1.small i) ∧ L1.big (.stream i) = []
      else Begins e'.start (L1.big (.stream i)) ∧ L1.small i = [])
    (hsub : ∀ x ∈ L1.small i, x ∈ L.small i)
    (hkeep : (L1 = L ∧ (e.size < w.io.header.threshold ↔ n < w.io.header.threshold)) ∨ e.size = 0 ∨ n = 0) :
    Holds { w1 with io := { w1.io with dirtree := w1.io.dirtree.set i e' } } L1 (c.resize i n) := by
  have hthr := hsame.threshold
  have hdir1 : w1.io.dirtree = w.io.dirtree := hsame.dirtree
  have hmi := hsys .mini (by simp)
  have hs' : IsStream e' := by rw [← hee]; exact hs
  have hsize : (c.resize i n).size = replaced c.size i n := rfl
  constructor
  · show 0 < w1.io.sbat.blockSize; rw [hsame.smallSize]; exact H.smallPos
  · show 0 < w1.io.bbat.blockSize; rw [hsame.bigSize]; exact H.bigPos
  · show w1.io.sbat.blockSize ∣ w1.io.bbat.blockSize; rw [hsame.smallSize, hsame.bigSize]; exact H.divides
  · show w1.io.bbat.blockSize < _; rw [hsame.bigSize]; exact H.bigLt
  · exact hbig
  · exact hsmall
  · show w1.io.sb_blocks = _; rw [hmini, hmi]; exact H.mini
  · show Begins w1.io.header.sbat_start _; rw [hsame.sbat_start, hsys .miniFat (by simp)]; exact H.miniFat
  · show Begins w1.io.header.dirent_start _; rw [hsame.dirent_start, hsys .dir (by simp)]; exact H.dir
  · intro j x hx
    show x * w1.io.sbat.blockSize / w1.io.bbat.blockSize < _
    rw [hsame.smallSize, hsame.bigSize, hmi]
    by_cases hji : j = i
    · subst hji; exact H.inMini j x (hsub x hx)
    · rw [(hother j hji).1] at hx; exact H.inMini j x hx
  · intro j ej hj hsj
    show ej.size = (c.resize i n).size j ∧ if ej.size < w1.io.header.threshold then _ else _
    rw [hthr, hsize]
    simp only [hdir1] at hj
    rcases set_get_dir he hj with ⟨rfl, rfl⟩ | ⟨hji, hj⟩
    · rw [replaced_self, hn]
      exact ⟨rfl, hself⟩
    · rw [(hother j hji).1, (hother j hji).2, replaced_ne _ _ hji]
      exact H.entry j ej hj hsj
  · intro j hj
    simp only [hdir1] at hj
    have hji : j ≠ i := by
      rintro rfl
      refine hj e' ?_ hs'
      rw [List.getElem?_set_self (List.getElem?_eq_some_iff.1 he).1]
    rw [(hother j hji).1, (hother j hji).2]
    refine H.other j (fun e' he' => hj e' ?_)
    rw [List.getElem?_set_ne (fun h => hji h.symm)]
    exact he'
  · intro j p v hv
    rw [hsize]
    unfold Contents.resize at hv
    dsimp only at hv
    split at hv
    · cases hv
    rename_i hnot
    obtain ⟨h1, ej, a, h2, h3, h4, h5⟩ := H.known j p v hv
    have hfile : w1.io.file[a]? = some v := by rw [hsame.file]; exact h5
    by_cases hji : j = i
    · subst hji
      rw [he] at h2
      cases h2
      rw [replaced_self]
      have hpn : p < n := by
        rcases Nat.lt_or_ge p n with h | h
        · exact h
        · exact absurd ⟨rfl, h⟩ hnot
      have hes := (H.entry j e he hs).1
      rcases hkeep with ⟨hL, hiff⟩ | hk | hk
      · refine ⟨hpn, e', a, ?_, hs', ?_, hfile⟩
        · simp only [hdir1]
          rw [List.getElem?_set_self (List.getElem?_eq_some_iff.1 he).1]
        · unfold place at h4 ⊢
          simp only
          rw [hthr, hsame.bigSize, hsame.smallSize, hn, hL]
          by_cases hlt : e.size < w.io.header.threshold
          · rw [if_pos hlt] at h4
            rw [if_pos (hiff.1 hlt)]
            exact h4
          · rw [if_neg hlt] at h4
            rw [if_neg (fun h => hlt (hiff.2 h))]
            exact h4
      · omega
      · omega
    · rw [replaced_ne _ _ hji]
      refine ⟨h1, ej, a, ?_, h3, ?_, hfile⟩
      · simp only [hdir1]
        rw [List.getElem?_set_ne (fun h => hji h.symm)]
        exact h2
      · unfold place at h4 ⊢
        simp only
        rw [hthr, hsame.bigSize, hsame.smallSize, (hother j hji).1, (hother j hji).2, hmi]
        exact h4

/-- `setSize` of a storage that can be changed: undefined behaviour if the size crosses the threshold and there is
something to keep, otherwise the stream has the new size. -/
theorem setSize_holds {w : Writer} {L : Layout} {c : Contents} (H : Holds w L c) (hw : w.writeable = true) {s : WStream}
    {e : DirEntry} (he : w.io.dirtree[s.idx]? = some e) (hs : IsStream e) (hb : s.blocks = L.chain s.idx) (n : Nat) :
    (s.setSize w n = .ub .badDelete ∧ ¬ (c.size s.idx < w.io.header.threshold ↔ n < w.io.header.threshold) ∧
      0 < min n (c.size s.idx)) ∨
    ∃ w' L', s.setSize w n = .ok (w', { s with blocks := L'.chain s.idx }) ∧ Holds w' L' (c.resize s.idx n) ∧
      (∀ j, j ≠ s.idx → L'.chain j = L.chain j) ∧ SameDir w w' s.idx ∧
      ((c.size s.idx < w.io.header.threshold ↔ n < w.io.header.threshold) ∨ min n (c.size s.idx) = 0) ∧
      w'.io.header.threshold = w.io.header.threshold ∧ Readies w L.big w' L'.big := by
  have hvals : ∀ {old : Snap} {w1 : Writer} {own : Owner → List Nat} {e' : DirEntry}, Ready old w1 own → w1.io.dirtree = w.io.dirtree → e'.start = e.start ∨ e'.start = End →
      e'.prev = e.prev → e'.next = e.next → e'.child = e.child → Ready old (w1.setEntry s.idx e') own := by
    intro old w1 own e' hR hd h1 h2 h3 h4
    have hv := hR.dir.values e (List.mem_of_getElem? (hd ▸ he))
    refine ready_setEntry hR (by rw [hd]; exact (List.getElem?_eq_some_iff.1 he).1) ⟨?_, by rw [h2]; exact hv.2.1, by rw [h3]; exact hv.2.2.1,
      by rw [h4]; exact hv.2.2.2⟩
    rcases h1 with h1 | h1
    · rw [h1]; exact hv.1
    · rw [h1]; decide
  have hent := H.entry s.idx e he hs
  have hsize := hent.1
  unfold WStream.setSize Writer.entryOf
  rw [if_pos hw, he]
  simp only [Res.bind_ok]
  by_cases hcross : e.size < w.io.header.threshold ↔ n < w.io.header.threshold
  · have hno : (decide (n ≥ w.io.header.threshold ∧ e.size < w.io.header.threshold) ||
        decide (n < w.io.header.threshold ∧ e.size ≥ w.io.header.threshold)) = false := by
      rw [Bool.or_eq_false_iff, decide_eq_false_iff_not, decide_eq_false_iff_not]
      constructor
      · rintro ⟨h1, h2⟩; have := hcross.1 h2; omega
      · rintro ⟨h1, h2⟩; have := hcross.2 h1; omega
    rw [hno]
    simp only [Bool.false_eq_true, if_false]
    right
    have H1 := sized_holds (w1 := w) (L1 := L) (n := n) (e' := { e with size := n }) H he hs rfl rfl (Same.refl w) H.big H.small rfl
      (fun _ _ => rfl) (fun _ _ => ⟨rfl, rfl⟩) (by
        by_cases hlt : e.size < w.io.header.threshold
        · rw [if_pos hlt] at hent
          rw [if_pos (hcross.1 hlt)]
          exact hent.2
        · rw [if_neg hlt] at hent
          rw [if_neg (fun h => hlt (hcross.2 h))]
          exact hent.2) (fun _ h => h) (Or.inl ⟨rfl, hcross⟩)
    by_cases hne : e.size = n
    · have hee : ({ e with size := n } : DirEntry) = e := by rw [← hne]
      rw [hee, set_same he] at H1
      rw [if_neg (by simpa using hne)]
      refine ⟨w, L, by rw [← hb], holds_io (by rfl) H1, fun _ _ => rfl, SameDir.refl w _, Or.inl (by rw [← hsize]; exact hcross), rfl, Readies.refl w _⟩
    · rw [if_pos hne]
      exact ⟨w.setEntry s.idx { e with size := n }, L, by rw [← hb], holds_io (by rfl) H1, fun _ _ => rfl, sameDir_set he rfl rfl rfl,
        Or.inl (by rw [← hsize]; exact hcross), rfl, Nat.le_refl _, fun _ hR => hvals hR rfl (Or.inl rfl) rfl rfl rfl⟩
  · have hyes : (decide (n ≥ w.io.header.threshold ∧ e.size < w.io.header.threshold) ||
        decide (n < w.io.header.threshold ∧ e.size ≥ w.io.header.threshold)) = true := by
      rw [Bool.or_eq_true, decide_eq_true_eq, decide_eq_true_eq]
      by_cases h1 : e.size < w.io.header.threshold
      · left; exact ⟨by have : ¬ n < w.io.header.threshold := fun h => hcross ⟨fun _ => h, fun _ => h1⟩; omega, h1⟩
      · right; exact ⟨by
          rcases Nat.lt_or_ge n w.io.header.threshold with h | h
          · exact h
          · exact absurd ⟨fun h' => absurd h' h1, fun h' => absurd h' (by omega)⟩ hcross, by omega⟩
    rw [hyes]
    simp only [if_true]
    by_cases hlen : (if n > e.size then e.size else n) > 0
    · rw [if_pos hlen]
      left
      refine ⟨rfl, by rw [← hsize]; exact hcross, ?_⟩
      rw [← hsize]
      split at hlen <;> omega
    · rw [if_neg hlen]
      right
      have hzero : e.size = 0 ∨ n = 0 := by split at hlen <;> omega
      have hmin : min n (c.size s.idx) = 0 := by rw [← hsize]; omega
      by_cases hover : n ≥ w.io.header.threshold ∧ e.size < w.io.header.threshold
      · rw [if_pos hover.2] at hent
        have hbl : s.blocks = L.small s.idx := by rw [hb]; unfold Layout.chain; rw [hent.2.2, List.append_nil]
        simp only [hover, and_self, decide_true, if_true]
        obtain ⟨f1, f2, f3, f4, f5⟩ := freeSmall_fold (replaced L.small s.idx []) s.blocks.zipIdx w (owned_drop H.small _)
          (fun x hx j => replaced_nil_not_mem H.small s.idx (by rw [← hbl]; exact mem_zipIdx_fst hx) j)
        generalize s.blocks.zipIdx.foldl (fun (w : Writer) (x : Nat × Nat) => (w.setSmall x.1 Avail).markSmall x.2) w = w1
          at f1 f2 f3 f4 f5
        have H1 := sized_holds (w1 := w1) (L1 := ⟨L.big, replaced L.small s.idx []⟩) (n := n)
          (e' := { e with start := End, size := n }) H he hs rfl rfl f2 (by rw [f3]; exact H.big) f1 f4
          (fun _ _ => rfl) (fun j hj => ⟨replaced_ne _ _ hj, rfl⟩)
          (by rw [if_neg (by omega)]; exact ⟨Or.inl ⟨hent.2.2, by show 0xfffffffc ≤ End; decide⟩, replaced_self _ _ _⟩)
          (fun x hx => by
            have : x ∈ replaced L.small s.idx [] s.idx := hx
            rw [replaced_self] at this
            cases this) (Or.inr hzero)
        refine ⟨w1.setEntry s.idx { e with start := End, size := n }, ⟨L.big, replaced L.small s.idx []⟩, ?_, holds_io (by rfl) H1, ?_,
          ?_, Or.inr hmin, f2.threshold, (f5 L.big fun x hx => linked_lt (H.small.linked s.idx (List.ne_nil_of_mem (by rw [← hbl]; exact mem_zipIdx_fst hx))) _
            (by rw [← hbl]; exact mem_zipIdx_fst hx)).trans ⟨Nat.le_refl _, fun _ hR => hvals hR f2.dirtree (Or.inr rfl) rfl rfl rfl⟩⟩
        · unfold Layout.chain
          simp only
          rw [replaced_self, hent.2.2, List.append_nil]
        · intro j hj
          unfold Layout.chain
          simp only
          rw [replaced_ne _ _ hj]
        · exact sameDir_set he f2.writeable (by show w1.io.dirtree.set _ _ = _; rw [f2.dirtree]) rfl
      · have hnlt : ¬ e.size < w.io.header.threshold := fun h => hcross ⟨fun _ => by
          rcases Nat.lt_or_ge n w.io.header.threshold with h' | h'
          · exact h'
          · exact absurd ⟨h', h⟩ hover, fun _ => h⟩
        have hn : n < w.io.header.threshold := by
          rcases Nat.lt_or_ge n w.io.header.threshold with h' | h'
          · exact h'
          · exact absurd ⟨fun h => absurd h hnlt, fun h => absurd h (by omega)⟩ hcross
        rw [if_neg hnlt] at hent
        have hbl : s.blocks = L.big (.stream s.idx) := by rw [hb]; unfold Layout.chain; rw [hent.2.2, List.nil_append]
        simp only [hover, decide_false, Bool.false_eq_true, if_false]
        obtain ⟨f1, f2, f4, f3⟩ := freeBig_fold (replaced L.big (.stream s.idx) []) s.blocks.zipIdx w (owned_drop H.big _)
          (fun x hx j => replaced_nil_not_mem H.big (.stream s.idx) (by rw [← hbl]; exact mem_zipIdx_fst hx) j)
        generalize s.blocks.zipIdx.foldl (fun (w : Writer) (x : Nat × Nat) => (w.setBig x.1 Avail).markBig x.2) w = w1
          at f1 f2 f3 f4
        have H1 := sized_holds (w1 := w1) (L1 := ⟨replaced L.big (.stream s.idx) [], L.small⟩) (n := n)
          (e' := { e with start := End, size := n }) H he hs rfl rfl f2.same f1 (by rw [f2.sbat]; exact H.small) f2.sb_blocks
          (fun o ho => replaced_ne _ _ (ho _)) (fun j hj => ⟨rfl, replaced_ne _ _ (by simpa using hj)⟩)
          (by rw [if_pos hn]; exact ⟨Or.inl ⟨hent.2.2, by show 0xfffffffc ≤ End; decide⟩, replaced_self _ _ _⟩)
          (fun x hx => hx) (Or.inr hzero)
        refine ⟨w1.setEntry s.idx { e with start := End, size := n }, ⟨replaced L.big (.stream s.idx) [], L.small⟩, ?_,
          holds_io (by rfl) H1, ?_, ?_, Or.inr hmin, f2.threshold, ?_⟩
        rotate_right
        · have hmem : ∀ x ∈ s.blocks.zipIdx, x.1 ∈ L.big (.stream s.idx) := fun x hx => by rw [← hbl]; exact mem_zipIdx_fst hx
          have hin : ∀ x ∈ s.blocks.zipIdx, x.1 < w.io.bbat.data.length := fun x hx =>
            linked_lt (H.big.linked _ (List.ne_nil_of_mem (hmem x hx))) _ (hmem x hx)
          have hred : ∀ {old : Snap}, Ready old w L.big → Ready old w1 (replaced L.big (.stream s.idx) []) := fun {old} hR => by
            have g2 := f3 L.big hin fun x hx hm => hR.big.apart _ hm _ (hmem x hx)
            refine ⟨core_mem (g2 _ hR.big) fun o x hx => ?_, small_aside hR.small f2 (by rw [f4]) (replaced_ne _ _ (by simp)), ?_, by rw [f2.file]; exact hR.file⟩
            · unfold replaced at hx
              split at hx
              · cases hx
              · exact hx
            · exact dir_same hR.dir f2.dirtree (fun d => by rw [f2.dirDirty]; exact ⟨Or.inl, fun h => h.elim id fun h => h.2⟩) (replaced_ne _ _ (by simp)) (Or.inl f2.sb_blocks)
          refine ⟨?_, fun _ hR => hvals (hred hR) f2.dirtree (Or.inr rfl) rfl rfl rfl⟩
          show w.io.header.num_bat ≤ w1.io.header.num_bat
          exact Nat.le_of_eq (congrArg Header.num_bat f4).symm
        · unfold Layout.chain
          simp only
          rw [replaced_self, hent.2.2, List.append_nil]
        · intro j hj
          unfold Layout.chain
          simp only
          rw [replaced_ne _ _ (by simpa using hj)]
        · exact sameDir_set he f2.writeable (by show w1.io.dirtree.set _ _ = _; rw [f2.dirtree]) rfl

/-! ## `write` -/

theorem resize_write {w : Writer} {L : Layout} {c : Contents} (H : Holds w L c) {i pos : Nat} {data : Bytes}
    (h : c.size i < pos + data.length) : (c.resize i (pos + data.length)).write i pos data = c.write i pos data := by
  unfold Contents.resize Contents.write
  congr 1
  · funext j
    unfold replaced
    split
    · simp; omega
    · rename_i hj
      exact if_neg hj
  · funext j p
    split
    · rfl
    · rename_i hnot
      show (if j = i ∧ pos + data.length ≤ p then none else c.byte j p) = _
      split
      · rename_i hj
        cases hc : c.byte j p with
        | none => rfl
        | some v =>
          have := (H.known j p v hc).1
          rw [hj.1] at this
          omega
      · rfl

theorem write_none {c : Contents} {i pos : Nat} {data : Bytes} (h : data.length = 0) (hp : pos ≤ c.size i) :
    c.write i pos data = c := by
  unfold Contents.write
  obtain ⟨size, byte⟩ := c
  congr 1
  · funext j
    unfold replaced
    split
    · rename_i hj; subst hj; simp only at hp ⊢; omega
    · rfl
  · funext j p
    rw [if_neg (by omega)]

/-- `write`: what a storage holds afterwards. -/
theorem writeAt_holds {w : Writer} {L : Layout} {c : Contents} (H : Holds w L c) (hw : w.writeable = true) {s : WStream}
    {e : DirEntry} (he : w.io.dirtree[s.idx]? = some e) (hs : IsStream e) (hb : s.blocks = L.chain s.idx) {pos : Nat}
    {data : Bytes} (h0 : 0 < data.length) (h64 : pos + data.length < 2 ^ 64) {w' : Writer} {s' : WStream} {n : Nat}
    (h : s.writeAt w pos data = .ok (w', s', n)) (hf : Fits w') :
    ∃ L', Holds w' L' (c.write s.idx pos data) ∧ n = data.length ∧
      s' = { s with blocks := L'.chain s.idx, pos := u64 (s.pos + data.length) } ∧
      (∀ j, j ≠ s.idx → L'.chain j = L.chain j) ∧ SameDir w w' s.idx ∧ Readies w L.big w' L'.big := by
  have hu : u64 (pos + data.length) = pos + data.length := Nat.mod_eq_of_lt (by simpa using h64)
  unfold WStream.writeAt at h
  rw [if_neg (by omega), if_pos hw, hu] at h
  have heo : w.entryOf s.idx = .ok e := by unfold Writer.entryOf; rw [he]
  rw [heo] at h
  simp only [Res.bind_ok] at h
  have hsize := (H.entry s.idx e he hs).1
  by_cases hgt : pos + data.length > e.size
  · rw [if_pos hgt] at h
    rcases setSize_holds H hw he hs hb (pos + data.length) with ⟨h1, _⟩ | ⟨w1, L1, h1, H1, h3, h4, _, _, h5⟩
    · rw [h1] at h; cases h
    · rw [h1] at h
      simp only [Res.bind_ok] at h
      obtain ⟨e1, he1, h6, _⟩ := h4.entry _ _ he
      have hs1 : IsStream e1 := by rw [← h6]; exact hs
      have heo1 : w1.entryOf s.idx = .ok e1 := by unfold Writer.entryOf; rw [he1]
      rw [heo1] at h
      simp only [Res.bind_ok] at h
      obtain ⟨L2, g1, g2, g3, g4, g5, g6⟩ := writeBlocks_holds (s := { s with blocks := L1.chain s.idx }) H1 he1 hs1 rfl h0 (by
        show _ ≤ replaced _ _ _ _
        rw [replaced_self]
        exact Nat.le_refl _) h hf
      refine ⟨L2, ?_, g2, g3, fun j hj => by rw [g4 j hj, h3 j hj], h4.trans g5, h5.trans g6⟩
      rw [← resize_write H (by rw [← hsize]; exact hgt)]
      exact g1
  · rw [if_neg hgt, heo, Res.bind_ok] at h
    exact writeBlocks_holds H he hs hb h0 (by omega) h hf

/-- Neither undefined behaviour nor an exception. -/
def Calm {α : Type} (r : Res α) : Prop := r = .fuel ∨ ∃ a, r = .ok a

theorem Calm.bind {α β : Type} {x : Res α} {f : α → Res β} (hx : Calm x) (hf : ∀ a, x = .ok a → Calm (f a)) :
    Calm (x >>= f) := by
  rcases hx with h | ⟨a, h⟩
  · rw [h]; exact Or.inl rfl
  · rw [h]; exact hf a h

theorem calm_ok {α : Type} (a : α) : Calm (Res.ok a) := Or.inr ⟨a, rfl⟩

theorem followLoop_calm (data : List Nat) (n : Nat) : ∀ s acc, Calm (followLoop data n s acc) := by
  induction n with
  | zero => exact fun s acc => Or.inl rfl
  | succ n ih =>
    intro s acc
    unfold followLoop
    split
    · exact calm_ok _
    · split
      · exact calm_ok _
      · split
        · exact calm_ok _
        · exact ih _ _

theorem follow_calm (t : AllocTable) (s : Nat) : Calm (t.follow s) := by
  unfold AllocTable.follow
  split
  · exact calm_ok _
  · exact followLoop_calm _ _ _ _

theorem coverSmall_calm (n : Nat) : ∀ w : Writer, Calm (w.coverSmall n) := by
  induction n with
  | zero => exact fun w => calm_ok _
  | succ n ih =>
    intro w
    unfold Writer.coverSmall
    exact (follow_calm _ _).bind fun _ _ => ih _

theorem extendsSmall_calm (n : Nat) : ∀ (w : Writer) (c : List Nat), Calm (Writer.extendsSmall n w c) := by
  induction n with
  | zero => exact fun w c => calm_ok _
  | succ n ih =>
    intro w c
    unfold Writer.extendsSmall
    refine Calm.bind ?_ fun _ _ => ih _ _
    unfold Writer.extendSmall
    exact (coverSmall_calm _ _).bind fun _ _ => calm_ok _

theorem writeBlocks_calm (w : Writer) (s : WStream) (e : DirEntry) (pos : Nat) (data : Bytes) :
    Calm (s.writeBlocks w e pos data) := by
  unfold WStream.writeBlocks
  dsimp only
  split
  · exact (extendsSmall_calm _ _ _).bind fun _ _ => calm_ok _
  · exact (calm_ok _).bind fun _ _ => calm_ok _

/-- `write` has undefined behaviour only when the size crosses the threshold and there are bytes to keep. -/
theorem writeAt_calm {w : Writer} {L : Layout} {c : Contents} (H : Holds w L c) (hw : w.writeable = true) {s : WStream}
    {e : DirEntry} (he : w.io.dirtree[s.idx]? = some e) (hs : IsStream e) (hb : s.blocks = L.chain s.idx) {pos : Nat}
    {data : Bytes} (h64 : pos + data.length < 2 ^ 64) :
    (s.writeAt w pos data = .ub .badDelete ∧ 0 < c.size s.idx ∧ c.size s.idx < w.io.header.threshold ∧
      w.io.header.threshold ≤ pos + data.length ∧ 0 < data.length) ∨ Calm (s.writeAt w pos data) := by
  have hu : u64 (pos + data.length) = pos + data.length := Nat.mod_eq_of_lt (by simpa using h64)
  unfold WStream.writeAt
  by_cases h0 : data.length = 0
  · rw [if_pos h0]; exact Or.inr (calm_ok _)
  rw [if_neg h0, if_pos hw, hu]
  have heo : w.entryOf s.idx = .ok e := by unfold Writer.entryOf; rw [he]
  rw [heo, Res.bind_ok]
  have hsize := (H.entry s.idx e he hs).1
  by_cases hgt : pos + data.length > e.size
  · rw [if_pos hgt]
    rcases setSize_holds H hw he hs hb (pos + data.length) with ⟨h1, h2, h3⟩ | ⟨w1, L1, h1, H1, h3, h4, _, _⟩
    · left
      rw [h1]
      refine ⟨rfl, by omega, ?_, ?_, by omega⟩
      · rcases Nat.lt_or_ge (c.size s.idx) w.io.header.threshold with h | h
        · exact h
        · exact absurd ⟨fun h' => absurd h' (by omega), fun h' => absurd h' (by omega)⟩ h2
      · rcases Nat.lt_or_ge (pos + data.length) w.io.header.threshold with h | h
        · exact absurd ⟨fun _ => h, fun _ => by omega⟩ h2
        · exact h
    · right
      rw [h1, Res.bind_ok]
      dsimp only
      obtain ⟨e1, he1, _⟩ := h4.entry _ _ he
      have heo1 : w1.entryOf s.idx = .ok e1 := by unfold Writer.entryOf; rw [he1]
      rw [heo1, Res.bind_ok]
      exact writeBlocks_calm _ _ _ _ _
  · right
    rw [if_neg hgt]
    show Calm (w.entryOf s.idx >>= fun e => s.writeBlocks w e pos data)
    rw [heo, Res.bind_ok]
    exact writeBlocks_calm _ _ _ _ _

/-- `write` over the threshold. -/
theorem writeAt_crossing {w : Writer} {L : Layout} {c : Contents} (H : Holds w L c) (hw : w.writeable = true) {s : WStream}
    {e : DirEntry} (he : w.io.dirtree[s.idx]? = some e) (hs : IsStream e) (hb : s.blocks = L.chain s.idx) {pos : Nat}
    {data : Bytes} (h64 : pos + data.length < 2 ^ 64) (h2 : 0 < c.size s.idx) (h3 : c.size s.idx < w.io.header.threshold)
    (h4 : w.io.header.threshold ≤ pos + data.length) (h5 : data ≠ []) : s.writeAt w pos data = .ub .badDelete := by
  have hu : u64 (pos + data.length) = pos + data.length := Nat.mod_eq_of_lt (by simpa using h64)
  have h0 : 0 < data.length := List.length_pos_iff.2 h5
  unfold WStream.writeAt
  rw [if_neg (by omega), if_pos hw, hu]
  have heo : w.entryOf s.idx = .ok e := by unfold Writer.entryOf; rw [he]
  have hsize := (H.entry s.idx e he hs).1
  rw [heo, Res.bind_ok, if_pos (by omega)]
  rcases setSize_holds H hw he hs hb (pos + data.length) with ⟨h1, _, _⟩ | ⟨w1, L1, _, _, _, _, h6, _⟩
  · rw [h1]; rfl
  · rcases h6 with h6 | h6
    · exact absurd (h6.1 h3) (by omega)
    · omega

end Fileid.Pole
