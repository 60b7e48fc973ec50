import Verif.Spec.Crossing
import Verif.Lemmas.PoleServe

/-! # Requests that come to an end -/

namespace Fileid.Pole
open Fileid.Spec
open Fileid.Props (C42_children C43_find_child)

theorem loadBigBlock_ok (file : Bytes) (bs block : Nat) (m : Mem) (maxlen : Nat) (hm : min bs maxlen ≤ m.length) :
    ∃ m', loadBigBlock file bs block m maxlen = .ok m' ∧ m'.length = m.length := by
  unfold loadBigBlock loadBigBlocks loadLoop
  by_cases h0 : 0 < maxlen
  · rw [if_pos h0]
    dsimp only
    generalize hp : (if bs < maxlen - 0 then bs else maxlen - 0) = p
    have hp' : p = min bs maxlen := by subst hp; split <;> omega
    generalize hg : (if bs * (block + 1) ≤ file.length then _ else _ : Mem) = got
    have hl : got.length ≤ p := by
      subst hg
      split
      · rw [List.length_map, List.length_take, List.length_drop]
        rename_i hle
        split
        · omega
        · omega
      · simp
    obtain ⟨m', h1, h2, _⟩ := mwr_step m 0 got (by omega)
    rw [h1]
    exact ⟨m', rfl, h2⟩
  · rw [if_neg h0]
    exact ⟨m, rfl, rfl⟩

theorem loadSmallBlock_ok (io : StorageIO) (hb : 0 < io.bbat.blockSize) (block : Nat) (m : Mem) (maxlen : Nat)
    (hm : m.length = io.sbat.blockSize) :
    ∃ m', loadSmallBlock io block m maxlen = .ok m' ∧ m'.length = m.length := by
  unfold loadSmallBlock
  by_cases h0 : maxlen = 0
  · rw [if_pos h0]; exact ⟨m, rfl, rfl⟩
  rw [if_neg h0]
  dsimp only
  cases io.sb_blocks[block * io.sbat.blockSize / io.bbat.blockSize]? with
  | none => exact ⟨m, rfl, rfl⟩
  | some b =>
    dsimp only
    obtain ⟨buf, h1, h2⟩ := loadBigBlock_ok io.file io.bbat.blockSize b (newMem io.bbat.blockSize) io.bbat.blockSize (by simp [newMem])
    rw [h1, Res.bind_ok]
    have hbl : buf.length = io.bbat.blockSize := by rw [h2]; simp [newMem]
    have hmod := Nat.mod_lt (block * io.sbat.blockSize) hb
    generalize hp : (if maxlen < io.bbat.blockSize - block * io.sbat.blockSize % io.bbat.blockSize then maxlen else _) = p
    have hp' : p ≤ io.bbat.blockSize - block * io.sbat.blockSize % io.bbat.blockSize := by subst hp; split <;> omega
    generalize hq : (if io.sbat.blockSize < p then io.sbat.blockSize else p) = q
    have hq' : q ≤ p ∧ q ≤ io.sbat.blockSize := by subst hq; split <;> omega
    rw [mslice_ok (by omega), Res.bind_ok]
    obtain ⟨m', g1, g2, _⟩ := mwr_step m 0 ((buf.drop (block * io.sbat.blockSize % io.bbat.blockSize)).take q) (by
      rw [List.length_take]; omega)
    exact ⟨m', g1, g2⟩

theorem readLoop_ok (load : Nat → Mem → Res Mem) (bs maxlen : Nat)
    (hload : ∀ b (m : Mem), m.length = bs → ∃ m', load b m = .ok m' ∧ m'.length = m.length) (blocks : List Nat) :
    ∀ (offset total : Nat) (buf data : Mem), buf.length = bs → offset ≤ bs → total ≤ maxlen → maxlen ≤ data.length →
    ∃ r, readLoop load bs maxlen blocks offset total buf data = .ok r := by
  induction blocks with
  | nil => exact fun _ total _ data _ _ _ _ => ⟨(total, data), rfl⟩
  | cons b rest ih =>
    intro offset total buf data hb ho ht hd
    unfold readLoop
    by_cases h0 : total < maxlen
    · rw [if_pos h0]
      obtain ⟨buf', h1, h2⟩ := hload b buf hb
      rw [h1, Res.bind_ok]
      dsimp only
      generalize hc : (if bs - offset > maxlen - total then maxlen - total else bs - offset) = count
      have hc' : count ≤ bs - offset ∧ count ≤ maxlen - total := by subst hc; split <;> omega
      rw [mslice_ok (by omega), Res.bind_ok]
      obtain ⟨d', g1, g2, _⟩ := mwr_step data total ((buf'.drop offset).take count) (by rw [List.length_take]; omega)
      rw [g1, Res.bind_ok]
      exact ih _ _ _ _ (by omega) (by omega) (by omega) (by omega)
    · rw [if_neg h0]
      exact ⟨_, rfl⟩

/-- A read that begins inside the stream is defined, whether the bytes are known or not. -/
theorem readAt_ok {w : Writer} {L : Layout} {c : Contents} (H : Holds w L c) {s : WStream} {e : DirEntry}
    (he : w.io.dirtree[s.idx]? = some e) (hs : IsStream e) (pos n : Nat) (m : Mem) (hn : pos + n < 2 ^ 64)
    (hpos : pos ≤ c.size s.idx) (hm : n ≤ m.length) : ∃ r, s.readAt w pos m n = .ok r := by
  have hsize := (H.entry s.idx e he hs).1
  unfold WStream.readAt Writer.entryOf
  rw [he]
  simp only [Res.bind_ok]
  unfold StreamIO.readAt
  by_cases h0 : n = 0
  · rw [if_pos h0]; exact ⟨_, rfl⟩
  rw [if_neg h0]
  dsimp only
  have hu : u64 (pos + n) = pos + n := Nat.mod_eq_of_lt (by simpa using hn)
  rw [hu]
  generalize hk : (if pos + n > e.size then sub64 e.size pos else n) = k
  have hk' : k ≤ n := by
    subst hk
    split
    · have : sub64 e.size pos = e.size - pos := by unfold sub64; omega
      omega
    · omega
  by_cases hlt : e.size < w.io.header.threshold
  · simp only [hlt, decide_true, if_true]
    split
    · exact ⟨_, rfl⟩
    · refine readLoop_ok _ _ _ (fun b mm hmm => loadSmallBlock_ok _ H.bigPos _ _ _ hmm) _ _ _ _ _ (by simp [newMem]) ?_ (by omega) (by omega)
      exact Nat.le_of_lt (Nat.mod_lt _ H.smallPos)
  · simp only [hlt, decide_false, if_false, Bool.false_eq_true]
    split
    · exact ⟨_, rfl⟩
    · refine readLoop_ok _ _ _ (fun b mm hmm => loadBigBlock_ok _ _ _ _ _ (by omega)) _ _ _ _ _ (by simp [newMem]) ?_ (by omega) (by omega)
      exact Nat.le_of_lt (Nat.mod_lt _ H.bigPos)

theorem new_calm (io : StorageIO) (e : DirEntry) : Calm (StreamIO.new io e) := by
  unfold StreamIO.new
  dsimp only
  split <;> exact (follow_calm _ _).bind fun _ _ => calm_ok _

/-- Making what is missing on a path. -/
theorem descendCreate_calm {abi : Abi} (habi : abi = Abi.linux ∨ abi = Abi.windows) {size : Nat} (names : List WStr) :
    ∀ {w : Writer} {kids : Nat → List Nat} {i : Nat} {pe : DirEntry}, Shape abi w.io.dirtree kids →
    w.io.dirtree[i]? = some pe → pe.valid = true → (∀ n ∈ names, ∀ x ∈ n, x < 2 ^ (8 * abi.wcharBytes)) →
    w.io.dirtree.length + names.length ≤ End → w.writeable = true →
    Calm (w.descendCreate abi true size i names) := by
  induction names with
  | nil => intros; exact calm_ok _
  | cons n ns ih =>
    intro w kids i pe S hpe hpv hu hlen hw
    simp only [List.length_cons] at hlen
    unfold Writer.descendCreate
    obtain ⟨T, hT, hk⟩ := S.tree i pe hpe hpv
    rcases C43_find_child abi habi w.io.dirtree i pe hpe hpv T hT n (hu n (by simp)) with ⟨j, e, hj, he, hname, hfc⟩ | ⟨hno, hfc⟩
    · rw [hfc, Res.bind_ok, if_pos (by have := (hT.entries j hj).1; omega)]
      obtain ⟨_, e', he', hv', _⟩ := kids_valid S (hk ▸ hj)
      exact ih S he' hv' (fun m hm => hu m (by simp [hm])) (by omega) hw
    · rw [hfc, Res.bind_ok, if_neg (by omega), hw, if_pos (by rfl)]
      have hno' : ∀ x ∈ kids i, entryName w.io.dirtree x ≠ n := by
        intro x hx hc
        obtain ⟨_, e, he, _⟩ := kids_valid S hx
        exact hno x (hk ▸ hx) e he (by rw [← hc]; simp [entryName, he])
      obtain ⟨closest, t', changed, kids', h1, h2, A⟩ := link_added habi S hpe hpv (hu n (by simp)) hno' (decide (ns.length > 0))
        (if decide (ns.length > 0) then 0 else size) (by omega) rfl
      rw [h1, Res.bind_ok]
      refine Calm.bind ?_ fun p hp => ?_
      · unfold Writer.newEntry
        dsimp only
        rw [h2, Res.bind_ok]
        exact (follow_calm _ _).bind fun _ _ => calm_ok _
      · obtain ⟨w1, idx⟩ := p
        unfold Writer.newEntry at hp
        dsimp only at hp
        rw [h2, Res.bind_ok] at hp
        obtain ⟨blocks, _, hp⟩ := bind_inv hp
        injection hp with hp
        injection hp with hp1 hp2
        dsimp only at hp1 ⊢
        have e1 : w1.io.dirtree = t' := by
          rw [← hp1]
          exact (growDir_aside _ _ _).dirtree
        have e2 : w1.writeable = true := by
          rw [← hp1, (growDir_aside _ _ _).writeable]
          exact hw
        obtain ⟨e, he, hv, _⟩ := A.entry
        rw [← hp2]
        exact ih (kids := kids') (e1 ▸ A.shape) (e1 ▸ he) hv (fun m hm => hu m (by simp [hm])) (by rw [e1]; have := A.length; omega) e2

theorem entryOf_some {w : Writer} {i : Nat} {e : DirEntry} (he : w.io.dirtree[i]? = some e) : w.entryOf i = .ok e := by
  unfold Writer.entryOf; rw [he]

theorem descendCreate_index {abi : Abi} {create : Bool} {size : Nat} (names : List WStr) : ∀ {w w' : Writer} {i k : Nat},
    w.descendCreate abi create size i names = .ok (w', some k) → k < w'.io.dirtree.length := by
  induction names with
  | nil =>
    intro w w' i k h
    unfold Writer.descendCreate at h
    injection h with h
    injection h with h1 h2
    split at h2
    · injection h2 with h2; subst h1 h2; assumption
    · cases h2
  | cons n ns ih =>
    intro w w' i k h
    unfold Writer.descendCreate at h
    obtain ⟨child, _, h⟩ := bind_inv h
    split at h
    · exact ih h
    · split at h
      · obtain ⟨_, _, h⟩ := bind_inv h
        obtain ⟨⟨w1, j⟩, _, h⟩ := bind_inv h
        exact ih h
      · injection h with h
        injection h with _ h
        cases h

theorem entryCreate_index {abi : Abi} {create : Bool} {size : Nat} {name : WStr} {w w' : Writer} {k : Nat}
    (h : w.entryCreate abi name create size = .ok (w', some k)) : k < w'.io.dirtree.length := by
  unfold Writer.entryCreate at h
  split at h
  · injection h with h; injection h with _ h; cases h
  · split at h
    · injection h with h
      injection h with h1 h2
      split at h2
      · injection h2 with h2; subst h1 h2; assumption
      · cases h2
    · exact descendCreate_index _ h

/-- Opening, once the path is found or made. -/
theorem stream_calm {abi : Abi} {w : Writer} {name : WStr} {create : Bool} {size : Nat}
    (h : ∀ n, Calm (w.entryCreate abi name create n)) : Calm (w.stream abi name create size) := by
  unfold Writer.stream
  split
  · exact calm_ok _
  · dsimp only
    refine (h _).bind fun p hp => ?_
    obtain ⟨w1, i⟩ := p
    cases i with
    | none => exact calm_ok _
    | some i =>
      dsimp only
      obtain ⟨e, he⟩ : ∃ e, w1.io.dirtree[i]? = some e := ⟨_, List.getElem?_eq_getElem (entryCreate_index hp)⟩
      rw [entryOf_some he, Res.bind_ok]
      split
      · exact calm_ok _
      · exact (new_calm _ _).bind fun _ _ => calm_ok _

theorem entryCreate_calm {abi : Abi} (habi : abi = Abi.linux ∨ abi = Abi.windows) {w : Writer} {kids : Nat → List Nat}
    (S : Shape abi w.io.dirtree kids) {path : List WStr} (hp : PathOk abi path) (hw : w.writeable = true) (create : Bool) (size : Nat)
    (hlen : create = true → w.io.dirtree.length + path.length ≤ End) : Calm (w.entryCreate abi (pathText path) create size) := by
  cases create with
  | false =>
    rw [entryCreate_false]
    rcases lookup habi S hp with ⟨k, _, hi⟩ | ⟨_, hi⟩ <;> (rw [hi]; exact calm_ok _)
  | true =>
    have hlen := hlen rfl
    obtain ⟨root, hr, hv, _⟩ := S.root
    cases path with
    | nil =>
      show Calm (w.entryCreate abi [47] true size)
      unfold Writer.entryCreate
      exact calm_ok _
    | cons n ns =>
      rw [entryCreate_path hp]
      exact descendCreate_calm habi (n :: ns) S hr hv (fun m hm => (hp m hm).2.2) hlen hw

/-- Asking for what is there always succeeds. -/
theorem look_ok {abi : Abi} (habi : abi = Abi.linux ∨ abi = Abi.windows) {io : StorageIO} {kids : Nat → List Nat}
    (S : Shape abi io.dirtree kids) {path : List WStr} (hp : PathOk abi path) :
    (∃ l, io.entries abi (pathText path) = .ok l) ∧ (∃ b, io.exists abi (pathText path) = .ok b) ∧
    ∃ b, io.isDirectory abi (pathText path) = .ok b := by
  unfold StorageIO.entries StorageIO.exists StorageIO.isDirectory
  rcases lookup habi S hp with ⟨k, hr, hi⟩ | ⟨hr, hi⟩
  · rw [hi]
    simp only [Res.bind_ok]
    refine ⟨?_, ⟨_, rfl⟩, ⟨_, rfl⟩⟩
    obtain ⟨e, he, hv⟩ := resolves_valid S hr
    unfold entriesAt
    dsimp only
    rw [he]
    dsimp only
    unfold entriesOf
    split
    · obtain ⟨T, hT, hk⟩ := S.tree k e he hv
      rw [C42_children _ S.short k e he hv T hT.below, Res.bind_ok]
      exact ⟨_, rfl⟩
    · exact ⟨_, rfl⟩
  · rw [hi]
    exact ⟨⟨_, rfl⟩, ⟨_, rfl⟩, ⟨_, rfl⟩⟩

/-- What an open stream is, in the terms of the user. -/
theorem open_entry {abi : Abi} {S : Session} {v : PathView} (M : Session.MatchesPaths abi S v) {h : Nat} {s : WStream}
    (hs : S.streams[h]? = some s) :
    ∃ L c e path, Holds S.w L c ∧ S.w.io.dirtree[s.idx]? = some e ∧ IsStream e ∧ s.blocks = L.chain s.idx ∧ s.pos = v.pos h ∧
      v.path h = some path ∧ v.file path = some (.stream (c.size s.idx) (c.byte s.idx)) := by
  obtain ⟨⟨u, kids, hM, hS, hF, hpos, hnone, hsome⟩, _, _⟩ := M
  obtain ⟨L, H, hL⟩ := hM.holds
  obtain ⟨e, he, hi⟩ := hM.entry h s hs
  have hst := hM.stream h
  rw [hs] at hst
  obtain ⟨p, hp, hr⟩ := hsome h s.idx hst
  obtain ⟨x, hx, h1⟩ := hF.sound p s.idx hr
  rw [he] at hx
  cases hx
  refine ⟨L, u.contents, e, p, H, he, hi, hL h s hs, ?_, hp, by rw [h1, hi.2]; rfl⟩
  rw [← hpos]
  exact hM.pos h s hs

theorem request_calm {abi : Abi} (habi : abi = Abi.linux ∨ abi = Abi.windows) {S : Session} {v : PathView} {q : Request}
    (M : Session.MatchesPaths abi S v) (hs : v.Sensible abi q) (hlen : S.w.io.dirtree.length + entriesAdded q ≤ End)
    (hx : ¬ v.Crosses S.w.io.header.threshold q) : Calm (S.request abi q) := by
  have M' := M
  obtain ⟨⟨u, kids, hM, hS, hF, hpos, hnone, hsome⟩, hstart, hcount⟩ := M'
  unfold Session.request
  cases q with
  | openStream path create n =>
    dsimp only
    refine (stream_calm fun m => entryCreate_calm habi hS hs.1 hM.writeable create m fun hc => ?_).bind fun p _ => ?_
    · subst hc; exact hlen
    · obtain ⟨w, s⟩ := p
      cases s <;> exact calm_ok _
  | list path => obtain ⟨l, h⟩ := (look_ok habi hS hs).1; dsimp only; rw [h]; exact calm_ok _
  | ask path => obtain ⟨l, h⟩ := (look_ok habi hS hs).2.1; dsimp only; rw [h]; exact calm_ok _
  | askDir path => obtain ⟨l, h⟩ := (look_ok habi hS hs).2.2; dsimp only; rw [h]; exact calm_ok _
  | use c =>
    dsimp only
    refine Calm.bind ?_ fun p _ => calm_ok _
    unfold Session.step
    cases c with
    | seek h pos => dsimp only; split <;> exact calm_ok _
    | write h data =>
      dsimp only
      split
      · exact calm_ok _
      · rename_i s hst
        obtain ⟨L, c, e, path, H, he, hi, hb, hp, hpath, hfile⟩ := open_entry M hst
        refine Calm.bind ?_ fun p _ => calm_ok _
        unfold WStream.write
        rw [hp]
        rcases writeAt_calm H hM.writeable he hi hb (show v.pos h + data.length < 2 ^ 64 from hs) with ⟨_, h1, h2, h3, h4⟩ | hc
        · exact absurd ⟨path, _, _, hpath, hfile, h1, h2, h3, List.length_pos_iff.1 h4⟩ hx
        · exact hc
    | read h n =>
      dsimp only
      split
      · exact calm_ok _
      · rename_i s hst
        obtain ⟨L, c, e, path, H, he, hi, hb, hp, hpath, hfile⟩ := open_entry M hst
        refine Calm.bind ?_ fun p _ => calm_ok _
        unfold WStream.read
        rw [hp]
        obtain ⟨r, hr⟩ := readAt_ok H he hi (v.pos h) n (newMem n) hs.1 (hs.2 path _ _ hpath hfile) (by simp [newMem])
        rw [hr]
        exact calm_ok _
    | setSize h n =>
      dsimp only
      split
      · exact calm_ok _
      · rename_i s hst
        obtain ⟨L, c, e, path, H, he, hi, hb, hp, hpath, hfile⟩ := open_entry M hst
        refine Calm.bind ?_ fun p _ => calm_ok _
        rcases setSize_holds H hM.writeable he hi hb n with ⟨_, h1, h2⟩ | ⟨w', L', h1, _⟩
        · exact absurd ⟨path, _, _, hpath, hfile, by omega, by omega, h1⟩ hx
        · rw [h1]; exact calm_ok _

theorem follow_eof (t : AllocTable) : ∃ r, t.follow Eof = .ok r := by
  unfold AllocTable.follow
  split
  · exact ⟨_, rfl⟩
  · unfold followLoop
    split
    · exact ⟨_, rfl⟩
    · rw [if_pos (Or.inl rfl)]; exact ⟨_, rfl⟩

/-- Walking down to what is there. -/
theorem descendCreate_down {abi : Abi} (habi : abi = Abi.linux ∨ abi = Abi.windows) {w : Writer} {kids : Nat → List Nat}
    (S : Shape abi w.io.dirtree kids) {create : Bool} {size : Nat} {i p : Nat} {pre : List WStr}
    (h : Resolves kids (entryName w.io.dirtree) i pre p) (ns : List WStr) {pe : DirEntry} (hpe : w.io.dirtree[i]? = some pe)
    (hpv : pe.valid = true) (hu : ∀ n ∈ pre, ∀ x ∈ n, x < 2 ^ (8 * abi.wcharBytes)) :
    w.descendCreate abi create size i (pre ++ ns) = w.descendCreate abi create size p ns := by
  induction h generalizing pe with
  | here => rfl
  | @down i j k names hj _ ih =>
    obtain ⟨T, hT, hk⟩ := S.tree i pe hpe hpv
    obtain ⟨hj0, ej, hej, hvj, _⟩ := kids_valid S hj
    have hnj : entryName w.io.dirtree j = ej.name := by simp [entryName, hej]
    rw [List.cons_append]
    conv => lhs; unfold Writer.descendCreate
    rcases C43_find_child abi habi w.io.dirtree i pe hpe hpv T hT (entryName w.io.dirtree j) (hu _ (by simp)) with
      ⟨j', e', hj', he', hname', hfc⟩ | ⟨hno, _⟩
    · have hr : Resolves kids (entryName w.io.dirtree) i [entryName w.io.dirtree j] j := .down hj .here
      have hr' : Resolves kids (entryName w.io.dirtree) i [entryName w.io.dirtree j] j' := by
        have : Resolves kids (entryName w.io.dirtree) i [entryName w.io.dirtree j'] j' := .down (hk ▸ hj') .here
        rwa [show entryName w.io.dirtree j' = entryName w.io.dirtree j by
          rw [← hname']; simp [entryName, he']] at this
      have hjj := resolves_entry S hr hr'
      subst hjj
      rw [hfc, Res.bind_ok, if_pos (by omega)]
      exact ih hej hvj (fun n hn => hu n (by simp [hn]))
    · exact absurd hnj.symm (hno j (hk ▸ hj) ej hej)

/-- What is found or made: where it is, and that its chain can be followed. -/
def Opens (r : Res (Writer × Option Nat)) : Prop :=
  ∃ w i, r = .ok (w, i) ∧ ∀ k, i = some k → ∃ e, w.io.dirtree[k]? = some e ∧ (e.dir = true ∨ ∃ s, StreamIO.new w.io e = .ok s)

theorem stream_ok {abi : Abi} {w : Writer} {L : Layout} {c : Contents} (_ : Holds w L c) (_ : Fits w) {name : WStr} {create : Bool}
    {size : Nat} (h : ∀ n, Opens (w.entryCreate abi name create n)) : ∃ r, w.stream abi name create size = .ok r := by
  unfold Writer.stream
  split
  · exact ⟨_, rfl⟩
  · dsimp only
    obtain ⟨w1, i, h1, h2⟩ := h (if u32 size < 2 ^ 31 then u32 size else u32 size + (2 ^ 64 - 2 ^ 32))
    rw [h1, Res.bind_ok]
    cases i with
    | none => exact ⟨_, rfl⟩
    | some k =>
      obtain ⟨e, he, h3⟩ := h2 k rfl
      dsimp only
      rw [entryOf_some he, Res.bind_ok]
      split
      · exact ⟨_, rfl⟩
      · rename_i hd
        rcases h3 with h3 | ⟨s, h3⟩
        · exact absurd h3 hd
        · rw [h3]; exact ⟨_, rfl⟩

theorem opens_old {abi : Abi} {w : Writer} {L : Layout} {c : Contents} (H : Holds w L c) (hf : Fits w) {kids : Nat → List Nat}
    (S : Shape abi w.io.dirtree kids) {k : Nat} {q : List WStr} (hr : Resolves kids (entryName w.io.dirtree) 0 q k) :
    ∃ e, w.io.dirtree[k]? = some e ∧ (e.dir = true ∨ ∃ s, StreamIO.new w.io e = .ok s) := by
  obtain ⟨e, he, hv⟩ := resolves_valid S hr
  refine ⟨e, he, ?_⟩
  cases hd : e.dir with
  | true => exact Or.inl rfl
  | false => exact Or.inr ⟨_, new_holds H hf he ⟨hv, hd⟩⟩

theorem entryCreate_plain {abi : Abi} (habi : abi = Abi.linux ∨ abi = Abi.windows) {w : Writer} {L : Layout} {c : Contents} (H : Holds w L c)
    (hf : Fits w) {kids : Nat → List Nat} (S : Shape abi w.io.dirtree kids) {path : List WStr} (hp : PathOk abi path) (size : Nat) :
    Opens (w.entryCreate abi (pathText path) false size) := by
  rw [entryCreate_false]
  rcases lookup habi S hp with ⟨k, hr, hi⟩ | ⟨_, hi⟩
  · rw [hi]
    exact ⟨w, some k, rfl, fun j hj => by cases hj; exact opens_old H hf S hr⟩
  · rw [hi]
    exact ⟨w, none, rfl, fun j hj => by cases hj⟩

/-- Creating in a storage, or below a stream, that is there. -/
theorem entryCreate_one {abi : Abi} (habi : abi = Abi.linux ∨ abi = Abi.windows) {w : Writer} {L : Layout} {c : Contents} (H : Holds w L c)
    (hf : Fits w) {kids : Nat → List Nat} (S : Shape abi w.io.dirtree kids) {f : FileMap} (F : Shows w.io.dirtree kids c f)
    (hd : w.io.header.dirent_start < 0xfffffffc) {path : List WStr} (hp : PathOk abi path) (hw : w.writeable = true) (size : Nat)
    (hlen : w.io.dirtree.length + path.length ≤ End) (hpre : (f path.dropLast).isSome) :
    Opens (w.entryCreate abi (pathText path) true size) := by
  obtain ⟨root, hroot, hrv, _⟩ := S.root
  rcases List.eq_nil_or_concat path with rfl | ⟨pre, n, rfl⟩
  · refine ⟨w, some 0, ?_, fun k hk => by cases hk; exact opens_old H hf S .here⟩
    unfold Writer.entryCreate
    rw [pathText_nil, if_neg (by decide), if_pos rfl, if_pos (List.getElem?_eq_some_iff.1 hroot).1]
  · rw [List.concat_eq_append] at *
    rw [List.dropLast_concat] at hpre
    obtain ⟨node, hnode⟩ := Option.isSome_iff_exists.1 hpre
    obtain ⟨p, hr⟩ := F.complete _ _ hnode
    have hpath : w.entryCreate abi (pathText (pre ++ [n])) true size = w.descendCreate abi true size 0 (pre ++ [n]) := by
      cases pre with
      | nil => exact entryCreate_path hp _ _
      | cons a b => exact entryCreate_path hp _ _
    rw [hpath, descendCreate_down habi S hr [n] hroot hrv (fun m hm => (hp m (by simp [hm])).2.2)]
    obtain ⟨pe, hpe, hpv⟩ := resolves_valid S hr
    obtain ⟨T, hT, hk⟩ := S.tree p pe hpe hpv
    have hun := (hp n (by simp)).2.2
    unfold Writer.descendCreate
    rcases C43_find_child abi habi w.io.dirtree p pe hpe hpv T hT n hun with ⟨j, e, hj, he, hname, hfc⟩ | ⟨hno, hfc⟩
    · rw [hfc, Res.bind_ok, if_pos (by have := (hT.entries j hj).1; omega)]
      refine ⟨w, some j, ?_, fun k hk' => ?_⟩
      · unfold Writer.descendCreate
        rw [if_pos (List.getElem?_eq_some_iff.1 he).1]
      · cases hk'
        exact opens_old H hf S (resolves_snoc hr (hk ▸ hj))
    · rw [hfc, Res.bind_ok, if_neg (by omega), hw, if_pos (by rfl)]
      have hno' : ∀ x ∈ kids p, entryName w.io.dirtree x ≠ n := by
        intro x hx hc
        obtain ⟨_, e, he, _⟩ := kids_valid S hx
        exact hno x (hk ▸ hx) e he (by rw [← hc]; simp [entryName, he])
      simp only [List.length_append, List.length_singleton] at hlen
      obtain ⟨closest, w', kids', g1, g2, A, _⟩ := newEntry_holds habi H hf S hd hpe hpv hun hno' (decide ([].length > 0 : Prop)) size (by omega)
      rw [g1, Res.bind_ok]
      rw [g2, Res.bind_ok]
      dsimp only
      obtain ⟨e, he, _, _, _, _, hst⟩ := A.entry
      refine ⟨w', some (unusedEntry w.io.dirtree).1, ?_, fun k hk' => ?_⟩
      · unfold Writer.descendCreate
        rw [if_pos (List.getElem?_eq_some_iff.1 he).1]
      · cases hk'
        refine ⟨e, he, Or.inr ?_⟩
        unfold StreamIO.new
        rw [hst]
        obtain ⟨r1, h1⟩ := follow_eof w'.io.bbat
        obtain ⟨r2, h2⟩ := follow_eof w'.io.sbat
        rw [h1, h2]
        dsimp only
        split <;> exact ⟨_, rfl⟩

/-- Writing into a stream that is big afterwards. -/
theorem writeAt_big {w : Writer} {L : Layout} {c : Contents} (H : Holds w L c) (hw : w.writeable = true) {s : WStream}
    {e : DirEntry} (he : w.io.dirtree[s.idx]? = some e) (hs : IsStream e) (hb : s.blocks = L.chain s.idx) {pos : Nat}
    {data : Bytes} (h64 : pos + data.length < 2 ^ 64) (hbig : w.io.header.threshold ≤ max (c.size s.idx) (pos + data.length))
    (hx : ¬ (0 < c.size s.idx ∧ c.size s.idx < w.io.header.threshold ∧ w.io.header.threshold ≤ pos + data.length)) :
    ∃ r, s.writeAt w pos data = .ok r := by
  have hu : u64 (pos + data.length) = pos + data.length := Nat.mod_eq_of_lt (by simpa using h64)
  have blocks : ∀ (w : Writer) (s : WStream) (e : DirEntry), w.io.header.threshold ≤ e.size → ∃ r, s.writeBlocks w e pos data = .ok r := by
    intro w s e hle
    unfold WStream.writeBlocks
    have : decide (e.size < w.io.header.threshold) = false := by simp; omega
    rw [this]
    dsimp only
    rw [if_neg (by simp)]
    exact ⟨_, rfl⟩
  unfold WStream.writeAt
  by_cases h0 : data.length = 0
  · rw [if_pos h0]; exact ⟨_, rfl⟩
  rw [if_neg h0, if_pos hw, hu]
  rw [entryOf_some he, Res.bind_ok]
  have hsize := (H.entry s.idx e he hs).1
  by_cases hgt : pos + data.length > e.size
  · rw [if_pos hgt]
    rcases setSize_holds H hw he hs hb (pos + data.length) with ⟨h1, h2, h3⟩ | ⟨w1, L1, h1, H1, h3, h4, h5, h6, _⟩
    · refine absurd ⟨by omega, ?_, ?_⟩ hx
      · rcases Nat.lt_or_ge (c.size s.idx) w.io.header.threshold with h | h
        · exact h
        · exact absurd ⟨fun h' => absurd h' (by omega), fun h' => absurd h' (by omega)⟩ h2
      · rcases Nat.lt_or_ge (pos + data.length) w.io.header.threshold with h | h
        · exact absurd ⟨fun _ => h, fun _ => by omega⟩ h2
        · exact h
    · rw [h1, Res.bind_ok]
      dsimp only
      obtain ⟨e1, he1, hs1⟩ := h4.entry _ _ he
      rw [entryOf_some he1, Res.bind_ok]
      refine blocks _ _ _ ?_
      have hi1 : IsStream e1 := by
        obtain ⟨hs1, _⟩ := hs1
        rw [← hs1]
        exact hs
      have := (H1.entry s.idx e1 he1 hi1).1
      rw [this, h6]
      show _ ≤ (c.resize s.idx (pos + data.length)).size s.idx
      simp [Contents.resize, replaced]
      omega
  · rw [if_neg hgt]
    show ∃ r, (w.entryOf s.idx >>= fun e => s.writeBlocks w e pos data) = .ok r
    rw [entryOf_some he, Res.bind_ok]
    exact blocks _ _ _ (by omega)

/-- Requests that do not build on what they added to the tables are answered. -/
theorem request_ok {abi : Abi} (habi : abi = Abi.linux ∨ abi = Abi.windows) {S : Session} {v : PathView} {q : Request}
    (M : Session.MatchesPaths abi S v) (hs : v.Sensible abi q) (hf : Fits S.w) (hq : ¬ v.Builds S.w.io.header.threshold q)
    (hlen : S.w.io.dirtree.length + entriesAdded q ≤ End)
    (hx : ¬ v.Crosses S.w.io.header.threshold q) : ∃ r, S.request abi q = .ok r := by
  have M' := M
  obtain ⟨⟨u, kids, hM, hS, hF, hpos, hnone, hsome⟩, hstart, hcount⟩ := M'
  unfold Session.request
  cases q with
  | openStream path create n =>
    obtain ⟨L, H, hL⟩ := hM.holds
    have hok : ∃ r, S.w.stream abi (pathText path) create n = .ok r := by
      refine stream_ok H hf (fun m => ?_)
      cases create with
      | false => exact entryCreate_plain habi H hf hS hs.1 m
      | true =>
        refine entryCreate_one habi H hf hS hF hstart hs.1 hM.writeable m hlen ?_
        cases hx : v.file path.dropLast with
        | none => exact absurd ⟨rfl, hx⟩ hq
        | some node => rfl
    obtain ⟨⟨w, s⟩, h⟩ := hok
    dsimp only
    rw [h]
    cases s <;> exact ⟨_, rfl⟩
  | list path => obtain ⟨l, h⟩ := (look_ok habi hS hs).1; dsimp only; rw [h]; exact ⟨_, rfl⟩
  | ask path => obtain ⟨l, h⟩ := (look_ok habi hS hs).2.1; dsimp only; rw [h]; exact ⟨_, rfl⟩
  | askDir path => obtain ⟨l, h⟩ := (look_ok habi hS hs).2.2; dsimp only; rw [h]; exact ⟨_, rfl⟩
  | use c =>
    dsimp only
    suffices h : ∃ r, S.step c = .ok r by obtain ⟨r, h⟩ := h; rw [h]; exact ⟨_, rfl⟩
    unfold Session.step
    cases c with
    | seek h pos => dsimp only; split <;> exact ⟨_, rfl⟩
    | write h data =>
      dsimp only
      split
      · exact ⟨_, rfl⟩
      · rename_i s hst
        obtain ⟨L, c, e, path, H, he, hi, hb, hp, hpath, hfile⟩ := open_entry M hst
        unfold WStream.write
        rw [hp]
        by_cases hd : data = []
        · subst hd
          unfold WStream.writeAt
          exact ⟨_, rfl⟩
        · have hbig : S.w.io.header.threshold ≤ max (c.size s.idx) (v.pos h + data.length) := by
            rcases Nat.lt_or_ge (max (c.size s.idx) (v.pos h + data.length)) S.w.io.header.threshold with hlt | hge
            · exact absurd ⟨path, _, _, hpath, hfile, hlt, hd⟩ hq
            · exact hge
          obtain ⟨r, hr⟩ := writeAt_big H hM.writeable he hi hb (show v.pos h + data.length < 2 ^ 64 from hs) hbig
            (fun ⟨h1, h2, h3⟩ => hx ⟨path, _, _, hpath, hfile, h1, h2, h3, hd⟩)
          rw [hr]
          exact ⟨_, rfl⟩
    | read h n =>
      dsimp only
      split
      · exact ⟨_, rfl⟩
      · rename_i s hst
        obtain ⟨L, c, e, path, H, he, hi, hb, hp, hpath, hfile⟩ := open_entry M hst
        unfold WStream.read
        rw [hp]
        obtain ⟨r, hr⟩ := readAt_ok H he hi (v.pos h) n (newMem n) hs.1 (hs.2 path _ _ hpath hfile) (by simp [newMem])
        rw [hr]
        exact ⟨_, rfl⟩
    | setSize h n =>
      dsimp only
      split
      · exact ⟨_, rfl⟩
      · rename_i s hst
        obtain ⟨L, c, e, path, H, he, hi, hb, hp, hpath, hfile⟩ := open_entry M hst
        rcases setSize_holds H hM.writeable he hi hb n with ⟨_, h1, h2⟩ | ⟨w', L', h1, _⟩
        · exact absurd ⟨path, _, _, hpath, hfile, by omega, by omega, h1⟩ hx
        · rw [h1]; exact ⟨_, rfl⟩

theorem request_crosses {abi : Abi} {S : Session} {v : PathView} {q : Request}
    (M : Session.MatchesPaths abi S v) (hs : v.Sensible abi q)
    (hx : v.Crosses S.w.io.header.threshold q) : S.request abi q = .ub .badDelete := by
  have M' := M
  obtain ⟨⟨u, kids, hM, hS, hF, hpos, hnone, hsome⟩, hstart, hcount⟩ := M'
  have hopen : ∀ h path, v.path h = some path → ∃ s, S.streams[h]? = some s := by
    intro h path hp
    cases hu : u.stream h with
    | none => rw [hnone h hu] at hp; cases hp
    | some i =>
      have hst := hM.stream h
      rw [hu] at hst
      cases hx : S.streams[h]? with
      | none => rw [hx] at hst; cases hst
      | some s => exact ⟨s, rfl⟩
  unfold Session.request
  cases q with
  | openStream path create n => exact hx.elim
  | list path => exact hx.elim
  | ask path => exact hx.elim
  | askDir path => exact hx.elim
  | use c =>
    dsimp only
    unfold Session.step
    cases c with
    | seek h pos => exact hx.elim
    | read h n => exact hx.elim
    | write h data =>
      obtain ⟨path, size, byte, hp1, hf1, h1, h2, h3, h4⟩ := hx
      obtain ⟨s, hst⟩ := hopen h path hp1
      obtain ⟨L, c, e, path', H, he, hi, hb, hp, hpath, hfile⟩ := open_entry M hst
      rw [hp1] at hpath
      cases hpath
      rw [hf1] at hfile
      cases hfile
      dsimp only
      rw [hst]
      dsimp only
      unfold WStream.write
      rw [hp, writeAt_crossing H hM.writeable he hi hb (show v.pos h + data.length < 2 ^ 64 from hs) h1 h2 h3 h4]
      rfl
    | setSize h n =>
      obtain ⟨path, size, byte, hp1, hf1, h1, h2, h3⟩ := hx
      obtain ⟨s, hst⟩ := hopen h path hp1
      obtain ⟨L, c, e, path', H, he, hi, hb, hp, hpath, hfile⟩ := open_entry M hst
      rw [hp1] at hpath
      cases hpath
      rw [hf1] at hfile
      cases hfile
      dsimp only
      rw [hst]
      dsimp only
      rcases setSize_holds H hM.writeable he hi hb n with ⟨h4, _, _⟩ | ⟨w', L', _, _, _, _, h4, _⟩
      · rw [h4]; rfl
      · rcases h4 with h4 | h4
        · exact absurd h4 h3
        · omega

/-! ## The threshold stays as it is -/

theorem newEntry_threshold {abi : Abi} {w w' : Writer} {p closest idx size : Nat} {name : WStr} {dir : Bool}
    (h : w.newEntry abi p closest name dir size = .ok (w', idx)) : w'.io.header.threshold = w.io.header.threshold := by
  unfold Writer.newEntry at h
  dsimp only at h
  obtain ⟨⟨t', changed⟩, _, h⟩ := bind_inv h
  dsimp only at h
  obtain ⟨blocks, _, h⟩ := bind_inv h
  injection h with h
  injection h with h _
  rw [← h, (growDir_aside _ _ _).threshold]
  rfl

theorem descendCreate_threshold {abi : Abi} {create : Bool} {size : Nat} (names : List WStr) : ∀ {w w' : Writer} {i : Nat} {r : Option Nat},
    w.descendCreate abi create size i names = .ok (w', r) → w'.io.header.threshold = w.io.header.threshold := by
  induction names with
  | nil => intro w w' i r h; cases h; rfl
  | cons n ns ih =>
    intro w w' i r h
    unfold Writer.descendCreate at h
    obtain ⟨child, _, h⟩ := bind_inv h
    split at h
    · exact ih h
    · split at h
      · obtain ⟨closest, _, h⟩ := bind_inv h
        obtain ⟨⟨w1, idx⟩, h1, h⟩ := bind_inv h
        exact (ih h).trans (newEntry_threshold h1)
      · cases h; rfl

theorem stream_threshold {abi : Abi} {w w' : Writer} {path : WStr} {create : Bool} {size : Nat} {s : Option WStream}
    (h : w.stream abi path create size = .ok (w', s)) : w'.io.header.threshold = w.io.header.threshold := by
  unfold Writer.stream at h
  split at h
  · cases h; rfl
  · dsimp only at h
    obtain ⟨⟨w1, i⟩, h1, h⟩ := bind_inv h
    have : w1.io.header.threshold = w.io.header.threshold := by
      unfold Writer.entryCreate at h1
      split at h1
      · cases h1; rfl
      · split at h1
        · cases h1; rfl
        · exact descendCreate_threshold _ h1
    cases i with
    | none => cases h; exact this
    | some i =>
      dsimp only at h
      obtain ⟨e, _, h⟩ := bind_inv h
      split at h
      · cases h; exact this
      · obtain ⟨x, _, h⟩ := bind_inv h
        cases h; exact this

theorem request_threshold {abi : Abi} {S S' : Session} {q : Request} {a : Answer} (h : S.request abi q = .ok (S', a)) :
    S'.w.io.header.threshold = S.w.io.header.threshold := by
  cases q with
  | openStream path create n =>
    obtain ⟨⟨w', s⟩, h1, h⟩ := bind_inv h
    cases s <;> (cases h; exact stream_threshold h1)
  | list path => obtain ⟨l, h1, h⟩ := bind_inv h; cases h; rfl
  | ask path => obtain ⟨l, h1, h⟩ := bind_inv h; cases h; rfl
  | askDir path => obtain ⟨l, h1, h⟩ := bind_inv h; cases h; rfl
  | use c =>
    obtain ⟨⟨S1, r⟩, h1, h⟩ := bind_inv h
    cases h
    exact (step_keeps h1).1.threshold

theorem serve_threshold {abi : Abi} (rs : List Request) : ∀ {S S' : Session} {as : List Answer}, S.serve abi rs = .ok (S', as) →
    S'.w.io.header.threshold = S.w.io.header.threshold := by
  induction rs with
  | nil => intro S S' as h; cases h; rfl
  | cons r rs ih =>
    intro S S' as h
    obtain ⟨⟨S1, a⟩, h1, h⟩ := bind_inv h
    obtain ⟨⟨S2, as'⟩, h2, h⟩ := bind_inv h
    cases h
    exact (ih h2).trans (request_threshold h1)

end Fileid.Pole
