import Verif.Lemmas.PoleOpenStream

/-!
# Properties of compound files that are being written: C103 histories of open streams, C104 when writing is undefined,
C105 two objects for one stream
-/

namespace Fileid.Props

open Spec Pole

/-! ## C103 -/

/-- A new storage with the streams "/a" and "/b", both open. -/
def twoStreams : Session where
  w := { freshWriter with io := { freshWriter.io with dirtree :=
    [{ valid := true, name := b!"Root Entry".map UInt8.toNat, dir := true, size := 0, start := End, prev := End, next := End,
       child := 1 },
     { valid := true, name := [97], dir := false, size := 0, start := Eof, prev := End, next := 2, child := End },
     { valid := true, name := [98], dir := false, size := 0, start := Eof, prev := End, next := End, child := End }] } }
  streams := [{ idx := 1, blocks := [] }, { idx := 2, blocks := [] }]

/-- It is what the calls make (the new objects have an empty cache). -/
example : ((do
    let w ← Writer.fresh
    let (w, a) ← w.stream .windows [47, 97] true 0
    let (w, b) ← w.stream .windows [47, 98] true 0
    .ok (w, [a, b].map fun s => s.map fun s => s.idx :: s.pos :: s.blocks)) : Res (Writer × List (Option (List Nat)))) =
    .ok (twoStreams.w, [some [1, 0], some [2, 0]]) := by decide +kernel

/-- What is known of it: nothing was written, both positions are 0. -/
def twoView : View where
  contents := nothing
  stream h := if h = 0 then some 1 else if h = 1 then some 2 else none
  pos _ := 0

theorem twoStreams_matches : Session.Matches twoStreams twoView := by
  have key : ∀ {h : Nat} {s : WStream}, twoStreams.streams[h]? = some s →
      (h = 0 ∧ s = { idx := 1, blocks := [] }) ∨ (h = 1 ∧ s = { idx := 2, blocks := [] }) := by
    intro h s hs
    match h, hs with
    | 0, hs => cases hs; exact Or.inl ⟨rfl, rfl⟩
    | 1, hs => cases hs; exact Or.inr ⟨rfl, rfl⟩
    | h + 2, hs => cases hs
  refine ⟨rfl, ⟨freshLayout, fresh_holds _ ?_, ?_⟩, ?_, ?_, ?_, ?_⟩
  · intro i e he hs
    match i, he with
    | 0, he => cases he; cases hs.2
    | 1, he => cases he; exact ⟨rfl, rfl⟩
    | 2, he => cases he; exact ⟨rfl, rfl⟩
    | i + 3, he => cases he
  · intro h s hs
    rcases key hs with ⟨_, rfl⟩ | ⟨_, rfl⟩ <;> rfl
  · intro h
    match h with
    | 0 => rfl
    | 1 => rfl
    | h + 2 => rfl
  · intro h s hs
    rcases key hs with ⟨_, rfl⟩ | ⟨_, rfl⟩ <;> rfl
  · intro h s hs
    rcases key hs with ⟨_, rfl⟩ | ⟨_, rfl⟩
    · exact ⟨_, rfl, rfl, rfl⟩
    · exact ⟨_, rfl, rfl, rfl⟩
  · intro h h' s s' hs hs' he
    rcases key hs with ⟨rfl, rfl⟩ | ⟨rfl, rfl⟩ <;> rcases key hs' with ⟨rfl, rfl⟩ | ⟨rfl, rfl⟩ <;>
      first | rfl | (exact absurd he (by decide))

/-- C103: whatever history of `seek`, `write`, `read` and `setSize` several open streams of one storage go through, every
write stores all its bytes, and every read of bytes that were written (to that stream, and not cut off since) returns
what was written last, up to the end of the stream; and the storage goes on holding what was written. Missing: histories
in which a stream crosses the threshold of 4096 bytes while it has bytes (`C104_crossing`), reads that begin behind the end
(`C103_read_behind_end_wrong`), two objects for one stream (`C105_two_objects_wrong`), tables of more than 0xfffffffc
sectors. -/
theorem C103_history_partial (S S' : Session) (v : View) (hS : Session.Matches S v) (calls : List Call) (replies : List Reply)
    (h : S.run calls = .ok (S', replies)) (hs : v.AllSensible calls replies) (hf : Fits S'.w) :
    v.AllRight calls replies ∧ Session.Matches S' (v.finally calls replies) :=
  run_matches calls hS h hs hf

/-- The history of the example: both streams are written, and read. -/
def twoCalls : List Call :=
  [.write 0 b!"first", .write 1 b!"second", .seek 0 0, .write 0 b!"F", .seek 1 3, .read 1 10, .seek 0 0, .read 0 5, .setSize 1 2]

def twoReplies : List Reply :=
  [.wrote 5, .wrote 6, .done, .wrote 1, .done, .got (b!"ond".map some), .done, .got (b!"First".map some), .done]

/-- C103: the hypotheses are met by a history with both streams, whose reads return what was written. -/
example : ∃ S', twoStreams.run twoCalls = .ok (S', twoReplies) ∧ twoView.AllSensible twoCalls twoReplies ∧ Fits S'.w := by
  have h : (match twoStreams.run twoCalls with
      | .ok (S', r) => decide (r = twoReplies) && decide (S'.w.io.bbat.data.length ≤ 0xfffffffc) &&
          decide (S'.w.io.sbat.data.length ≤ 0xfffffffc)
      | _ => false) = true := by decide +kernel
  cases hr : twoStreams.run twoCalls with
  | ok p =>
    obtain ⟨S', r⟩ := p
    rw [hr] at h
    simp only [Bool.and_eq_true, decide_eq_true_eq] at h
    obtain ⟨⟨h1, h2⟩, h3⟩ := h
    subst h1
    refine ⟨S', rfl, ?_, h2, h3⟩
    simp [View.AllSensible, View.Sensible, View.after, twoView, twoCalls, twoReplies, Contents.write, replaced, nothing]
  | throw e => rw [hr] at h; cases h
  | ub u => rw [hr] at h; cases h
  | fuel => rw [hr] at h; cases h

/-- C103: what the last read returned is what the theorem says. -/
example : ((twoView.after (.write 0 b!"first") (.wrote 5)).after (.write 1 b!"second") (.wrote 6)).contents.Has 1 0 b!"first" := by
  intro k v hk
  have : k < 5 := (List.getElem?_eq_some_iff.1 hk).1
  simp [View.after, twoView, Contents.write]
  rw [if_pos (by omega)]
  exact hk

/-- C103 is false for a read that begins behind the end of a stream: `size - pos` is below zero, and the bytes of a
sector are copied over the end of the array of the caller. -/
theorem C103_read_behind_end_wrong :
    twoStreams.run [.write 0 b!"first", .seek 0 20, .read 0 5] = .ub .oobWrite := by decide +kernel

/-! ## C104 -/

/-- C104 is false: bytes that take a stream with bytes over the threshold are not stored; what is done is undefined (an array
is freed with `delete`). -/
theorem C104_wrong :
    twoStreams.run [.write 0 b!"x", .write 0 (List.replicate 4096 0)] = .ub .badDelete := by decide +kernel

/-- C104: `setSize` is undefined exactly when the size goes from one side of the threshold to the other and bytes are kept;
else it does what `C103_history_partial` says. -/
theorem C104_setSize (w : Writer) (L : Layout) (c : Contents) (H : Holds w L c) (hw : w.writeable = true) (s : WStream)
    (e : DirEntry) (he : w.io.dirtree[s.idx]? = some e) (hs : IsStream e) (hb : s.blocks = L.chain s.idx) (n : Nat) :
    (s.setSize w n = .ub .badDelete ↔
      ¬ (c.size s.idx < w.io.header.threshold ↔ n < w.io.header.threshold) ∧ 0 < min n (c.size s.idx)) ∧
    (s.setSize w n = .ub .badDelete ∨ ∃ w' s', s.setSize w n = .ok (w', s')) := by
  rcases setSize_holds H hw he hs hb n with ⟨h1, h2, h3⟩ | ⟨w', L', h1, _, _, _, h2, _⟩
  · exact ⟨⟨fun _ => ⟨h2, h3⟩, fun _ => h1⟩, Or.inl h1⟩
  · refine ⟨⟨(fun h => by rw [h1] at h; cases h), fun h => ?_⟩, Or.inr ⟨_, _, h1⟩⟩
    rcases h2 with h2 | h2
    · exact absurd h2 h.1
    · omega

/-- C104: `write` is undefined exactly when there are bytes in the stream, fewer than the threshold, and the bytes written
reach it. -/
theorem C104_crossing (w : Writer) (L : Layout) (c : Contents) (H : Holds w L c) (hw : w.writeable = true) (s : WStream)
    (e : DirEntry) (he : w.io.dirtree[s.idx]? = some e) (hs : IsStream e) (hb : s.blocks = L.chain s.idx) (pos : Nat)
    (data : Bytes) (h64 : pos + data.length < 2 ^ 64) :
    ((∃ u, s.writeAt w pos data = .ub u) ↔ 0 < c.size s.idx ∧ c.size s.idx < w.io.header.threshold ∧
      w.io.header.threshold ≤ pos + data.length ∧ data ≠ []) ∧
    ∀ u, s.writeAt w pos data = .ub u → u = .badDelete := by
  rcases writeAt_calm H hw he hs hb h64 with ⟨h1, h2, h3, h4, h5⟩ | h
  · refine ⟨⟨fun _ => ⟨h2, h3, h4, List.length_pos_iff.1 h5⟩, fun _ => ⟨_, h1⟩⟩, fun u hu => ?_⟩
    rw [h1] at hu
    injection hu with hu
    exact hu.symm
  · have hno : ∀ u, s.writeAt w pos data ≠ .ub u := by
      intro u hu
      rcases h with h | ⟨a, h⟩ <;> rw [h] at hu <;> cases hu
    refine ⟨⟨fun ⟨u, hu⟩ => absurd hu (hno u), fun ⟨h2, h3, h4, h5⟩ => ?_⟩, fun u hu => absurd hu (hno u)⟩
    exact absurd (writeAt_crossing H hw he hs hb h64 h2 h3 h4 h5) (hno _)

/-- C104: the case of the theorem is met, on both sides. -/
example : Holds twoStreams.w freshLayout nothing := by
  obtain ⟨L, h, _⟩ := twoStreams_matches.holds
  exact fresh_holds _ fun i e he hs => by
    match i, he with
    | 0, he => cases he; cases hs.2
    | 1, he => cases he; exact ⟨rfl, rfl⟩
    | 2, he => cases he; exact ⟨rfl, rfl⟩
    | i + 3, he => cases he

/-! ## C105 -/

/-- The storage of the examples with "/a" open twice. -/
def oneTwice : Session := ⟨twoStreams.w, [{ idx := 1, blocks := [] }, { idx := 1, blocks := [] }]⟩

/-- C105 is false with two objects for one stream: what is written through one is not seen through the other; and when both
write, the bytes of the first are lost (the stream, opened again, has zeros in their place). -/
theorem C105_two_objects_wrong :
    (do let (_, r) ← oneTwice.run [.write 0 b!"first", .read 1 5]; .ok r) = .ok [.wrote 5, .got []] ∧
    (do
      let (S, _) ← oneTwice.run [.write 0 b!"first", .seek 1 5, .write 1 b!"more"]
      let (w, s) ← S.w.stream .windows [47, 97] false 0
      let (_, r) ← (⟨w, s.toList⟩ : Session).run [.read 0 9]
      .ok r) = .ok [.got (([0, 0, 0, 0, 0] ++ b!"more").map some)] := by
  constructor <;> decide +kernel

/-- C105: a stream that is opened (again) shows the bytes that were written through earlier objects: the new object knows
the sectors of the stream, and its position is 0. Missing: a stream that is open already (`C105_two_objects_wrong`). -/
theorem C105_open_partial (abi : Abi) (S : Session) (v : View) (hS : Session.Matches S v) (hf : Fits S.w) (path : WStr) (i : Nat)
    (e : DirEntry) (hi : entryIdx abi S.w.io.dirtree path = .ok (some i)) (he : S.w.io.dirtree[i]? = some e) (hs : IsStream e)
    (hnot : ∀ h, v.stream h ≠ some i) :
    ∃ s, S.w.stream abi path false 0 = .ok (S.w, some s) ∧
      Session.Matches ⟨S.w, S.streams ++ [s]⟩
        { v with stream := replaced v.stream S.streams.length (some i), pos := replaced v.pos S.streams.length 0 } :=
  stream_opens abi hS hf hi he hs hnot

/-- C105: the hypotheses are met by the storage of the examples with no stream open. -/
example : ∃ s, twoStreams.w.stream .windows [47, 97] false 0 = .ok (twoStreams.w, some s) ∧
    Session.Matches ⟨twoStreams.w, [s]⟩ ⟨nothing, replaced (fun _ => none) 0 (some 1), replaced (fun _ => 0) 0 0⟩ := by
  have hm : Session.Matches ⟨twoStreams.w, []⟩ ⟨nothing, fun _ => none, fun _ => 0⟩ := by
    obtain ⟨L, h, _⟩ := twoStreams_matches.holds
    exact ⟨rfl, ⟨L, h, fun h s hs => (by cases hs)⟩, fun h => rfl, fun h s hs => (by cases hs), fun h s hs => (by cases hs),
      fun h h' s s' hs => (by cases hs)⟩
  exact C105_open_partial .windows _ _ hm ⟨by decide +kernel, by decide +kernel⟩ [47, 97] 1 _ (by decide) rfl ⟨rfl, rfl⟩ (by simp)

end Fileid.Props
