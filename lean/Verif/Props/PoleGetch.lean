import Verif.Lemmas.PoleGetch
import Verif.Props.PoleWrite

/-!
# Properties of reading streams of compound files: C111 byte by byte
-/

namespace Fileid.Props

open Spec Pole

/-! ## C111 -/

/-- C111: a stream object that is new (its cache is empty) returns, whatever history of seeking, reading bytes one by one and
reading blocks it goes through, the bytes of the stream: the byte at the position and -1 at the end, and the blocks as far as they
reach. Missing: streams that are written between (`C111_written_wrong`), and reads of blocks from behind the end
(`C103_read_behind_end_wrong`). -/
theorem C111_reading_partial (S : Session) (v : View) (hS : Session.Matches S v) (k : Nat) (s : WStream) (hk : S.streams[k]? = some s)
    (hnew : s.cache_size = 0 ∧ s.cache_pos = 0 ∧ s.cache_data.length = 4096) (bytes : Bytes) (hlen : bytes.length < 2 ^ 63)
    (hsize : v.contents.size s.idx = bytes.length) (hbytes : v.contents.Has s.idx 0 bytes) (hpos : s.pos < 2 ^ 64)
    (calls : List ReadCall) (hr : ReadsSensibly bytes s.pos calls) :
    s.readCalls S.w calls = .ok (readReplies bytes s.pos calls) := by
  obtain ⟨L, H, hb⟩ := hS.holds
  obtain ⟨e, he, hs⟩ := hS.entry k s hk
  exact readCalls_spec H (by omega) calls s he hs (hb k s hk) hsize hbytes hpos
    ⟨hnew.2.2, by rw [hnew.1, hnew.2.1]; exact Nat.zero_le _, fun k hk => by rw [hnew.1] at hk; omega⟩ hr

/-- The first stream of the examples, written and at its beginning again. -/
def written : Res (Writer × WStream) := do
  let (S, _) ← twoStreams.run [.write 0 b!"first", .seek 0 0]
  match S.streams[0]? with
  | none => .fuel
  | some s => .ok (S.w, s)

/-- C111: the hypotheses are met by that stream. -/
example : ∃ S v s, Session.Matches S v ∧ S.streams[0]? = some s ∧ written = .ok (S.w, s) ∧
    (s.cache_size = 0 ∧ s.cache_pos = 0 ∧ s.cache_data.length = 4096) ∧ v.contents.size s.idx = (b!"first").length ∧
    v.contents.Has s.idx 0 b!"first" ∧ ReadsSensibly b!"first" s.pos [.getch, .read 2, .getch, .seek 4, .getch, .getch] := by
  have h : (match twoStreams.run [.write 0 b!"first", .seek 0 0] with
      | .ok (S, r) => decide (r = [.wrote 5, .done]) && decide (S.w.io.bbat.data.length ≤ 0xfffffffc) &&
        decide (S.w.io.sbat.data.length ≤ 0xfffffffc) && decide ((S.streams[0]?).map
          (fun s => (s.idx, s.cache_size, s.cache_pos, s.cache_data.length, s.pos)) = some (1, 0, 0, 4096, 0))
      | _ => false) = true := by decide +kernel
  cases hr : twoStreams.run [.write 0 b!"first", .seek 0 0] with
  | ok x =>
    obtain ⟨S, r⟩ := x
    rw [hr] at h
    simp only [Bool.and_eq_true, decide_eq_true_eq] at h
    obtain ⟨⟨⟨rfl, h2⟩, h3⟩, h4⟩ := h
    cases hk : S.streams[0]? with
    | none => rw [hk] at h4; cases h4
    | some s =>
      rw [hk] at h4
      simp only [Option.map_some, Option.some.injEq, Prod.mk.injEq] at h4
      obtain ⟨h5, h6, h7, h8, h9⟩ := h4
      have M := (C103_history_partial twoStreams S twoView twoStreams_matches _ _ hr
        (by simp [View.AllSensible, View.Sensible, View.after, twoView]) ⟨h2, h3⟩).2
      refine ⟨S, _, s, M, hk, ?_, ⟨h6, h7, h8⟩, ?_, ?_, ?_⟩
      · unfold written
        rw [hr, Res.bind_ok]
        dsimp only
        rw [hk]
      · rw [h5]
        rfl
      · rw [h5]
        intro k c hc
        have : k < 5 := (List.getElem?_eq_some_iff.1 hc).1
        simp [View.finally, View.after, twoView, Contents.write]
        rw [if_pos (by omega)]
        exact hc
      · rw [h9]
        simp [ReadsSensibly]
  | throw e => rw [hr] at h; cases h
  | ub u => rw [hr] at h; cases h
  | fuel => rw [hr] at h; cases h

/-- C111: what such a history returns. -/
example : readReplies b!"first" 0 [.getch, .read 2, .getch, .seek 4, .getch, .getch] =
    [.char (some 102), .got (b!"ir".map some), .char (some 115), .done, .char (some 116), .char none] := by decide

/-- C111 is false of a stream that is written between: bytes come from the cache that was filled before. -/
theorem C111_written_wrong :
    (do
      let (w, s) ← written
      let (a, s) ← s.getch w
      let (w, s, _) ← (s.seek 0).write w b!"F"
      let (b, _) ← (s.seek 0).getch w
      .ok [a, b]) = .ok [some 102, some 102] := by decide +kernel

end Fileid.Props
