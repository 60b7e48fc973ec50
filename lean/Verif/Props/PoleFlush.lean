import Verif.Lemmas.PoleAgain
import Verif.Props.PolePaths
import Verif.Props.PoleFlushSamples
import Verif.Spec.Flush

/-!
# Properties of compound files that are written to disk: C110 flushing and opening again
-/

namespace Fileid.Props

open Spec Pole

/-! ## C110 -/

/-- C110: what was written to a new storage is in the file after a flush. Whatever history of requests the storage went
through, a flush succeeds, and a storage opened on the file shows the same map: the same storages and streams at the same
paths, of the same sizes, with every byte that was written. The uninitialised memory that a flush writes beside the tables is
arbitrary (`junk`). Missing: Linux, files that do not reach to the end of the sectors that are read when the file is opened, names
of more than 32 units or of units above 255, streams of 4 GB and more, and FATs of more than 109 sectors; most of it is false,
see below. Histories with deletes and several flushes are C112's. -/
theorem C110_reopen_partial (w : Writer) (hw : Writer.fresh = .ok w) (S : Session) (requests : List Request) (answers : List Answer)
    (h : (⟨w, []⟩ : Session).serve .windows requests = .ok (S, answers)) (hs : PathView.empty.AllSensible .windows requests answers)
    (hf : Spec.Fits S.w) (hlen : S.w.io.dirtree.length < 0xffffffff) (hbat : S.w.io.header.num_bat ≤ 109) (hst : Storable S.w.io.dirtree)
    (junk : Nat → Nat → UInt8) :
    ∃ w', S.w.flush junk = .ok w' ∧ (Reaches S.w w'.io.file →
      ∃ io, openStorage .windows (some w'.io.file) = .ok (.opened io) ∧
        Session.MatchesPaths .windows ⟨reopened io, []⟩ (PathView.empty.finally requests answers).closed) := by
  rw [fresh_eq] at hw
  cases hw
  have M := (serve_matches (Or.inr rfl) requests (fresh_paths .windows) h hs hf hlen).2
  have P := (serve_prepares (Or.inr rfl) requests (fresh_paths .windows) h hs hf hlen).ready hbat fresh_prepared
  obtain ⟨w', h1, _, h2⟩ := again_matches M hf ⟨{}, disk_none, P⟩ hst hlen junk
  exact ⟨w', h1, fun hr => h2 hr.fat hr.miniFat fun l hl => ⟨hr.dir l hl, hr.unused l hl⟩⟩

/-- C110: so everything that is asked of the storage opened again is answered as if it had not been closed: its streams open at their
paths and return the bytes that were written before the flush. -/
theorem C110_read_back_partial (w : Writer) (hw : Writer.fresh = .ok w) (S : Session) (requests : List Request) (answers : List Answer)
    (h : (⟨w, []⟩ : Session).serve .windows requests = .ok (S, answers)) (hs : PathView.empty.AllSensible .windows requests answers)
    (hf : Spec.Fits S.w) (hlen : S.w.io.dirtree.length < 0xffffffff) (hbat : S.w.io.header.num_bat ≤ 109) (hst : Storable S.w.io.dirtree)
    (junk : Nat → Nat → UInt8) (w' : Writer) (hw' : S.w.flush junk = .ok w') (hr : Reaches S.w w'.io.file) :
    ∃ io, openStorage .windows (some w'.io.file) = .ok (.opened io) ∧
      ∀ (S' : Session) (requests' : List Request) (answers' : List Answer),
        (⟨reopened io, []⟩ : Session).serve .windows requests' = .ok (S', answers') →
        (PathView.empty.finally requests answers).closed.AllSensible .windows requests' answers' →
        Spec.Fits S'.w → S'.w.io.dirtree.length < 0xffffffff →
        (PathView.empty.finally requests answers).closed.AllRight .windows requests' answers' := by
  obtain ⟨w2, h1, h2⟩ := C110_reopen_partial w hw S requests answers h hs hf hlen hbat hst junk
  rw [hw'] at h1
  cases h1
  obtain ⟨io, h3, h4⟩ := h2 hr
  exact ⟨io, h3, fun S' rs as g1 g2 g3 g4 => (serve_matches (Or.inr rfl) rs h4 g1 g2 g3 g4).1⟩

theorem good_reaches : Reaches goodStorage goodFile := by
  have h1 : ∀ l, Chain goodStorage.io.bbat.data goodStorage.io.header.sbat_start l → l = [2] := fun l hl => by
    have h := follow_chain (t := goodStorage.io.bbat) (by decide +kernel) hl
    have h' : goodStorage.io.bbat.follow goodStorage.io.header.sbat_start = .ok [2] := by decide +kernel
    rw [h'] at h
    cases h
    rfl
  have h2 : ∀ l, Chain goodStorage.io.bbat.data goodStorage.io.header.dirent_start l → l = [1] := fun l hl => by
    have h := follow_chain (t := goodStorage.io.bbat) (by decide +kernel) hl
    have h' : goodStorage.io.bbat.follow goodStorage.io.header.dirent_start = .ok [1] := by decide +kernel
    rw [h'] at h
    cases h
    rfl
  refine ⟨by decide +kernel, fun l hl => ?_, fun l hl => ?_, fun l hl i b hi hb => ?_⟩
  · rw [h1 l hl]; decide +kernel
  · rw [h2 l hl]; decide +kernel
  · rw [h2 l hl] at hb
    have h4 : 4 ≤ i := hi
    have : ([1] : List Nat)[i / 4]? = none := List.getElem?_eq_none (by show 1 ≤ i / 4; omega)
    rw [this] at hb
    cases hb

def goodAnswers : List Answer := [.opened (some 0), .opened (some 1), .reply (.wrote 4), .reply (.wrote 4)]

/-- C110: the hypotheses are met by a storage with two streams, one of them in a storage. -/
example : ∃ S, (⟨freshWriter, []⟩ : Session).serve .windows goodRequests = .ok (S, goodAnswers) ∧
    PathView.empty.AllSensible .windows goodRequests goodAnswers ∧ Spec.Fits S.w ∧ S.w.io.dirtree.length < 0xffffffff ∧
    S.w.io.header.num_bat ≤ 109 ∧ Storable S.w.io.dirtree ∧
    ∃ w', (S.w.flush fun _ _ => 0) = .ok w' ∧ Reaches S.w w'.io.file := by
  have h := good_storage
  unfold storageAfter at h
  rw [fresh_eq, Res.bind_ok] at h
  obtain ⟨⟨S, as⟩, h1, h⟩ := bind_inv h
  have hw : S.w = goodStorage := by injection h
  have ha : (match (⟨freshWriter, []⟩ : Session).serve .windows goodRequests with
      | .ok (_, r) => decide (r = goodAnswers)
      | _ => false) = true := by decide +kernel
  rw [h1] at ha
  have ha : as = goodAnswers := by simpa using ha
  subst ha
  refine ⟨S, h1, ?_, ?_, ?_, ?_, ?_, ?_⟩
  · simp only [PathView.AllSensible, goodRequests, goodAnswers]
    refine ⟨⟨by decide, by decide, fun h => by simp [PathView.empty]⟩, ⟨by decide, by decide, fun h' hh => ?_⟩, ?_, ?_, trivial⟩
    · have hh : replaced (fun _ => none) 0 (some [[99, 99], [100]]) h' = some [[97]] := hh
      unfold replaced at hh
      split at hh <;> cases hh
    · exact (by decide : 0 + 4 < 2 ^ 64)
    · exact (by decide : 0 + 4 < 2 ^ 64)
  · rw [hw]; exact ⟨by decide +kernel, by decide +kernel⟩
  · rw [hw]; decide +kernel
  · rw [hw]; decide +kernel
  · rw [hw]; unfold Storable; decide +kernel
  · have h2 := good_file
    obtain ⟨w', h3, h2⟩ := bind_inv h2
    injection h2 with h2
    rw [hw]
    exact ⟨w', h3, by rw [h2]; exact good_reaches⟩

/-- C110: a storage with two streams, one of them in a storage, is flushed and read. -/
example : flushAnd .windows goodRequests [.list [], .list [[99, 99]], .openStream [[99, 99], [100]] false 0, .use (.read 0 9)] =
    .ok [.names [[97], [99, 99]], .names [[100]], .opened (some 0), .reply (.got (b!"deep".map some))] :=
  flushAnd_eq good_storage good_file good_opened (by decide +kernel)

/-- C110 is false of a storage without streams: the file ends in the first sector of the directory, and opening it uses memory
that was never written. -/
theorem C110_empty_wrong : flushAnd .windows [] [] = .ub .uninit := flushAnd_ub empty_storage empty_file empty_opened

/-- C110 is false of four streams: the second sector of the directory is the last one of the file and holds one entry. -/
theorem C110_four_streams_wrong : flushAnd .windows fourRequests [] = .ub .uninit := flushAnd_ub four_storage four_file four_opened

/-- C110 is false of names of units above 255, and of names of more than 32 units: of the former the low bytes are left, of the latter
32 units. -/
theorem C110_names_wrong :
    flushAnd .windows namesRequests [.ask [[256, 257]], .ask [List.replicate 33 97], .list []] =
      .ok [.yes false, .yes false, .names [[], List.replicate 32 97]] :=
  flushAnd_eq names_storage names_file names_opened (by decide +kernel)

/-- C110 is false on Linux: two units are stored and read as one. -/
theorem C110_linux_wrong :
    flushAnd .linux wideRequests [.list [], .ask [[98, 99]]] = .ok [.names [[99 * 2 ^ 16 + 98, 0]], .yes false] :=
  flushAnd_eq wide_storage wide_file wide_opened (by decide +kernel)

end Fileid.Props
