import Verif.Lemmas.PoleShort
import Verif.Props.PoleEdit

/-!
# Storages that cannot be opened again after a flush: C110, C112, C114
-/

namespace Fileid.Props

open Spec Pole

/-- C110 is false: whenever the flushed file ends before the end of a sector of the FAT, the mini FAT or the directory, opening it is
undefined. So the condition of `C110_reopen_partial` that the file reaches that far cannot be dropped for any history of requests. -/
theorem C110_short_false (abi : Abi) (w : Writer) (hw : Writer.fresh = .ok w) (S : Session) (requests : List Request) (answers : List Answer)
    (h : (⟨w, []⟩ : Session).serve .windows requests = .ok (S, answers)) (hs : PathView.empty.AllSensible .windows requests answers)
    (hf : Spec.Fits S.w) (hlen : S.w.io.dirtree.length < 0xffffffff) (hbat : S.w.io.header.num_bat ≤ 109) (hst : Storable S.w.io.dirtree)
    (junk : Nat → Nat → UInt8) (w' : Writer) (hw' : S.w.flush junk = .ok w') (he : EndsEarly S.w w'.io.file) :
    ∃ u, openStorage abi (some w'.io.file) = .ub u := by
  rw [fresh_eq] at hw
  cases hw
  have M := (serve_matches (Or.inr rfl) requests (fresh_paths .windows) h hs hf hlen).2
  have P := (serve_prepares (Or.inr rfl) requests (fresh_paths .windows) h hs hf hlen).ready hbat fresh_prepared
  exact short_ub abi M hf ⟨{}, disk_none, P⟩ hst hlen junk hw' he

/-- C112 is false: the same is so after histories with deletes and flushes. -/
theorem C112_short_false (abi : Abi) (w : Writer) (hw : Writer.fresh = .ok w) (S : Session) (actions : List Action) (outcomes : List Outcome)
    (h : (⟨w, []⟩ : Session).live .windows actions = .ok (S, outcomes)) (hs : PathView.empty.AllFine .windows actions outcomes)
    (hf : Spec.Fits S.w) (hlen : S.w.io.dirtree.length < 0xffffffff) (hbat : S.w.io.header.num_bat ≤ 109) (junk : Nat → Nat → UInt8)
    (w' : Writer) (hw' : S.w.flush junk = .ok w') (he : EndsEarly S.w w'.io.file) :
    ∃ u, openStorage abi (some w'.io.file) = .ub u := by
  rw [fresh_eq] at hw
  cases hw
  obtain ⟨_, M, P, N⟩ := live_matches actions (fresh_paths .windows) ⟨{}, disk_none, fresh_prepared⟩ fresh_storable h hs hf hlen hbat
  exact short_ub abi M hf P N hlen junk hw' he

/-- C114 is false: and after changes to a file that exists. A program that changes a compound file this way has made it useless. -/
theorem C114_short_false (abi : Abi) (file : Bytes) (P : CfbParts) (f : FileMap) (hfile : CfbFile file P f) (hedit : P.Editable file)
    (io : StorageIO) (hio : openStorage .windows (some file) = .ok (.opened io)) (S : Session) (actions : List Action) (outcomes : List Outcome)
    (h : (⟨reopened io, []⟩ : Session).live .windows actions = .ok (S, outcomes)) (hs : (PathView.of f).AllFine .windows actions outcomes)
    (hf : Spec.Fits S.w) (hlen : S.w.io.dirtree.length < 0xffffffff) (hbat : S.w.io.header.num_bat ≤ 109) (junk : Nat → Nat → UInt8)
    (w' : Writer) (hw' : S.w.flush junk = .ok w') (he : EndsEarly S.w w'.io.file) :
    ∃ u, openStorage abi (some w'.io.file) = .ub u := by
  obtain ⟨io', O⟩ := cfb_opened hfile
  have := O.opened
  rw [hio] at this
  cases this
  obtain ⟨_, M, Q, N⟩ := live_matches actions (cfb_matches hfile O) (edit_saveable hfile hedit O) (edit_storable hfile hedit O) h hs hf hlen hbat
  exact short_ub abi M hf Q N hlen junk hw' he

/-- One stream, of 30723 bytes. -/
def longRequests : List Request := [.openStream [[97]] true 0, .use (.seek 0 30720), .use (.write 0 b!"abc")]

def longAnswers : List Answer := [.opened (some 0), .reply .done, .reply (.wrote 3)]

def longShort (w : Writer) : Bool := match w.quick fun _ _ => 0 with
  | .ok w' => (w'.io.file.drop 34303).isEmpty
  | _ => false

def longCheck : Bool := match (⟨freshWriter, []⟩ : Session).serve .windows longRequests with
  | .ok (S, r) => decide (r = longAnswers) && decide (S.w.io.bbat.data.length ≤ 0xfffffffc) && decide (S.w.io.sbat.data.length ≤ 0xfffffffc) &&
    decide (S.w.io.dirtree.length < 0xffffffff) && decide (S.w.io.header.num_bat = 2) &&
    decide (∀ e ∈ S.w.io.dirtree, e.name.length ≤ 32 ∧ (e.valid = true → ∀ x ∈ e.name, 0 < x ∧ x < 256) ∧ e.size < 2 ^ 32) &&
    decide (S.w.io.header.bb_blocks.take 2 = [0, 65]) && longShort S.w
  | _ => false

theorem long_checked : longCheck = true := by decide +kernel

/-- C110: the hypotheses of `C110_short_false` are met by a storage with one stream of 30723 bytes. Its last sector is
number 64; with it the FAT gets a second sector, number 65, that no flush ever writes. -/
theorem long_short : ∃ S w', (⟨freshWriter, []⟩ : Session).serve .windows longRequests = .ok (S, longAnswers) ∧
    PathView.empty.AllSensible .windows longRequests longAnswers ∧ Spec.Fits S.w ∧ S.w.io.dirtree.length < 0xffffffff ∧
    S.w.io.header.num_bat ≤ 109 ∧ Storable S.w.io.dirtree ∧ (S.w.flush fun _ _ => 0) = .ok w' ∧ EndsEarly S.w w'.io.file := by
  have h := long_checked
  unfold longCheck at h
  split at h
  case h_2 => cases h
  case h_1 S r hr =>
  simp only [Bool.and_eq_true, decide_eq_true_eq] at h
  obtain ⟨⟨⟨⟨⟨⟨⟨h1, h2⟩, h3⟩, h4⟩, h5⟩, h6⟩, h7⟩, h8⟩ := h
  unfold longShort at h8
  split at h8
  case h_2 => cases h8
  case h_1 w' hw =>
  rw [quick_eq] at hw
  subst h1
  refine ⟨S, w', hr, ?_, ⟨h2, h3⟩, h4, by omega, h6, hw, Or.inl ⟨65, by rw [h5, h7]; decide, ?_⟩⟩
  · simp only [PathView.AllSensible, longRequests, longAnswers]
    refine ⟨⟨by decide, by decide, fun h => by simp [PathView.empty]⟩, ?_, ?_, trivial⟩
    · exact (by decide : 30720 < 2 ^ 64)
    · show (replaced (replaced (fun _ => 0) 0 0) 0 30720 0 : Nat) + 3 < 2 ^ 64
      unfold replaced
      rw [if_pos rfl]
      decide
  · rw [List.isEmpty_iff, List.drop_eq_nil_iff] at h8
    omega

/-- C110 is false of a storage with one stream of 30723 bytes: the header lists a sector of the FAT that lies behind the end of the file. -/
theorem C110_fat_wrong : ∃ u, flushAnd .windows longRequests [] = .ub u := by
  obtain ⟨S, w', h1, h2, h3, h4, h5, h6, h7, h8⟩ := long_short
  obtain ⟨u, h⟩ := C110_short_false .windows freshWriter fresh_eq S longRequests longAnswers h1 h2 h3 h4 h5 h6 _ w' h7 h8
  refine ⟨u, flushAnd_ub (w := S.w) (file := w'.io.file) ?_ ?_ h⟩
  · unfold storageAfter
    rw [fresh_eq, Res.bind_ok, h1, Res.bind_ok]
  · unfold fileAfter
    rw [h7, Res.bind_ok]

end Fileid.Props
