import Verif.Lemmas.PoleValid
import Verif.Props.PoleCfb
import Verif.Props.PoleUse
import Verif.Props.PoleEditSamples

/-!
# Properties of compound files that are changed: C114 opening, changing and flushing, again and again
-/

namespace Fileid.Props

open Spec Pole

/-! ## C114 -/

/-- C114: whatever a program does with a compound file it opened, in whatever order it writes, deletes, flushes and closes streams, all it is
told is right, and the storage is what it expects: what the file showed, with the changes the program made. Missing: what C112
and C113 leave out, and files that are not as the library writes them. -/
theorem C114_history_partial (file : Bytes) (P : CfbParts) (f : FileMap) (hfile : CfbFile file P f) (hedit : P.Editable file) (io : StorageIO)
    (hio : openStorage .windows (some file) = .ok (.opened io)) (S : Session) (actions : List Action) (outcomes : List Outcome)
    (h : (⟨reopened io, []⟩ : Session).live .windows actions = .ok (S, outcomes)) (hs : (PathView.of f).AllFine .windows actions outcomes)
    (hf : Spec.Fits S.w) (hlen : S.w.io.dirtree.length < 0xffffffff) (hbat : S.w.io.header.num_bat ≤ 109) :
    (PathView.of f).AllProper .windows actions outcomes ∧ Session.MatchesPaths .windows S ((PathView.of f).lastly actions outcomes) := by
  obtain ⟨io', O⟩ := cfb_opened hfile
  have := O.opened
  rw [hio] at this
  cases this
  obtain ⟨h1, h2, _⟩ := live_matches actions (cfb_matches hfile O) (edit_saveable hfile hedit O) (edit_storable hfile hedit O) h hs hf hlen hbat
  exact ⟨h1, h2⟩

/-- C114: after that a flush succeeds, and the file is a compound file, for whoever reads it, that shows what the file showed, with the
changes. And it can be changed again, if its FAT marks its own sectors as used. Missing: as above, files that do not reach to the end
of their sectors (C110), and names without room for a zero. -/
theorem C114_valid_partial (file : Bytes) (P : CfbParts) (f : FileMap) (hfile : CfbFile file P f) (hedit : P.Editable file) (io : StorageIO)
    (hio : openStorage .windows (some file) = .ok (.opened io)) (S : Session) (actions : List Action) (outcomes : List Outcome)
    (h : (⟨reopened io, []⟩ : Session).live .windows actions = .ok (S, outcomes)) (hs : (PathView.of f).AllFine .windows actions outcomes)
    (hf : Spec.Fits S.w) (hlen : S.w.io.dirtree.length < 0xffffffff) (hbat : S.w.io.header.num_bat ≤ 109)
    (hshort : ShortNames S.w.io.dirtree) (junk : Nat → Nat → UInt8) :
    ∃ w', S.w.flush junk = .ok w' ∧ (Reaches w' w'.io.file →
      ∃ P', CfbFile w'.io.file P' ((PathView.of f).lastly actions outcomes).file ∧ (FatMarked w' w'.io.file → P'.Editable w'.io.file)) := by
  obtain ⟨io', O⟩ := cfb_opened hfile
  have := O.opened
  rw [hio] at this
  cases this
  obtain ⟨_, M, Q, N⟩ := live_matches actions (cfb_matches hfile O) (edit_saveable hfile hedit O) (edit_storable hfile hedit O) h hs hf hlen hbat
  exact flush_cfb M hf Q N hlen junk hshort

/-- C114: the same is so of a file that the library made. -/
theorem C114_new_partial (w : Writer) (hw : Writer.fresh = .ok w) (S : Session) (actions : List Action) (outcomes : List Outcome)
    (h : (⟨w, []⟩ : Session).live .windows actions = .ok (S, outcomes)) (hs : PathView.empty.AllFine .windows actions outcomes)
    (hf : Spec.Fits S.w) (hlen : S.w.io.dirtree.length < 0xffffffff) (hbat : S.w.io.header.num_bat ≤ 109)
    (hshort : ShortNames S.w.io.dirtree) (junk : Nat → Nat → UInt8) :
    ∃ w', S.w.flush junk = .ok w' ∧ (Reaches w' w'.io.file →
      ∃ P, CfbFile w'.io.file P (PathView.empty.lastly actions outcomes).file ∧ (FatMarked w' w'.io.file → P.Editable w'.io.file)) := by
  rw [fresh_eq] at hw
  cases hw
  obtain ⟨_, M, Q, N⟩ := live_matches actions (fresh_paths .windows) ⟨{}, disk_none, fresh_prepared⟩ fresh_storable h hs hf hlen hbat
  exact flush_cfb M hf Q N hlen junk hshort

/-- Programs open a file that shows `f`, do something with it and flush it, one after the other, until the file shows `f'`. -/
inductive Generations : Bytes → FileMap → Bytes → FileMap → Prop
  | none {file : Bytes} {f : FileMap} : Generations file f file f
  | more {file file' : Bytes} {f f' : FileMap} {io : StorageIO} {S : Session} {actions : List Action} {outcomes : List Outcome}
      {junk : Nat → Nat → UInt8} {w' : Writer} : openStorage .windows (some file) = .ok (.opened io) →
      (⟨reopened io, []⟩ : Session).live .windows actions = .ok (S, outcomes) → (PathView.of f).AllFine .windows actions outcomes →
      Spec.Fits S.w → S.w.io.dirtree.length < 0xffffffff → S.w.io.header.num_bat ≤ 109 → ShortNames S.w.io.dirtree →
      S.w.flush junk = .ok w' → Reaches w' w'.io.file → FatMarked w' w'.io.file →
      Generations w'.io.file ((PathView.of f).lastly actions outcomes).file file' f' → Generations file f file' f'

/-- C114: however often a file is opened, changed and flushed, it is a compound file that shows all the changes, and can be opened. Missing:
as above. -/
theorem C114_generations_partial (file file' : Bytes) (f f' : FileMap) (P : CfbParts) (hfile : CfbFile file P f) (hedit : P.Editable file)
    (h : Generations file f file' f') : (∃ P', CfbFile file' P' f' ∧ P'.Editable file') ∧
      ∃ io, openStorage .windows (some file') = .ok (.opened io) ∧ Session.MatchesPaths .windows ⟨reopened io, []⟩ (PathView.of f') := by
  induction h generalizing P with
  | none => exact ⟨⟨P, hfile, hedit⟩, C113_open_partial _ P _ hfile⟩
  | more h1 h2 h3 h4 h5 h6 h7 h8 h9 h10 _ ih =>
    obtain ⟨w', g1, g2⟩ := C114_valid_partial _ P _ hfile hedit _ h1 _ _ _ h2 h3 h4 h5 h6 h7 _
    rw [h8] at g1
    cases g1
    obtain ⟨P', g3, g4⟩ := g2 h9
    exact ih P' g3 (g4 h10)

/-- C114, what is false: changes leave the rest of the file as it was. Who writes a stream, of a file whose root has a class identifier,
takes the class identifier away from the root: the whole directory sector is written, and the library does not keep what it has no use for. -/
theorem C114_class_id_wrong : ∃ (file : Bytes) (io : StorageIO) (S : Session) (answers : List Answer) (w' : Writer),
    openStorage .windows (some file) = .ok (.opened io) ∧
    (⟨reopened io, []⟩ : Session).serve .windows [.openStream [[101]] false 0, .use (.write 0 b!"changed")] = .ok (S, answers) ∧
    S.w.flush (fun _ _ => 0) = .ok w' ∧ io.header.dirent_start = 1 ∧
    (file.drop (512 * 2 + 0x50)).take 16 = 1 :: List.replicate 15 0 ∧ (w'.io.file.drop (512 * 2 + 0x50)).take 16 = List.replicate 16 0 := by
  have g := class_storage
  unfold storageOn at g
  obtain ⟨⟨S, as⟩, g1, g⟩ := bind_inv g
  have gw : S.w = _ := Res.ok.inj g
  have g2 := class_file
  obtain ⟨w', g3, g2⟩ := bind_inv g2
  injection g2 with g2
  refine ⟨classFile, _, S, as, w', class_opened, g1, by rw [gw]; exact g3, rfl, by decide +kernel, ?_⟩
  rw [g2]
  decide +kernel

/-! ### The hypotheses are met -/

theorem marked_of {w : Writer} {file : Bytes} (h1 : w.io.header.bb_blocks.take w.io.header.num_bat = [0]) (h2 : Num file 512 4 0xfffffffe) :
    FatMarked w file := by
  intro b hb s hs hn
  rw [h1] at hb hs
  have := List.mem_singleton.1 hb
  subst this
  cases hs
  exact absurd (num_unique hn h2) (by decide)

/-- What the file of the history of C112 shows. -/
def laterMap : FileMap := (PathView.empty.lastly useActions useOutcomes).file

/-- The file of the history of C112 is a compound file that can be changed. -/
theorem later_cfb : ∃ P, CfbFile laterFile P laterMap ∧ P.Editable laterFile := by
  obtain ⟨S, h1, hw⟩ := use_live
  obtain ⟨w', h2, h3⟩ := C114_new_partial freshWriter fresh_eq S useActions useOutcomes h1 use_fine (by rw [hw]; exact ⟨by decide +kernel, by decide +kernel⟩)
    (by rw [hw]; decide +kernel) (by rw [hw]; decide +kernel) (by rw [hw]; unfold ShortNames; decide +kernel) (fun _ _ => 0)
  have g := later_file
  obtain ⟨w2, g1, g2⟩ := bind_inv g
  injection g2 with g2
  rw [hw, g1] at h2
  have h2 := Res.ok.inj h2
  subst h2
  have hfl := flush_flat g1
  have hr : Reaches w2 w2.io.file := by
    rw [g2]
    obtain ⟨r1, r2, r3, r4⟩ := later_reaches
    rw [← hfl.header] at r1 r2 r3 r4
    rw [← hfl.big] at r2 r3 r4
    rw [← hfl.dir] at r4
    exact ⟨r1, r2, r3, r4⟩
  obtain ⟨P, k1, k2⟩ := h3 hr
  have hm : FatMarked w2 w2.io.file := marked_of (by rw [hfl.header]; decide +kernel) (by rw [g2]; exact Sample.num_check (by decide +kernel))
  rw [g2] at k1 k2 hm
  exact ⟨P, k1, k2 hm⟩

def editActions : List Action := editRequests.map .request

def editAnswers : List Answer := [.opened (some 0), .reply (.wrote 7)]

def editOutcomes : List Outcome := editAnswers.map .answer

theorem edit_live : ∃ S, (⟨reopened laterOpened, []⟩ : Session).live .windows editActions = .ok (S, editOutcomes) ∧ S.w = editStorage := by
  have g := edit_storage
  unfold storageOn at g
  obtain ⟨⟨S', as'⟩, g1, g⟩ := bind_inv g
  have gw : S'.w = editStorage := by injection g
  have ga : (match (⟨reopened laterOpened, []⟩ : Session).serve .windows editRequests with
      | .ok (_, r) => decide (r = editAnswers)
      | _ => false) = true := by decide +kernel
  rw [g1] at ga
  have ga : as' = editAnswers := by simpa using ga
  subst ga
  exact ⟨S', live_requests _ g1, gw⟩

theorem edit_fine : (PathView.of laterMap).AllFine .windows editActions editOutcomes := by
  simp only [PathView.AllFine, editActions, editOutcomes, editRequests, editAnswers, List.map_cons, List.map_nil]
  exact ⟨⟨⟨by decide, by decide, fun h hh => by cases hh⟩,
    (by decide : ∀ n ∈ ([[101]] : List WStr), n.length ≤ 32 ∧ ∀ x ∈ n, 0 < x ∧ x < 256)⟩,
    ⟨(by decide : 0 + 7 < 2 ^ 64), (by decide : 0 + 7 < 2 ^ 32)⟩, trivial⟩

theorem edit_reaches : Reaches editStorage editFile := by
  have h1 : ∀ l, Chain editStorage.io.bbat.data editStorage.io.header.sbat_start l → l = [2] := fun l hl => by
    have h := follow_chain (t := editStorage.io.bbat) (by decide +kernel) hl
    have h' : editStorage.io.bbat.follow editStorage.io.header.sbat_start = .ok [2] := by decide +kernel
    rw [h'] at h
    cases h
    rfl
  have h2 : ∀ l, Chain editStorage.io.bbat.data editStorage.io.header.dirent_start l → l = [1] := fun l hl => by
    have h := follow_chain (t := editStorage.io.bbat) (by decide +kernel) hl
    have h' : editStorage.io.bbat.follow editStorage.io.header.dirent_start = .ok [1] := by decide +kernel
    rw [h'] at h
    cases h
    rfl
  refine ⟨by decide +kernel, fun l hl => ?_, fun l hl => ?_, fun l hl i b hi hb => ?_⟩
  · rw [h1 l hl]; decide +kernel
  · rw [h2 l hl]; decide +kernel
  · rw [h2 l hl] at hb
    have h4 : 4 ≤ i := hi
    have : ([1] : List Nat)[i / 4]? = none := List.getElem?_eq_none (by show 1 ≤ i / 4; omega)
    rw [this] at hb
    cases hb

/-- C114: the hypotheses are met by a file that the library made, of which a stream is written anew. -/
example : (∃ P, CfbFile laterFile P laterMap ∧ P.Editable laterFile) ∧
    Generations laterFile laterMap editFile ((PathView.of laterMap).lastly editActions editOutcomes).file := by
  refine ⟨later_cfb, ?_⟩
  obtain ⟨S, h1, hw⟩ := edit_live
  have g := edit_file
  obtain ⟨w2, g1, g2⟩ := bind_inv g
  injection g2 with g2
  have hfl := flush_flat g1
  have hr : Reaches w2 w2.io.file := by
    rw [g2]
    obtain ⟨r1, r2, r3, r4⟩ := edit_reaches
    rw [← hfl.header] at r1 r2 r3 r4
    rw [← hfl.big] at r2 r3 r4
    rw [← hfl.dir] at r4
    exact ⟨r1, r2, r3, r4⟩
  have hm : FatMarked w2 w2.io.file := marked_of (by rw [hfl.header]; decide +kernel) (by rw [g2]; exact Sample.num_check (by decide +kernel))
  refine .more later_opened h1 edit_fine (by rw [hw]; exact ⟨by decide +kernel, by decide +kernel⟩) (by rw [hw]; decide +kernel)
    (by rw [hw]; decide +kernel) (by rw [hw]; unfold ShortNames; decide +kernel) (w' := w2) (by rw [hw]; exact g1) hr hm ?_
  rw [g2]
  exact .none

/-- C114: and this is what is read from its file. -/
example : (openStorage .windows (some editFile) >>= answersOf .windows [.list [], .openStream [[101]] false 0, .use (.read 0 9),
      .openStream [[99, 99], [100]] false 0, .use (.read 1 9)]) =
    .ok [.names [[101], [99, 99]], .opened (some 0), .reply (.got (b!"changed".map some)), .opened (some 1),
      .reply (.got (b!"deep".map some))] := by
  rw [edit_opened, Res.bind_ok]
  decide +kernel

end Fileid.Props
