import Verif.Lemmas.PoleStorable
import Verif.Props.PoleFlush
import Verif.Props.PoleUseSamples

/-!
# Properties of compound files in use: C112 histories of requests, deletes, flushes and closing
-/

namespace Fileid.Props

open Spec Pole

/-! ## C112 -/

/-- C112: whatever a program does with a new storage, in whatever order it writes, deletes, flushes and closes streams, all it is told is
right, and the storage is what it expects. In particular a flush changes nothing of what is seen, and what is deleted is
gone. Missing: what C106 and C109 leave out, Linux, names and sizes that cannot be stored, and FATs of more than 109 sectors. -/
theorem C112_history_partial (w : Writer) (hw : Writer.fresh = .ok w) (S : Session) (actions : List Action) (outcomes : List Outcome)
    (h : (⟨w, []⟩ : Session).live .windows actions = .ok (S, outcomes)) (hs : PathView.empty.AllFine .windows actions outcomes)
    (hf : Spec.Fits S.w) (hlen : S.w.io.dirtree.length < 0xffffffff) (hbat : S.w.io.header.num_bat ≤ 109) :
    PathView.empty.AllProper .windows actions outcomes ∧ Session.MatchesPaths .windows S (PathView.empty.lastly actions outcomes) := by
  rw [fresh_eq] at hw
  cases hw
  obtain ⟨h1, h2, _⟩ := live_matches actions (fresh_paths .windows) ⟨{}, disk_none, fresh_prepared⟩ fresh_storable h hs hf hlen hbat
  exact ⟨h1, h2⟩

/-- C112: after such a history a flush succeeds, and a storage opened on the file shows what the program knows: what was written last,
before and after earlier flushes and deletes, is there, and nothing of what was deleted. Missing: as above, and files that do
not reach to the end of the sectors that are read (C110). -/
theorem C112_reopen_partial (w : Writer) (hw : Writer.fresh = .ok w) (S : Session) (actions : List Action) (outcomes : List Outcome)
    (h : (⟨w, []⟩ : Session).live .windows actions = .ok (S, outcomes)) (hs : PathView.empty.AllFine .windows actions outcomes)
    (hf : Spec.Fits S.w) (hlen : S.w.io.dirtree.length < 0xffffffff) (hbat : S.w.io.header.num_bat ≤ 109) (junk : Nat → Nat → UInt8) :
    ∃ w', S.w.flush junk = .ok w' ∧ (Reaches w' w'.io.file →
      ∃ io, openStorage .windows (some w'.io.file) = .ok (.opened io) ∧
        Session.MatchesPaths .windows ⟨reopened io, []⟩ (PathView.empty.lastly actions outcomes).closed) := by
  rw [fresh_eq] at hw
  cases hw
  obtain ⟨_, M, P, N⟩ := live_matches actions (fresh_paths .windows) ⟨{}, disk_none, fresh_prepared⟩ fresh_storable h hs hf hlen hbat
  obtain ⟨w', h1, _, _, _, h2⟩ := flush_saved M hf P N hlen junk
  exact ⟨w', h1, h2⟩

/-- C112: so what is asked of the storage opened again is answered as it would have been before. -/
theorem C112_read_back_partial (w : Writer) (hw : Writer.fresh = .ok w) (S : Session) (actions : List Action) (outcomes : List Outcome)
    (h : (⟨w, []⟩ : Session).live .windows actions = .ok (S, outcomes)) (hs : PathView.empty.AllFine .windows actions outcomes)
    (hf : Spec.Fits S.w) (hlen : S.w.io.dirtree.length < 0xffffffff) (hbat : S.w.io.header.num_bat ≤ 109) (junk : Nat → Nat → UInt8)
    (w' : Writer) (hw' : S.w.flush junk = .ok w') (hr : Reaches w' w'.io.file) :
    ∃ io, openStorage .windows (some w'.io.file) = .ok (.opened io) ∧
      ∀ (S' : Session) (requests : List Request) (answers : List Answer),
        (⟨reopened io, []⟩ : Session).serve .windows requests = .ok (S', answers) →
        (PathView.empty.lastly actions outcomes).closed.AllSensible .windows requests answers →
        Spec.Fits S'.w → S'.w.io.dirtree.length < 0xffffffff →
        (PathView.empty.lastly actions outcomes).closed.AllRight .windows requests answers := by
  obtain ⟨w2, h1, h2⟩ := C112_reopen_partial w hw S actions outcomes h hs hf hlen hbat junk
  rw [hw'] at h1
  cases h1
  obtain ⟨io, h3, h4⟩ := h2 hr
  exact ⟨io, h3, fun S' rs as g1 g2 g3 g4 => (serve_matches (Or.inr rfl) rs h4 g1 g2 g3 g4).1⟩

/-- C112: after such a history neither deleting nor flushing fails: both come to an end without undefined behaviour. -/
theorem C112_no_failure_partial (w : Writer) (hw : Writer.fresh = .ok w) (S : Session) (actions : List Action) (outcomes : List Outcome)
    (h : (⟨w, []⟩ : Session).live .windows actions = .ok (S, outcomes)) (hs : PathView.empty.AllFine .windows actions outcomes)
    (hf : Spec.Fits S.w) (hlen : S.w.io.dirtree.length < 0xffffffff) (hbat : S.w.io.header.num_bat ≤ 109) (a : Action)
    (ha : (PathView.empty.lastly actions outcomes).Fine .windows a) (hno : ∀ r, a ≠ .request r) :
    ∃ S' o, S.act .windows a = .ok (S', o) ∧ (PathView.empty.lastly actions outcomes).Proper .windows a o := by
  rw [fresh_eq] at hw
  cases hw
  obtain ⟨_, M, P, N⟩ := live_matches actions (fresh_paths .windows) ⟨{}, disk_none, fresh_prepared⟩ fresh_storable h hs hf hlen hbat
  unfold Session.act
  cases a with
  | request r => exact absurd rfl (hno r)
  | close => exact ⟨_, _, rfl, rfl⟩
  | flush k junk =>
    dsimp only
    split
    · exact ⟨_, _, rfl, rfl⟩
    · obtain ⟨w', h1, _⟩ := flush_saved M hf P N hlen junk
      rw [h1]
      exact ⟨_, _, rfl, rfl⟩
  | delete path junk =>
    dsimp only
    unfold Writer.deleteFlush
    generalize hv : PathView.empty.lastly actions outcomes = v at M ha ⊢
    cases hp : v.file path with
    | none =>
      rw [C109_nothing .windows (Or.inr rfl) S v M path ha.2.1 hp]
      exact ⟨_, _, rfl, by show Outcome.deleted false = Outcome.deleted (v.file path).isSome; rw [hp]; rfl⟩
    | some node =>
      obtain ⟨w2, d1, d2, d3, d4, d5⟩ := delete_matches (Or.inr rfl) M ha.1 (by rw [hp]; rfl) ha.2.2.1 ha.2.2.2 hf hlen
      obtain ⟨old, hd, hpr⟩ := P
      have hb : w2.io.header.num_bat ≤ 109 := by
        rw [deleteByName_num d1]; exact hbat
      obtain ⟨w5, f1, _⟩ := flush_saved (S := ⟨w2, S.streams⟩) d2 d3 ⟨old, hd, d5.ready hb hpr⟩ (deleteByName_storable N d1)
        (by show w2.io.dirtree.length < _; rw [d4]; exact hlen) junk
      rw [d1, Res.bind_ok]
      dsimp only
      rw [if_pos rfl]
      have f1 : w2.flush junk = .ok w5 := f1
      rw [f1]
      exact ⟨_, _, rfl, by show Outcome.deleted true = Outcome.deleted (v.file path).isSome; rw [hp]; rfl⟩

/-! ### The hypotheses are met -/

theorem live_append {abi : Abi} (as bs : List Action) : ∀ {S S1 S2 : Session} {os ps : List Outcome}, S.live abi as = .ok (S1, os) →
    S1.live abi bs = .ok (S2, ps) → S.live abi (as ++ bs) = .ok (S2, os ++ ps) := by
  induction as with
  | nil => intro S S1 S2 os ps h h'; cases h; exact h'
  | cons a as ih =>
    intro S S1 S2 os ps h h'
    unfold Session.live at h
    obtain ⟨⟨T, o⟩, h1, h⟩ := bind_inv h
    obtain ⟨⟨T', os'⟩, h2, h⟩ := bind_inv h
    cases h
    show Session.live abi S (a :: (as ++ bs)) = _
    unfold Session.live
    rw [h1, Res.bind_ok]
    dsimp only
    rw [ih h2 h']
    rfl

theorem live_requests {abi : Abi} (rs : List Request) : ∀ {S S1 : Session} {as : List Answer}, S.serve abi rs = .ok (S1, as) →
    S.live abi (rs.map .request) = .ok (S1, as.map .answer) := by
  induction rs with
  | nil => intro S S1 as h; cases h; rfl
  | cons r rs ih =>
    intro S S1 as h
    obtain ⟨⟨T, a⟩, h1, h⟩ := bind_inv h
    obtain ⟨⟨T', as'⟩, h2, h⟩ := bind_inv h
    cases h
    rw [List.map_cons]
    unfold Session.live Session.act
    dsimp only
    rw [h1, Res.bind_ok]
    dsimp only
    rw [Res.bind_ok]
    dsimp only
    rw [ih h2]
    rfl

/-- Two streams are written, closed, one is deleted, and another one is created and written. -/
def useActions : List Action :=
  goodRequests.map .request ++ ([.close, .delete [[97]] fun _ _ => 0] ++ laterRequests.map .request)

def laterAnswers : List Answer := [.opened (some 0), .reply (.wrote 4)]

def useOutcomes : List Outcome := goodAnswers.map .answer ++ ([.done, .deleted true] ++ laterAnswers.map .answer)

theorem use_live : ∃ S, (⟨freshWriter, []⟩ : Session).live .windows useActions = .ok (S, useOutcomes) ∧ S.w = laterStorage := by
  have h := good_storage
  unfold storageAfter at h
  rw [fresh_eq, Res.bind_ok] at h
  obtain ⟨⟨S, as⟩, h1, h⟩ := bind_inv h
  have hw : S.w = goodStorage := by injection h
  have ha : (match (⟨freshWriter, []⟩ : Session).serve .windows goodRequests with
      | .ok (_, r) => decide (r = goodAnswers)
      | _ => false) = true := by decide +kernel
  rw [h1] at ha
  have ha : as = goodAnswers := by simpa using ha
  subst ha
  have g := later_storage
  unfold storageOn at g
  obtain ⟨⟨S', as'⟩, g1, g⟩ := bind_inv g
  have gw : S'.w = laterStorage := by injection g
  have ga : (match (⟨usedStorage, []⟩ : Session).serve .windows laterRequests with
      | .ok (_, r) => decide (r = laterAnswers)
      | _ => false) = true := by decide +kernel
  rw [g1] at ga
  have ga : as' = laterAnswers := by simpa using ga
  subst ga
  refine ⟨S', live_append _ _ (live_requests _ h1) (live_append _ _ (S1 := ⟨usedStorage, []⟩) ?_ (live_requests _ g1)), gw⟩
  simp only [Session.live, Session.act, Res.bind_ok]
  rw [hw, used_storage]
  rfl

theorem use_fine : PathView.empty.AllFine .windows useActions useOutcomes := by
  simp only [PathView.AllFine, useActions, useOutcomes, goodRequests, goodAnswers, laterRequests, laterAnswers, List.map_cons, List.map_nil,
    List.cons_append, List.nil_append]
  refine ⟨⟨⟨by decide, by decide, fun h => by simp [PathView.empty]⟩,
    (by decide : ∀ n ∈ ([[99, 99], [100]] : List WStr), n.length ≤ 32 ∧ ∀ x ∈ n, 0 < x ∧ x < 256)⟩, ⟨⟨by decide, by decide, fun h' hh => ?_⟩,
    (by decide : ∀ n ∈ ([[97]] : List WStr), n.length ≤ 32 ∧ ∀ x ∈ n, 0 < x ∧ x < 256)⟩,
    ⟨(by decide : 0 + 4 < 2 ^ 64), (by decide : 0 + 4 < 2 ^ 32)⟩, ⟨(by decide : 0 + 4 < 2 ^ 64), (by decide : 0 + 4 < 2 ^ 32)⟩,
    trivial, ⟨by decide, by decide, ?_, fun h p hp => by cases hp⟩, ⟨⟨by decide, by decide, fun h hh => by cases hh⟩,
    (by decide : ∀ n ∈ ([[101]] : List WStr), n.length ≤ 32 ∧ ∀ x ∈ n, 0 < x ∧ x < 256)⟩,
    ⟨(by decide : 0 + 4 < 2 ^ 64), (by decide : 0 + 4 < 2 ^ 32)⟩, trivial⟩
  · have hh : replaced (fun _ => none) 0 (some [[99, 99], [100]]) h' = some [[97]] := hh
    unfold replaced at hh
    split at hh <;> cases hh
  · have key : ∀ q : List WStr, (((FileMap.empty.create [[99, 99], [100]] 0).create [[97]] 0) q).isSome → [[97]] <+: q → q = [[97]] := by
      intro q hq hp
      rcases create_some hq with h5 | h5
      · rcases create_some h5 with h5 | h5
        · unfold FileMap.empty at h5
          split at h5
          · rename_i hc; rw [hc] at hp; exact absurd hp (by decide)
          · cases h5
        · have := hp.trans h5
          exact absurd this (by decide)
      · exact (List.IsPrefix.eq_of_length_le h5 hp.length_le)
    have keep : ∀ (f : FileMap) (p q : List WStr) (pos : Nat) (data : Bytes), ((f.write p pos data) q).isSome → (f q).isSome := by
      intro f p q pos data h
      unfold FileMap.write at h
      cases hq : f q with
      | none => rw [hq] at h; cases h
      | some x => rfl
    have all : ∀ q : List WStr, ((((FileMap.empty.create [[99, 99], [100]] 0).create [[97]] 0).write [[99, 99], [100]] 0 b!"deep").write [[97]] 0
        b!"flat" q).isSome → [[97]] <+: q → q = [[97]] := fun q hq => key q (keep _ _ _ _ _ (keep _ _ _ _ _ hq))
    refine ⟨fun q hp hq => ?_, fun q n byte hp hq name => ?_⟩
    · rw [all q hq hp]; decide
    · have hq' := all q (by
        have : (((FileMap.empty.create [[99, 99], [100]] 0).create [[97]] 0).write [[99, 99], [100]] 0 b!"deep").write [[97]] 0
          b!"flat" q = _ := hq
        rw [this]; rfl) hp
      subst hq'
      cases hx : (((FileMap.empty.create [[99, 99], [100]] 0).create [[97]] 0).write [[99, 99], [100]] 0 b!"deep").write [[97]] 0
          b!"flat" ([[97]] ++ [name]) with
      | none => exact hx
      | some x =>
        have := all _ (by rw [hx]; rfl) (List.prefix_append _ _)
        cases this

theorem later_reaches : Reaches laterStorage laterFile := by
  have h1 : ∀ l, Chain laterStorage.io.bbat.data laterStorage.io.header.sbat_start l → l = [2] := fun l hl => by
    have h := follow_chain (t := laterStorage.io.bbat) (by decide +kernel) hl
    have h' : laterStorage.io.bbat.follow laterStorage.io.header.sbat_start = .ok [2] := by decide +kernel
    rw [h'] at h
    cases h
    rfl
  have h2 : ∀ l, Chain laterStorage.io.bbat.data laterStorage.io.header.dirent_start l → l = [1] := fun l hl => by
    have h := follow_chain (t := laterStorage.io.bbat) (by decide +kernel) hl
    have h' : laterStorage.io.bbat.follow laterStorage.io.header.dirent_start = .ok [1] := by decide +kernel
    rw [h'] at h
    cases h
    rfl
  refine ⟨by decide +kernel, fun l hl => ?_, fun l hl => ?_, fun l hl i b hi hb => ?_⟩
  · rw [h1 l hl]; decide +kernel
  · rw [h2 l hl]; decide +kernel
  · rw [h2 l hl] at hb
    have h4 : 4 ≤ i := hi
    have : ([1] : List Nat)[i / 4]? = none := List.getElem?_eq_none (by show 1 ≤ i / 4; omega)
    rw [this] at hb
    cases hb

/-- C112: the hypotheses are met by this history. -/
example : ∃ S, (⟨freshWriter, []⟩ : Session).live .windows useActions = .ok (S, useOutcomes) ∧
    PathView.empty.AllFine .windows useActions useOutcomes ∧ Spec.Fits S.w ∧ S.w.io.dirtree.length < 0xffffffff ∧
    S.w.io.header.num_bat ≤ 109 ∧ ∃ w', (S.w.flush fun _ _ => 0) = .ok w' ∧ Reaches w' w'.io.file := by
  obtain ⟨S, h1, hw⟩ := use_live
  refine ⟨S, h1, use_fine, ?_, ?_, ?_, ?_⟩
  · rw [hw]; exact ⟨by decide +kernel, by decide +kernel⟩
  · rw [hw]; decide +kernel
  · rw [hw]; decide +kernel
  · have h2 := later_file
    obtain ⟨w', h3, h2⟩ := bind_inv h2
    injection h2 with h2
    rw [hw]
    refine ⟨w', h3, ?_⟩
    rw [h2]
    obtain ⟨r1, r2, r3, r4⟩ := later_reaches
    have hfl := flush_flat h3
    rw [← hfl.header] at r1 r2 r3 r4
    rw [← hfl.big] at r2 r3 r4
    rw [← hfl.dir] at r4
    exact ⟨r1, r2, r3, r4⟩

/-- C112: and this is what is read from its file. -/
example : (openStorage .windows (some laterFile) >>= answersOf .windows [.list [], .ask [[97]], .openStream [[101]] false 0, .use (.read 0 9),
      .openStream [[99, 99], [100]] false 0, .use (.read 1 9)]) =
    .ok [.names [[101], [99, 99]], .yes false, .opened (some 0), .reply (.got (b!"next".map some)), .opened (some 1),
      .reply (.got (b!"deep".map some))] := by
  rw [later_opened, Res.bind_ok]
  decide +kernel

end Fileid.Props
