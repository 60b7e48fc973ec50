import Verif.Lemmas.PoleRoom
import Verif.Lemmas.PoleStorable

/-! # Storages in use: every action within the limits comes to an end -/

namespace Fileid.Pole
open Fileid.Spec
open Fileid.Props (C109_nothing delete_matches)

theorem act_room {S : Session} {v : PathView} {a : Action} (M : Session.MatchesPaths Abi.windows S v) (P : Saveable S.w)
    (N : Storable S.w.io.dirtree) (hr : Roomy S.w) (hbat : S.w.io.header.num_bat ≤ 109) (ha : v.Fine .windows a) (hg : v.Gentle 4096 a) :
    ∃ S' o, S.act .windows a = .ok (S', o) := by
  obtain ⟨hf, hlen⟩ := roomy_fits hr
  unfold Session.act
  cases a with
  | request r =>
    obtain ⟨old, _, P⟩ := P
    obtain ⟨⟨u, kids, hM, _⟩, _, _⟩ := id M
    obtain ⟨L, H, _⟩ := hM.holds
    have ht := (P L _ H).big.fixed.2.2.1
    obtain ⟨⟨S', a⟩, hreq⟩ := request_room (Or.inr rfl) M ha.1 hr hg.1 (by rw [ht]; exact Nat.le_refl _) (P L _ H).big.blockSize
      (P L _ H).small.blockSize (by rw [ht]; exact hg.2)
    dsimp only
    rw [hreq]
    exact ⟨_, _, rfl⟩
  | close => exact ⟨_, _, rfl⟩
  | flush k junk =>
    dsimp only
    split
    · exact ⟨_, _, rfl⟩
    · obtain ⟨w', h1, _⟩ := flush_saved M hf P N hlen junk
      rw [h1]
      exact ⟨_, _, rfl⟩
  | delete path junk =>
    dsimp only
    unfold Writer.deleteFlush
    cases hp : v.file path with
    | none =>
      rw [C109_nothing .windows (Or.inr rfl) S v M path ha.2.1 hp]
      exact ⟨_, _, rfl⟩
    | some node =>
      obtain ⟨w2, d1, d2, d3, d4, d5⟩ := delete_matches (Or.inr rfl) M ha.1 (by rw [hp]; rfl) ha.2.2.1 ha.2.2.2 hf hlen
      obtain ⟨old, hd, hpr⟩ := P
      have hb : w2.io.header.num_bat ≤ 109 := by
        rw [deleteByName_num d1]; exact hbat
      obtain ⟨w5, f1, _⟩ := flush_saved (S := ⟨w2, S.streams⟩) d2 d3 ⟨old, hd, d5.ready hb hpr⟩ (deleteByName_storable N d1)
        (by show w2.io.dirtree.length < _; rw [d4]; exact hlen) junk
      rw [d1, Res.bind_ok]
      dsimp only
      rw [if_pos rfl]
      have f1 : w2.flush junk = .ok w5 := f1
      rw [f1]
      exact ⟨_, _, rfl⟩

theorem live_room (acts : List Action) : ∀ {S : Session} {v : PathView}, Session.MatchesPaths Abi.windows S v → Saveable S.w →
    Storable S.w.io.dirtree →
    (∀ pre a post S' os, acts = pre ++ a :: post → S.live .windows pre = .ok (S', os) → Roomy S'.w ∧ S'.w.io.header.num_bat ≤ 109 ∧
      (v.lastly pre os).Fine .windows a ∧ (v.lastly pre os).Gentle 4096 a) →
    ∃ S' os, S.live .windows acts = .ok (S', os) ∧ (Roomy S'.w → S'.w.io.header.num_bat ≤ 109 → v.AllProper .windows acts os ∧
      Session.MatchesPaths Abi.windows S' (v.lastly acts os) ∧ Saveable S'.w ∧ Storable S'.w.io.dirtree) := by
  induction acts with
  | nil => intro S v M P N _; exact ⟨S, [], rfl, fun _ _ => ⟨trivial, M, P, N⟩⟩
  | cons r rs ih =>
    intro S v M P N hall
    obtain ⟨hr, hb, hs, hx⟩ := hall [] r rs S [] rfl rfl
    obtain ⟨S1, a, hreq⟩ := act_room M P N hr hb hs hx
    have hstep : ∀ {l S' as}, S1.live .windows l = .ok (S', as) → S.live .windows (r :: l) = .ok (S', a :: as) := by
      intro l S' as h
      show (S.act .windows r >>= fun x => x.1.live .windows l >>= fun y => Res.ok (y.1, x.2 :: y.2)) = _
      rw [hreq, Res.bind_ok]
      dsimp only
      rw [h]
      rfl
    cases rs with
    | nil =>
      exact ⟨S1, [a], hstep rfl, fun hr1 hb1 => by
        obtain ⟨q1, q2⟩ := act_matches M P N hs hreq (roomy_fits hr1).1 (roomy_fits hr1).2 hb1
        exact ⟨⟨q1, trivial⟩, q2⟩⟩
    | cons r2 rs2 =>
      obtain ⟨hr1, hb1, _⟩ := hall [r] r2 rs2 S1 [a] rfl (hstep rfl)
      obtain ⟨q1, M1, P1, N1⟩ := act_matches M P N hs hreq (roomy_fits hr1).1 (roomy_fits hr1).2 hb1
      obtain ⟨S', as, h4, h5⟩ := ih M1 P1 N1
        (fun pre q post S' as he hp => by
          have := hall (r :: pre) q post S' (a :: as) (by rw [he]; rfl) (hstep hp)
          exact this)
      exact ⟨S', a :: as, hstep h4, fun hr' hb' => by
        obtain ⟨t1, t2⟩ := h5 hr' hb'
        exact ⟨⟨q1, t1⟩, t2⟩⟩

end Fileid.Pole
