import Verif.Lemmas.PoleFresh

/-!
# Lemmas about streams that are opened
-/

namespace Fileid.Pole

open Spec

theorem new_holds {w : Writer} {L : Layout} {c : Contents} (H : Holds w L c) (hf : Fits w) {i : Nat} {e : DirEntry}
    (he : w.io.dirtree[i]? = some e) (hs : IsStream e) : StreamIO.new w.io e = .ok ⟨e, L.chain i⟩ := by
  obtain ⟨_, h⟩ := H.entry i e he hs
  unfold StreamIO.new Layout.chain
  by_cases ht : e.size < w.io.header.threshold
  · rw [if_pos ht] at h
    rw [if_neg (by omega), follow_begins H.small hf.2 h.1, h.2]
    simp
  · rw [if_neg ht] at h
    rw [if_pos (by omega), follow_begins H.big hf.1 h.1, h.2]
    simp

/-- Without `create` nothing is made. -/
theorem descendCreate_false (abi : Abi) (w : Writer) (size : Nat) (names : List WStr) : ∀ i,
    w.descendCreate abi false size i names = (descend abi w.io.dirtree i names >>= fun r => .ok (w, r)) := by
  induction names with
  | nil => intro i; rfl
  | cons n ns ih =>
    intro i
    unfold Writer.descendCreate descend
    cases find_child abi w.io.dirtree i n with
    | ok j =>
      simp only [Res.bind_ok]
      by_cases hj : j > 0
      · rw [if_pos hj, if_pos hj]; exact ih j
      · rw [if_neg hj, if_neg hj]; rfl
    | throw e => rfl
    | ub u => rfl
    | fuel => rfl

theorem entryCreate_false (abi : Abi) (w : Writer) (path : WStr) (size : Nat) :
    w.entryCreate abi path false size = (entryIdx abi w.io.dirtree path >>= fun r => .ok (w, r)) := by
  unfold Writer.entryCreate entryIdx
  by_cases h0 : path.length = 0
  · rw [if_pos h0, if_pos h0]; rfl
  rw [if_neg h0, if_neg h0]
  by_cases h1 : path = [47]
  · rw [if_pos h1, if_pos h1]; rfl
  rw [if_neg h1, if_neg h1]
  exact descendCreate_false _ _ _ _ _

theorem append_streams {l : List WStream} {s x : WStream} {h : Nat} (hh : (l ++ [s])[h]? = some x) :
    (h = l.length ∧ x = s) ∨ (h < l.length ∧ l[h]? = some x) := by
  rcases Nat.lt_or_ge h l.length with hl | hl
  · rw [List.getElem?_append_left hl] at hh
    exact Or.inr ⟨hl, hh⟩
  · rw [List.getElem?_append_right hl] at hh
    have : h - l.length = 0 := by
      rcases Nat.eq_zero_or_pos (h - l.length) with h0 | h0
      · exact h0
      · rw [List.getElem?_eq_none (by simp; omega)] at hh; cases hh
    rw [this] at hh
    cases hh
    exact Or.inl ⟨by omega, rfl⟩

/-- An object more. -/
theorem matches_append {S : Session} {v : View} {c : Contents} {w' : Writer} (hw : w'.writeable = true) (L' : Layout)
    (H' : Holds w' L' c) (M : Session.Matches S v) {s : WStream} (hp : s.pos = 0) (hb : s.blocks = L'.chain s.idx)
    (hold : ∀ (h : Nat) (x : WStream), S.streams[h]? = some x → x.blocks = L'.chain x.idx)
    (hent : ∀ (h : Nat) (x : WStream), S.streams[h]? = some x → ∃ e, w'.io.dirtree[x.idx]? = some e ∧ IsStream e)
    {e : DirEntry} (he : w'.io.dirtree[s.idx]? = some e) (hs : IsStream e) (hnot : ∀ h, v.stream h ≠ some s.idx) :
    Session.Matches ⟨w', S.streams ++ [s]⟩ ⟨c, replaced v.stream S.streams.length (some s.idx), replaced v.pos S.streams.length 0⟩ := by
  have hstr : ∀ {h : Nat} {x : WStream}, S.streams[h]? = some x → x.idx ≠ s.idx := fun {h x} hx he =>
    hnot h (by rw [M.stream h, hx, ← he]; rfl)
  refine ⟨hw, ⟨L', H', fun h x hx => ?_⟩, fun h => ?_, fun h x hx => ?_, fun h x hx => ?_, fun h h' x x' hx hx' hi => ?_⟩
  · rcases append_streams hx with ⟨_, rfl⟩ | ⟨_, hx⟩
    · exact hb
    · exact hold h x hx
  · dsimp only
    by_cases hh : h = S.streams.length
    · subst hh
      rw [replaced_self, List.getElem?_append_right (Nat.le_refl _), Nat.sub_self]
      rfl
    · rw [replaced_ne _ _ hh, M.stream h]
      rcases Nat.lt_or_ge h S.streams.length with hl | hl
      · rw [List.getElem?_append_left hl]
      · rw [List.getElem?_eq_none hl, List.getElem?_eq_none (by simp; omega)]
  · rcases append_streams hx with ⟨rfl, rfl⟩ | ⟨hl, hx⟩
    · exact hp.trans (replaced_self _ _ _).symm
    · exact (M.pos h x hx).trans (replaced_ne _ _ (by omega)).symm
  · rcases append_streams hx with ⟨_, rfl⟩ | ⟨_, hx⟩
    · exact ⟨e, he, hs⟩
    · exact hent h x hx
  · rcases append_streams hx with ⟨h1, h2⟩ | ⟨_, hy⟩ <;> rcases append_streams hx' with ⟨h1', h2'⟩ | ⟨_, hy'⟩
    · rw [h1, h1']
    · exact absurd (by rw [← hi, h2]) (hstr hy')
    · exact absurd (by rw [hi, h2']) (hstr hy)
    · exact M.distinct h h' x x' hy hy' hi

theorem stream_opens (abi : Abi) {S : Session} {v : View} (M : Session.Matches S v) (hf : Fits S.w) {path : WStr} {i : Nat}
    {e : DirEntry} (hi : entryIdx abi S.w.io.dirtree path = .ok (some i)) (he : S.w.io.dirtree[i]? = some e) (hs : IsStream e)
    (hnot : ∀ h, v.stream h ≠ some i) :
    ∃ s, S.w.stream abi path false 0 = .ok (S.w, some s) ∧
      Session.Matches ⟨S.w, S.streams ++ [s]⟩
        { v with stream := replaced v.stream S.streams.length (some i), pos := replaced v.pos S.streams.length 0 } := by
  obtain ⟨L, H, hL⟩ := M.holds
  have hlen : path.length ≠ 0 := fun h0 => by
    unfold entryIdx at hi
    rw [if_pos h0] at hi
    cases hi
  refine ⟨{ idx := i, blocks := L.chain i }, ?_, ?_⟩
  · unfold Writer.stream
    rw [if_neg hlen]
    dsimp only
    rw [entryCreate_false, hi]
    simp only [Res.bind_ok]
    unfold Writer.entryOf
    rw [he, Res.bind_ok, if_neg (by rw [hs.2]; simp), new_holds H hf he hs]
    rfl
  · exact matches_append (s := { idx := i, blocks := L.chain i }) M.writeable L H M rfl rfl hL
      (fun h x hx => M.entry h x hx) he hs hnot

end Fileid.Pole
