import Verif.Lemmas.PoleWrites
import Verif.Spec.Session

/-!
# Lemmas about the writing side of the compound-file library: histories of calls
-/

namespace Fileid.Pole

open Spec

/-! ## Tables do not get shorter -/

theorem extends_aside (n : Nat) : ∀ (w : Writer) (c : List Nat), Aside w (Writer.extends n w c).1 := by
  induction n with
  | zero => exact fun w c => Aside.refl w
  | succ n ih => exact fun w c => (extend_aside w c).trans (ih _ _)

/-- The tables have not become shorter. -/
def Longer (w w' : Writer) : Prop :=
  w.io.bbat.data.length ≤ w'.io.bbat.data.length ∧ w.io.sbat.data.length ≤ w'.io.sbat.data.length

theorem Longer.refl (w : Writer) : Longer w w := ⟨Nat.le_refl _, Nat.le_refl _⟩

theorem Longer.trans {a b c : Writer} (h : Longer a b) (h' : Longer b c) : Longer a c :=
  ⟨Nat.le_trans h.1 h'.1, Nat.le_trans h.2 h'.2⟩

theorem Longer.fits {a b : Writer} (h : Longer a b) (hf : Fits b) : Fits a :=
  ⟨Nat.le_trans h.1 hf.1, Nat.le_trans h.2 hf.2⟩

theorem writeBlocks_longer {w w' : Writer} {s s' : WStream} {e : DirEntry} {pos n : Nat} {data : Bytes}
    (h : s.writeBlocks w e pos data = .ok (w', s', n)) : Longer w w' := by
  unfold WStream.writeBlocks at h
  dsimp only at h
  have last : ∀ {w1 : Writer} {f : Bytes} {blocks : List Nat} {s1 : WStream} {t : Nat},
      Res.ok ((match blocks.head? with
        | none => ({ w1 with io := { w1.io with file := f } } : Writer)
        | some b => if e.start ≠ b then ({ w1 with io := { w1.io with file := f } } : Writer).setEntry s.idx { e with start := b }
          else { w1 with io := { w1.io with file := f } }), s1, t) = Res.ok (w', s', n) → Longer w1 w' := by
    intro w1 f blocks s1 t h
    injection h with h
    injection h with h _
    rw [← h]
    cases blocks.head? with
    | none => exact ⟨Nat.le_refl _, Nat.le_refl _⟩
    | some b => dsimp only; split <;> exact ⟨Nat.le_refl _, Nat.le_refl _⟩
  split at h
  · obtain ⟨⟨w1, b1⟩, h1, h⟩ := bind_inv h
    exact Longer.trans (extendsSmall_mono _ _ _ _ _ h1) (last h)
  · obtain ⟨⟨w1, b1⟩, h1, h⟩ := bind_inv h
    have h2 := congrArg Prod.fst (Res.ok.inj h1)
    dsimp only at h2
    refine Longer.trans ?_ (last h)
    rw [← h2]
    exact ⟨extends_mono _ _ _, by rw [(extends_aside _ _ _).sbat]; exact Nat.le_refl _⟩

theorem foldl_longer {α : Type} (f : Writer → α → Writer) (hf : ∀ w x, Longer w (f w x)) (l : List α) :
    ∀ w, Longer w (l.foldl f w) := by
  induction l with
  | nil => exact Longer.refl
  | cons x l ih => exact fun w => (hf w x).trans (ih _)

theorem setSize_longer {w w' : Writer} {s s' : WStream} {n : Nat} (h : s.setSize w n = .ok (w', s')) : Longer w w' := by
  unfold WStream.setSize at h
  split at h
  · obtain ⟨e, _, h⟩ := bind_inv h
    dsimp only at h
    split at h
    · generalize (if n > e.size then e.size else n) = len at h
      split at h
      · cases h
      · injection h with h
        injection h with h _
        rw [← h]
        refine Longer.trans (foldl_longer _ (fun w x => ?_) _ _) ⟨Nat.le_refl _, Nat.le_refl _⟩
        obtain ⟨b, k⟩ := x
        dsimp only
        split
        · refine ⟨Nat.le_refl _, ?_⟩
          show _ ≤ (AllocTable.set _ _ _).data.length
          rw [set_length]; omega
        · refine ⟨?_, Nat.le_refl _⟩
          show _ ≤ (AllocTable.set _ _ _).data.length
          rw [set_length]; omega
    · split at h
      · injection h with h
        injection h with h _
        rw [← h]
        exact ⟨Nat.le_refl _, Nat.le_refl _⟩
      · injection h with h
        injection h with h _
        rw [← h]
        exact Longer.refl _
  · injection h with h
    injection h with h _
    rw [← h]
    exact Longer.refl _

theorem writeAt_longer {w w' : Writer} {s s' : WStream} {pos n : Nat} {data : Bytes}
    (h : s.writeAt w pos data = .ok (w', s', n)) : Longer w w' := by
  unfold WStream.writeAt at h
  split at h
  · injection h with h
    injection h with h _
    rw [← h]
    exact Longer.refl _
  · split at h
    · obtain ⟨e, _, h⟩ := bind_inv h
      split at h
      · obtain ⟨⟨w1, s1⟩, h1, h⟩ := bind_inv h
        obtain ⟨e1, _, h⟩ := bind_inv h
        exact (setSize_longer h1).trans (writeBlocks_longer h)
      · obtain ⟨⟨w1, s1⟩, h1, h⟩ := bind_inv h
        cases h1
        obtain ⟨e1, _, h⟩ := bind_inv h
        exact writeBlocks_longer h
    · injection h with h
      injection h with h _
      rw [← h]
      exact Longer.refl _

/-! ## Reading returns at most what was asked for -/

theorem readLoop_le (load : Nat → Mem → Res Mem) (bs maxlen : Nat) (blocks : List Nat) :
    ∀ (offset total : Nat) (buf data : Mem) (n : Nat) (data' : Mem), total ≤ maxlen →
    readLoop load bs maxlen blocks offset total buf data = .ok (n, data') → n ≤ maxlen ∧ data'.length = data.length := by
  induction blocks with
  | nil =>
    intro offset total buf data n data' ht h
    cases h
    exact ⟨ht, rfl⟩
  | cons b rest ih =>
    intro offset total buf data n data' ht h
    unfold readLoop at h
    split at h
    · obtain ⟨buf1, _, h⟩ := bind_inv h
      dsimp only at h
      obtain ⟨chunk, _, h⟩ := bind_inv h
      obtain ⟨data1, h2, h⟩ := bind_inv h
      have := ih _ _ _ _ _ _ (by split <;> omega) h
      exact ⟨this.1, by rw [this.2, mwr_length h2]⟩
    · cases h
      exact ⟨ht, rfl⟩

theorem readAt_le {w : Writer} {s : WStream} {e : DirEntry} (he : w.io.dirtree[s.idx]? = some e) {pos maxlen : Nat}
    (h64 : pos + maxlen < 2 ^ 64) (hpos : pos ≤ e.size) {m m' : Mem} {n : Nat} (h : s.readAt w pos m maxlen = .ok (n, m')) :
    n ≤ maxlen ∧ m'.length = m.length := by
  unfold WStream.readAt Writer.entryOf at h
  rw [he, Res.bind_ok] at h
  unfold StreamIO.readAt at h
  split at h
  · cases h; exact ⟨by omega, rfl⟩
  · dsimp only at h
    have hu : u64 (pos + maxlen) = pos + maxlen := Nat.mod_eq_of_lt (by simpa using h64)
    have hle : (if u64 (pos + maxlen) > e.size then sub64 e.size pos else maxlen) ≤ maxlen := by
      rw [hu]
      split
      · rw [sub64_le hpos (by omega)]; omega
      · exact Nat.le_refl _
    generalize (if decide (e.size < w.io.header.threshold) = true then w.io.sbat.blockSize else w.io.bbat.blockSize) = bs at h
    by_cases hidx : pos / bs ≥ s.blocks.length
    · rw [if_pos hidx] at h
      cases h
      exact ⟨by omega, rfl⟩
    · rw [if_neg hidx] at h
      have := readLoop_le _ _ _ _ _ _ _ _ _ _ (Nat.zero_le _) h
      exact ⟨Nat.le_trans this.1 hle, this.2⟩

/-! ## One call -/

theorem step_longer {S S' : Session} {c : Call} {r : Reply} (h : S.step c = .ok (S', r)) : Longer S.w S'.w := by
  unfold Session.step at h
  cases c with
  | seek k pos =>
    dsimp only at h
    split at h <;> (cases h; exact Longer.refl _)
  | write k data =>
    dsimp only at h
    split at h
    · cases h; exact Longer.refl _
    · obtain ⟨⟨w1, s1, n⟩, h1, h⟩ := bind_inv h
      cases h
      exact writeAt_longer h1
  | read k maxlen =>
    dsimp only at h
    split at h
    · cases h; exact Longer.refl _
    · obtain ⟨⟨n, d, s1⟩, h1, h⟩ := bind_inv h
      cases h
      exact Longer.refl _
  | setSize k n =>
    dsimp only at h
    split at h
    · cases h; exact Longer.refl _
    · obtain ⟨⟨w1, s1⟩, h1, h⟩ := bind_inv h
      cases h
      exact setSize_longer h1

theorem run_longer (cs : List Call) : ∀ {S S' : Session} {rs : List Reply}, S.run cs = .ok (S', rs) → Longer S.w S'.w := by
  induction cs with
  | nil => intro S S' rs h; cases h; exact Longer.refl _
  | cons c cs ih =>
    intro S S' rs h
    unfold Session.run at h
    obtain ⟨⟨S1, r⟩, h1, h⟩ := bind_inv h
    obtain ⟨⟨S2, rs'⟩, h2, h⟩ := bind_inv h
    cases h
    exact (step_longer h1).trans (ih h2)

theorem set_streams {l : List WStream} {k j : Nat} {s x y : WStream} (hk : l[k]? = some s) (h : (l.set k x)[j]? = some y) :
    (j = k ∧ y = x) ∨ (j ≠ k ∧ l[j]? = some y) := by
  by_cases hjk : j = k
  · subst hjk
    rw [List.getElem?_set_self (List.getElem?_eq_some_iff.1 hk).1] at h
    exact Or.inl ⟨rfl, (Option.some.inj h).symm⟩
  · rw [List.getElem?_set_ne (fun h => hjk h.symm)] at h
    exact Or.inr ⟨hjk, h⟩

theorem map_set_idx {l : List WStream} {k : Nat} {s x : WStream} (hk : l[k]? = some s) (hx : x.idx = s.idx) (j : Nat) :
    ((l.set k x)[j]?).map (·.idx) = (l[j]?).map (·.idx) := by
  by_cases hjk : j = k
  · subst hjk
    rw [List.getElem?_set_self (List.getElem?_eq_some_iff.1 hk).1, hk]
    simp [hx]
  · rw [List.getElem?_set_ne (fun h => hjk h.symm)]

/-- The session after one object was used. -/
theorem matches_set {S : Session} {v v' : View} (M : Session.Matches S v) {k : Nat} {s s' : WStream}
    (hk : S.streams[k]? = some s) (hidx : s'.idx = s.idx) {w' : Writer} (hw : w'.writeable = true) {L' : Layout}
    (hH : Holds w' L' v'.contents) (hL : s'.blocks = L'.chain s.idx)
    {L : Layout} (h2 : ∀ (h : Nat) (s : WStream), S.streams[h]? = some s → s.blocks = L.chain s.idx)
    (hoth : ∀ j, j ≠ s.idx → L'.chain j = L.chain j) (hv : v'.stream = v.stream) (hpos : ∀ j, j ≠ k → v'.pos j = v.pos j)
    (hpk : s'.pos = v'.pos k) (hent : ∀ (i : Nat) (e : DirEntry), S.w.io.dirtree[i]? = some e → IsStream e → ∃ e', w'.io.dirtree[i]? = some e' ∧
      IsStream e') : Session.Matches ⟨w', S.streams.set k s'⟩ v' := by
  refine ⟨hw, ⟨L', hH, fun j sj hj => ?_⟩, fun j => ?_, fun j sj hj => ?_, fun j sj hj => ?_, fun j j' sj sj' hj hj' he => ?_⟩
  · rcases set_streams hk hj with ⟨rfl, rfl⟩ | ⟨hjk, hj⟩
    · rw [hL, hidx]
    · rw [h2 j sj hj, hoth]
      intro he
      exact hjk (M.distinct j k sj s hj hk he)
  · rw [hv, M.stream j, map_set_idx hk hidx]
  · rcases set_streams hk hj with ⟨rfl, rfl⟩ | ⟨hjk, hj⟩
    · exact hpk
    · rw [M.pos j sj hj, hpos j hjk]
  · rcases set_streams hk hj with ⟨rfl, rfl⟩ | ⟨hjk, hj⟩
    · obtain ⟨e, h3, h4⟩ := M.entry j s hk
      rw [hidx]
      exact hent _ e h3 h4
    · obtain ⟨e, h3, h4⟩ := M.entry j sj hj
      exact hent _ e h3 h4
  · have key : ∀ {j : Nat} {sj : WStream}, (S.streams.set k s')[j]? = some sj → ∃ sx : WStream, S.streams[j]? = some sx ∧ sx.idx = sj.idx := by
      intro j sj hj
      rcases set_streams hk hj with ⟨rfl, rfl⟩ | ⟨_, hj⟩
      · exact ⟨s, hk, hidx.symm⟩
      · exact ⟨sj, hj, rfl⟩
    obtain ⟨a, ha, ha'⟩ := key hj
    obtain ⟨b, hb, hb'⟩ := key hj'
    exact M.distinct j j' a b ha hb (by rw [ha', hb', he])

theorem sameDir_streams {w w' : Writer} {i : Nat} (h : SameDir w w' i) : ∀ (j : Nat) (e : DirEntry), w.io.dirtree[j]? = some e → IsStream e →
    ∃ e', w'.io.dirtree[j]? = some e' ∧ IsStream e' := by
  intro j e he hs
  obtain ⟨e', h1, h2, _⟩ := h.entry j e he
  exact ⟨e', h1, by rw [← h2]; exact hs⟩

theorem step_matches {S S' : Session} {v : View} {c : Call} {r : Reply} (M : Session.Matches S v) (hs : v.Sensible c)
    (h : S.step c = .ok (S', r)) (hf : Fits S'.w) : v.Right c r ∧ Session.Matches S' (v.after c r) := by
  obtain ⟨L, hL1, hL2⟩ := M.holds
  cases c with
  | seek k pos =>
    unfold Session.step at h
    dsimp only at h
    cases hk : S.streams[k]? with
    | none =>
      rw [hk] at h
      cases h
      refine ⟨rfl, ?_⟩
      unfold View.after
      dsimp only
      rw [M.stream k, hk]
      exact M
    | some s =>
      rw [hk] at h
      cases h
      refine ⟨rfl, ?_⟩
      unfold View.after
      dsimp only
      rw [M.stream k, hk]
      rw [if_pos (by rfl)]
      exact matches_set (s' := s.seek pos) (v' := { v with pos := replaced v.pos k pos }) M hk rfl M.writeable (L' := L) hL1 (hL2 k s hk) hL2
        (fun _ _ => rfl) rfl (fun j hj => replaced_ne _ _ hj) (replaced_self _ _ _).symm (fun i e he hse => ⟨e, he, hse⟩)
  | write k data =>
    unfold Session.step at h
    dsimp only at h
    cases hk : S.streams[k]? with
    | none =>
      rw [hk] at h
      cases h
      have hst : v.stream k = none := by rw [M.stream k, hk]; rfl
      refine ⟨by unfold View.Right; dsimp only; rw [hst]; rfl, ?_⟩
      unfold View.after
      dsimp only
      rw [hst]
      exact M
    | some s =>
      rw [hk] at h
      dsimp only at h
      obtain ⟨⟨w1, s1, n⟩, h1, h⟩ := bind_inv h
      cases h
      have hst : v.stream k = some s.idx := by rw [M.stream k, hk]; rfl
      have hp := M.pos k s hk
      obtain ⟨e, he, hse⟩ := M.entry k s hk
      unfold WStream.write at h1
      unfold View.Right View.after
      dsimp only
      rw [hst]
      dsimp only
      by_cases h0 : data = []
      · subst h0
        unfold WStream.writeAt at h1
        rw [if_pos (by rfl)] at h1
        cases h1
        refine ⟨rfl, ?_⟩
        rw [if_pos rfl]
        exact matches_set M hk rfl M.writeable (L' := L) hL1 (hL2 k s hk) hL2 (fun _ _ => rfl) rfl
          (fun _ _ => rfl) hp (fun i e he hse => ⟨e, he, hse⟩)
      · have hlen : 0 < List.length data := List.length_pos_iff.2 h0
        have h64 : s.pos + List.length data < 2 ^ 64 := by rw [hp]; exact hs
        obtain ⟨L', g1, g2, g3, g4, g5, _⟩ := writeAt_holds hL1 M.writeable he hse (hL2 k s hk) hlen h64 h1 hf
        refine ⟨by rw [g2]; rfl, ?_⟩
        rw [if_neg h0]
        refine matches_set M hk (by rw [g3]) (by rw [g5.writeable]; exact M.writeable) (L' := L') ?_ (by rw [g3]) hL2 g4 rfl
          (fun j hj => replaced_ne _ _ hj) ?_ (sameDir_streams g5)
        · show Holds w1 L' (v.contents.write s.idx (v.pos k) data)
          rw [← hp]
          exact g1
        · show s1.pos = replaced v.pos k (v.pos k + List.length data) k
          rw [replaced_self, g3, ← hp]
          exact Nat.mod_eq_of_lt (by simpa using h64)
  | read k maxlen =>
    unfold Session.step at h
    dsimp only at h
    cases hk : S.streams[k]? with
    | none =>
      rw [hk] at h
      cases h
      have hst : v.stream k = none := by rw [M.stream k, hk]; rfl
      refine ⟨(by unfold View.Right; dsimp only; intro i hi; rw [hst] at hi; injection hi), ?_⟩
      unfold View.after
      dsimp only
      rw [hst]
      exact M
    | some s =>
      rw [hk] at h
      dsimp only at h
      obtain ⟨⟨n, d, s1⟩, h1, h⟩ := bind_inv h
      cases h
      have hst : v.stream k = some s.idx := by rw [M.stream k, hk]; rfl
      have hp := M.pos k s hk
      obtain ⟨e, he, hse⟩ := M.entry k s hk
      have hsize := (hL1.entry _ e he hse).1
      have h64 : s.pos + maxlen < 2 ^ 64 := by rw [hp]; exact hs.1
      have hpos : s.pos ≤ v.contents.size s.idx := by rw [hp]; exact hs.2 _ hst
      unfold WStream.read at h1
      obtain ⟨⟨n1, d1⟩, h2, h1⟩ := bind_inv h1
      cases h1
      obtain ⟨b1, b2⟩ := readAt_le he h64 (by rw [hsize]; exact hpos) h2
      constructor
      · unfold View.Right
        intro i hi bytes hlen hhas
        rw [hst] at hi
        cases hi
        rw [← hp] at hlen hhas
        have := readAt_holds hL1 he hse (hL2 k s hk) s.pos maxlen (newMem maxlen) bytes h64 hpos hlen
          (by rw [hlen]; simp only [newMem, List.length_replicate]; omega) hhas
        rw [this] at h2
        cases h2
        congr 1
        rw [List.take_append_of_le_length (by simp), List.take_of_length_le (by simp)]
      · unfold View.after
        dsimp only
        rw [hst]
        have hlen : (List.take n d).length = n := by
          rw [List.length_take, b2]
          simp only [newMem, List.length_replicate]
          omega
        rw [if_pos (by rfl)]
        refine matches_set (s' := { s with pos := u64 (s.pos + n) }) (v' := { v with pos := replaced v.pos k (v.pos k + (List.take n d).length) }) M hk rfl M.writeable
          (L' := L) hL1 (hL2 k s hk) hL2 (fun _ _ => rfl) rfl (fun j hj => replaced_ne _ _ hj) ?_ (fun i e he hse => ⟨e, he, hse⟩)
        show u64 (s.pos + n) = replaced v.pos k (v.pos k + (List.take n d).length) k
        rw [replaced_self, hlen, ← hp]
        exact Nat.mod_eq_of_lt (by
          have : s.pos + n < 2 ^ 64 := by omega
          simpa using this)
  | setSize k n =>
    unfold Session.step at h
    dsimp only at h
    cases hk : S.streams[k]? with
    | none =>
      rw [hk] at h
      cases h
      have hst : v.stream k = none := by rw [M.stream k, hk]; rfl
      refine ⟨rfl, ?_⟩
      unfold View.after
      dsimp only
      rw [hst]
      exact M
    | some s =>
      rw [hk] at h
      dsimp only at h
      obtain ⟨⟨w1, s1⟩, h1, h⟩ := bind_inv h
      cases h
      have hst : v.stream k = some s.idx := by rw [M.stream k, hk]; rfl
      obtain ⟨e, he, hse⟩ := M.entry k s hk
      refine ⟨rfl, ?_⟩
      unfold View.after
      dsimp only
      rw [hst]
      rcases setSize_holds hL1 M.writeable he hse (hL2 k s hk) n with ⟨h2, _⟩ | ⟨w2, L', g1, g2, g3, g4, _, _⟩
      · rw [h2] at h1; cases h1
      · rw [g1] at h1
        cases h1
        exact matches_set (s' := { s with blocks := L'.chain s.idx }) (v' := { v with contents := v.contents.resize s.idx n }) M hk rfl
          (by rw [g4.writeable]; exact M.writeable) (L' := L') g2 rfl hL2 g3 rfl
          (fun _ _ => rfl) (M.pos k s hk) (sameDir_streams g4)

/-- Histories. -/
theorem run_matches (cs : List Call) : ∀ {S S' : Session} {v : View} {rs : List Reply}, Session.Matches S v →
    S.run cs = .ok (S', rs) → v.AllSensible cs rs → Fits S'.w →
    v.AllRight cs rs ∧ Session.Matches S' (v.finally cs rs) := by
  induction cs with
  | nil => intro S S' v rs M h _ _; cases h; exact ⟨trivial, M⟩
  | cons c cs ih =>
    intro S S' v rs M h hs hf
    unfold Session.run at h
    obtain ⟨⟨S1, r⟩, h1, h⟩ := bind_inv h
    obtain ⟨⟨S2, rs'⟩, h2, h⟩ := bind_inv h
    cases h
    obtain ⟨g1, g2⟩ := step_matches M hs.1 h1 ((run_longer cs h2).fits hf)
    obtain ⟨g3, g4⟩ := ih g2 h2 hs.2 hf
    exact ⟨⟨g1, g3⟩, g4⟩

end Fileid.Pole
