import Verif.Lemmas.PoleUse

/-!
# Compound files without a mini FAT: what no request changes
-/

namespace Fileid.Pole

open Spec Props

/-- Nobody tells the header where the small table begins, the table does not get shorter, and who changes it marks it. -/
structure Quiet (w w' : Writer) : Prop where
  start : w'.io.header.sbat_start = w.io.header.sbat_start
  threshold : w'.io.header.threshold = w.io.header.threshold
  length : w.io.sbat.data.length ≤ w'.io.sbat.data.length
  clean : w'.sbatDirty = [] → w.sbatDirty = [] ∧ w'.io.sbat.data = w.io.sbat.data

theorem quiet_same {w w' : Writer} (h1 : w'.io.header.sbat_start = w.io.header.sbat_start) (h2 : w'.io.header.threshold = w.io.header.threshold)
    (h3 : w'.io.sbat.data = w.io.sbat.data) (h4 : w'.sbatDirty = w.sbatDirty) : Quiet w w' :=
  ⟨h1, h2, by rw [h3]; exact Nat.le_refl _, fun h => ⟨by rw [← h4]; exact h, h3⟩⟩

theorem Quiet.refl (w : Writer) : Quiet w w := quiet_same rfl rfl rfl rfl

theorem Quiet.trans {a b c : Writer} (h : Quiet a b) (h' : Quiet b c) : Quiet a c :=
  ⟨h'.start.trans h.start, h'.threshold.trans h.threshold, Nat.le_trans h.length h'.length, fun hc =>
    ⟨(h.clean (h'.clean hc).1).1, (h'.clean hc).2.trans (h.clean (h'.clean hc).1).2⟩⟩

theorem quiet_aside {w w' : Writer} (h : Aside w w') : Quiet w w' := quiet_same h.sbat_start h.threshold (by rw [h.sbat]) h.sbatDirty

theorem markDirty_ne (dirty : List Nat) (unit i bs : Nat) : markDirty dirty unit i bs ≠ [] := fun h => by
  have : i / (bs / unit) ∈ markDirty dirty unit i bs := mem_markDirty.2 (Or.inr rfl)
  rw [h] at this
  cases this

theorem quiet_setMark (w : Writer) (i v k : Nat) : Quiet w ((w.setSmall i v).markSmall k) := by
  refine ⟨rfl, rfl, ?_, fun h => absurd h (markDirty_ne _ _ _ _)⟩
  show _ ≤ (AllocTable.set _ _ _).data.length
  rw [set_length]
  omega

theorem growMini_quiet (n : Nat) : ∀ w : Writer, Quiet w (w.growMini n) := by
  induction n with
  | zero => exact fun w => Quiet.refl w
  | succ n ih =>
    intro w
    have h : Quiet w (Writer.markDir { (w.extend w.io.sb_blocks).1 with
        io := { (w.extend w.io.sb_blocks).1.io with sb_blocks := (w.extend w.io.sb_blocks).2 } } 0) :=
      Quiet.trans (b := (w.extend w.io.sb_blocks).1) (quiet_aside (extend_aside w w.io.sb_blocks)) (quiet_same rfl rfl rfl rfl)
    exact h.trans (ih _)

theorem extendSmall_quiet {w w' : Writer} {c c' : List Nat} (h : w.extendSmall c = .ok (w', c')) : Quiet w w' := by
  unfold Writer.extendSmall at h
  dsimp only at h
  obtain ⟨w1, h1, h⟩ := bind_inv h
  cases h
  refine Quiet.trans (Quiet.trans ?_ (quiet_aside (coverSmall_aside _ _ _ h1))) (growMini_quiet _ _)
  have hu : Quiet w w.unusedSmall.2 := quiet_same rfl rfl (unused_free _).2.1 rfl
  cases c.getLast? with
  | none => exact hu.trans (quiet_setMark _ _ _ _)
  | some last => exact (hu.trans (quiet_setMark _ _ _ _)).trans (quiet_setMark _ _ _ _)

theorem extendsSmall_quiet (n : Nat) : ∀ {w w' : Writer} {c c' : List Nat}, Writer.extendsSmall n w c = .ok (w', c') → Quiet w w' := by
  induction n with
  | zero => intro w w' c c' h; cases h; exact Quiet.refl _
  | succ n ih =>
    intro w w' c c' h
    unfold Writer.extendsSmall at h
    obtain ⟨⟨w1, c1⟩, h1, h⟩ := bind_inv h
    exact (extendSmall_quiet h1).trans (ih h)

theorem writeBlocks_quiet {w w' : Writer} {s s' : WStream} {e : DirEntry} {pos n : Nat} {data : Bytes}
    (h : s.writeBlocks w e pos data = .ok (w', s', n)) : Quiet w w' := by
  unfold WStream.writeBlocks at h
  dsimp only at h
  have last : ∀ {w1 : Writer} {f : Bytes} {blocks : List Nat} {s1 : WStream} {t : Nat},
      Res.ok ((match blocks.head? with
        | none => ({ w1 with io := { w1.io with file := f } } : Writer)
        | some b => if e.start ≠ b then ({ w1 with io := { w1.io with file := f } } : Writer).setEntry s.idx { e with start := b }
          else { w1 with io := { w1.io with file := f } }), s1, t) = Res.ok (w', s', n) → Quiet w1 w' := by
    intro w1 f blocks s1 t h
    injection h with h
    injection h with h _
    rw [← h]
    cases blocks.head? with
    | none => exact quiet_same rfl rfl rfl rfl
    | some b => dsimp only; split <;> exact quiet_same rfl rfl rfl rfl
  split at h
  · obtain ⟨⟨w1, b1⟩, h1, h⟩ := bind_inv h
    exact (extendsSmall_quiet _ h1).trans (last h)
  · obtain ⟨⟨w1, b1⟩, h1, h⟩ := bind_inv h
    have h2 := congrArg Prod.fst (Res.ok.inj h1)
    dsimp only at h2
    refine Quiet.trans ?_ (last h)
    rw [← h2]
    exact quiet_aside (extends_aside _ _ _)

theorem foldl_quiet {α : Type} (f : Writer → α → Writer) (hf : ∀ w x, Quiet w (f w x)) (l : List α) : ∀ w, Quiet w (l.foldl f w) := by
  induction l with
  | nil => exact Quiet.refl
  | cons x l ih => exact fun w => (hf w x).trans (ih _)

theorem setSize_quiet {w w' : Writer} {s s' : WStream} {n : Nat} (h : s.setSize w n = .ok (w', s')) : Quiet w w' := by
  unfold WStream.setSize at h
  split at h
  · obtain ⟨e, _, h⟩ := bind_inv h
    dsimp only at h
    split at h
    · generalize (if n > e.size then e.size else n) = len at h
      split at h
      · cases h
      · injection h with h
        injection h with h _
        rw [← h]
        refine Quiet.trans (foldl_quiet _ (fun w x => ?_) _ _) (quiet_same rfl rfl rfl rfl)
        split
        · exact quiet_setMark _ _ _ _
        · exact quiet_aside ((aside_setBig _ _ _).trans (aside_markBig _ _))
    · split at h <;> (injection h with h; injection h with h _; rw [← h]; exact quiet_same rfl rfl rfl rfl)
  · injection h with h
    injection h with h _
    rw [← h]
    exact quiet_same rfl rfl rfl rfl

theorem writeAt_quiet {w w' : Writer} {s s' : WStream} {pos n : Nat} {data : Bytes}
    (h : s.writeAt w pos data = .ok (w', s', n)) : Quiet w w' := by
  unfold WStream.writeAt at h
  split at h
  · cases h; exact Quiet.refl _
  · split at h
    · obtain ⟨e, _, h⟩ := bind_inv h
      split at h
      · obtain ⟨⟨w1, s1⟩, h1, h⟩ := bind_inv h
        obtain ⟨e1, _, h⟩ := bind_inv h
        exact (setSize_quiet h1).trans (writeBlocks_quiet h)
      · obtain ⟨⟨w1, s1⟩, h1, h⟩ := bind_inv h
        cases h1
        obtain ⟨e1, _, h⟩ := bind_inv h
        exact writeBlocks_quiet h
    · cases h; exact Quiet.refl _

theorem step_quiet {S S' : Session} {c : Call} {r : Reply} (h : S.step c = .ok (S', r)) : Quiet S.w S'.w := by
  unfold Session.step at h
  cases c with
  | seek k pos =>
    dsimp only at h
    split at h <;> (cases h; exact Quiet.refl _)
  | write k data =>
    dsimp only at h
    split at h
    · cases h; exact Quiet.refl _
    · obtain ⟨⟨w1, s1, n⟩, h1, h⟩ := bind_inv h
      cases h
      exact writeAt_quiet h1
  | read k maxlen =>
    dsimp only at h
    split at h
    · cases h; exact Quiet.refl _
    · obtain ⟨⟨n, d, s1⟩, h1, h⟩ := bind_inv h
      cases h
      exact Quiet.refl _
  | setSize k n =>
    dsimp only at h
    split at h
    · cases h; exact Quiet.refl _
    · obtain ⟨⟨w1, s1⟩, h1, h⟩ := bind_inv h
      cases h
      exact setSize_quiet h1

theorem newEntry_quiet {abi : Abi} {w w' : Writer} {p closest idx size : Nat} {name : WStr} {dir : Bool}
    (h : w.newEntry abi p closest name dir size = .ok (w', idx)) : Quiet w w' := by
  unfold Writer.newEntry at h
  dsimp only at h
  obtain ⟨⟨t', changed⟩, _, h⟩ := bind_inv h
  dsimp only at h
  obtain ⟨blocks, _, h⟩ := bind_inv h
  injection h with h
  injection h with h _
  rw [← h]
  have h2 := quiet_aside (growDir_aside ((unusedEntry w.io.dirtree).1 / (w.io.bbat.blockSize / 128) + 1 - blocks.length)
    ((Writer.markDir { w with io := { w.io with dirtree := t' } } changed).markDir (unusedEntry w.io.dirtree).1) blocks)
  have h0 : Quiet w ((Writer.markDir { w with io := { w.io with dirtree := t' } } changed).markDir (unusedEntry w.io.dirtree).1) :=
    quiet_same rfl rfl rfl rfl
  exact Quiet.trans h0 h2

theorem descendCreate_quiet {abi : Abi} {create : Bool} {size : Nat} (names : List WStr) : ∀ {w w' : Writer} {i : Nat} {r : Option Nat},
    w.descendCreate abi create size i names = .ok (w', r) → Quiet w w' := by
  induction names with
  | nil => intro w w' i r h; cases h; exact Quiet.refl _
  | cons n ns ih =>
    intro w w' i r h
    unfold Writer.descendCreate at h
    obtain ⟨child, _, h⟩ := bind_inv h
    split at h
    · exact ih h
    · split at h
      · obtain ⟨closest, _, h⟩ := bind_inv h
        obtain ⟨⟨w1, idx⟩, h1, h⟩ := bind_inv h
        exact (newEntry_quiet h1).trans (ih h)
      · cases h; exact Quiet.refl _

theorem stream_quiet {abi : Abi} {w w' : Writer} {path : WStr} {create : Bool} {size : Nat} {s : Option WStream}
    (h : w.stream abi path create size = .ok (w', s)) : Quiet w w' := by
  unfold Writer.stream at h
  split at h
  · cases h; exact Quiet.refl _
  · dsimp only at h
    obtain ⟨⟨w1, i⟩, h1, h⟩ := bind_inv h
    have h2 : Quiet w w1 := by
      unfold Writer.entryCreate at h1
      split at h1
      · cases h1; exact Quiet.refl _
      · split at h1
        · cases h1; exact Quiet.refl _
        · exact descendCreate_quiet _ h1
    cases i with
    | none => cases h; exact h2
    | some i =>
      dsimp only at h
      obtain ⟨e, _, h⟩ := bind_inv h
      split at h
      · cases h; exact h2
      · obtain ⟨x, _, h⟩ := bind_inv h
        cases h; exact h2

theorem request_quiet {abi : Abi} {S S' : Session} {q : Request} {a : Answer} (h : S.request abi q = .ok (S', a)) : Quiet S.w S'.w := by
  cases q with
  | openStream path create n =>
    obtain ⟨⟨w', s⟩, h1, h⟩ := bind_inv h
    cases s <;> (cases h; exact stream_quiet h1)
  | list path =>
    obtain ⟨l, h1, h⟩ := bind_inv h
    cases h; exact Quiet.refl _
  | ask path =>
    obtain ⟨l, h1, h⟩ := bind_inv h
    cases h; exact Quiet.refl _
  | askDir path =>
    obtain ⟨l, h1, h⟩ := bind_inv h
    cases h; exact Quiet.refl _
  | use c =>
    obtain ⟨⟨S1, r⟩, h1, h⟩ := bind_inv h
    cases h
    exact step_quiet h1

theorem serve_quiet {abi : Abi} (qs : List Request) : ∀ {S S' : Session} {as : List Answer}, S.serve abi qs = .ok (S', as) → Quiet S.w S'.w := by
  induction qs with
  | nil => intro S S' as h; cases h; exact Quiet.refl _
  | cons q qs ih =>
    intro S S' as h
    unfold Session.serve at h
    obtain ⟨⟨S1, a⟩, h1, h⟩ := bind_inv h
    obtain ⟨⟨S2, as'⟩, h2, h⟩ := bind_inv h
    cases h
    exact (request_quiet h1).trans (ih h2)

/-- A flush does not succeed when the small table was changed and has no sectors. -/
theorem flush_none {w w' : Writer} {junk : Nat → Nat → UInt8} (hs : w.io.bbat.data.length ≤ w.io.header.sbat_start) (hn : 0 < w.io.sbat.data.length)
    (hd : w.sbatDirty ≠ []) : w.flush junk ≠ .ok w' := by
  intro h
  unfold Writer.flush at h
  obtain ⟨w1, h1, h⟩ := bind_inv h
  obtain ⟨w2, h2, h⟩ := bind_inv h
  obtain ⟨w3, h3, h⟩ := bind_inv h
  have e1 : w1.io.bbat = w.io.bbat ∧ w1.io.sbat = w.io.sbat ∧ w1.io.header = w.io.header ∧ w1.sbatDirty = w.sbatDirty := by
    unfold Writer.flushHeader at h1
    split at h1
    · obtain ⟨m, _, h1⟩ := bind_inv h1
      first
      | (cases h1; exact ⟨rfl, rfl, rfl, rfl⟩)
      | (obtain ⟨m', _, h1⟩ := bind_inv h1; cases h1; exact ⟨rfl, rfl, rfl, rfl⟩)
    · cases h1; exact ⟨rfl, rfl, rfl, rfl⟩
  have e2 : w2.io.bbat = w1.io.bbat ∧ w2.io.sbat = w1.io.sbat ∧ w2.io.header = w1.io.header ∧ w2.sbatDirty = w1.sbatDirty := by
    unfold Writer.flushBig at h2
    split at h2
    · obtain ⟨m, _, h2⟩ := bind_inv h2
      first
      | (cases h2; exact ⟨rfl, rfl, rfl, rfl⟩)
      | (obtain ⟨m', _, h2⟩ := bind_inv h2; cases h2; exact ⟨rfl, rfl, rfl, rfl⟩)
    · cases h2; exact ⟨rfl, rfl, rfl, rfl⟩
  unfold Writer.flushSmall at h3
  rw [if_pos (by rw [e2.2.2.2, e1.2.2.2]; exact hd)] at h3
  obtain ⟨blocks, g1, h3⟩ := bind_inv h3
  obtain ⟨file, g2, h3⟩ := bind_inv h3
  unfold AllocTable.follow at g1
  rw [e2.1, e1.1, e2.2.2.1, e1.2.2.1, if_pos (show _ ≥ w.io.bbat.count from hs)] at g1
  cases g1
  unfold AllocTable.flush AllocTable.save at g2
  obtain ⟨m, g3, g2⟩ := bind_inv g2
  rw [e2.2.1, e1.2.1] at g3
  cases hw : w.io.sbat.data with
  | nil => rw [hw] at hn; cases hn
  | cons x xs =>
    rw [hw] at g3
    cases g3

end Fileid.Pole
