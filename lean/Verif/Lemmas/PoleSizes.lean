import Verif.Lemmas.PoleCalm

/-! # The sizes of sectors stay as they are -/

namespace Fileid.Pole
open Fileid.Spec

/-- The sectors have the same sizes. -/
def Sized (w w' : Writer) : Prop := w'.io.bbat.blockSize = w.io.bbat.blockSize ∧ w'.io.sbat.blockSize = w.io.sbat.blockSize

theorem Sized.refl (w : Writer) : Sized w w := ⟨rfl, rfl⟩

theorem Sized.trans {a b c : Writer} (h : Sized a b) (h' : Sized b c) : Sized a c := ⟨h'.1.trans h.1, h'.2.trans h.2⟩

theorem Aside.sized {w w' : Writer} (h : Aside w w') : Sized w w' := ⟨h.blockSize, by rw [h.sbat]⟩

theorem setBig_sized (w : Writer) (i v : Nat) : Sized w (w.setBig i v) := ⟨set_blockSize _ _ _, rfl⟩

theorem setSmall_sized (w : Writer) (i v : Nat) : Sized w (w.setSmall i v) := ⟨rfl, set_blockSize _ _ _⟩

theorem growMini_sized (n : Nat) : ∀ w : Writer, Sized w (w.growMini n) := by
  induction n with
  | zero => exact fun w => Sized.refl w
  | succ n ih =>
    intro w
    have h1 := ih (Writer.markDir { (w.extend w.io.sb_blocks).1 with
        io := { (w.extend w.io.sb_blocks).1.io with sb_blocks := (w.extend w.io.sb_blocks).2 } } 0)
    exact (extend_aside w w.io.sb_blocks).sized.trans h1

theorem extendSmall_sized {w w' : Writer} {c c' : List Nat} (h : w.extendSmall c = .ok (w', c')) : Sized w w' := by
  unfold Writer.extendSmall at h
  dsimp only at h
  obtain ⟨w1, h1, h⟩ := bind_inv h
  injection h with h
  injection h with h _
  rw [← h]
  refine Sized.trans (Sized.trans ?_ (coverSmall_aside _ _ _ h1).sized) (growMini_sized _ _)
  have h0 : Sized w w.unusedSmall.2 := ⟨rfl, (unused_free w.io.sbat).2.2⟩
  cases c.getLast? with
  | none => exact h0.trans (setSmall_sized _ _ _)
  | some last => exact (h0.trans (setSmall_sized _ last _)).trans (setSmall_sized _ _ _)

theorem extendsSmall_sized (n : Nat) : ∀ {w w' : Writer} {c c' : List Nat}, Writer.extendsSmall n w c = .ok (w', c') → Sized w w' := by
  induction n with
  | zero => intro w w' c c' h; cases h; exact Sized.refl _
  | succ n ih =>
    intro w w' c c' h
    unfold Writer.extendsSmall at h
    obtain ⟨⟨w1, c1⟩, h1, h⟩ := bind_inv h
    exact (extendSmall_sized h1).trans (ih h)

theorem writeBlocks_sized {w w' : Writer} {s s' : WStream} {e : DirEntry} {pos n : Nat} {data : Bytes}
    (h : s.writeBlocks w e pos data = .ok (w', s', n)) : Sized w w' := by
  unfold WStream.writeBlocks at h
  dsimp only at h
  have last : ∀ {w1 : Writer} {f : Bytes} {blocks : List Nat} {s1 : WStream} {t : Nat}, Sized w w1 →
      Res.ok ((match blocks.head? with
        | none => ({ w1 with io := { w1.io with file := f } } : Writer)
        | some b => if e.start ≠ b then ({ w1 with io := { w1.io with file := f } } : Writer).setEntry s.idx { e with start := b }
          else { w1 with io := { w1.io with file := f } }), s1, t) = Res.ok (w', s', n) → Sized w w' := by
    intro w1 f blocks s1 t hk h
    injection h with h
    injection h with h _
    rw [← h]
    cases blocks.head? with
    | none => exact hk
    | some b =>
      dsimp only
      split <;> exact hk
  split at h
  · obtain ⟨⟨w1, b1⟩, h1, h⟩ := bind_inv h
    exact last (extendsSmall_sized _ h1) h
  · obtain ⟨⟨w1, b1⟩, h1, h⟩ := bind_inv h
    have h2 := congrArg Prod.fst (Res.ok.inj h1)
    dsimp only at h2
    refine last ?_ h
    rw [← h2]; exact (extends_aside _ _ _).sized

theorem foldl_sized {α : Type} (f : Writer → α → Writer) (hf : ∀ w x, Sized w (f w x)) (l : List α) :
    ∀ w, Sized w (l.foldl f w) := by
  induction l with
  | nil => exact Sized.refl
  | cons x l ih => exact fun w => (hf w x).trans (ih _)

theorem setSize_sized {w w' : Writer} {s s' : WStream} {n : Nat} (h : s.setSize w n = .ok (w', s')) : Sized w w' := by
  unfold WStream.setSize at h
  split at h
  · obtain ⟨e, he, h⟩ := bind_inv h
    dsimp only at h
    split at h
    · generalize (if n > e.size then e.size else n) = len at h
      split at h
      · cases h
      · injection h with h
        injection h with h _
        rw [← h]
        have hs : ∀ (q : Bool), Sized w (List.foldl (fun (w : Writer) (x : Nat × Nat) =>
            if q = true then (w.setSmall x.1 Avail).markSmall x.2 else (w.setBig x.1 Avail).markBig x.2) w s.blocks.zipIdx) := fun q =>
          foldl_sized _ (fun w x => by
            split
            · exact setSmall_sized w _ _
            · exact setBig_sized w _ _) _ w
        exact hs _
    · split at h
      · injection h with h
        injection h with h _
        rw [← h]
        exact ⟨rfl, rfl⟩
      · injection h with h
        injection h with h _
        rw [← h]
        exact ⟨rfl, rfl⟩
  · injection h with h
    injection h with h _
    rw [← h]
    exact ⟨rfl, rfl⟩

theorem writeAt_sized {w w' : Writer} {s s' : WStream} {pos n : Nat} {data : Bytes}
    (h : s.writeAt w pos data = .ok (w', s', n)) : Sized w w' := by
  unfold WStream.writeAt at h
  split at h
  · injection h with h
    injection h with h _
    rw [← h]
    exact Sized.refl _
  · split at h
    · obtain ⟨e, _, h⟩ := bind_inv h
      split at h
      · obtain ⟨⟨w1, s1⟩, h1, h⟩ := bind_inv h
        obtain ⟨e1, h2, h⟩ := bind_inv h
        exact (setSize_sized h1).trans (writeBlocks_sized h)
      · obtain ⟨⟨w1, s1⟩, h1, h⟩ := bind_inv h
        cases h1
        obtain ⟨e1, h2, h⟩ := bind_inv h
        exact writeBlocks_sized h
    · injection h with h
      injection h with h _
      rw [← h]
      exact Sized.refl _

theorem step_sized {S S' : Session} {c : Call} {r : Reply} (h : S.step c = .ok (S', r)) : Sized S.w S'.w := by
  unfold Session.step at h
  cases c with
  | seek k pos =>
    dsimp only at h
    split at h <;> (cases h; exact Sized.refl _)
  | write k data =>
    dsimp only at h
    split at h
    · cases h; exact Sized.refl _
    · obtain ⟨⟨w1, s1, n⟩, h1, h⟩ := bind_inv h
      cases h
      exact writeAt_sized h1
  | read k n =>
    dsimp only at h
    split at h
    · cases h; exact Sized.refl _
    · obtain ⟨⟨a, b, c⟩, h1, h⟩ := bind_inv h
      cases h
      exact Sized.refl _
  | setSize k n =>
    dsimp only at h
    split at h
    · cases h; exact Sized.refl _
    · obtain ⟨⟨w1, s1⟩, h1, h⟩ := bind_inv h
      cases h
      exact setSize_sized h1

theorem newEntry_sized {abi : Abi} {w w' : Writer} {p closest idx size : Nat} {name : WStr} {dir : Bool}
    (h : w.newEntry abi p closest name dir size = .ok (w', idx)) : Sized w w' := by
  unfold Writer.newEntry at h
  dsimp only at h
  obtain ⟨⟨t', changed⟩, _, h⟩ := bind_inv h
  dsimp only at h
  obtain ⟨blocks, _, h⟩ := bind_inv h
  injection h with h
  injection h with h _
  rw [← h]
  exact (growDir_aside _ _ _).sized

theorem descendCreate_sized {abi : Abi} {create : Bool} {size : Nat} (names : List WStr) : ∀ {w w' : Writer} {i : Nat} {r : Option Nat},
    w.descendCreate abi create size i names = .ok (w', r) → Sized w w' := by
  induction names with
  | nil => intro w w' i r h; cases h; exact Sized.refl _
  | cons n ns ih =>
    intro w w' i r h
    unfold Writer.descendCreate at h
    obtain ⟨child, _, h⟩ := bind_inv h
    split at h
    · exact ih h
    · split at h
      · obtain ⟨closest, _, h⟩ := bind_inv h
        obtain ⟨⟨w1, idx⟩, h1, h⟩ := bind_inv h
        exact (newEntry_sized h1).trans (ih h)
      · cases h; exact Sized.refl _

theorem stream_sized {abi : Abi} {w w' : Writer} {path : WStr} {create : Bool} {size : Nat} {s : Option WStream}
    (h : w.stream abi path create size = .ok (w', s)) : Sized w w' := by
  unfold Writer.stream at h
  split at h
  · cases h; exact Sized.refl _
  · dsimp only at h
    obtain ⟨⟨w1, i⟩, h1, h⟩ := bind_inv h
    have : Sized w w1 := by
      unfold Writer.entryCreate at h1
      split at h1
      · cases h1; exact Sized.refl _
      · split at h1
        · cases h1; exact Sized.refl _
        · exact descendCreate_sized _ h1
    cases i with
    | none => cases h; exact this
    | some i =>
      dsimp only at h
      obtain ⟨e, _, h⟩ := bind_inv h
      split at h
      · cases h; exact this
      · obtain ⟨x, _, h⟩ := bind_inv h
        cases h; exact this

theorem request_sized {abi : Abi} {S S' : Session} {q : Request} {a : Answer} (h : S.request abi q = .ok (S', a)) : Sized S.w S'.w := by
  cases q with
  | openStream path create n =>
    obtain ⟨⟨w', s⟩, h1, h⟩ := bind_inv h
    cases s <;> (cases h; exact stream_sized h1)
  | list path => obtain ⟨l, h1, h⟩ := bind_inv h; cases h; exact Sized.refl _
  | ask path => obtain ⟨l, h1, h⟩ := bind_inv h; cases h; exact Sized.refl _
  | askDir path => obtain ⟨l, h1, h⟩ := bind_inv h; cases h; exact Sized.refl _
  | use c =>
    obtain ⟨⟨S1, r⟩, h1, h⟩ := bind_inv h
    cases h
    exact step_sized h1

theorem serve_sized {abi : Abi} (rs : List Request) : ∀ {S S' : Session} {as : List Answer}, S.serve abi rs = .ok (S', as) →
    Sized S.w S'.w := by
  induction rs with
  | nil => intro S S' as h; cases h; exact Sized.refl _
  | cons r rs ih =>
    intro S S' as h
    obtain ⟨⟨S1, a⟩, h1, h⟩ := bind_inv h
    obtain ⟨⟨S2, as'⟩, h2, h⟩ := bind_inv h
    cases h
    exact (request_sized h1).trans (ih h2)

end Fileid.Pole
