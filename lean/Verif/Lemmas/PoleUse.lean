import Verif.Lemmas.PoleAgain
import Verif.Lemmas.PoleDeletes
import Verif.Spec.Use

/-!
# Lemmas about storages in use: what can be stored, and how far the tables have grown
-/

namespace Fileid.Pole

open Spec

/-! ## The number of blocks of the big table -/

/-- The big table has not lost blocks. -/
def NumLe (w w' : Writer) : Prop := w.io.header.num_bat ≤ w'.io.header.num_bat

theorem NumLe.refl (w : Writer) : NumLe w w := Nat.le_refl _

theorem NumLe.trans {a b c : Writer} (h : NumLe a b) (h' : NumLe b c) : NumLe a c := Nat.le_trans h h'

theorem addbbatBlock_numLe (w : Writer) : NumLe w w.addbbatBlock := by
  unfold Writer.addbbatBlock
  dsimp only
  split
  · exact Nat.le_succ _
  · split <;> exact Nat.le_succ _

theorem addbbatBlocks_numLe (n : Nat) : ∀ w : Writer, NumLe w (w.addbbatBlocks n) := by
  induction n with
  | zero => exact fun w => NumLe.refl w
  | succ n ih => exact fun w => (addbbatBlock_numLe w).trans (ih _)

theorem coverBig_numLe (w : Writer) (new : Nat) : NumLe w (w.coverBig new) := addbbatBlocks_numLe _ w

theorem extend_num (w : Writer) (chain : List Nat) : NumLe w (w.extend chain).1 := by
  unfold Writer.extend
  dsimp only
  have h : NumLe w (((w.unusedBig.2.setBig w.unusedBig.1 Eof).coverBig w.unusedBig.1).markBig w.unusedBig.1) := coverBig_numLe (w.unusedBig.2.setBig w.unusedBig.1 Eof) _
  split <;> exact h

theorem extends_num (n : Nat) : ∀ (w : Writer) (chain : List Nat), NumLe w (Writer.extends n w chain).1 := by
  induction n with
  | zero => exact fun w _ => NumLe.refl w
  | succ n ih => exact fun w c => (extend_num w c).trans (ih _ _)

theorem coverSmall_num (n : Nat) : ∀ {w w' : Writer}, w.coverSmall n = .ok w' → NumLe w w' := by
  induction n with
  | zero => intro w w' h; cases h; exact NumLe.refl _
  | succ n ih =>
    intro w w' h
    unfold Writer.coverSmall at h
    obtain ⟨chain, _, h⟩ := bind_inv h
    have h2 := ih h
    exact Nat.le_trans (extend_num w chain) h2

theorem growMini_num (n : Nat) : ∀ w : Writer, NumLe w (w.growMini n) := by
  induction n with
  | zero => exact fun w => NumLe.refl w
  | succ n ih =>
    intro w
    exact NumLe.trans (extend_num w w.io.sb_blocks) (ih (Writer.markDir { (w.extend w.io.sb_blocks).1 with
        io := { (w.extend w.io.sb_blocks).1.io with sb_blocks := (w.extend w.io.sb_blocks).2 } } 0))

theorem extendSmall_num {w w' : Writer} {c c' : List Nat} (h : w.extendSmall c = .ok (w', c')) : NumLe w w' := by
  unfold Writer.extendSmall at h
  dsimp only at h
  obtain ⟨w1, h1, h⟩ := bind_inv h
  cases h
  refine NumLe.trans (NumLe.trans ?_ (coverSmall_num _ h1)) (growMini_num _ _)
  cases c.getLast? <;> exact Nat.le_refl _

theorem extendsSmall_num (n : Nat) : ∀ {w w' : Writer} {c c' : List Nat}, Writer.extendsSmall n w c = .ok (w', c') → NumLe w w' := by
  induction n with
  | zero => intro w w' c c' h; cases h; exact NumLe.refl _
  | succ n ih =>
    intro w w' c c' h
    unfold Writer.extendsSmall at h
    obtain ⟨⟨w1, c1⟩, h1, h⟩ := bind_inv h
    exact (extendSmall_num h1).trans (ih h)

theorem writeBlocks_num {w w' : Writer} {s s' : WStream} {e : DirEntry} {pos n : Nat} {data : Bytes}
    (h : s.writeBlocks w e pos data = .ok (w', s', n)) : NumLe w w' := by
  unfold WStream.writeBlocks at h
  dsimp only at h
  have last : ∀ {w1 : Writer} {f : Bytes} {blocks : List Nat} {s1 : WStream} {t : Nat},
      Res.ok ((match blocks.head? with
        | none => ({ w1 with io := { w1.io with file := f } } : Writer)
        | some b => if e.start ≠ b then ({ w1 with io := { w1.io with file := f } } : Writer).setEntry s.idx { e with start := b }
          else { w1 with io := { w1.io with file := f } }), s1, t) = Res.ok (w', s', n) → NumLe w1 w' := by
    intro w1 f blocks s1 t h
    injection h with h
    injection h with h _
    rw [← h]
    cases blocks.head? with
    | none => exact Nat.le_refl _
    | some b => dsimp only; split <;> exact Nat.le_refl _
  split at h
  · obtain ⟨⟨w1, b1⟩, h1, h⟩ := bind_inv h
    exact (extendsSmall_num _ h1).trans (last h)
  · obtain ⟨⟨w1, b1⟩, h1, h⟩ := bind_inv h
    have h2 := congrArg Prod.fst (Res.ok.inj h1)
    dsimp only at h2
    refine NumLe.trans ?_ (last h)
    rw [← h2]
    exact extends_num _ _ _

theorem foldl_num {α : Type} (f : Writer → α → Writer) (hf : ∀ w x, NumLe w (f w x)) (l : List α) : ∀ w, NumLe w (l.foldl f w) := by
  induction l with
  | nil => exact NumLe.refl
  | cons x l ih => exact fun w => (hf w x).trans (ih _)

theorem setSize_num {w w' : Writer} {s s' : WStream} {n : Nat} (h : s.setSize w n = .ok (w', s')) : NumLe w w' := by
  unfold WStream.setSize at h
  split at h
  · obtain ⟨e, _, h⟩ := bind_inv h
    dsimp only at h
    split at h
    · generalize (if n > e.size then e.size else n) = len at h
      split at h
      · cases h
      · injection h with h
        injection h with h _
        rw [← h]
        refine NumLe.trans (foldl_num _ (fun w x => ?_) _ _) (Nat.le_refl _)
        split <;> exact Nat.le_refl _
    · split at h <;> (injection h with h; injection h with h _; rw [← h]; exact Nat.le_refl _)
  · injection h with h
    injection h with h _
    rw [← h]
    exact Nat.le_refl _

theorem writeAt_num {w w' : Writer} {s s' : WStream} {pos n : Nat} {data : Bytes}
    (h : s.writeAt w pos data = .ok (w', s', n)) : NumLe w w' := by
  unfold WStream.writeAt at h
  split at h
  · cases h; exact NumLe.refl _
  · split at h
    · obtain ⟨e, _, h⟩ := bind_inv h
      split at h
      · obtain ⟨⟨w1, s1⟩, h1, h⟩ := bind_inv h
        obtain ⟨e1, _, h⟩ := bind_inv h
        exact (setSize_num h1).trans (writeBlocks_num h)
      · obtain ⟨⟨w1, s1⟩, h1, h⟩ := bind_inv h
        cases h1
        obtain ⟨e1, _, h⟩ := bind_inv h
        exact writeBlocks_num h
    · cases h; exact NumLe.refl _

theorem step_num {S S' : Session} {c : Call} {r : Reply} (h : S.step c = .ok (S', r)) : NumLe S.w S'.w := by
  unfold Session.step at h
  cases c with
  | seek k pos =>
    dsimp only at h
    split at h <;> (cases h; exact NumLe.refl _)
  | write k data =>
    dsimp only at h
    split at h
    · cases h; exact NumLe.refl _
    · obtain ⟨⟨w1, s1, n⟩, h1, h⟩ := bind_inv h
      cases h
      exact writeAt_num h1
  | read k maxlen =>
    dsimp only at h
    split at h
    · cases h; exact NumLe.refl _
    · obtain ⟨⟨n, d, s1⟩, h1, h⟩ := bind_inv h
      cases h
      exact NumLe.refl _
  | setSize k n =>
    dsimp only at h
    split at h
    · cases h; exact NumLe.refl _
    · obtain ⟨⟨w1, s1⟩, h1, h⟩ := bind_inv h
      cases h
      exact setSize_num h1

theorem growDir_num (n : Nat) : ∀ (w : Writer) (blocks : List Nat), NumLe w (Writer.growDir n w blocks) := by
  induction n with
  | zero => exact fun w _ => NumLe.refl w
  | succ n ih =>
    intro w blocks
    unfold Writer.growDir
    dsimp only
    refine NumLe.trans ?_ (ih _ _)
    refine NumLe.trans ?_ (coverBig_numLe _ _)
    cases blocks.getLast? <;> exact Nat.le_refl _

theorem newEntry_num {abi : Abi} {w w' : Writer} {p closest idx size : Nat} {name : WStr} {dir : Bool}
    (h : w.newEntry abi p closest name dir size = .ok (w', idx)) : NumLe w w' := by
  unfold Writer.newEntry at h
  dsimp only at h
  obtain ⟨⟨t', changed⟩, _, h⟩ := bind_inv h
  dsimp only at h
  obtain ⟨blocks, _, h⟩ := bind_inv h
  injection h with h
  injection h with h _
  rw [← h]
  have h2 := growDir_num ((unusedEntry w.io.dirtree).1 / (w.io.bbat.blockSize / 128) + 1 - blocks.length)
    ((Writer.markDir { w with io := { w.io with dirtree := t' } } changed).markDir (unusedEntry w.io.dirtree).1) blocks
  exact h2

theorem descendCreate_num {abi : Abi} {create : Bool} {size : Nat} (names : List WStr) : ∀ {w w' : Writer} {i : Nat} {r : Option Nat},
    w.descendCreate abi create size i names = .ok (w', r) → NumLe w w' := by
  induction names with
  | nil => intro w w' i r h; cases h; exact NumLe.refl _
  | cons n ns ih =>
    intro w w' i r h
    unfold Writer.descendCreate at h
    obtain ⟨child, _, h⟩ := bind_inv h
    split at h
    · exact ih h
    · split at h
      · obtain ⟨closest, _, h⟩ := bind_inv h
        obtain ⟨⟨w1, idx⟩, h1, h⟩ := bind_inv h
        exact (newEntry_num h1).trans (ih h)
      · cases h; exact NumLe.refl _

theorem stream_num {abi : Abi} {w w' : Writer} {path : WStr} {create : Bool} {size : Nat} {s : Option WStream}
    (h : w.stream abi path create size = .ok (w', s)) : NumLe w w' := by
  unfold Writer.stream at h
  split at h
  · cases h; exact NumLe.refl _
  · dsimp only at h
    obtain ⟨⟨w1, i⟩, h1, h⟩ := bind_inv h
    have h2 : NumLe w w1 := by
      unfold Writer.entryCreate at h1
      split at h1
      · cases h1; exact NumLe.refl _
      · split at h1
        · cases h1; exact NumLe.refl _
        · exact descendCreate_num _ h1
    cases i with
    | none => cases h; exact h2
    | some i =>
      dsimp only at h
      obtain ⟨e, _, h⟩ := bind_inv h
      split at h
      · cases h; exact h2
      · obtain ⟨x, _, h⟩ := bind_inv h
        cases h; exact h2

theorem request_num {abi : Abi} {S S' : Session} {q : Request} {a : Answer} (h : S.request abi q = .ok (S', a)) : NumLe S.w S'.w := by
  cases q with
  | openStream path create n =>
    obtain ⟨⟨w', s⟩, h1, h⟩ := bind_inv h
    cases s <;> (cases h; exact stream_num h1)
  | list path =>
    obtain ⟨l, h1, h⟩ := bind_inv h
    cases h; exact NumLe.refl _
  | ask path =>
    obtain ⟨l, h1, h⟩ := bind_inv h
    cases h; exact NumLe.refl _
  | askDir path =>
    obtain ⟨l, h1, h⟩ := bind_inv h
    cases h; exact NumLe.refl _
  | use c =>
    obtain ⟨⟨S1, r⟩, h1, h⟩ := bind_inv h
    cases h
    exact step_num h1

/-! ## Deleting and flushing do not shrink anything -/

/-- Tables, directory and the list of blocks of the big table have not become smaller. -/
structure Larger (w w' : Writer) : Prop where
  tables : Longer w w'
  dir : w.io.dirtree.length ≤ w'.io.dirtree.length
  num : NumLe w w'

theorem Larger.refl (w : Writer) : Larger w w := ⟨Longer.refl _, Nat.le_refl _, NumLe.refl _⟩

theorem Larger.trans {a b c : Writer} (h : Larger a b) (h' : Larger b c) : Larger a c :=
  ⟨h.tables.trans h'.tables, Nat.le_trans h.dir h'.dir, h.num.trans h'.num⟩

theorem foldl_larger {α : Type} (f : Writer → α → Writer) (hf : ∀ w x, Larger w (f w x)) (l : List α) : ∀ w, Larger w (l.foldl f w) := by
  induction l with
  | nil => exact Larger.refl
  | cons x l ih => exact fun w => (hf w x).trans (ih _)

theorem deleteEntry_length {abi : Abi} {t t' : DirTree} {i : Nat} {full : WStr} {marked : List Nat}
    (h : deleteEntry abi t i full = .ok (t', marked)) : t'.length = t.length := by
  unfold deleteEntry at h
  obtain ⟨⟨p, s⟩, _, h⟩ := bind_inv h
  dsimp only at h
  split at h
  · cases h
  · obtain ⟨⟨t1, repl, m⟩, h1, h⟩ := bind_inv h
    have h2 : t1.length = t.length := by
      unfold takeOut at h1
      split at h1
      · cases h1; rfl
      · split at h1
        · cases h1
        · split at h1
          · cases h1; exact List.length_modify _ _ _
          · obtain ⟨⟨a, b⟩, _, h1⟩ := bind_inv h1
            cases h1
            simp
    cases h
    unfold putIn
    split <;> simp [h2]

theorem wdeleteEntry_larger {abi : Abi} {w w' : Writer} {i : Nat} {full : WStr} (h : w.deleteEntry abi i full = .ok w') : Larger w w' := by
  unfold Writer.deleteEntry at h
  obtain ⟨⟨t, marked⟩, h1, h⟩ := bind_inv h
  cases h
  have h2 := deleteEntry_length h1
  refine ⟨⟨?_, ?_⟩, ?_, ?_⟩
  · rw [(markDirs_io _ _).1]; exact Nat.le_refl _
  · rw [(markDirs_io _ _).1]; exact Nat.le_refl _
  · rw [(markDirs_io _ _).1]; exact Nat.le_of_eq h2.symm
  · unfold NumLe; rw [(markDirs_io _ _).1]; exact Nat.le_refl _

theorem deleteLeaf_larger {abi : Abi} {w w' : Writer} {i : Nat} {full : WStr} (h : w.deleteLeaf abi i full = .ok w') : Larger w w' := by
  unfold Writer.deleteLeaf at h
  obtain ⟨e, _, h⟩ := bind_inv h
  split at h
  · obtain ⟨blocks, _, h⟩ := bind_inv h
    refine (foldl_larger _ (fun w x => ?_) _ _).trans (wdeleteEntry_larger h)
    refine ⟨⟨?_, Nat.le_refl _⟩, Nat.le_refl _, Nat.le_refl _⟩
    show _ ≤ (AllocTable.set _ _ _).data.length
    rw [set_length]; omega
  · obtain ⟨blocks, _, h⟩ := bind_inv h
    refine (foldl_larger _ (fun w x => ?_) _ _).trans (wdeleteEntry_larger h)
    refine ⟨⟨Nat.le_refl _, ?_⟩, Nat.le_refl _, Nat.le_refl _⟩
    show _ ≤ (AllocTable.set _ _ _).data.length
    rw [set_length]; omega

theorem deleteNode_larger {abi : Abi} (f : Nat) : ∀ {w w' : Writer} {i : Nat} {full : WStr}, Writer.deleteNode abi f w i full = .ok w' → Larger w w' := by
  induction f with
  | zero => intro w w' i full h; cases h
  | succ f ih =>
    intro w w' i full h
    unfold Writer.deleteNode at h
    obtain ⟨e, _, h⟩ := bind_inv h
    dsimp only at h
    split at h
    · obtain ⟨c, _, h⟩ := bind_inv h
      split at h
      · obtain ⟨w1, h1, h⟩ := bind_inv h
        exact (ih h1).trans (ih h)
      · obtain ⟨w1, h1, h⟩ := bind_inv h
        exact (deleteLeaf_larger h1).trans (ih h)
    · exact wdeleteEntry_larger h

theorem deleteByName_larger {abi : Abi} {w w' : Writer} {full : WStr} {b : Bool} (h : w.deleteByName abi full = .ok (w', b)) : Larger w w' := by
  unfold Writer.deleteByName at h
  split at h
  · cases h; exact Larger.refl _
  · split at h
    · cases h; exact Larger.refl _
    · obtain ⟨i, _, h⟩ := bind_inv h
      cases i with
      | none => cases h; exact Larger.refl _
      | some i =>
        dsimp only at h
        obtain ⟨e, _, h⟩ := bind_inv h
        split at h
        · obtain ⟨w1, h1, h⟩ := bind_inv h
          cases h
          exact deleteNode_larger _ h1
        · obtain ⟨w1, h1, h⟩ := bind_inv h
          cases h
          exact deleteLeaf_larger h1

theorem wdeleteEntry_header {abi : Abi} {w w' : Writer} {i : Nat} {full : WStr} (h : w.deleteEntry abi i full = .ok w') :
    w'.io.header = w.io.header := by
  unfold Writer.deleteEntry at h
  obtain ⟨⟨t, marked⟩, h1, h⟩ := bind_inv h
  cases h
  rw [(markDirs_io _ _).1]

theorem foldl_header {α : Type} (f : Writer → α → Writer) (hf : ∀ w x, (f w x).io.header = w.io.header) (l : List α) :
    ∀ w, (l.foldl f w).io.header = w.io.header := by
  induction l with
  | nil => exact fun _ => rfl
  | cons x l ih => exact fun w => (ih _).trans (hf w x)

theorem deleteLeaf_header {abi : Abi} {w w' : Writer} {i : Nat} {full : WStr} (h : w.deleteLeaf abi i full = .ok w') :
    w'.io.header = w.io.header := by
  unfold Writer.deleteLeaf at h
  obtain ⟨e, _, h⟩ := bind_inv h
  split at h
  · obtain ⟨blocks, _, h⟩ := bind_inv h
    exact (wdeleteEntry_header h).trans (foldl_header (fun (w : Writer) (x : Nat × Nat) => (w.setBig x.1 Avail).markBig x.2) (fun w x => rfl) _ _)
  · obtain ⟨blocks, _, h⟩ := bind_inv h
    exact (wdeleteEntry_header h).trans (foldl_header (fun (w : Writer) (x : Nat × Nat) => (w.setSmall x.1 Avail).markSmall x.2) (fun w x => rfl) _ _)

theorem deleteNode_header {abi : Abi} (f : Nat) : ∀ {w w' : Writer} {i : Nat} {full : WStr}, Writer.deleteNode abi f w i full = .ok w' →
    w'.io.header = w.io.header := by
  induction f with
  | zero => intro w w' i full h; cases h
  | succ f ih =>
    intro w w' i full h
    unfold Writer.deleteNode at h
    obtain ⟨e, _, h⟩ := bind_inv h
    dsimp only at h
    split at h
    · obtain ⟨c, _, h⟩ := bind_inv h
      split at h
      · obtain ⟨w1, h1, h⟩ := bind_inv h
        exact (ih h).trans (ih h1)
      · obtain ⟨w1, h1, h⟩ := bind_inv h
        exact (ih h).trans (deleteLeaf_header h1)
    · exact wdeleteEntry_header h

theorem deleteByName_num {abi : Abi} {w w' : Writer} {full : WStr} {b : Bool} (h : w.deleteByName abi full = .ok (w', b)) :
    w'.io.header.num_bat = w.io.header.num_bat := by
  unfold Writer.deleteByName at h
  split at h
  · cases h; rfl
  · split at h
    · cases h; rfl
    · obtain ⟨i, _, h⟩ := bind_inv h
      cases i with
      | none => cases h; rfl
      | some i =>
        dsimp only at h
        obtain ⟨e, _, h⟩ := bind_inv h
        split at h
        · obtain ⟨w1, h1, h⟩ := bind_inv h
          cases h
          rw [deleteNode_header _ h1]
        · obtain ⟨w1, h1, h⟩ := bind_inv h
          cases h
          rw [deleteLeaf_header h1]

/-- A flush leaves the tables as they are. -/
structure Flat (w w' : Writer) : Prop where
  header : w'.io.header = w.io.header
  big : w'.io.bbat = w.io.bbat
  small : w'.io.sbat = w.io.sbat
  dir : w'.io.dirtree.length = w.io.dirtree.length
  entries : ∀ e' ∈ w'.io.dirtree, ∃ e ∈ w.io.dirtree, e'.name = e.name ∧ e'.valid = e.valid ∧ e'.size ≤ e.size

theorem flat_of {w w' : Writer} (h1 : w'.io.header = w.io.header) (h2 : w'.io.bbat = w.io.bbat) (h3 : w'.io.sbat = w.io.sbat)
    (h4 : w'.io.dirtree = w.io.dirtree) : Flat w w' :=
  ⟨h1, h2, h3, by rw [h4], fun e he => ⟨e, by rw [← h4]; exact he, rfl, rfl, Nat.le_refl _⟩⟩

theorem Flat.refl (w : Writer) : Flat w w := flat_of rfl rfl rfl rfl

theorem Flat.trans {a b c : Writer} (h : Flat a b) (h' : Flat b c) : Flat a c :=
  ⟨h'.header.trans h.header, h'.big.trans h.big, h'.small.trans h.small, h'.dir.trans h.dir, fun e he => by
    obtain ⟨e1, h1, h2, h3, h3'⟩ := h'.entries e he
    obtain ⟨e2, h4, h5, h6, h6'⟩ := h.entries e1 h1
    exact ⟨e2, h4, h2.trans h5, h3.trans h6, Nat.le_trans h3' h6'⟩⟩

theorem Flat.larger {w w' : Writer} (h : Flat w w') : Larger w w' :=
  ⟨⟨by rw [h.big]; exact Nat.le_refl _, by rw [h.small]; exact Nat.le_refl _⟩, by rw [h.dir]; exact Nat.le_refl _,
    by unfold NumLe; rw [h.header]; exact Nat.le_refl _⟩

theorem flush_flat {junk : Nat → Nat → UInt8} {w w' : Writer} (h : w.flush junk = .ok w') : Flat w w' := by
  unfold Writer.flush at h
  obtain ⟨w1, h1, h⟩ := bind_inv h
  obtain ⟨w2, h2, h⟩ := bind_inv h
  obtain ⟨w3, h3, h⟩ := bind_inv h
  obtain ⟨w4, h4, h5⟩ := bind_inv h
  have k1 : Flat w w1 := by
    unfold Writer.flushHeader at h1
    split at h1
    · obtain ⟨m, _, h1⟩ := bind_inv h1
      obtain ⟨d, _, h1⟩ := bind_inv h1
      cases h1; exact flat_of rfl rfl rfl rfl
    · cases h1; exact Flat.refl _
  have k2 : Flat w1 w2 := by
    unfold Writer.flushBig at h2
    split at h2
    · obtain ⟨m, _, h2⟩ := bind_inv h2
      cases h2; exact flat_of rfl rfl rfl rfl
    · cases h2; exact Flat.refl _
  have k3 : Flat w2 w3 := by
    unfold Writer.flushSmall at h3
    split at h3
    · obtain ⟨m, _, h3⟩ := bind_inv h3
      obtain ⟨d, _, h3⟩ := bind_inv h3
      cases h3; exact flat_of rfl rfl rfl rfl
    · cases h3; exact Flat.refl _
  have k4 : Flat w3 w4 := by
    unfold Writer.flushDir at h4
    split at h4
    · obtain ⟨m, _, h4⟩ := bind_inv h4
      dsimp only at h4
      obtain ⟨⟨t, f⟩, h6, h4⟩ := bind_inv h4
      cases h4
      suffices hh : t.length = w3.io.dirtree.length ∧ ∀ e' ∈ t, ∃ e ∈ w3.io.dirtree, e'.name = e.name ∧ e'.valid = e.valid ∧ e'.size ≤ e.size from
        ⟨rfl, rfl, rfl, hh.1, hh.2⟩
      unfold flushTree at h6
      obtain ⟨⟨t1, b⟩, h7, h6⟩ := bind_inv h6
      obtain ⟨b1, _, h6⟩ := bind_inv h6
      obtain ⟨b2, _, h6⟩ := bind_inv h6
      obtain ⟨b3, _, h6⟩ := bind_inv h6
      cases h6
      unfold saveTree at h7
      split at h7
      · cases h7
      · rename_i heq
        obtain ⟨m1, _, h7⟩ := bind_inv h7
        obtain ⟨m2, _, h7⟩ := bind_inv h7
        obtain ⟨m3, _, h7⟩ := bind_inv h7
        cases h7
        rw [heq]
        refine ⟨by simp, fun e' he' => ?_⟩
        rw [List.mem_cons, List.mem_map] at he'
        rcases he' with rfl | ⟨e, he, rfl⟩
        · exact ⟨_, List.mem_cons_self, rfl, rfl, Nat.le_refl _⟩
        · refine ⟨e, List.mem_cons_of_mem _ he, ?_⟩
          unfold DirEntry.tidied
          split
          · exact ⟨rfl, rfl, Nat.zero_le _⟩
          · exact ⟨rfl, rfl, Nat.le_refl _⟩
    · cases h4; exact Flat.refl _
  have k5 : Flat w4 w' := by
    unfold Writer.flushMeta at h5
    split at h5
    · dsimp only at h5
      obtain ⟨m, _, h5⟩ := bind_inv h5
      obtain ⟨d, _, h5⟩ := bind_inv h5
      cases h5; exact flat_of rfl rfl rfl rfl
    · cases h5; exact Flat.refl _
  exact (((k1.trans k2).trans k3).trans k4).trans k5

theorem act_larger {abi : Abi} {S S' : Session} {a : Action} {o : Outcome} (h : S.act abi a = .ok (S', o)) : Larger S.w S'.w := by
  unfold Session.act at h
  cases a with
  | request r =>
    obtain ⟨⟨S1, a⟩, h1, h⟩ := bind_inv h
    cases h
    exact ⟨(request_mono h1).1, (request_mono h1).2, request_num h1⟩
  | delete path junk =>
    obtain ⟨⟨w1, b⟩, h1, h⟩ := bind_inv h
    cases h
    unfold Writer.deleteFlush at h1
    obtain ⟨⟨w2, b'⟩, h2, h1⟩ := bind_inv h1
    dsimp only at h1
    split at h1
    · obtain ⟨w3, h3, h1⟩ := bind_inv h1
      cases h1
      exact (deleteByName_larger h2).trans (flush_flat h3).larger
    · cases h1
      exact deleteByName_larger h2
  | flush k junk =>
    dsimp only at h
    split at h
    · cases h; exact Larger.refl _
    · obtain ⟨w1, h1, h⟩ := bind_inv h
      cases h
      exact (flush_flat h1).larger
  | close => cases h; exact Larger.refl _

theorem live_larger {abi : Abi} (as : List Action) : ∀ {S S' : Session} {os : List Outcome}, S.live abi as = .ok (S', os) → Larger S.w S'.w := by
  induction as with
  | nil => intro S S' os h; cases h; exact Larger.refl _
  | cons a as ih =>
    intro S S' os h
    unfold Session.live at h
    obtain ⟨⟨S1, o⟩, h1, h⟩ := bind_inv h
    obtain ⟨⟨S2, os'⟩, h2, h⟩ := bind_inv h
    cases h
    exact (act_larger h1).trans (ih h2)

end Fileid.Pole
