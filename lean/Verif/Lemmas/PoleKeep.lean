import Verif.Lemmas.PolePaths

/-!
# Lemmas about what the use of streams leaves as it is in the directory
-/

namespace Fileid.Pole

open Spec Props

/-- Everything of the directory but starts and sizes, where it begins, and the threshold. -/
structure Keeps (w w' : Writer) : Prop where
  start : w'.io.header.dirent_start = w.io.header.dirent_start
  threshold : w'.io.header.threshold = w.io.header.threshold
  length : w'.io.dirtree.length = w.io.dirtree.length
  entry : ∀ (j : Nat) (e : DirEntry), w.io.dirtree[j]? = some e → ∃ e', w'.io.dirtree[j]? = some e' ∧
    { e with start := e'.start, size := e'.size } = e'

theorem keeps_io {w w' : Writer} (h1 : w'.io.header.dirent_start = w.io.header.dirent_start) (h2 : w'.io.dirtree = w.io.dirtree)
    (h3 : w'.io.header.threshold = w.io.header.threshold) : Keeps w w' := ⟨h1, h3, by rw [h2], fun j e he => ⟨e, by rw [h2]; exact he, rfl⟩⟩

theorem Keeps.refl (w : Writer) : Keeps w w := keeps_io rfl rfl rfl

theorem Keeps.trans {a b c : Writer} (h : Keeps a b) (h' : Keeps b c) : Keeps a c := by
  refine ⟨by rw [h'.start, h.start], by rw [h'.threshold, h.threshold], by rw [h'.length, h.length], fun j e he => ?_⟩
  obtain ⟨e1, h1, h2⟩ := h.entry j e he
  obtain ⟨e2, h4, h5⟩ := h'.entry j e1 h1
  refine ⟨e2, h4, ?_⟩
  rw [← h5, ← h2]

theorem Aside.keeps {w w' : Writer} (h : Aside w w') : Keeps w w' := keeps_io h.dirent_start h.dirtree h.threshold

theorem setEntry_keeps {w : Writer} {i : Nat} {e e' : DirEntry} (he : w.io.dirtree[i]? = some e)
    (hee : { e with start := e'.start, size := e'.size } = e') : Keeps w (w.setEntry i e') := by
  refine ⟨rfl, rfl, by simp [Writer.setEntry, Writer.markDir], fun j ej hj => ?_⟩
  show ∃ x, (w.io.dirtree.set i e')[j]? = some x ∧ _
  by_cases hji : j = i
  · subst hji
    rw [he] at hj
    cases hj
    exact ⟨e', by rw [List.getElem?_set_self (List.getElem?_eq_some_iff.1 he).1], hee⟩
  · exact ⟨ej, by rw [List.getElem?_set_ne (fun h => hji h.symm)]; exact hj, rfl⟩

/-- The directory, where it begins, and the threshold are the same. -/
def Still (w w' : Writer) : Prop := w'.io.header.dirent_start = w.io.header.dirent_start ∧ w'.io.dirtree = w.io.dirtree ∧
  w'.io.header.threshold = w.io.header.threshold

theorem Still.refl (w : Writer) : Still w w := ⟨rfl, rfl, rfl⟩

theorem Still.trans {a b c : Writer} (h : Still a b) (h' : Still b c) : Still a c := ⟨h'.1.trans h.1, h'.2.1.trans h.2.1, h'.2.2.trans h.2.2⟩

theorem Still.keeps {w w' : Writer} (h : Still w w') : Keeps w w' := keeps_io h.1 h.2.1 h.2.2

theorem Aside.still {w w' : Writer} (h : Aside w w') : Still w w' := ⟨h.dirent_start, h.dirtree, h.threshold⟩

theorem growMini_still (n : Nat) : ∀ w : Writer, Still w (w.growMini n) := by
  induction n with
  | zero => exact fun w => Still.refl w
  | succ n ih =>
    intro w
    have h1 := ih (Writer.markDir { (w.extend w.io.sb_blocks).1 with
        io := { (w.extend w.io.sb_blocks).1.io with sb_blocks := (w.extend w.io.sb_blocks).2 } } 0)
    have h2 := (extend_aside w w.io.sb_blocks).still
    exact ⟨h1.1.trans h2.1, h1.2.1.trans h2.2.1, h1.2.2.trans h2.2.2⟩

theorem extendSmall_still {w w' : Writer} {c c' : List Nat} (h : w.extendSmall c = .ok (w', c')) : Still w w' := by
  unfold Writer.extendSmall at h
  dsimp only at h
  obtain ⟨w1, h1, h⟩ := bind_inv h
  injection h with h
  injection h with h _
  rw [← h]
  refine Still.trans (Still.trans ?_ (coverSmall_aside _ _ _ h1).still) (growMini_still _ _)
  cases c.getLast? with
  | none => exact ⟨rfl, rfl, rfl⟩
  | some last => exact ⟨rfl, rfl, rfl⟩

theorem extendsSmall_still (n : Nat) : ∀ {w w' : Writer} {c c' : List Nat}, Writer.extendsSmall n w c = .ok (w', c') → Still w w' := by
  induction n with
  | zero => intro w w' c c' h; cases h; exact Still.refl _
  | succ n ih =>
    intro w w' c c' h
    unfold Writer.extendsSmall at h
    obtain ⟨⟨w1, c1⟩, h1, h⟩ := bind_inv h
    exact (extendSmall_still h1).trans (ih h)

theorem writeBlocks_keeps {w w' : Writer} {s s' : WStream} {e : DirEntry} {pos n : Nat} {data : Bytes}
    (he : w.io.dirtree[s.idx]? = some e) (h : s.writeBlocks w e pos data = .ok (w', s', n)) : Keeps w w' := by
  unfold WStream.writeBlocks at h
  dsimp only at h
  have last : ∀ {w1 : Writer} {f : Bytes} {blocks : List Nat} {s1 : WStream} {t : Nat}, Still w w1 →
      Res.ok ((match blocks.head? with
        | none => ({ w1 with io := { w1.io with file := f } } : Writer)
        | some b => if e.start ≠ b then ({ w1 with io := { w1.io with file := f } } : Writer).setEntry s.idx { e with start := b }
          else { w1 with io := { w1.io with file := f } }), s1, t) = Res.ok (w', s', n) → Keeps w w' := by
    intro w1 f blocks s1 t hk h
    injection h with h
    injection h with h _
    rw [← h]
    cases blocks.head? with
    | none => exact keeps_io hk.1 hk.2.1 hk.2.2
    | some b =>
      dsimp only
      split
      · have h0 : Keeps w ({ w1 with io := { w1.io with file := f } } : Writer) := keeps_io hk.1 hk.2.1 hk.2.2
        refine h0.trans (setEntry_keeps (e := e) ?_ rfl)
        show w1.io.dirtree[s.idx]? = some e
        rw [hk.2.1]
        exact he
      · exact keeps_io hk.1 hk.2.1 hk.2.2
  split at h
  · obtain ⟨⟨w1, b1⟩, h1, h⟩ := bind_inv h
    exact last (extendsSmall_still _ h1) h
  · obtain ⟨⟨w1, b1⟩, h1, h⟩ := bind_inv h
    have h2 := congrArg Prod.fst (Res.ok.inj h1)
    dsimp only at h2
    refine last ?_ h
    rw [← h2]; exact (extends_aside _ _ _).still

theorem foldl_still {α : Type} (f : Writer → α → Writer) (hf : ∀ w x, Still w (f w x)) (l : List α) :
    ∀ w, Still w (l.foldl f w) := by
  induction l with
  | nil => exact Still.refl
  | cons x l ih => exact fun w => (hf w x).trans (ih _)

theorem entryOf_inv {w : Writer} {i : Nat} {e : DirEntry} (h : w.entryOf i = .ok e) : w.io.dirtree[i]? = some e := by
  unfold Writer.entryOf at h
  cases hx : w.io.dirtree[i]? with
  | none => rw [hx] at h; cases h
  | some x => rw [hx] at h; cases h; rfl

theorem setSize_keeps {w w' : Writer} {s s' : WStream} {n : Nat} (h : s.setSize w n = .ok (w', s')) : Keeps w w' ∧ s'.idx = s.idx := by
  unfold WStream.setSize at h
  split at h
  · obtain ⟨e, he, h⟩ := bind_inv h
    have he := entryOf_inv he
    dsimp only at h
    split at h
    · generalize (if n > e.size then e.size else n) = len at h
      split at h
      · cases h
      · injection h with h
        injection h with h h'
        rw [← h, ← h']
        refine ⟨?_, rfl⟩
        have hs : ∀ (q : Bool), Still w (List.foldl (fun (w : Writer) (x : Nat × Nat) =>
            if q = true then (w.setSmall x.1 Avail).markSmall x.2 else (w.setBig x.1 Avail).markBig x.2) w s.blocks.zipIdx) := fun q =>
          foldl_still _ (fun w x => by split <;> exact ⟨rfl, rfl, rfl⟩) _ w
        refine (hs _).keeps.trans (setEntry_keeps (e := e) ?_ rfl)
        rw [(hs _).2.1]
        exact he
    · split at h
      · injection h with h
        injection h with h h'
        rw [← h, ← h']
        exact ⟨setEntry_keeps he rfl, rfl⟩
      · injection h with h
        injection h with h h'
        rw [← h, ← h']
        exact ⟨Keeps.refl _, rfl⟩
  · injection h with h
    injection h with h h'
    rw [← h, ← h']
    exact ⟨Keeps.refl _, rfl⟩

theorem writeAt_keeps {w w' : Writer} {s s' : WStream} {pos n : Nat} {data : Bytes}
    (h : s.writeAt w pos data = .ok (w', s', n)) : Keeps w w' := by
  unfold WStream.writeAt at h
  split at h
  · injection h with h
    injection h with h _
    rw [← h]
    exact Keeps.refl _
  · split at h
    · obtain ⟨e, _, h⟩ := bind_inv h
      split at h
      · obtain ⟨⟨w1, s1⟩, h1, h⟩ := bind_inv h
        obtain ⟨e1, h2, h⟩ := bind_inv h
        obtain ⟨k1, k2⟩ := setSize_keeps h1
        exact k1.trans (writeBlocks_keeps (entryOf_inv h2) h)
      · obtain ⟨⟨w1, s1⟩, h1, h⟩ := bind_inv h
        cases h1
        obtain ⟨e1, h2, h⟩ := bind_inv h
        exact writeBlocks_keeps (entryOf_inv h2) h
    · injection h with h
      injection h with h _
      rw [← h]
      exact Keeps.refl _

theorem step_keeps {S S' : Session} {c : Call} {r : Reply} (h : S.step c = .ok (S', r)) : Keeps S.w S'.w ∧
    S'.streams.length = S.streams.length := by
  unfold Session.step at h
  cases c with
  | seek k pos =>
    dsimp only at h
    split at h <;> (cases h; exact ⟨Keeps.refl _, by simp⟩)
  | write k data =>
    dsimp only at h
    split at h
    · cases h; exact ⟨Keeps.refl _, rfl⟩
    · obtain ⟨⟨w1, s1, n⟩, h1, h⟩ := bind_inv h
      cases h
      exact ⟨writeAt_keeps h1, by simp⟩
  | read k maxlen =>
    dsimp only at h
    split at h
    · cases h; exact ⟨Keeps.refl _, rfl⟩
    · obtain ⟨⟨n, d, s1⟩, h1, h⟩ := bind_inv h
      cases h
      exact ⟨Keeps.refl _, by simp⟩
  | setSize k n =>
    dsimp only at h
    split at h
    · cases h; exact ⟨Keeps.refl _, rfl⟩
    · obtain ⟨⟨w1, s1⟩, h1, h⟩ := bind_inv h
      cases h
      exact ⟨(setSize_keeps h1).1, by simp⟩

/-! ## The directory is the same to those who read it -/

/-- Directories that differ in starts and sizes alone. -/
structure Alike (t t' : DirTree) : Prop where
  length : t'.length = t.length
  entry : ∀ (j : Nat) (e : DirEntry), t[j]? = some e → ∃ e', t'[j]? = some e' ∧ { e with start := e'.start, size := e'.size } = e'

theorem Keeps.alike {w w' : Writer} (h : Keeps w w') : Alike w.io.dirtree w'.io.dirtree := ⟨h.length, h.entry⟩

theorem Alike.back {t t' : DirTree} (h : Alike t t') {j : Nat} {e' : DirEntry} (he : t'[j]? = some e') :
    ∃ e, t[j]? = some e ∧ { e with start := e'.start, size := e'.size } = e' := by
  have hlt : j < t.length := by rw [← h.length]; exact (List.getElem?_eq_some_iff.1 he).1
  obtain ⟨x, h1, h2⟩ := h.entry j _ (List.getElem?_eq_getElem hlt)
  rw [he] at h1
  cases h1
  exact ⟨_, List.getElem?_eq_getElem hlt, h2⟩

theorem Alike.funs {t t' : DirTree} (h : Alike t t') : entryName t' = entryName t ∧ leftOf t' = leftOf t ∧ rightOf t' = rightOf t := by
  refine ⟨funext fun j => ?_, funext fun j => ?_, funext fun j => ?_⟩ <;>
  · cases he : t[j]? with
    | none =>
      have : t'[j]? = none := by
        rw [List.getElem?_eq_none_iff] at he ⊢
        rw [h.length]; exact he
      simp [entryName, leftOf, rightOf, he, this]
    | some e =>
      obtain ⟨e', h1, h2⟩ := h.entry j e he
      rw [← h2] at h1
      simp [entryName, leftOf, rightOf, he, h1]

theorem alike_shape {abi : Abi} {t t' : DirTree} {kids : Nat → List Nat} (h : Alike t t') (S : Shape abi t kids) : Shape abi t' kids := by
  obtain ⟨f1, f2, f3⟩ := h.funs
  constructor
  · intro i p hp hv
    obtain ⟨e, he, h2⟩ := h.back hp
    rw [← h2] at hv ⊢
    obtain ⟨T, hT, hk⟩ := S.tree i e he hv
    refine ⟨T, ⟨?_, ?_, ?_⟩, hk⟩
    · rw [f2, f3, h.length]; exact hT.below
    · rw [f1]; exact hT.ordered
    · intro j hj
      refine ⟨(hT.entries j hj).1, fun x hx => ?_⟩
      obtain ⟨y, hy, h3⟩ := h.back hx
      have := (hT.entries j hj).2 y hy
      rw [← h3]
      exact this
  · exact S.apart
  · intro i hi
    refine S.unused i fun e he => ?_
    obtain ⟨e', h1, h2⟩ := h.entry i e he
    have := hi e' h1
    rw [← h2] at this
    exact this
  · intro j e he hv
    obtain ⟨x, hx, h2⟩ := h.back he
    rw [h.length]
    have := S.links j x hx (by rw [← h2] at hv; exact hv)
    rw [← h2]
    exact this
  · rw [h.length]; exact S.short
  · obtain ⟨e, he, h1, h2⟩ := S.root
    obtain ⟨e', h3, h4⟩ := h.entry 0 e he
    exact ⟨e', h3, by rw [← h4]; exact h1, by rw [← h4]; exact h2⟩

end Fileid.Pole
