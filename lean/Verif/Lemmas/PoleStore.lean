import Verif.Lemmas.PoleGood

/-!
# Lemmas about the writing side of the compound-file library: small blocks, and bytes in the file
-/

namespace Fileid.Pole

open Spec

theorem bind_inv {α β : Type} {x : Res α} {f : α → Res β} {b : β} (h : (x >>= f) = .ok b) :
    ∃ a, x = .ok a ∧ f a = .ok b := by
  cases x with
  | ok a => exact ⟨a, rfl, h⟩
  | throw e => cases h
  | ub u => cases h
  | fuel => cases h

/-! ## Small blocks -/

/-- What no write changes. -/
structure Same (w w' : Writer) : Prop where
  file : w'.io.file = w.io.file
  dirtree : w'.io.dirtree = w.io.dirtree
  bigSize : w'.io.bbat.blockSize = w.io.bbat.blockSize
  smallSize : w'.io.sbat.blockSize = w.io.sbat.blockSize
  threshold : w'.io.header.threshold = w.io.header.threshold
  sbat_start : w'.io.header.sbat_start = w.io.header.sbat_start
  dirent_start : w'.io.header.dirent_start = w.io.header.dirent_start
  writeable : w'.writeable = w.writeable

theorem Same.refl (w : Writer) : Same w w := by constructor <;> rfl

theorem Same.trans {a b c : Writer} (h : Same a b) (h' : Same b c) : Same a c := by
  constructor
  · rw [h'.file, h.file]
  · rw [h'.dirtree, h.dirtree]
  · rw [h'.bigSize, h.bigSize]
  · rw [h'.smallSize, h.smallSize]
  · rw [h'.threshold, h.threshold]
  · rw [h'.sbat_start, h.sbat_start]
  · rw [h'.dirent_start, h.dirent_start]
  · rw [h'.writeable, h.writeable]

theorem Aside.same {w w' : Writer} (h : Aside w w') : Same w w' :=
  ⟨h.file, h.dirtree, h.blockSize, by rw [h.sbat], h.threshold, h.sbat_start, h.dirent_start, h.writeable⟩

/-- Chains of other owners are the same, that of `k` may have got longer. -/
def Grown {ω : Type} (own own' : ω → List Nat) (k : ω) : Prop :=
  (∀ i, i ≠ k → own' i = own i) ∧ ∃ extra, own' k = own k ++ extra

theorem Grown.refl {ω : Type} (own : ω → List Nat) (k : ω) : Grown own own k := ⟨fun _ _ => rfl, [], by simp⟩

theorem Grown.trans {ω : Type} {a b c : ω → List Nat} {k : ω} (h : Grown a b k) (h' : Grown b c k) : Grown a c k := by
  obtain ⟨h1, e1, h2⟩ := h
  obtain ⟨h3, e2, h4⟩ := h'
  refine ⟨fun i hi => by rw [h3 i hi, h1 i hi], e1 ++ e2, by rw [h4, h2, List.append_assoc]⟩

theorem Grown.begins {ω : Type} {a b : ω → List Nat} {k : ω} (h : Grown a b k) {s : Nat} (hs : Begins s (a k))
    (hne : a k ≠ []) : Begins s (b k) := by
  obtain ⟨_, e, h2⟩ := h
  rcases hs with hs | hs
  · exact absurd hs.1 hne
  · right
    rw [h2, List.head?_append, hs]
    rfl

theorem grown_replaced {ω : Type} [DecidableEq ω] (own : ω → List Nat) (k : ω) (extra : List Nat) :
    Grown own (replaced own k (own k ++ extra)) k :=
  ⟨fun _ hi => replaced_ne _ _ hi, extra, replaced_self _ _ _⟩

theorem owned_drop {ω : Type} [DecidableEq ω] {fat : List Nat} {own : ω → List Nat} (h : Owned fat own) (k : ω) :
    Owned fat (replaced own k []) := by
  constructor
  · intro i hi
    unfold replaced at hi ⊢
    split at hi
    · exact absurd rfl hi
    · rename_i hik
      rw [if_neg hik]
      exact h.linked i hi
  · intro i j hij x hx
    unfold replaced at hx ⊢
    split at hx
    · cases hx
    · split
      · simp
      · exact h.apart i j hij x hx

theorem follow_begins {ω : Type} {t : AllocTable} {own : ω → List Nat} (h : Owned t.data own)
    (hsz : t.data.length ≤ 0xfffffffc) {s : Nat} {i : ω} (hb : Begins s (own i)) : t.follow s = .ok (own i) := by
  rcases hb with ⟨h1, h2⟩ | h1
  · rw [h1]; exact follow_outside (by omega)
  · have hne : own i ≠ [] := fun h0 => by rw [h0] at h1; cases h1
    obtain ⟨s', h3, h4⟩ := linked_chain hsz (h.linked i hne)
    rw [h1] at h3
    cases h3
    exact follow_chain hsz h4

theorem coverSmall_mono (n : Nat) : ∀ (w w' : Writer), w.coverSmall n = .ok w' →
    w.io.bbat.data.length ≤ w'.io.bbat.data.length := by
  induction n with
  | zero => intro w w' h; cases h; exact Nat.le_refl _
  | succ n ih =>
    intro w w' h
    unfold Writer.coverSmall at h
    obtain ⟨chain, _, h⟩ := bind_inv h
    have := ih _ _ h
    exact Nat.le_trans (extend_mono w chain) this

/-- The table of small blocks gets further blocks. Without any block to begin with it never has one: the blocks
added belong to nobody. -/
theorem coverSmall_spec (n : Nat) : ∀ (w w' : Writer) (own : Owner → List Nat), w.coverSmall n = .ok w' →
    w'.io.bbat.data.length ≤ 0xfffffffc → Owned w.io.bbat.data own → Begins w.io.header.sbat_start (own .miniFat) →
    ∃ own', Owned w'.io.bbat.data own' ∧ Grown own own' .miniFat ∧ Begins w'.io.header.sbat_start (own' .miniFat) ∧
      Same w w' ∧ w'.io.sbat = w.io.sbat ∧ w'.io.sb_blocks = w.io.sb_blocks ∧ Carries w own w' own' ∧
      w'.io.header.num_sbat = w.io.header.num_sbat + n ∧
      (own .miniFat ≠ [] → (own' .miniFat).length = (own .miniFat).length + n) := by
  induction n with
  | zero =>
    intro w w' own h _ ho hb
    cases h
    exact ⟨own, ho, Grown.refl _ _, hb, Same.refl w, rfl, rfl, Carries.refl w own, rfl, fun _ => rfl⟩
  | succ n ih =>
    intro w w' own h hsz ho hb
    unfold Writer.coverSmall at h
    obtain ⟨chain, hf, h⟩ := bind_inv h
    have hm := coverSmall_mono n _ _ h
    have hsz1 : (w.extend chain).1.io.bbat.data.length ≤ 0xfffffffc := Nat.le_trans hm hsz
    rw [follow_begins ho (Nat.le_trans (extend_mono w chain) hsz1) hb] at hf
    cases hf
    obtain ⟨new, hnew, h2, h3⟩ := extend_spec w own ho .miniFat hsz1
    have hc0 := extend_carries w own ho .miniFat
    have hnew : w.unusedBig.1 = new := by
      have : (w.extend (own .miniFat)).2 = own .miniFat ++ [w.unusedBig.1] := rfl
      rw [hnew] at this
      simpa using this.symm
    rw [hnew] at hc0
    have hn0 := extend_numSmall w (own .miniFat)
    dsimp only at h
    have haside : Same w ((w.extend (own .miniFat)).1.setHeader
        { (w.extend (own .miniFat)).1.io.header with num_sbat := (w.extend (own .miniFat)).1.io.header.num_sbat + 1 }) :=
      h2.same.trans (by constructor <;> rfl)
    generalize hw1 : (w.extend (own .miniFat)).1.setHeader
        { (w.extend (own .miniFat)).1.io.header with num_sbat := (w.extend (own .miniFat)).1.io.header.num_sbat + 1 } = w1
      at h haside
    have hc1 : Carries w own w1 (replaced own .miniFat (own .miniFat ++ [new])) := by
      subst hw1
      exact ⟨hc0.le, fun hf hg => core_header (hc0.good hf hg) _⟩
    have hn1 : w1.io.header.num_sbat = w.io.header.num_sbat + 1 := by
      subst hw1
      show (w.extend (own .miniFat)).1.io.header.num_sbat + 1 = _
      rw [hn0]
    have hd : w1.io.bbat = (w.extend (own .miniFat)).1.io.bbat := by subst hw1; rfl
    have hsb : w1.io.sbat = w.io.sbat := by subst hw1; exact h2.sbat
    have hsbb : w1.io.sb_blocks = w.io.sb_blocks := by subst hw1; exact h2.sb_blocks
    rw [← hd] at h3
    by_cases hne : own .miniFat = []
    · have h4 : Owned w1.io.bbat.data own := by
        have := owned_drop h3 .miniFat
        rw [replaced_replaced, ← hne, replaced_same] at this
        exact this
      obtain ⟨own', e1, e2, e3, e4, e5, e6, e7, e8, _⟩ := ih w1 w' own h hsz h4 (by rw [haside.sbat_start]; exact hb)
      have hc2 : Carries w own w1 own := ⟨hc1.le, fun hf hg => core_mem (hc1.good hf hg) fun o x hx => by
        unfold replaced
        split
        · rename_i ho
          rw [ho, hne] at hx
          cases hx
        · exact hx⟩
      exact ⟨own', e1, e2, e3, haside.trans e4, e5.trans hsb, e6.trans hsbb, hc2.trans e7, by rw [e8, hn1]; omega, fun h => absurd hne h⟩
    · have hg := grown_replaced own .miniFat [new]
      obtain ⟨own', e1, e2, e3, e4, e5, e6, e7, e8, e9⟩ := ih w1 w' _ h hsz h3 (by rw [haside.sbat_start]; exact hg.begins hb hne)
      refine ⟨own', e1, hg.trans e2, e3, haside.trans e4, e5.trans hsb, e6.trans hsbb, hc1.trans e7, by rw [e8, hn1]; omega, fun _ => ?_⟩
      rw [e9 (by rw [replaced_self]; simp), replaced_self, List.length_append, List.length_singleton]
      omega

theorem growMini_mono (n : Nat) : ∀ w : Writer, w.io.bbat.data.length ≤ (w.growMini n).io.bbat.data.length := by
  induction n with
  | zero => exact fun w => Nat.le_refl _
  | succ n ih =>
    intro w
    unfold Writer.growMini
    refine Nat.le_trans (extend_mono w w.io.sb_blocks) ?_
    exact ih (Writer.markDir { (w.extend w.io.sb_blocks).1 with
        io := { (w.extend w.io.sb_blocks).1.io with sb_blocks := (w.extend w.io.sb_blocks).2 } } 0)

theorem growMini_spec (n : Nat) : ∀ (w : Writer) (own : Owner → List Nat),
    (w.growMini n).io.bbat.data.length ≤ 0xfffffffc → Owned w.io.bbat.data own → w.io.sb_blocks = own .mini →
    ∃ own', Owned (w.growMini n).io.bbat.data own' ∧ Grown own own' .mini ∧ (w.growMini n).io.sb_blocks = own' .mini ∧
      Same w (w.growMini n) ∧ (w.growMini n).io.sbat = w.io.sbat ∧ (own' .mini).length = (own .mini).length + n ∧
      Carries w own (w.growMini n) own' ∧ (w.growMini n).io.header.num_sbat = w.io.header.num_sbat ∧
      (w.growMini n).sbatDirty = w.sbatDirty ∧ (∀ d, d ∈ (w.growMini n).dirDirty ↔ (d ∈ w.dirDirty ∨ (d = 0 ∧ d ∈ (w.growMini n).dirDirty))) ∧
      ((w.growMini n).io.sb_blocks = w.io.sb_blocks ∨ 0 ∈ (w.growMini n).dirDirty) := by
  induction n with
  | zero => exact fun w own _ ho hb => ⟨own, ho, Grown.refl _ _, hb, Same.refl w, rfl, rfl, Carries.refl w own, rfl, rfl,
      fun d => ⟨Or.inl, fun h => h.elim id fun h => h.2⟩, Or.inl rfl⟩
  | succ n ih =>
    intro w own hsz ho hb
    unfold Writer.growMini at hsz ⊢
    rw [hb] at hsz ⊢
    dsimp only at hsz ⊢
    have hsz1 : (w.extend (own .mini)).1.io.bbat.data.length ≤ 0xfffffffc :=
      Nat.le_trans (growMini_mono n (Writer.markDir { (w.extend (own .mini)).1 with
        io := { (w.extend (own .mini)).1.io with sb_blocks := (w.extend (own .mini)).2 } } 0)) hsz
    obtain ⟨new, h1, h2, h3⟩ := extend_spec w own ho .mini hsz1
    have hc0 := extend_carries w own ho .mini
    have hnew : w.unusedBig.1 = new := by
      have : (w.extend (own .mini)).2 = own .mini ++ [w.unusedBig.1] := rfl
      rw [h1] at this
      simpa using this.symm
    rw [hnew] at hc0
    have hn0 := extend_numSmall w (own .mini)
    generalize hw1 : Writer.markDir { (w.extend (own .mini)).1 with
        io := { (w.extend (own .mini)).1.io with sb_blocks := (w.extend (own .mini)).2 } } 0 = w1 at hsz ⊢
    have hc1 : Carries w own w1 (replaced own .mini (own .mini ++ [new])) := by
      subst hw1
      exact ⟨hc0.le, fun hf hg => core_same (hc0.good hf hg) rfl rfl rfl rfl rfl rfl⟩
    have hn1 : w1.io.header.num_sbat = w.io.header.num_sbat := by subst hw1; exact hn0
    have hm1 : w1.sbatDirty = w.sbatDirty := by subst hw1; exact h2.sbatDirty
    have hd1 : ∀ d, d ∈ w1.dirDirty ↔ (d ∈ w.dirDirty ∨ d = 0) := fun d => by
      subst hw1
      show d ∈ markDirty (w.extend (own .mini)).1.dirDirty _ _ _ ↔ _
      rw [mem_markDirty, h2.dirDirty, Nat.zero_div]
    have hd : w1.io.bbat = (w.extend (own .mini)).1.io.bbat := by subst hw1; rfl
    have hs : Same w w1 := h2.same.trans (by subst hw1; constructor <;> rfl)
    have hsb : w1.io.sbat = w.io.sbat := by subst hw1; exact h2.sbat
    have hsbb : w1.io.sb_blocks = own .mini ++ [new] := by subst hw1; exact h1
    rw [← hd] at h3
    obtain ⟨own', e1, e2, e3, e4, e5, e6, e7, e8, e9, e10, _⟩ := ih w1 _ hsz h3 (by rw [hsbb, replaced_self])
    refine ⟨own', e1, (grown_replaced own .mini [new]).trans e2, e3, hs.trans e4, e5.trans hsb, ?_, hc1.trans e7, e8.trans hn1, e9.trans hm1, fun d => ?_,
      Or.inr ((e10 0).2 (Or.inl ((hd1 0).2 (Or.inr rfl))))⟩
    · rw [e6, replaced_self]
      simp
      omega
    · constructor
      · intro hx
        rcases (e10 d).1 hx with h | h
        · rcases (hd1 d).1 h with h' | h'
          · exact Or.inl h'
          · exact Or.inr ⟨h', hx⟩
        · exact Or.inr h
      · rintro (h | h)
        · exact (e10 d).2 (Or.inl ((hd1 d).2 (Or.inl h)))
        · exact h.2

/-- What adding small blocks does to the chains of big blocks. -/
structure MiniGrown (own own' : Owner → List Nat) : Prop where
  other : ∀ k, k ≠ .miniFat → k ≠ .mini → own' k = own k
  mini : ∃ extra, own' .mini = own .mini ++ extra

theorem MiniGrown.refl (own : Owner → List Nat) : MiniGrown own own := ⟨fun _ _ _ => rfl, [], by simp⟩

theorem MiniGrown.trans {a b c : Owner → List Nat} (h : MiniGrown a b) (h' : MiniGrown b c) : MiniGrown a c := by
  obtain ⟨e1, h1⟩ := h.mini
  obtain ⟨e2, h2⟩ := h'.mini
  exact ⟨fun k h3 h4 => by rw [h'.other k h3 h4, h.other k h3 h4], e1 ++ e2, by rw [h2, h1, List.append_assoc]⟩

theorem owned_newSmall {ω : Type} [DecidableEq ω] (t : AllocTable) (own : ω → List Nat) (h : Owned t.data own) (k : ω)
    (t' : AllocTable) (ht' : t'.data = t.data) {new : Nat} (hfree : Free t.data new)
    (t2 : AllocTable) (ht2 : t2 = (match (own k).getLast? with | none => t' | some last => t'.set last new).set new Eof)
    (hsz : t2.data.length ≤ 0xfffffffc) :
    Owned t2.data (replaced own k (own k ++ [new])) ∧ t.data.length ≤ t2.data.length := by
  have k1 : Kept t.data (t'.set new Eof).data := by
    have := kept_set (t := t') (v := Eof) (by rw [ht']; exact hfree)
    rw [ht'] at this
    exact this
  have hno : ∀ i, new ∉ own i := fun i hm => free_not_mem hfree (h.linked i (List.ne_nil_of_mem hm)) hm
  have hlink := fun hs => owned_link (owned_kept h k1) (linked_single (t := t') (n := new) (v := Eof) (by decide) (by decide))
    hno hs k
  cases hl : (own k).getLast? with
  | none =>
    simp only [hl] at ht2 hlink
    subst ht2
    exact ⟨hlink hsz, k1.length⟩
  | some last =>
    simp only [hl] at ht2 hlink
    have hne : last ≠ new := fun he => hno k (he ▸ List.mem_of_getLast? hl)
    have hd : t2.data = ((t'.set new Eof).set last new).data := by rw [ht2]; exact set_comm t' hne
    rw [hd] at hsz ⊢
    have h5 := hsz
    rw [set_length] at h5
    refine ⟨hlink (by omega), Nat.le_trans k1.length ?_⟩
    rw [set_length (t'.set new Eof) last new]
    omega

theorem extend_aside (w : Writer) (c : List Nat) : Aside w (w.extend c).1 := by
  unfold Writer.extend
  dsimp only
  have a1 : Aside w (w.unusedBig.2.setBig w.unusedBig.1 Eof) := (aside_unusedBig w).trans (aside_setBig _ _ _)
  generalize w.unusedBig.2.setBig w.unusedBig.1 Eof = w1 at a1
  have a2 : Aside w1 (w1.coverBig w.unusedBig.1) := (addbbatBlocks_spec _ w1).1
  have a3 := (a1.trans a2).trans (aside_markBig _ w.unusedBig.1)
  split
  · exact a3
  · exact a3.trans ((aside_setBig _ _ _).trans (aside_markBig _ _))

theorem coverSmall_aside (n : Nat) : ∀ (w w' : Writer), w.coverSmall n = .ok w' → Aside w w' := by
  induction n with
  | zero => intro w w' h; cases h; exact Aside.refl w
  | succ n ih =>
    intro w w' h
    unfold Writer.coverSmall at h
    obtain ⟨chain, _, h⟩ := bind_inv h
    exact ((extend_aside w chain).trans (by constructor <;> rfl)).trans (ih _ _ h)

theorem growMini_sbat (n : Nat) : ∀ w : Writer, (w.growMini n).io.sbat = w.io.sbat := by
  induction n with
  | zero => exact fun w => rfl
  | succ n ih =>
    intro w
    unfold Writer.growMini
    rw [ih]
    exact (extend_aside w w.io.sb_blocks).sbat

/-- One further small block on the chain of one owner. -/
theorem extendSmall_spec (w w' : Writer) (c' : List Nat) (own : Owner → List Nat) (sown : Nat → List Nat) (i : Nat)
    (h : w.extendSmall (sown i) = .ok (w', c')) (hb : w'.io.bbat.data.length ≤ 0xfffffffc)
    (hs : w'.io.sbat.data.length ≤ 0xfffffffc) (ho : Owned w.io.bbat.data own) (hso : Owned w.io.sbat.data sown)
    (hst : Begins w.io.header.sbat_start (own .miniFat)) (hm : w.io.sb_blocks = own .mini) :
    ∃ own' new, c' = sown i ++ [new] ∧ Owned w'.io.bbat.data own' ∧ MiniGrown own own' ∧
      Owned w'.io.sbat.data (replaced sown i (sown i ++ [new])) ∧ Begins w'.io.header.sbat_start (own' .miniFat) ∧
      w'.io.sb_blocks = own' .mini ∧ Same w w' ∧
      new * w.io.sbat.blockSize / w.io.bbat.blockSize < (own' .mini).length ∧ Readies w own w' own' := by
  unfold Writer.extendSmall at h
  dsimp only at h
  have hfree : Free w.io.sbat.data w.unusedSmall.1 := (unused_free w.io.sbat).1
  have hdata : w.unusedSmall.2.io.sbat.data = w.io.sbat.data := (unused_free w.io.sbat).2.1
  have hbs : w.unusedSmall.2.io.sbat.blockSize = w.io.sbat.blockSize := (unused_free w.io.sbat).2.2
  generalize hnew : w.unusedSmall.1 = new at h hfree
  generalize hw0 : w.unusedSmall.2 = w0 at h hdata hbs
  have hsame0 : Same w w0 := by
    subst hw0
    constructor <;> first | rfl | exact hbs
  have hbb0 : w0.io.bbat = w.io.bbat ∧ w0.io.sb_blocks = w.io.sb_blocks := by subst hw0; exact ⟨rfl, rfl⟩
  generalize hw2 : Writer.markSmall (Writer.setSmall (match (sown i).getLast? with
    | none => w0
    | some last => (w0.setSmall last new).markSmall last) new Eof) new = w2 at h
  have hsame2 : Same w0 w2 ∧ w2.io.bbat = w0.io.bbat ∧ w2.io.sb_blocks = w0.io.sb_blocks ∧
      w2.io.sbat = (match (sown i).getLast? with | none => w0.io.sbat | some last => w0.io.sbat.set last new).set new Eof ∧
      w2.io.header = w0.io.header ∧ w2.headerDirty = w0.headerDirty ∧ w2.bbatDirty = w0.bbatDirty ∧ w2.mbat_blocks = w0.mbat_blocks ∧
      w2.mbat_data = w0.mbat_data ∧ w2.dirDirty = w0.dirDirty ∧
      ∀ d, (d ∈ w0.sbatDirty ∨ d = new / (w0.io.bbat.blockSize / 4) ∨ ∃ last, (sown i).getLast? = some last ∧
        d = last / (w0.io.bbat.blockSize / 4)) → d ∈ w2.sbatDirty := by
    subst hw2
    cases (sown i).getLast? with
    | none =>
      refine ⟨?_, rfl, rfl, rfl, rfl, rfl, rfl, rfl, rfl, rfl, fun d hd => mem_markDirty.2 (hd.imp id fun h => h.elim id fun ⟨_, h, _⟩ => (by cases h))⟩
      constructor <;> first | rfl | exact set_blockSize _ _ _
    | some last =>
      refine ⟨?_, rfl, rfl, rfl, rfl, rfl, rfl, rfl, rfl, rfl, fun d hd => mem_markDirty.2 ?_⟩
      rotate_left
      · rcases hd with h | h | ⟨l, hl, h⟩
        · exact Or.inl (mem_markDirty.2 (Or.inl h))
        · exact Or.inr h
        · cases hl
          exact Or.inl (mem_markDirty.2 (Or.inr h))
      constructor <;> first | rfl | exact (set_blockSize _ _ _).trans (set_blockSize _ _ _)
  obtain ⟨hs2, hb2, hsb2, ht2, hh2, hhd2, hbd2, hmb2, hmd2, hdd2, hsd2⟩ := hsame2
  have hw0' : w0.io.header = w.io.header ∧ w0.headerDirty = w.headerDirty ∧ w0.bbatDirty = w.bbatDirty ∧ w0.mbat_blocks = w.mbat_blocks ∧
      w0.mbat_data = w.mbat_data ∧ w0.dirDirty = w.dirDirty ∧ w0.sbatDirty = w.sbatDirty := by
    subst hw0; exact ⟨rfl, rfl, rfl, rfl, rfl, rfl, rfl⟩
  obtain ⟨w3, h3, h⟩ := bind_inv h
  cases h
  have hb3 : w3.io.bbat.data.length ≤ 0xfffffffc := Nat.le_trans (growMini_mono _ _) hb
  have ha3 := coverSmall_aside _ _ _ h3
  rw [growMini_sbat, ha3.sbat] at hs
  obtain ⟨hso2, _⟩ := owned_newSmall w.io.sbat sown hso i w0.io.sbat hdata hfree w2.io.sbat ht2 hs
  obtain ⟨own1, e1, e2, e3, e4, e5, e6, e7, e8, e9⟩ := coverSmall_spec _ w2 w3 own h3 hb3 (by rw [hb2, hbb0.1]; exact ho)
    (by rw [hs2.sbat_start, hsame0.sbat_start]; exact hst)
  obtain ⟨own2, f1, f2, f3, f4, f5, f6, f7, f8, f9, f10, f11⟩ := growMini_spec (new * w3.io.sbat.blockSize / w3.io.bbat.blockSize + 1 -
    w3.io.sb_blocks.length) w3 own1 hb e1 (by
      rw [e6, hsb2, hbb0.2, hm]
      exact (e2.1 .mini (by decide)).symm)
  have hsame : Same w w3 := (hsame0.trans hs2).trans e4
  have hlen : w3.io.sb_blocks.length = (own1 .mini).length := by
    rw [e6, hsb2, hbb0.2, hm, e2.1 .mini (by decide)]
  refine ⟨own2, new, rfl, f1, ?_, ?_, ?_, f3, hsame.trans f4, ?_, ?_⟩
  · refine ⟨fun k hk1 hk2 => by rw [f2.1 k hk2, e2.1 k hk1], ?_⟩
    obtain ⟨x, hx⟩ := f2.2
    exact ⟨x, by rw [hx, e2.1 .mini (by decide)]⟩
  · rw [f5, e5]; exact hso2
  · rw [f4.sbat_start, f2.1 .miniFat (by decide)]; exact e3
  · rw [f6, hlen, hsame.smallSize, hsame.bigSize]
    omega
  · have hc : Carries w own w2 own := by
      refine ⟨by rw [hh2, hw0'.1]; exact Nat.le_refl _, fun _ hg => core_same hg (by rw [hb2, hbb0.1]) (by rw [hh2, hw0'.1])
        (by rw [hhd2, hw0'.2.1]) (by rw [hbd2, hw0'.2.2.1]) (by rw [hmb2, hw0'.2.2.2.1]) (by rw [hmd2, hw0'.2.2.2.2.1])⟩
    have hc2 := (hc.trans e7).trans f7
    refine ⟨hc2.le, fun hfew hr => ⟨hc2.good hfew hr.big, ?_, ?_, ?_⟩⟩
    · have hbs : w2.io.bbat.blockSize = 512 := by rw [hb2, hbb0.1]; exact hr.big.blockSize
      have hbs0 : w0.io.bbat.blockSize = 512 := by rw [hbb0.1]; exact hr.big.blockSize
      have hlast : ∀ last, (sown i).getLast? = some last → last < w.io.sbat.data.length ∧ Used w.io.sbat.data last := fun last hl => by
        have hu := linked_used (hso.linked i (List.ne_nil_of_mem (List.mem_of_getLast? hl))) (List.mem_of_getLast? hl)
        exact ⟨by obtain ⟨v, hv, _⟩ := hu; exact (List.getElem?_eq_some_iff.1 hv).1, hu⟩
      have hlen2 : w2.io.sbat.data.length = max w.io.sbat.data.length (new + 1) := by
        rw [ht2, set_length]
        cases hl : (sown i).getLast? with
        | none => simp only; rw [hdata]
        | some last =>
          simp only
          rw [set_length, hdata]
          have := (hlast last hl).1
          omega
      rw [hbs] at e8 e9
      have hnum : w2.io.header.num_sbat = (own .miniFat).length := by rw [hh2, hw0'.1]; exact hr.small.count
      have hchain : own2 .miniFat = own1 .miniFat := f2.1 _ (by decide)
      have hl1 := e9 hr.small.some_sbat
      have hsb : (w3.growMini (new * w3.io.sbat.blockSize / w3.io.bbat.blockSize + 1 - w3.io.sb_blocks.length)).io.sbat = w2.io.sbat := by
        rw [f5, ha3.sbat]
      constructor
      · rw [f8, e8, hchain, hl1, hnum]
      · rw [hchain]
        intro h0
        rw [h0] at hl1
        have := List.length_pos_iff.2 hr.small.some_sbat
        simp only [List.length_nil] at hl1
        omega
      · rw [hsb, f8, e8, hlen2]
        have h1 := hr.small.cover
        rw [hr.small.count, ← hnum] at h1
        omega
      · intro x hx
        rw [hsb, ht2] at hx
        rw [f9, ha3.sbatDirty]
        have hx1 : Used w.io.sbat.data x ∨ x = new := by
          rcases small_set (by decide) hx with h1 | h1
          · left
            cases hl : (sown i).getLast? with
            | none => simp only [hl] at h1; rw [hdata] at h1; exact h1
            | some last =>
              simp only [hl] at h1
              have hnew : new ≠ Avail := by
                have := hr.small.cover
                have h2 : new + 1 ≤ w2.io.sbat.data.length := by rw [hlen2]; omega
                unfold Avail
                omega
              rcases small_set hnew h1 with h2 | h2
              · rw [hdata] at h2; exact h2
              · rw [h2]; exact (hlast last hl).2
          · exact Or.inr h1
        rcases hx1 with h1 | h1
        · by_cases hn1 : x = new
          · exact Or.inl (hsd2 _ (Or.inr (Or.inl (by rw [hn1, hbs0]))))
          · by_cases hl1 : ∃ last, (sown i).getLast? = some last ∧ x = last
            · obtain ⟨last, hl, rfl⟩ := hl1
              exact Or.inl (hsd2 _ (Or.inr (Or.inr ⟨x, hl, by rw [hbs0]⟩)))
            · have hval : w2.io.sbat.data[x]? = w.io.sbat.data[x]? := by
                rw [ht2]
                cases hl : (sown i).getLast? with
                | none => simp only; rw [set_other (by rw [hdata]; exact h1) hn1, hdata]
                | some last =>
                  simp only
                  have hxl : x ≠ last := fun he => hl1 ⟨last, hl, he⟩
                  have h2 : (w0.io.sbat.set last new).data[x]? = w.io.sbat.data[x]? := by
                    rw [set_other (by rw [hdata]; exact h1) hxl, hdata]
                  obtain ⟨v, hv, hv'⟩ := h1
                  rw [set_other ⟨v, by rw [h2]; exact hv, hv'⟩ hn1, h2]
              rw [hsb, hval]
              rcases hr.small.saved x h1 with h2 | h2
              · exact Or.inl (hsd2 _ (Or.inl (by rw [hw0'.2.2.2.2.2.2]; exact h2)))
              · exact Or.inr h2
        · exact Or.inl (hsd2 _ (Or.inr (Or.inl (by rw [h1, hbs0]))))
      · rw [hsb, ht2]
        intro v hv
        have hnew : new < 2 ^ 32 := by
          have h2 : new + 1 ≤ w2.io.sbat.data.length := by rw [hlen2]; omega
          omega
        rcases set_mem hv with h1 | h1 | h1
        · cases hl : (sown i).getLast? with
          | none => simp only [hl] at h1; rw [hdata] at h1; exact hr.small.values v h1
          | some last =>
            simp only [hl] at h1
            rcases set_mem h1 with h2 | h2 | h2
            · rw [hdata] at h2; exact hr.small.values v h2
            · rw [h2]; exact hnew
            · rw [h2]; decide
        · rw [h1]; decide
        · rw [h1]; decide
      · rw [(hsame.trans f4).smallSize]; exact hr.small.blockSize
      · rw [hchain]
        obtain ⟨x, hx⟩ := e2.2
        rw [hx]
        exact hr.small.slotPrefix.trans (List.prefix_append _ _)
    · refine dir_same hr.dir (hsame.trans f4).dirtree (fun d => ?_) (by rw [f2.1 .dir (by decide), e2.1 .dir (by decide)])
        (f11.imp (fun h => by rw [h, e6, hsb2, hbb0.2]) id)
      have := f10 d
      rw [ha3.dirDirty, hdd2, hw0'.2.2.2.2.2.1] at this
      exact this
    · rw [(hsame.trans f4).file]; exact hr.file

theorem extendSmall_mono (w w' : Writer) (c c' : List Nat) (h : w.extendSmall c = .ok (w', c')) :
    w.io.bbat.data.length ≤ w'.io.bbat.data.length ∧ w.io.sbat.data.length ≤ w'.io.sbat.data.length := by
  unfold Writer.extendSmall at h
  dsimp only at h
  obtain ⟨w3, h3, h⟩ := bind_inv h
  cases h
  have h4 := coverSmall_mono _ _ _ h3
  have h5 := (coverSmall_aside _ _ _ h3).sbat
  have hdata : w.unusedSmall.2.io.sbat.data = w.io.sbat.data := (unused_free w.io.sbat).2.1
  rw [growMini_sbat, h5]
  refine ⟨Nat.le_trans ?_ (growMini_mono _ _), ?_⟩
  · refine Nat.le_trans ?_ h4
    cases c.getLast? with
    | none => exact Nat.le_refl _
    | some last => exact Nat.le_refl _
  · show _ ≤ (AllocTable.set _ _ _).data.length
    rw [set_length]
    cases c.getLast? with
    | none => rw [← hdata]; exact Nat.le_max_left _ _
    | some last =>
      refine Nat.le_trans ?_ (Nat.le_max_left _ _)
      show _ ≤ (AllocTable.set _ _ _).data.length
      rw [set_length, ← hdata]
      exact Nat.le_max_left _ _

theorem extendsSmall_mono (n : Nat) : ∀ (w w' : Writer) (c c' : List Nat), Writer.extendsSmall n w c = .ok (w', c') →
    w.io.bbat.data.length ≤ w'.io.bbat.data.length ∧ w.io.sbat.data.length ≤ w'.io.sbat.data.length := by
  induction n with
  | zero => intro w w' c c' h; cases h; exact ⟨Nat.le_refl _, Nat.le_refl _⟩
  | succ n ih =>
    intro w w' c c' h
    unfold Writer.extendsSmall at h
    obtain ⟨⟨w1, c1⟩, h1, h⟩ := bind_inv h
    have h2 := extendSmall_mono _ _ _ _ h1
    have h3 := ih _ _ _ _ h
    exact ⟨Nat.le_trans h2.1 h3.1, Nat.le_trans h2.2 h3.2⟩

theorem extendsSmall_spec (n : Nat) : ∀ (w w' : Writer) (c' : List Nat) (own : Owner → List Nat) (sown : Nat → List Nat)
    (i : Nat), Writer.extendsSmall n w (sown i) = .ok (w', c') → w'.io.bbat.data.length ≤ 0xfffffffc →
    w'.io.sbat.data.length ≤ 0xfffffffc → Owned w.io.bbat.data own → Owned w.io.sbat.data sown →
    Begins w.io.header.sbat_start (own .miniFat) → w.io.sb_blocks = own .mini →
    (∀ j, ∀ x ∈ sown j, x * w.io.sbat.blockSize / w.io.bbat.blockSize < (own .mini).length) →
    ∃ own' extra, c' = sown i ++ extra ∧ extra.length = n ∧ Owned w'.io.bbat.data own' ∧ MiniGrown own own' ∧
      Owned w'.io.sbat.data (replaced sown i (sown i ++ extra)) ∧ Begins w'.io.header.sbat_start (own' .miniFat) ∧
      w'.io.sb_blocks = own' .mini ∧ Same w w' ∧
      (∀ j, ∀ x ∈ replaced sown i (sown i ++ extra) j,
        x * w.io.sbat.blockSize / w.io.bbat.blockSize < (own' .mini).length) ∧ Readies w own w' own' := by
  induction n with
  | zero =>
    intro w w' c' own sown i h hb hs ho hso hst hm hc
    cases h
    refine ⟨own, [], by simp, rfl, ho, MiniGrown.refl own, ?_, hst, hm, Same.refl w, ?_, Readies.refl w own⟩
    · rw [List.append_nil, replaced_same]; exact hso
    · rw [List.append_nil, replaced_same]; exact hc
  | succ n ih =>
    intro w w' c' own sown i h hb hs ho hso hst hm hc
    unfold Writer.extendsSmall at h
    obtain ⟨⟨w1, c1⟩, h1, h⟩ := bind_inv h
    have hmono := extendsSmall_mono _ _ _ _ _ h
    obtain ⟨own1, new, e1, e2, e3, e4, e5, e6, e7, e8, e9⟩ := extendSmall_spec w w1 c1 own sown i h1
      (Nat.le_trans hmono.1 hb) (Nat.le_trans hmono.2 hs) ho hso hst hm
    have hc1 : ∀ j, ∀ x ∈ replaced sown i (sown i ++ [new]) j,
        x * w1.io.sbat.blockSize / w1.io.bbat.blockSize < (own1 .mini).length := by
      intro j x hx
      rw [e7.smallSize, e7.bigSize]
      obtain ⟨ex, hex⟩ := e3.mini
      have hold : ∀ j, x ∈ sown j → x * w.io.sbat.blockSize / w.io.bbat.blockSize < (own1 .mini).length := fun j hx => by
        have := hc j x hx
        rw [hex, List.length_append]
        omega
      unfold replaced at hx
      split at hx
      · rcases List.mem_append.1 hx with hx | hx
        · exact hold i hx
        · rw [List.mem_singleton.1 hx]; exact e8
      · exact hold j hx
    subst e1
    rw [← replaced_self sown i (sown i ++ [new])] at h
    obtain ⟨own2, extra, f1, f2, f3, f4, f5, f6, f7, f8, f9, f10⟩ := ih w1 w' c' own1 _ i h hb hs e2 e4 e5 e6 hc1
    rw [replaced_self, List.append_assoc] at f1
    rw [replaced_replaced, replaced_self, List.append_assoc] at f5 f9
    rw [e7.smallSize, e7.bigSize] at f9
    exact ⟨own2, new :: extra, f1, by simp [f2], f3, e3.trans f4, f5, f6, f7, e7.trans f8, f9, e9.trans f10⟩

end Fileid.Pole
