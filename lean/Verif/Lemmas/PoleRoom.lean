import Verif.Lemmas.PoleSizes

/-! # How long the tables of a storage become -/

namespace Fileid.Pole
open Fileid.Spec
open Fileid.Props (C43_find_child)

/-- `w'` is `w` after so many sectors were added, and those of the table that lists them. -/
structure Grew (w w' : Writer) (n : Nat) : Prop where
  len : w.io.bbat.data.length ≤ w'.io.bbat.data.length
  num : w.io.header.num_bat ≤ w'.io.header.num_bat
  more : w'.io.bbat.data.length + 2 * w.io.header.num_bat ≤ w.io.bbat.data.length + n + 2 * w'.io.header.num_bat
  cap : w'.io.header.num_bat ≤ max w.io.header.num_bat (w'.io.bbat.data.length / 64 + 1)
  size : w'.io.bbat.blockSize = w.io.bbat.blockSize

theorem Grew.refl (w : Writer) : Grew w w 0 := ⟨Nat.le_refl _, Nat.le_refl _, Nat.le_refl _, by omega, rfl⟩

theorem Grew.trans {a b c : Writer} {m n : Nat} (h : Grew a b m) (h' : Grew b c n) : Grew a c (m + n) := by
  obtain ⟨h1, h2, h3, h4, h5⟩ := h
  obtain ⟨g1, g2, g3, g4, g5⟩ := h'
  exact ⟨by omega, by omega, by omega, by omega, g5.trans h5⟩

theorem Grew.weaken {a b : Writer} {m n : Nat} (h : Grew a b m) (hn : m ≤ n) : Grew a b n :=
  ⟨h.len, h.num, by have := h.more; omega, h.cap, h.size⟩

theorem Grew.bound {a b : Writer} {n : Nat} (h : Grew a b n) : b.io.bbat.data.length ≤ 2 * (a.io.bbat.data.length + n + 2) := by
  obtain ⟨h1, h2, h3, h4, _⟩ := h
  omega

/-- Another writer with the same table. -/
theorem Grew.same {a b c : Writer} {n : Nat} (h : Grew a b n) (hb : c.io.bbat = b.io.bbat)
    (hn : c.io.header.num_bat = b.io.header.num_bat) : Grew a c n := by
  obtain ⟨h1, h2, h3, h4, h5⟩ := h
  exact ⟨by rw [hb]; exact h1, by rw [hn]; exact h2, by rw [hb, hn]; exact h3, by rw [hb, hn]; exact h4, by rw [hb]; exact h5⟩

theorem Grew.from {a b c : Writer} {n : Nat} (h : Grew b c n) (hb : b.io.bbat = a.io.bbat)
    (hn : b.io.header.num_bat = a.io.header.num_bat) : Grew a c n := by
  obtain ⟨h1, h2, h3, h4, h5⟩ := h
  exact ⟨by rw [← hb]; exact h1, by rw [← hn]; exact h2, by rw [← hb, ← hn]; exact h3, by rw [← hn]; exact h4, by rw [← hb]; exact h5⟩

theorem unusedBig_le (w : Writer) : w.unusedBig.1 ≤ w.io.bbat.data.length := by
  rcases unusedBig_free w with h | h
  · exact Nat.le_of_lt (List.getElem?_eq_some_iff.1 h).1
  · omega

theorem setBig_length (w : Writer) (i v : Nat) : (w.setBig i v).io.bbat.data.length = max w.io.bbat.data.length (i + 1) := set_length _ _ _

theorem addbbatBlock_length (w : Writer) : w.addbbatBlock.io.bbat.data.length ≤ w.io.bbat.data.length + 2 ∧
    w.io.bbat.data.length ≤ w.addbbatBlock.io.bbat.data.length := by
  have h0 := unusedBig_le w
  have h1 : (w.unusedBig.2.setBig w.unusedBig.1 MetaBat).io.bbat.data.length = max w.io.bbat.data.length (w.unusedBig.1 + 1) := by
    rw [setBig_length, unusedBig_data]
  unfold Writer.addbbatBlock
  dsimp only
  generalize w.unusedBig.2.setBig w.unusedBig.1 MetaBat = w1 at h1 ⊢
  split
  · show w1.io.bbat.data.length ≤ _ ∧ _ ≤ w1.io.bbat.data.length
    omega
  · split
    · generalize hw2 : ({ w1 with mbatDirty := true, mbat_data := w1.mbat_data ++ [w.unusedBig.1] } : Writer) = w2
      have e2 : w2.io = w1.io := by subst hw2; rfl
      have h2 := unusedBig_le w2
      have h3 : (w2.unusedBig.2.setBig w2.unusedBig.1 MetaBat).io.bbat.data.length = max w2.io.bbat.data.length (w2.unusedBig.1 + 1) := by
        rw [setBig_length, unusedBig_data]
      generalize w2.unusedBig.2.setBig w2.unusedBig.1 MetaBat = w3 at h3 ⊢
      show w3.io.bbat.data.length ≤ _ ∧ _ ≤ w3.io.bbat.data.length
      rw [e2] at h2 h3
      omega
    · show w1.io.bbat.data.length ≤ _ ∧ _ ≤ w1.io.bbat.data.length
      omega

theorem addbbatBlocks_length (n : Nat) : ∀ w : Writer, (Writer.addbbatBlocks n w).io.bbat.data.length ≤ w.io.bbat.data.length + 2 * n ∧
    w.io.bbat.data.length ≤ (Writer.addbbatBlocks n w).io.bbat.data.length := by
  induction n with
  | zero => exact fun w => ⟨Nat.le_refl _, Nat.le_refl _⟩
  | succ n ih =>
    intro w
    have h1 := addbbatBlock_length w
    have h2 := ih w.addbbatBlock
    show (Writer.addbbatBlocks n w.addbbatBlock).io.bbat.data.length ≤ _ ∧ _ ≤ (Writer.addbbatBlocks n w.addbbatBlock).io.bbat.data.length
    omega

theorem coverBig_grew (w : Writer) (new : Nat) (hs : 512 ≤ w.io.bbat.blockSize) (hn : new < w.io.bbat.data.length) :
    Grew w (w.coverBig new) 0 := by
  unfold Writer.coverBig
  have h1 := addbbatBlocks_length (new / (w.io.bbat.blockSize / 8) + 1 - w.io.header.num_bat) w
  have h2 := addbbatBlocks_num (new / (w.io.bbat.blockSize / 8) + 1 - w.io.header.num_bat) w
  have h3 := (addbbatBlocks_spec (new / (w.io.bbat.blockSize / 8) + 1 - w.io.header.num_bat) w).1.blockSize
  have h4 : new / (w.io.bbat.blockSize / 8) ≤ new / 64 := Nat.div_le_div_left (by omega) (by decide)
  generalize Writer.addbbatBlocks (new / (w.io.bbat.blockSize / 8) + 1 - w.io.header.num_bat) w = w' at *
  generalize new / (w.io.bbat.blockSize / 8) = k at *
  exact ⟨by omega, by omega, by omega, by omega, h3⟩

/-- One more sector in the table. -/
theorem setBig_grew (w : Writer) (i v : Nat) (hi : i ≤ w.io.bbat.data.length) : Grew w (w.setBig i v) 1 := by
  have := setBig_length w i v
  refine ⟨by omega, Nat.le_refl _, ?_, ?_, set_blockSize _ _ _⟩
  · show _ ≤ _ + 1 + 2 * w.io.header.num_bat
    omega
  · show w.io.header.num_bat ≤ _
    omega

/-- No further sector. -/
theorem setBig_grew_old (w : Writer) (i v : Nat) (hi : i < w.io.bbat.data.length) : Grew w (w.setBig i v) 0 := by
  have := setBig_length w i v
  refine ⟨by omega, Nat.le_refl _, ?_, ?_, set_blockSize _ _ _⟩
  · show _ ≤ _ + 0 + 2 * w.io.header.num_bat
    omega
  · show w.io.header.num_bat ≤ _
    omega

theorem unusedBig_grew (w : Writer) : Grew w w.unusedBig.2 0 := by
  have h1 := unusedBig_data w
  refine ⟨by rw [h1]; exact Nat.le_refl _, Nat.le_refl _, by rw [h1]; exact Nat.le_refl _, Nat.le_max_left _ _, (unused_free _).2.2⟩

theorem extend_grew (w : Writer) (c : List Nat) (hs : 512 ≤ w.io.bbat.blockSize) (hc : ∀ x ∈ c, x < w.io.bbat.data.length) :
    Grew w (w.extend c).1 1 ∧ ∀ x ∈ (w.extend c).2, x < (w.extend c).1.io.bbat.data.length := by
  unfold Writer.extend
  dsimp only
  have h0 := unusedBig_le w
  have g1 : Grew w (w.unusedBig.2.setBig w.unusedBig.1 Eof) 1 := by
    have := (unusedBig_grew w).trans (setBig_grew w.unusedBig.2 w.unusedBig.1 Eof (by rw [unusedBig_data]; exact h0))
    exact this
  have hn : w.unusedBig.1 < (w.unusedBig.2.setBig w.unusedBig.1 Eof).io.bbat.data.length := by rw [setBig_length]; omega
  generalize w.unusedBig.2.setBig w.unusedBig.1 Eof = w1 at g1 hn ⊢
  generalize w.unusedBig.1 = new at h0 hn ⊢
  have g2 := g1.trans (coverBig_grew w1 new (by rw [g1.size]; exact hs) hn)
  have hn2 := Nat.lt_of_lt_of_le hn (coverBig_grew w1 new (by rw [g1.size]; exact hs) hn).len
  have g3 : Grew w ((w1.coverBig new).markBig new) 1 := g2.same rfl rfl
  have hn3 : new < ((w1.coverBig new).markBig new).io.bbat.data.length := hn2
  generalize (w1.coverBig new).markBig new = w3 at g3 hn3 ⊢
  cases hl : c.getLast? with
  | none =>
    dsimp only
    refine ⟨g3, fun x hx => ?_⟩
    rcases List.mem_append.1 hx with h | h
    · exact Nat.lt_of_lt_of_le (hc x h) g3.len
    · rw [List.mem_singleton.1 h]; exact hn3
  | some last =>
    dsimp only
    have hlast : last < w3.io.bbat.data.length := Nat.lt_of_lt_of_le (hc last (List.mem_of_getLast? hl)) g3.len
    have g4 : Grew w ((w3.setBig last new).markBig last) 1 := (g3.trans (setBig_grew_old w3 last new hlast)).same rfl rfl
    refine ⟨g4, fun x hx => ?_⟩
    rcases List.mem_append.1 hx with h | h
    · exact Nat.lt_of_lt_of_le (hc x h) g4.len
    · rw [List.mem_singleton.1 h]
      refine Nat.lt_of_lt_of_le hn3 ?_
      show _ ≤ (w3.setBig last new).io.bbat.data.length
      rw [setBig_length]
      omega

theorem owned_lt {ω : Type} {fat : List Nat} {own : ω → List Nat} (h : Owned fat own) {k : ω} : ∀ x ∈ own k, x < fat.length := by
  intro x hx
  obtain ⟨v, hv, _⟩ := linked_used (h.linked k (List.ne_nil_of_mem hx)) hx
  exact (List.getElem?_eq_some_iff.1 hv).1

theorem growMini_grew (n : Nat) : ∀ (w : Writer), 512 ≤ w.io.bbat.blockSize → (∀ x ∈ w.io.sb_blocks, x < w.io.bbat.data.length) →
    Grew w (w.growMini n) n := by
  induction n with
  | zero => exact fun w _ _ => Grew.refl w
  | succ n ih =>
    intro w hs hc
    obtain ⟨h1, h2⟩ := extend_grew w w.io.sb_blocks hs hc
    unfold Writer.growMini
    dsimp only
    generalize hw1 : Writer.markDir { (w.extend w.io.sb_blocks).1 with
      io := { (w.extend w.io.sb_blocks).1.io with sb_blocks := (w.extend w.io.sb_blocks).2 } } 0 = w1
    have g1 : Grew w w1 1 := by subst hw1; exact h1.same rfl rfl
    have := g1.trans (ih w1 (by rw [g1.size]; exact hs) (by subst hw1; exact h2))
    rwa [Nat.add_comm 1 n] at this

theorem growDir_grew (n : Nat) : ∀ (w : Writer) (c : List Nat), 512 ≤ w.io.bbat.blockSize → (∀ x ∈ c, x < w.io.bbat.data.length) →
    Grew w (Writer.growDir n w c) n := by
  induction n with
  | zero => exact fun w _ _ _ => Grew.refl w
  | succ n ih =>
    intro w c hs hc
    unfold Writer.growDir
    dsimp only
    have h0 := unusedBig_le w
    have g0 := unusedBig_grew w
    have hd := unusedBig_data w
    generalize w.unusedBig.1 = new at h0 ⊢
    generalize w.unusedBig.2 = w0 at g0 hd ⊢
    have key : ∀ w1 : Writer, Grew w w1 0 → w1.io.bbat.data.length = w.io.bbat.data.length →
        Grew w (Writer.growDir n (((w1.setBig new Eof).markBig new).coverBig new) (c ++ [new])) (n + 1) := by
      intro w1 g1 hl1
      have g2 : Grew w ((w1.setBig new Eof).markBig new) (0 + 1) := (g1.trans (setBig_grew w1 new Eof (by rw [hl1]; exact h0))).same rfl rfl
      have hn : new < ((w1.setBig new Eof).markBig new).io.bbat.data.length := by
        show new < (w1.setBig new Eof).io.bbat.data.length
        rw [setBig_length]; omega
      generalize (w1.setBig new Eof).markBig new = w2 at g2 hn ⊢
      have g3 := g2.trans (coverBig_grew w2 new (by rw [g2.size]; exact hs) hn)
      have hn3 := Nat.lt_of_lt_of_le hn (coverBig_grew w2 new (by rw [g2.size]; exact hs) hn).len
      have := g3.trans (ih (w2.coverBig new) (c ++ [new]) (by rw [g3.size]; exact hs) (fun x hx => by
        rcases List.mem_append.1 hx with h | h
        · exact Nat.lt_of_lt_of_le (hc x h) g3.len
        · rw [List.mem_singleton.1 h]; exact hn3))
      refine this.weaken ?_
      omega
    cases hl : c.getLast? with
    | none => exact key w0 g0 (by rw [hd])
    | some last =>
      have hlast : last < w0.io.bbat.data.length := by rw [hd]; exact hc last (List.mem_of_getLast? hl)
      refine key _ ((g0.trans (setBig_grew_old w0 last new hlast)).same rfl rfl) ?_
      show (w0.setBig last new).io.bbat.data.length = _
      rw [setBig_length, hd]
      rw [hd] at hlast
      omega

theorem coverSmall_next (n : Nat) (w : Writer) : w.coverSmall (n + 1) = w.coverSmall 1 >>= Writer.coverSmall n := by
  conv => lhs; unfold Writer.coverSmall
  conv => rhs; arg 1; unfold Writer.coverSmall
  cases w.io.bbat.follow w.io.header.sbat_start <;> rfl

/-- The table of small sectors gets its sectors, as long as there is room. -/
theorem coverSmall_ok (n : Nat) : ∀ {w0 w : Writer} {k : Nat} {own : Owner → List Nat}, 512 ≤ w.io.bbat.blockSize →
    Owned w.io.bbat.data own → Begins w.io.header.sbat_start (own .miniFat) → Grew w0 w k →
    2 * (w0.io.bbat.data.length + (k + n) + 2) ≤ 0xfffffffc →
    ∃ w', w.coverSmall n = .ok w' ∧ Grew w0 w' (k + n) := by
  induction n with
  | zero => intro w0 w k own _ _ _ hg _; exact ⟨w, rfl, hg⟩
  | succ n ih =>
    intro w0 w k own hs ho hb hg hroom
    have hb0 := hg.bound
    have hfit : w.io.bbat.data.length ≤ 0xfffffffc := by omega
    have h1 : ∃ w1, w.coverSmall 1 = .ok w1 ∧ Grew w w1 1 := by
      unfold Writer.coverSmall
      rw [follow_begins ho hfit hb, Res.bind_ok]
      exact ⟨_, rfl, (extend_grew w (own .miniFat) hs (owned_lt ho)).1.same rfl rfl⟩
    obtain ⟨w1, h1, g1⟩ := h1
    have g2 := hg.trans g1
    have hb2 := g2.bound
    obtain ⟨own', e1, e2, e3, e4, _⟩ := coverSmall_spec 1 w w1 own h1 (by omega) ho hb
    obtain ⟨w', h2, g3⟩ := ih (by rw [g1.size]; exact hs) e1 e3 g2 (by omega)
    refine ⟨w', ?_, g3.weaken (by omega)⟩
    rw [coverSmall_next, h1, Res.bind_ok, h2]

/-- One more small sector, as long as there is room. -/
theorem extendSmall_ok {w0 w : Writer} {k m : Nat} {own : Owner → List Nat} {sown : Nat → List Nat} {i : Nat}
    (hs : 512 ≤ w.io.bbat.blockSize) (hsp : 0 < w.io.sbat.blockSize) (hss : 8 * w.io.sbat.blockSize ≤ w.io.bbat.blockSize) (ho : Owned w.io.bbat.data own)
    (hso : Owned w.io.sbat.data sown) (hb : Begins w.io.header.sbat_start (own .miniFat)) (hm : w.io.sb_blocks = own .mini)
    (hg : Grew w0 w k) (hlen : w.io.sbat.data.length ≤ m)
    (hroom : 2 * (w0.io.bbat.data.length + (k + (m / 7 + 2)) + 2) ≤ 0xfffffffc) :
    ∃ w' c', w.extendSmall (sown i) = .ok (w', c') ∧ Grew w0 w' (k + (m / 7 + 2)) ∧ w'.io.sbat.data.length ≤ m + 1 := by
  unfold Writer.extendSmall
  dsimp only
  have hfree : Free w.io.sbat.data w.unusedSmall.1 := (unused_free w.io.sbat).1
  have hdata : w.unusedSmall.2.io.sbat.data = w.io.sbat.data := (unused_free w.io.sbat).2.1
  have hbs : w.unusedSmall.2.io.sbat.blockSize = w.io.sbat.blockSize := (unused_free w.io.sbat).2.2
  have hnew : w.unusedSmall.1 ≤ m := by
    rcases hfree with h | h
    · have := (List.getElem?_eq_some_iff.1 h).1; omega
    · omega
  have hio : w.unusedSmall.2.io.bbat = w.io.bbat ∧ w.unusedSmall.2.io.header = w.io.header ∧
    w.unusedSmall.2.io.sb_blocks = w.io.sb_blocks := ⟨rfl, rfl, rfl⟩
  generalize w.unusedSmall.1 = new at hnew ⊢
  generalize w.unusedSmall.2 = w1 at hdata hbs hio ⊢
  obtain ⟨i1, i2, i3⟩ := hio
  have key : ∀ w2 : Writer, w2.io.bbat = w.io.bbat → w2.io.header = w.io.header → w2.io.sb_blocks = w.io.sb_blocks →
      w2.io.sbat.blockSize = w.io.sbat.blockSize → w2.io.sbat.data.length ≤ m → ∃ w' c',
      (do
        let w ← ((w2.setSmall new Eof).markSmall new).coverSmall
          (new / (((w2.setSmall new Eof).markSmall new).io.bbat.blockSize / 4) + 1 - ((w2.setSmall new Eof).markSmall new).io.header.num_sbat)
        Res.ok (w.growMini (new * w.io.sbat.blockSize / w.io.bbat.blockSize + 1 - w.io.sb_blocks.length), sown i ++ [new])) = .ok (w', c') ∧
      Grew w0 w' (k + (m / 7 + 2)) ∧ w'.io.sbat.data.length ≤ m + 1 := by
    intro w2 j1 j2 j3 j4 j5
    generalize hw3 : (w2.setSmall new Eof).markSmall new = w3
    have k1 : w3.io.bbat = w.io.bbat := by subst hw3; exact j1
    have k2 : w3.io.header = w.io.header := by subst hw3; exact j2
    have k3 : w3.io.sb_blocks = w.io.sb_blocks := by subst hw3; exact j3
    have k4 : w3.io.sbat.blockSize = w.io.sbat.blockSize := by subst hw3; exact (set_blockSize _ _ _).trans j4
    have k5 : w3.io.sbat.data.length ≤ m + 1 := by
      subst hw3
      show (w2.io.sbat.set new Eof).data.length ≤ m + 1
      rw [set_length]
      omega
    have hq : new / (w3.io.bbat.blockSize / 4) + 1 - w3.io.header.num_sbat ≤ m / 128 + 1 := by
      have h1 : new / (w3.io.bbat.blockSize / 4) ≤ new / 128 := Nat.div_le_div_left (by rw [k1]; omega) (by decide)
      generalize new / (w3.io.bbat.blockSize / 4) = q at h1 ⊢
      omega
    obtain ⟨w4, h4, g4⟩ := coverSmall_ok (new / (w3.io.bbat.blockSize / 4) + 1 - w3.io.header.num_sbat) (w0 := w0) (w := w3) (k := k) (own := own)
      (by rw [k1]; exact hs) (by rw [k1]; exact ho) (by rw [k2]; exact hb) (hg.same k1 (by rw [k2])) (by omega)
    rw [h4, Res.bind_ok]
    have a4 := coverSmall_aside _ _ _ h4
    have g5 := g4.bound
    have hbs4 : w4.io.bbat.blockSize = w.io.bbat.blockSize := by rw [a4.blockSize, k1]
    have hq2 : new * w4.io.sbat.blockSize / w4.io.bbat.blockSize + 1 - w4.io.sb_blocks.length ≤ m / 8 + 1 := by
      have h1 : new * w4.io.sbat.blockSize / w4.io.bbat.blockSize ≤ new / 8 := by
        rw [hbs4, a4.sbat, k4, Nat.le_div_iff_mul_le (by decide)]
        have h2 := Nat.div_mul_le_self (new * w.io.sbat.blockSize) w.io.bbat.blockSize
        generalize new * w.io.sbat.blockSize / w.io.bbat.blockSize = q at h2 ⊢
        have h3 : q * (8 * w.io.sbat.blockSize) ≤ new * w.io.sbat.blockSize := Nat.le_trans (Nat.mul_le_mul_left q hss) h2
        rw [← Nat.mul_assoc] at h3
        exact Nat.le_of_mul_le_mul_right h3 hsp
      generalize new * w4.io.sbat.blockSize / w4.io.bbat.blockSize = q at h1 ⊢
      omega
    refine ⟨_, _, rfl, (g4.trans (growMini_grew _ w4 (by rw [hbs4]; exact hs) ?_)).weaken (by omega), ?_⟩
    · intro x hx
      rw [a4.sb_blocks, k3, hm] at hx
      have h1 := owned_lt ho x hx
      have h2 := coverSmall_mono _ _ _ h4
      rw [k1] at h2
      omega
    · rw [growMini_sbat, a4.sbat]
      exact k5
  cases hl : (sown i).getLast? with
  | none => exact key w1 i1 i2 i3 hbs (by rw [hdata]; exact hlen)
  | some last =>
    refine key ((w1.setSmall last new).markSmall last) i1 i2 i3 ((set_blockSize _ _ _).trans hbs) ?_
    have hlast := owned_lt hso last (List.mem_of_getLast? hl)
    show (w1.io.sbat.set last new).data.length ≤ m
    rw [set_length, hdata]
    omega

theorem extendsSmall_ok (n : Nat) : ∀ {w0 w : Writer} {k m : Nat} {own : Owner → List Nat} {sown : Nat → List Nat} {i : Nat},
    512 ≤ w.io.bbat.blockSize → 0 < w.io.sbat.blockSize → 8 * w.io.sbat.blockSize ≤ w.io.bbat.blockSize → Owned w.io.bbat.data own →
    Owned w.io.sbat.data sown → Begins w.io.header.sbat_start (own .miniFat) → w.io.sb_blocks = own .mini →
    Grew w0 w k → w.io.sbat.data.length ≤ m → 2 * (w0.io.bbat.data.length + (k + n * ((m + n) / 7 + 2)) + 2) ≤ 0xfffffffc → m + n ≤ 0xfffffffc →
    ∃ w' c', Writer.extendsSmall n w (sown i) = .ok (w', c') := by
  induction n with
  | zero => intros; exact ⟨_, _, rfl⟩
  | succ n ih =>
    intro w0 w k m own sown i hs hsp hss ho hso hb hm hg hlen hroom hmn
    have hexp : (n + 1) * ((m + (n + 1)) / 7 + 2) = n * ((m + 1 + n) / 7 + 2) + ((m + (n + 1)) / 7 + 2) := by
      rw [Nat.add_mul, Nat.one_mul, show m + (n + 1) = m + 1 + n by omega]
    obtain ⟨w1, c1, h1, g1, l1⟩ := extendSmall_ok (i := i) hs hsp hss ho hso hb hm hg hlen (by omega)
    have hb1 := g1.bound
    obtain ⟨own1, new, e1, e2, e3, e4, e5, e6, e7, e8, e9⟩ := extendSmall_spec w w1 c1 own sown i h1 (by omega) (by omega) ho hso hb hm
    subst e1
    obtain ⟨w', c', h2⟩ := ih (i := i) (by rw [e7.bigSize]; exact hs) (by rw [e7.smallSize]; exact hsp) (by rw [e7.bigSize, e7.smallSize]; exact hss) e2 e4 e5 e6 g1 l1
      (by omega) (by omega)
    refine ⟨w', c', ?_⟩
    unfold Writer.extendsSmall
    rw [h1, Res.bind_ok]
    simp only [replaced, ↓reduceIte] at h2
    exact h2

/-! ## Entries -/

theorem newEntry_grew {abi : Abi} {w w' : Writer} {L : Layout} {c : Contents} (H : Holds w L c) (hf : Fits w) (hs : 512 ≤ w.io.bbat.blockSize)
    {p closest idx size : Nat} {name : WStr} {dir : Bool} (h : w.newEntry abi p closest name dir size = .ok (w', idx)) :
    Grew w w' (w.io.dirtree.length / 4 + 1) := by
  unfold Writer.newEntry at h
  dsimp only at h
  obtain ⟨⟨t', changed⟩, _, h⟩ := bind_inv h
  dsimp only at h
  generalize hw1 : ((({ w with io := { w.io with dirtree := t' } } : Writer).markDir changed).markDir (unusedEntry w.io.dirtree).1) = w1 at h
  have e1 : w1.io = { w.io with dirtree := t' } := by subst hw1; rfl
  have eb : w1.io.bbat = w.io.bbat := by rw [e1]
  have ed : w1.io.header = w.io.header := by rw [e1]
  obtain ⟨blocks, h2, h⟩ := bind_inv h
  rw [eb, ed, follow_begins H.big hf.1 H.dir] at h2
  cases h2
  injection h with h
  injection h with h _
  rw [← h]
  have g := growDir_grew ((unusedEntry w.io.dirtree).1 / (w1.io.bbat.blockSize / 128) + 1 - (L.big .dir).length) w1 (L.big .dir)
    (by rw [eb]; exact hs) (by rw [eb]; exact owned_lt H.big)
  refine (g.from eb (by rw [ed])).weaken ?_
  obtain ⟨_, h1, _, h2, _⟩ := unusedEntry_spec w.io.dirtree
  have h3 : (unusedEntry w.io.dirtree).1 / (w1.io.bbat.blockSize / 128) ≤ (unusedEntry w.io.dirtree).1 / 4 :=
    Nat.div_le_div_left (by rw [eb]; omega) (by decide)
  generalize (unusedEntry w.io.dirtree).1 / (w1.io.bbat.blockSize / 128) = q at h3 ⊢
  omega

/-- The entries of a path are made, as long as there is room. -/
theorem descendCreate_room {abi : Abi} (habi : abi = Abi.linux ∨ abi = Abi.windows) {size : Nat} (names : List WStr) :
    ∀ {w0 w : Writer} {k D : Nat} {L : Layout} {c : Contents} {kids : Nat → List Nat} {i : Nat} {pe : DirEntry}, Holds w L c →
    512 ≤ w.io.bbat.blockSize → w.io.sbat.data.length ≤ 0xfffffffc → Shape abi w.io.dirtree kids → w.io.header.dirent_start < 0xfffffffc →
    w.writeable = true → w.io.dirtree[i]? = some pe → pe.valid = true → (∀ n ∈ names, ∀ x ∈ n, x < 2 ^ (8 * abi.wcharBytes)) →
    Grew w0 w k → w.io.dirtree.length ≤ D → D + names.length ≤ End →
    2 * (w0.io.bbat.data.length + (k + names.length * ((D + names.length) / 4 + 1)) + 2) ≤ 0xfffffffc →
    Opens (w.descendCreate abi true size i names) := by
  induction names with
  | nil =>
    intro w0 w k D L c kids i pe H hs hsl S hd hw hpe hpv _ hg hD hE hroom
    have hb := hg.bound
    have hf : Fits w := ⟨by omega, hsl⟩
    refine ⟨w, some i, ?_, fun j hj => ?_⟩
    · unfold Writer.descendCreate
      rw [if_pos (List.getElem?_eq_some_iff.1 hpe).1]
    · cases hj
      refine ⟨pe, hpe, ?_⟩
      cases hdir : pe.dir with
      | true => exact Or.inl rfl
      | false => exact Or.inr ⟨_, new_holds H hf hpe ⟨hpv, hdir⟩⟩
  | cons n ns ih =>
    intro w0 w k D L c kids i pe H hs hsl S hd hw hpe hpv hu hg hD hE hroom
    have hb := hg.bound
    rw [List.length_cons] at hE hroom
    have hexp : (ns.length + 1) * ((D + (ns.length + 1)) / 4 + 1) = ns.length * ((D + 1 + ns.length) / 4 + 1) + ((D + (ns.length + 1)) / 4 + 1) := by
      rw [Nat.add_mul, Nat.one_mul, show D + (ns.length + 1) = D + 1 + ns.length by omega]
    have hmono : ns.length * ((D + ns.length) / 4 + 1) ≤ ns.length * ((D + 1 + ns.length) / 4 + 1) := Nat.mul_le_mul_left _ (by omega)
    have hf : Fits w := ⟨by omega, hsl⟩
    obtain ⟨T, hT, hk⟩ := S.tree i pe hpe hpv
    unfold Writer.descendCreate
    rcases C43_find_child abi habi w.io.dirtree i pe hpe hpv T hT n (hu n (by simp)) with ⟨j, e, hj, he, hname, hfc⟩ | ⟨hno, hfc⟩
    · obtain ⟨hj0, e', he', hv', _⟩ := kids_valid S (hk ▸ hj)
      rw [hfc, Res.bind_ok, if_pos (by omega)]
      exact ih H hs hsl S hd hw he' hv' (fun m hm => hu m (by simp [hm])) hg hD (by omega) (by omega)
    · rw [hfc, Res.bind_ok, if_neg (by omega), hw, if_pos (by rfl)]
      have hno' : ∀ x ∈ kids i, entryName w.io.dirtree x ≠ n := by
        intro x hx hc
        obtain ⟨_, e, he, _⟩ := kids_valid S hx
        exact hno x (hk ▸ hx) e he (by rw [← hc]; simp [entryName, he])
      obtain ⟨closest, w', kids', g1, g2, A, g3, g4, g5, g6, g7, g8⟩ := newEntry_holds habi H hf S hd hpe hpv (hu n (by simp)) hno'
        (decide (ns.length > 0 : Prop)) size (by omega)
      have gn := newEntry_grew H hf hs g2
      have gg := (hg.trans gn).weaken (n := k + ((D + (ns.length + 1)) / 4 + 1)) (by omega)
      have hb' := gg.bound
      have hf' : Fits w' := ⟨by omega, by rw [g5]; exact hsl⟩
      obtain ⟨extra, H', _⟩ := g8 hf'
      obtain ⟨e, he, hv, _⟩ := A.entry
      rw [g1, Res.bind_ok, g2, Res.bind_ok]
      dsimp only
      have hal := A.length
      exact ih H' (by rw [gn.size]; exact hs) (by rw [g5]; exact hsl) A.shape (by rw [g7]; exact hd) (by rw [g3]; exact hw) he hv
        (fun m hm => hu m (by simp [hm])) gg (D := D + 1) (by omega) (by omega) (by omega)

theorem entryCreate_room {abi : Abi} (habi : abi = Abi.linux ∨ abi = Abi.windows) {w : Writer} {L : Layout} {c : Contents} (H : Holds w L c)
    (hr : Roomy w) (hs : 512 ≤ w.io.bbat.blockSize) {kids : Nat → List Nat} (S : Shape abi w.io.dirtree kids)
    (hd : w.io.header.dirent_start < 0xfffffffc) {path : List WStr} (hp : PathOk abi path) (hw : w.writeable = true) (size : Nat)
    (hlen : path.length ≤ 2 ^ 9) : Opens (w.entryCreate abi (pathText path) true size) := by
  obtain ⟨h1, h2, h3⟩ := hr
  obtain ⟨root, hroot, hrv, _⟩ := S.root
  cases path with
  | nil =>
    refine ⟨w, some 0, ?_, fun k hk => by cases hk; exact opens_old H ⟨by omega, by omega⟩ S .here⟩
    unfold Writer.entryCreate
    rw [pathText_nil, if_neg (by decide), if_pos rfl, if_pos (List.getElem?_eq_some_iff.1 hroot).1]
  | cons a b =>
    rw [entryCreate_path hp]
    have hm : (a :: b).length * ((w.io.dirtree.length + (a :: b).length) / 4 + 1) ≤ 2 ^ 9 * ((2 ^ 20 + 2 ^ 9) / 4 + 1) :=
      Nat.mul_le_mul hlen (by omega)
    exact descendCreate_room habi (a :: b) H hs (by omega) S hd hw hroot hrv (fun n hn => (hp n hn).2.2) (Grew.refl w) (Nat.le_refl _)
      (by unfold End; omega) (by omega)

/-! ## Small streams -/

theorem setSize_plain {w w' : Writer} {s s' : WStream} {e : DirEntry} (he : w.io.dirtree[s.idx]? = some e) {n : Nat}
    (hx : e.size < w.io.header.threshold ↔ n < w.io.header.threshold) (h : s.setSize w n = .ok (w', s')) :
    w'.io.bbat = w.io.bbat ∧ w'.io.sbat = w.io.sbat := by
  unfold WStream.setSize at h
  split at h
  · rw [entryOf_some he, Res.bind_ok] at h
    dsimp only at h
    rw [if_neg (by
      simp only [Bool.or_eq_true, decide_eq_true_eq]
      omega)] at h
    split at h <;> (cases h; exact ⟨rfl, rfl⟩)
  · cases h; exact ⟨rfl, rfl⟩

/-- Writing into a stream that is small afterwards, as long as there is room. -/
theorem writeAt_small {w : Writer} {L : Layout} {c : Contents} (H : Holds w L c) (hw : w.writeable = true) {s : WStream}
    {e : DirEntry} (he : w.io.dirtree[s.idx]? = some e) (hs : IsStream e) (hb : s.blocks = L.chain s.idx) {pos : Nat}
    {data : Bytes} (hsmall : max (c.size s.idx) (pos + data.length) < w.io.header.threshold) (ht : w.io.header.threshold ≤ 4096)
    (hr : Roomy w) (hbs : w.io.bbat.blockSize = 512) (hss : w.io.sbat.blockSize = 64) :
    ∃ r, s.writeAt w pos data = .ok r := by
  obtain ⟨r1, r2, r3⟩ := hr
  have hu : u64 (pos + data.length) = pos + data.length := Nat.mod_eq_of_lt (by
    show _ < 18446744073709551616
    omega)
  have blocks : ∀ (w1 : Writer) (L1 : Layout) (c1 : Contents) (s1 : WStream) (e1 : DirEntry), Holds w1 L1 c1 → w1.io.dirtree[s1.idx]? = some e1 →
      IsStream e1 → s1.blocks = L1.chain s1.idx → w1.io.bbat = w.io.bbat → w1.io.sbat = w.io.sbat → e1.size < w1.io.header.threshold →
      ∃ r, s1.writeBlocks w1 e1 pos data = .ok r := by
    intro w1 L1 c1 s1 e1 H1 he1 hs1 hb1 hbb hsb hlt
    have hent := (H1.entry s1.idx e1 he1 hs1).2
    rw [if_pos hlt] at hent
    unfold WStream.writeBlocks
    have : decide (e1.size < w1.io.header.threshold) = true := by simp; omega
    rw [this]
    dsimp only
    rw [if_pos rfl, if_pos rfl, hb1, show L1.chain s1.idx = L1.small s1.idx by unfold Layout.chain; rw [hent.2, List.append_nil]]
    have hn : (pos + data.length - 1) / w1.io.sbat.blockSize + 1 - (L1.small s1.idx).length ≤ 64 := by
      rw [hsb, hss]
      omega
    generalize (pos + data.length - 1) / w1.io.sbat.blockSize + 1 - (L1.small s1.idx).length = n at hn
    have hm : n * ((w.io.sbat.data.length + n) / 7 + 2) ≤ 64 * ((2 ^ 26 + 64) / 7 + 2) := Nat.mul_le_mul hn (by omega)
    obtain ⟨w', c', h1⟩ := extendsSmall_ok n (w0 := w1) (w := w1) (k := 0) (m := w.io.sbat.data.length) (own := L1.big) (sown := L1.small) (i := s1.idx)
      (by rw [hbb, hbs]; decide) (by rw [hsb, hss]; decide) (by rw [hbb, hsb, hbs, hss]; decide) H1.big H1.small H1.miniFat H1.mini (Grew.refl w1)
      (by rw [hsb]; exact Nat.le_refl _) (by rw [hbb]; omega) (by omega)
    rw [h1]
    exact ⟨_, rfl⟩
  unfold WStream.writeAt
  by_cases h0 : data.length = 0
  · rw [if_pos h0]; exact ⟨_, rfl⟩
  rw [if_neg h0, if_pos hw, hu]
  rw [entryOf_some he, Res.bind_ok]
  have hsize := (H.entry s.idx e he hs).1
  by_cases hgt : pos + data.length > e.size
  · rw [if_pos hgt]
    have hx : e.size < w.io.header.threshold ↔ pos + data.length < w.io.header.threshold := by omega
    rcases setSize_holds H hw he hs hb (pos + data.length) with ⟨h1, h2, h3⟩ | ⟨w1, L1, h1, H1, h3, h4, h5, h6, _⟩
    · exact absurd (by rw [← hsize]; exact hx) h2
    · rw [h1, Res.bind_ok]
      dsimp only
      obtain ⟨e1, he1, hs1⟩ := h4.entry _ _ he
      rw [entryOf_some he1, Res.bind_ok]
      have hi1 : IsStream e1 := by
        obtain ⟨hs1, _⟩ := hs1
        rw [← hs1]
        exact hs
      obtain ⟨k1, k2⟩ := setSize_plain he hx h1
      refine blocks w1 L1 _ _ e1 H1 he1 hi1 rfl k1 k2 ?_
      have := (H1.entry s.idx e1 he1 hi1).1
      rw [this, h6]
      show (c.resize s.idx (pos + data.length)).size s.idx < _
      simp [Contents.resize, replaced]
      omega
  · rw [if_neg hgt]
    show ∃ r, (w.entryOf s.idx >>= fun e => s.writeBlocks w e pos data) = .ok r
    rw [entryOf_some he, Res.bind_ok]
    exact blocks w L c s e H he hs hb rfl rfl (by omega)

/-- Every request that does not cross the threshold is answered, as long as there is room. -/
theorem request_room {abi : Abi} (habi : abi = Abi.linux ∨ abi = Abi.windows) {S : Session} {v : PathView} {q : Request}
    (M : Session.MatchesPaths abi S v) (hs : v.Sensible abi q) (hr : Roomy S.w) (hlen : entriesAdded q ≤ 2 ^ 9)
    (ht : S.w.io.header.threshold ≤ 4096) (hbs : S.w.io.bbat.blockSize = 512) (hss : S.w.io.sbat.blockSize = 64)
    (hx : ¬ v.Crosses S.w.io.header.threshold q) : ∃ r, S.request abi q = .ok r := by
  have hr' := hr
  obtain ⟨r1, r2, r3⟩ := hr'
  have hf : Fits S.w := ⟨by omega, by omega⟩
  by_cases hq : v.Builds S.w.io.header.threshold q
  · obtain ⟨⟨u, kids, hM, hS, hF, hpos, hnone, hsome⟩, hstart, hcount⟩ := id M
    cases q with
    | openStream path create n =>
      obtain ⟨hc, _⟩ := hq
      subst hc
      obtain ⟨L, H, hL⟩ := hM.holds
      obtain ⟨⟨w, s⟩, h⟩ := stream_ok H hf (name := pathText path) (create := true) (size := n) (fun m =>
        entryCreate_room habi H hr (by rw [hbs]; decide) hS hstart hs.1 hM.writeable m hlen)
      unfold Session.request
      dsimp only
      rw [h]
      cases s <;> exact ⟨_, rfl⟩
    | list path => exact hq.elim
    | ask path => exact hq.elim
    | askDir path => exact hq.elim
    | use call =>
      cases call with
      | seek h pos => exact hq.elim
      | read h n => exact hq.elim
      | setSize h n => exact hq.elim
      | write h data =>
        obtain ⟨path, size, byte, hp1, hf1, hlt, _⟩ := hq
        suffices h : ∃ r, S.step (.write h data) = .ok r by
          obtain ⟨r, h⟩ := h
          unfold Session.request
          dsimp only
          rw [h]
          exact ⟨_, rfl⟩
        unfold Session.step
        dsimp only
        split
        · exact ⟨_, rfl⟩
        · rename_i s hst
          obtain ⟨L, c, e, path', H, he, hi, hb, hp, hpath, hfile⟩ := open_entry M hst
          rw [hp1] at hpath
          cases hpath
          rw [hf1] at hfile
          cases hfile
          unfold WStream.write
          rw [hp]
          obtain ⟨r, h⟩ := writeAt_small H hM.writeable he hi hb hlt ht hr hbs hss
          rw [h]
          exact ⟨_, rfl⟩
  · exact request_ok habi M hs hf hq (by unfold End; omega) hx

theorem roomy_fits {w : Writer} (h : Roomy w) : Fits w ∧ w.io.dirtree.length < End := by
  obtain ⟨h1, h2, h3⟩ := h
  exact ⟨⟨by omega, by omega⟩, by unfold End; omega⟩

/-- A whole program of such requests. -/
theorem serve_room {abi : Abi} (habi : abi = Abi.linux ∨ abi = Abi.windows) {t : Nat} (ht : t ≤ 4096) (rs : List Request) :
    ∀ {S : Session} {v : PathView}, Session.MatchesPaths abi S v → S.w.io.header.threshold = t → S.w.io.bbat.blockSize = 512 →
    S.w.io.sbat.blockSize = 64 →
    (∀ pre q post S' as, rs = pre ++ q :: post → S.serve abi pre = .ok (S', as) → Roomy S'.w ∧ entriesAdded q ≤ 2 ^ 9 ∧
      (v.finally pre as).Sensible abi q ∧ ¬ (v.finally pre as).Crosses t q) →
    ∃ S' as, S.serve abi rs = .ok (S', as) ∧ (Roomy S'.w → v.AllRight abi rs as) := by
  induction rs with
  | nil => intro S v M _ _ _ _; exact ⟨S, [], rfl, fun _ => trivial⟩
  | cons r rs ih =>
    intro S v M h1 h2 h3 hall
    obtain ⟨hr, hl, hs, hx⟩ := hall [] r rs S [] rfl rfl
    obtain ⟨⟨S1, a⟩, hreq⟩ := request_room habi M hs hr hl (by rw [h1]; exact ht) h2 h3 (by rw [h1]; exact hx)
    have hstep : ∀ {l S' as}, S1.serve abi l = .ok (S', as) → S.serve abi (r :: l) = .ok (S', a :: as) := by
      intro l S' as h
      show (S.request abi r >>= fun x => x.1.serve abi l >>= fun y => Res.ok (y.1, x.2 :: y.2)) = _
      rw [hreq, Res.bind_ok]
      dsimp only
      rw [h]
      rfl
    have hz := request_sized hreq
    cases rs with
    | nil => exact ⟨S1, [a], hstep rfl, fun hr1 => ⟨(request_matches habi M hs hreq (roomy_fits hr1).1 (roomy_fits hr1).2).1, trivial⟩⟩
    | cons r2 rs2 =>
      have hr1 := (hall [r] r2 rs2 S1 [a] rfl (hstep rfl)).1
      obtain ⟨hright, M1⟩ := request_matches habi M hs hreq (roomy_fits hr1).1 (roomy_fits hr1).2
      obtain ⟨S', as, h4, h5⟩ := ih M1 (by rw [request_threshold hreq]; exact h1) (by rw [hz.1]; exact h2) (by rw [hz.2]; exact h3)
        (fun pre q post S' as he hp => by
          have := hall (r :: pre) q post S' (a :: as) (by rw [he]; rfl) (hstep hp)
          exact this)
      exact ⟨S', a :: as, hstep h4, fun hr' => ⟨hright, h5 hr'⟩⟩

end Fileid.Pole
