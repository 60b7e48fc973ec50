import Verif.Lemmas.Pole

/-!
# Lemmas about opening a compound file
-/

namespace Fileid

open Spec Pole

theorem metaWords_spec (bs : Bytes) (num_bat : Nat) (ws : List Nat) :
    ∀ (s : Nat) (blocks : List Nat), s + 4 * ws.length ≤ bs.length →
      (∀ i w, ws[i]? = some w → Num bs (s + 4 * i) 4 w) → blocks.length ≤ num_bat →
      metaWords (bs.map some) num_bat s ws.length blocks = .ok (blocks ++ ws.take (num_bat - blocks.length)) := by
  induction ws with
  | nil => intro s blocks _ _ _; simp [metaWords]
  | cons w ws ih =>
    intro s blocks hl hn hb
    rw [List.length_cons, metaWords]
    by_cases h : blocks.length ≥ num_bat
    · rw [if_pos h, show num_bat - blocks.length = 0 by omega]
      simp
    · rw [if_neg h, readU32_num (i := s) (by simpa using hn 0 w rfl), Res.bind_ok, ih]
      · rw [show num_bat - blocks.length = (num_bat - (blocks ++ [w]).length) + 1 by simp; omega,
          List.take_succ_cons]
        simp
      · rw [List.length_cons] at hl; omega
      · intro i w' hw
        have := hn (i + 1) w' (by simpa using hw)
        rwa [show s + 4 * (i + 1) = s + 4 + 4 * i by omega] at this
      · simp; omega

theorem metaLoop_difat {file : Bytes} {ss k s need : Nat} {entries : List Nat} (h64 : ss < 2 ^ 64)
    (h : Difat file ss k s need entries) :
    ∀ (num_bat mbat_start : Nat) (first : Bool) (m : Mem) (blocks blocks' : List Nat), m.length = ss →
      blocks.length + need = num_bat →
      ((first = true ∧ s = mbat_start ∧ blocks' = blocks) ∨ (first = false ∧ blocks' = blocks ++ [s])) →
      metaLoop file ss num_bat mbat_start k first m blocks' = .ok (blocks ++ entries) := by
  induction h with
  | @last s need bs ws hs hw hn =>
    intro num_bat mbat_start first m blocks blocks' hm hb hf
    have e1 : (if first then mbat_start else (blocks'.getLast?).getD 0) = s ∧
        (if first then blocks' else blocks'.dropLast) = blocks := by
      rcases hf with ⟨rfl, rfl, rfl⟩ | ⟨rfl, rfl⟩ <;> simp
    rw [metaLoop]
    rw [e1.1, e1.2, loadBigBlock_sector hs hm h64, Res.bind_ok]
    have hwl : ss / 4 = ws.length := by have := hw.1; rw [hs.2] at this; omega
    rw [hwl, metaWords_spec bs num_bat ws 0 blocks (by rw [hw.1]; omega) (fun i w h => by simpa using hw.2 i w h)
      (by omega), Res.bind_ok, show num_bat - blocks.length = need by omega]
    rfl
  | @next k s next need bs es rest hs hw hn hd ih =>
    intro num_bat mbat_start first m blocks blocks' hm hb hf
    have e1 : (if first then mbat_start else (blocks'.getLast?).getD 0) = s ∧
        (if first then blocks' else blocks'.dropLast) = blocks := by
      rcases hf with ⟨rfl, rfl, rfl⟩ | ⟨rfl, rfl⟩ <;> simp
    rw [metaLoop]
    rw [e1.1, e1.2, loadBigBlock_sector hs hm h64, Res.bind_ok]
    have hwl : ss / 4 = (es ++ [next]).length := by have := hw.1; rw [hs.2] at this; omega
    rw [hwl, metaWords_spec bs num_bat (es ++ [next]) 0 blocks (by rw [hw.1]; omega)
      (fun i w h => by simpa using hw.2 i w h) (by omega), Res.bind_ok,
      List.take_of_length_le (by simp; omega), ← List.append_assoc]
    rw [ih num_bat mbat_start false _ (blocks ++ es) _ (by simp [hs.2]) (by simp; omega) (Or.inr ⟨rfl, rfl⟩)]
    simp

theorem actualLen_ok (bs : Bytes) (p nameLen : Nat) (hn : nameLen ≤ 64) (hp : p + 64 ≤ bs.length) :
    ∀ (f a : Nat), a % 2 = 0 → a ≤ 64 → 64 < a + 2 * f →
      ∃ r, actualLen (bs.map some) p nameLen f a = .ok r ∧ r ≤ 64 ∧ a ≤ r ∧ r % 2 = 0 := by
  intro f
  induction f with
  | zero => intro a h1 h2 h3; omega
  | succ f ih =>
    intro a h1 h2 h3
    rw [actualLen]
    by_cases h : a < nameLen
    · rw [if_pos h, mrd_some _ _ (by omega), Res.bind_ok]
      split
      · obtain ⟨r, e, h5, h6, h7⟩ := ih (a + 2) (by omega) (by omega) (by omega)
        exact ⟨r, e, h5, by omega, h7⟩
      · exact ⟨a, rfl, h2, Nat.le_refl _, h1⟩
    · rw [if_neg h]
      exact ⟨a, rfl, h2, Nat.le_refl _, h1⟩

theorem readId_some (bs : Bytes) (n : Nat) : ∀ off, off + n ≤ bs.length →
    readId (bs.map some) off n = .ok ((bs.drop off).take n) := by
  induction n with
  | zero => intro off _; rfl
  | succ n ih =>
    intro off hle
    rw [readId, mrd_some _ _ (by omega), Res.bind_ok, ih _ (by omega), Res.bind_ok,
      List.drop_eq_getElem_cons (i := off) (by omega), List.take_succ_cons]

theorem wchars_some (bs : Bytes) (w n : Nat) : ∀ p, p + w * n ≤ bs.length →
    ∃ us, wchars (bs.map some) w p n = .ok us ∧ us.length = n ∧
      ∀ k u, us[k]? = some u → Num bs (p + w * k) w u := by
  induction n with
  | zero => intro p _; exact ⟨[], rfl, rfl, fun k u h => by simp at h⟩
  | succ n ih =>
    intro p hp
    rw [Nat.mul_succ] at hp
    obtain ⟨us, h1, h2, h3⟩ := ih (p + w) (by omega)
    refine ⟨leVal ((bs.drop p).take w) :: us, ?_, by simp [h2], ?_⟩
    · rw [wchars, readId_some _ _ _ (by omega), Res.bind_ok, h1]
      rfl
    · intro k u hu
      cases k with
      | zero =>
        simp at hu
        subst hu
        simpa using num_of_le (c := bs) (off := p) (n := w) (by omega)
      | succ k =>
        have := h3 k u (by simpa using hu)
        rwa [Nat.mul_succ, show p + (w * k + w) = p + w + w * k by omega]

end Fileid
