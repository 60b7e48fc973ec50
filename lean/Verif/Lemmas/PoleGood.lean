import Verif.Lemmas.PoleWrite

/-!
# Lemmas about what a later flush needs: the sectors of the big table are apart, and what is changed is marked
-/

namespace Fileid.Pole

open Spec

/-- The sector is in use. -/
def Used (fat : List Nat) (x : Nat) : Prop := ∃ v, fat[x]? = some v ∧ v ≠ Avail

theorem linked_used {fat l : List Nat} (h : Linked fat l) {x : Nat} (hx : x ∈ l) : Used fat x := by
  obtain ⟨e, he, hlt⟩ := linked_get h x hx
  exact ⟨e, he, by unfold Avail; omega⟩

theorem free_not_used {fat : List Nat} {n : Nat} (hf : Free fat n) : ¬ Used fat n := by
  rintro ⟨v, hv, hne⟩
  rcases hf with hf | hf
  · rw [hf] at hv; cases hv; exact hne rfl
  · have := (List.getElem?_eq_some_iff.1 hv).1; omega

theorem used_set {t : AllocTable} {i v x : Nat} (hv : v ≠ Avail) : Used (t.set i v).data x ↔ (Used t.data x ∨ x = i) := by
  unfold Used
  rw [set_get]
  by_cases hx : x = i
  · rw [if_pos hx]
    exact ⟨fun _ => Or.inr hx, fun _ => ⟨v, rfl, hv⟩⟩
  · rw [if_neg hx]
    by_cases h2 : x < t.data.length
    · rw [if_pos h2]
      exact ⟨fun h => Or.inl h, fun h => h.resolve_right hx⟩
    · rw [if_neg h2]
      constructor
      · rintro ⟨u, hu, hne⟩
        split at hu
        · cases hu; exact absurd rfl hne
        · cases hu
      · rintro (⟨u, hu, _⟩ | h)
        · have := (List.getElem?_eq_some_iff.1 hu).1; omega
        · exact absurd h hx

theorem used_set_avail {t : AllocTable} {i x : Nat} : Used (t.set i Avail).data x ↔ (Used t.data x ∧ x ≠ i) := by
  unfold Used
  rw [set_get]
  by_cases hx : x = i
  · rw [if_pos hx]
    exact ⟨fun ⟨u, hu, hne⟩ => by cases hu; exact absurd rfl hne, fun h => absurd hx h.2⟩
  · rw [if_neg hx]
    by_cases h2 : x < t.data.length
    · rw [if_pos h2]
      exact ⟨fun h => ⟨h, hx⟩, fun h => h.1⟩
    · rw [if_neg h2]
      constructor
      · rintro ⟨u, hu, hne⟩
        split at hu
        · cases hu; exact absurd rfl hne
        · cases hu
      · rintro ⟨⟨u, hu, _⟩, _⟩
        have := (List.getElem?_eq_some_iff.1 hu).1; omega

/-- Other sectors in use keep their value. -/
theorem set_other {t : AllocTable} {i v x : Nat} (h : Used t.data x) (hx : x ≠ i) : (t.set i v).data[x]? = t.data[x]? := by
  obtain ⟨u, hu, _⟩ := h
  rw [set_get, if_neg hx, if_pos (List.getElem?_eq_some_iff.1 hu).1]

theorem set_mem {t : AllocTable} {i v u : Nat} (h : u ∈ (t.set i v).data) : u ∈ t.data ∨ u = v ∨ u = Avail := by
  rw [set_data] at h
  rcases List.mem_or_eq_of_mem_set h with h | h
  · rcases List.mem_append.1 h with h | h
    · exact Or.inl h
    · exact Or.inr (Or.inr (List.mem_replicate.1 h).2)
  · exact Or.inr (Or.inl h)

theorem mem_markDirty {dirty : List Nat} {unit i bs d : Nat} : d ∈ markDirty dirty unit i bs ↔ (d ∈ dirty ∨ d = i / (bs / unit)) := by
  unfold markDirty
  dsimp only
  split
  · rename_i h
    exact ⟨Or.inl, fun hd => hd.elim id fun e => e ▸ h⟩
  · simp

/-- The sectors of the big table. -/
def fatSectors (w : Writer) : List Nat := w.io.header.bb_blocks.take w.io.header.num_bat

/-- What the last flush left in the file: the file, the header, and for table, small table and directory the sectors and what is known
to stand there. -/
structure Snap where
  file : Bytes := []
  header : Option Header := none
  fat : List Nat := []
  bbat : Nat → Option Nat := fun _ => none
  mini : List Nat := []
  sbat : Nat → Option Nat := fun _ => none
  dirs : List Nat := []
  tree : Nat → Option DirEntry := fun _ => none
  sb : Option (List Nat) := none

/-- What a flush needs to know about the big table and the header: `pend` are the sectors in use that are not marked yet, `slack`
how much longer the table is than the sectors for it. -/
structure Core {ω : Type} (old : Snap) (w : Writer) (own : ω → List Nat) (pend : List Nat) (slack : Nat) : Prop where
  slots : w.io.header.bb_blocks.length = 109
  few : w.io.header.num_bat ≤ 109
  some_bat : 0 < w.io.header.num_bat
  headerDirty : w.headerDirty = true ∨ old.header = some w.io.header
  nodup : (fatSectors w).Nodup
  used : ∀ b ∈ fatSectors w, Used w.io.bbat.data b
  apart : ∀ b ∈ fatSectors w, ∀ o, b ∉ own o
  pendUsed : ∀ x ∈ pend, Used w.io.bbat.data x ∧ x ∉ fatSectors w
  cover : w.io.bbat.data.length ≤ 128 * w.io.header.num_bat + slack
  saved : ∀ x, Used w.io.bbat.data x → x ∈ fatSectors w ∨ (x / 128 ∈ w.bbatDirty ∨ old.bbat x = w.io.bbat.data[x]?) ∨ x ∈ pend
  values : ∀ v ∈ w.io.bbat.data, v < 2 ^ 32
  blockSize : w.io.bbat.blockSize = 512
  fixed : w.io.header.b_shift = 9 ∧ w.io.header.s_shift = 6 ∧ w.io.header.threshold = 4096 ∧ w.io.header.num_mbat = 0 ∧
    w.io.header.mbat_start = Eof ∧ w.io.header.id = pole_magic ∧ w.mbat_blocks = [] ∧ w.mbat_data = []
  slotValues : ∀ b ∈ w.io.header.bb_blocks, b < 2 ^ 32
  slotPrefix : old.fat <+: fatSectors w

/-- All that is in use is marked or was saved, and there are sectors enough for the table. -/
def Good {ω : Type} (old : Snap) (w : Writer) (own : ω → List Nat) : Prop := Core old w own [] 0

/-- What a step leaves so, as long as the header has slots for the sectors of the table. -/
structure Carries {ω : Type} (w : Writer) (own : ω → List Nat) (w' : Writer) (own' : ω → List Nat) : Prop where
  le : w.io.header.num_bat ≤ w'.io.header.num_bat
  good : ∀ {old : Snap}, w'.io.header.num_bat ≤ 109 → Good old w own → Good old w' own'

theorem Carries.refl {ω : Type} (w : Writer) (own : ω → List Nat) : Carries w own w own := ⟨Nat.le_refl _, fun _ h => h⟩

theorem Carries.trans {ω : Type} {w w1 w2 : Writer} {own own1 own2 : ω → List Nat} (h : Carries w own w1 own1)
    (h' : Carries w1 own1 w2 own2) : Carries w own w2 own2 :=
  ⟨Nat.le_trans h.le h'.le, fun hf hg => h'.good hf (h.good (Nat.le_trans h'.le hf) hg)⟩

/-- Nothing that `Core` looks at is changed. -/
theorem core_same {old : Snap} {ω : Type} {w w' : Writer} {own : ω → List Nat} {pend : List Nat} {slack : Nat} (h : Core old w own pend slack)
    (hb : w'.io.bbat = w.io.bbat) (hh : w'.io.header = w.io.header) (hd : w'.headerDirty = w.headerDirty)
    (hm : w'.bbatDirty = w.bbatDirty) (hx : w'.mbat_blocks = w.mbat_blocks) (hy : w'.mbat_data = w.mbat_data) : Core old w' own pend slack := by
  have hf : fatSectors w' = fatSectors w := by unfold fatSectors; rw [hh]
  constructor
  · rw [hh]; exact h.slots
  · rw [hh]; exact h.few
  · rw [hh]; exact h.some_bat
  · rw [hd, hh]; exact h.headerDirty
  · rw [hf]; exact h.nodup
  · rw [hf, hb]; exact h.used
  · rw [hf]; exact h.apart
  · rw [hf, hb]; exact h.pendUsed
  · rw [hb, hh]; exact h.cover
  · rw [hf, hb, hm]; exact h.saved
  · rw [hb]; exact h.values
  · rw [hb]; exact h.blockSize
  · rw [hh, hx, hy]; exact h.fixed
  · rw [hh]; exact h.slotValues
  · rw [hf]; exact h.slotPrefix

/-- The header changes in a field that does not matter. -/
theorem core_header {old : Snap} {ω : Type} {w : Writer} {own : ω → List Nat} {pend : List Nat} {slack : Nat} (h : Core old w own pend slack)
    (n : Nat) : Core old (w.setHeader { w.io.header with num_sbat := n }) own pend slack := by
  constructor
  · exact h.slots
  · exact h.few
  · exact h.some_bat
  · exact Or.inl rfl
  · exact h.nodup
  · exact h.used
  · exact h.apart
  · exact h.pendUsed
  · exact h.cover
  · exact h.saved
  · exact h.values
  · exact h.blockSize
  · exact h.fixed
  · exact h.slotValues
  · exact h.slotPrefix

theorem core_own {old : Snap} {ω ω' : Type} {w : Writer} {own : ω → List Nat} {own' : ω' → List Nat} {pend : List Nat} {slack : Nat}
    (h : Core old w own pend slack) (ho : ∀ b ∈ fatSectors w, ∀ o, b ∉ own' o) : Core old w own' pend slack :=
  ⟨h.slots, h.few, h.some_bat, h.headerDirty, h.nodup, h.used, ho, h.pendUsed, h.cover, h.saved, h.values, h.blockSize, h.fixed, h.slotValues, h.slotPrefix⟩

theorem core_markBig {old : Snap} {ω : Type} {w : Writer} {own : ω → List Nat} {pend : List Nat} {slack : Nat} (h : Core old w own pend slack) (i : Nat)
    {pend' : List Nat} (hp : ∀ x ∈ pend, x = i ∨ x ∈ pend') (hs : ∀ x ∈ pend', x ∈ pend) : Core old (w.markBig i) own pend' slack := by
  refine ⟨h.slots, h.few, h.some_bat, h.headerDirty, h.nodup, h.used, h.apart, fun x hx => h.pendUsed x (hs x hx), h.cover, fun x hx => ?_,
    h.values, h.blockSize, h.fixed, h.slotValues, h.slotPrefix⟩
  have hm : ∀ d, d ∈ (w.markBig i).bbatDirty ↔ (d ∈ w.bbatDirty ∨ d = i / 128) := fun d => by
    show d ∈ markDirty _ _ _ _ ↔ _
    rw [mem_markDirty, h.blockSize]
  rcases h.saved x hx with h1 | h1 | h1
  · exact Or.inl h1
  · exact Or.inr (Or.inl (h1.imp (fun h1 => (hm _).2 (Or.inl h1)) id))
  · rcases hp x h1 with h2 | h2
    · exact Or.inr (Or.inl (Or.inl ((hm _).2 (Or.inr (by rw [h2])))))
    · exact Or.inr (Or.inr h2)

/-- A used sector gets another value. -/
theorem core_set_used {old : Snap} {ω : Type} {w : Writer} {own : ω → List Nat} {pend : List Nat} {slack : Nat} (h : Core old w own pend slack)
    {i v : Nat} (hi : Used w.io.bbat.data i) (hb : i ∉ fatSectors w) (hv : v < Avail) : Core old (w.setBig i v) own (i :: pend) slack := by
  have hu : ∀ x, Used (w.setBig i v).io.bbat.data x ↔ Used w.io.bbat.data x := fun x => by
    show Used (w.io.bbat.set i v).data x ↔ _
    rw [used_set (by omega)]
    exact ⟨fun h => h.elim id fun e => e ▸ hi, Or.inl⟩
  have hlen : (w.io.bbat.set i v).data.length = w.io.bbat.data.length := by
    rw [set_length]
    obtain ⟨u, hu, _⟩ := hi
    have := (List.getElem?_eq_some_iff.1 hu).1
    omega
  refine ⟨h.slots, h.few, h.some_bat, h.headerDirty, h.nodup, fun b hb => (hu b).2 (h.used b hb), h.apart,
    fun x hx => ?_, by show (w.io.bbat.set i v).data.length ≤ _; rw [hlen]; exact h.cover, fun x hx => ?_, fun u hu' => ?_, (set_blockSize _ _ _).trans h.blockSize, h.fixed, h.slotValues, h.slotPrefix⟩
  · rcases List.mem_cons.1 hx with hx | hx
    · subst hx
      exact ⟨(hu x).2 hi, hb⟩
    · exact ⟨(hu x).2 (h.pendUsed x hx).1, (h.pendUsed x hx).2⟩
  · by_cases hxi : x = i
    · exact Or.inr (Or.inr (by rw [hxi]; exact List.mem_cons_self))
    · have h0 := (hu x).1 hx
      have : (w.setBig i v).io.bbat.data[x]? = w.io.bbat.data[x]? := set_other h0 hxi
      rw [this]
      rcases h.saved x h0 with h1 | h1 | h1
      · exact Or.inl h1
      · exact Or.inr (Or.inl h1)
      · exact Or.inr (Or.inr (List.mem_cons_of_mem _ h1))
  rcases set_mem hu' with h1 | h1 | h1
  · exact h.values u h1
  · rw [h1]; unfold Avail at hv; omega
  · rw [h1]; decide

/-- A free sector is used. -/
theorem core_set_free {old : Snap} {ω : Type} {w : Writer} {own : ω → List Nat} {pend : List Nat} (h : Core old w own pend 0)
    {i v : Nat} (hi : Free w.io.bbat.data i) (hv : v < Avail) : Core old (w.setBig i v) own (i :: pend) 1 := by
  have hu : ∀ x, Used (w.setBig i v).io.bbat.data x ↔ (Used w.io.bbat.data x ∨ x = i) := fun x => by
    show Used (w.io.bbat.set i v).data x ↔ _
    rw [used_set (by omega)]
  have hle : i ≤ w.io.bbat.data.length := by
    rcases hi with h | h
    · have := (List.getElem?_eq_some_iff.1 h).1; omega
    · omega
  refine ⟨h.slots, h.few, h.some_bat, h.headerDirty, h.nodup, fun b hb => (hu b).2 (Or.inl (h.used b hb)), h.apart, ?_, ?_, ?_, ?_,
    (set_blockSize _ _ _).trans h.blockSize, h.fixed, h.slotValues, h.slotPrefix⟩
  · intro x hx
    rcases List.mem_cons.1 hx with hx | hx
    · subst hx
      exact ⟨(hu x).2 (Or.inr rfl), fun hm => free_not_used hi (h.used x hm)⟩
    · exact ⟨(hu x).2 (Or.inl (h.pendUsed x hx).1), (h.pendUsed x hx).2⟩
  · show (w.io.bbat.set i v).data.length ≤ 128 * w.io.header.num_bat + 1
    rw [set_length]
    have := h.cover
    omega
  · intro x hx
    rcases (hu x).1 hx with hx | hx
    · have : (w.setBig i v).io.bbat.data[x]? = w.io.bbat.data[x]? := set_other hx fun he => free_not_used hi (he ▸ hx)
      rw [this]
      rcases h.saved x hx with h1 | h1 | h1
      · exact Or.inl h1
      · exact Or.inr (Or.inl h1)
      · exact Or.inr (Or.inr (List.mem_cons_of_mem _ h1))
    · exact Or.inr (Or.inr (by rw [hx]; exact List.mem_cons_self))
  · intro u hu'
    rcases set_mem hu' with h1 | h1 | h1
    · exact h.values u h1
    · rw [h1]; unfold Avail at hv; omega
    · rw [h1]; decide

theorem core_unused {old : Snap} {ω : Type} {w : Writer} {own : ω → List Nat} {pend : List Nat} {slack : Nat} (h : Core old w own pend slack) :
    Core old w.unusedBig.2 own pend slack := by
  have hd := unusedBig_data w
  have hb : w.unusedBig.2.io.bbat.blockSize = w.io.bbat.blockSize := (aside_unusedBig w).blockSize
  constructor
  · exact h.slots
  · exact h.few
  · exact h.some_bat
  · exact h.headerDirty
  · exact h.nodup
  · rw [hd]; exact h.used
  · exact h.apart
  · rw [hd]; exact h.pendUsed
  · rw [hd]; exact h.cover
  · rw [hd]; exact h.saved
  · rw [hd]; exact h.values
  · rw [hb]; exact h.blockSize
  · exact h.fixed
  · exact h.slotValues
  · exact h.slotPrefix

theorem addbbatBlock_num (w : Writer) : w.addbbatBlock.io.header.num_bat = w.io.header.num_bat + 1 := by
  unfold Writer.addbbatBlock
  dsimp only
  have h1 : (w.unusedBig.2.setBig w.unusedBig.1 MetaBat).io.header = w.io.header := rfl
  rw [h1]
  split
  · rfl
  · split <;> rfl

theorem addbbatBlocks_num (n : Nat) : ∀ w : Writer, (Writer.addbbatBlocks n w).io.header.num_bat = w.io.header.num_bat + n := by
  induction n with
  | zero => exact fun w => rfl
  | succ n ih =>
    intro w
    show (Writer.addbbatBlocks n w.addbbatBlock).io.header.num_bat = _
    rw [ih, addbbatBlock_num]
    omega

/-- A further sector for the table. -/
theorem core_addbbatBlock {old : Snap} {ω : Type} {w : Writer} {own : ω → List Nat} {pend : List Nat} {slack : Nat} (h : Core old w own pend slack) (hs : slack ≤ 1)
    (ho : Owned w.io.bbat.data own) (hn : w.io.header.num_bat < 109) : Core old w.addbbatBlock own pend 0 := by
  have hfree := unusedBig_free w
  have h0 := core_unused h
  have hlen0 := unusedBig_data w
  unfold Writer.addbbatBlock
  dsimp only
  have hh : (w.unusedBig.2.setBig w.unusedBig.1 MetaBat).io.header = w.io.header := rfl
  rw [hh, if_pos hn]
  generalize hnew : w.unusedBig.1 = new at hfree
  have hle : new ≤ w.io.bbat.data.length := by
    rcases hfree with h | h
    · have := (List.getElem?_eq_some_iff.1 h).1; omega
    · omega
  have hu : ∀ x, Used (w.unusedBig.2.io.bbat.set new MetaBat).data x ↔ (Used w.io.bbat.data x ∨ x = new) := fun x => by
    rw [used_set (by decide), hlen0]
  generalize hw' : (w.unusedBig.2.setBig new MetaBat).setHeader
    { w.io.header with bb_blocks := w.io.header.bb_blocks.set w.io.header.num_bat new, num_bat := w.io.header.num_bat + 1 } = w'
  have hb' : w'.io.bbat = w.unusedBig.2.io.bbat.set new MetaBat := by rw [← hw']; rfl
  have hfs : fatSectors w' = fatSectors w ++ [new] := by
    rw [← hw']
    unfold fatSectors
    show (w.io.header.bb_blocks.set w.io.header.num_bat new).take (w.io.header.num_bat + 1) = _
    have hlt : w.io.header.num_bat < w.io.header.bb_blocks.length := by rw [h.slots]; exact hn
    rw [List.take_succ_eq_append_getElem (by rw [List.length_set]; exact hlt), List.getElem_set_self, List.take_set_of_le (Nat.le_refl _)]
  have hnot : ∀ x, Used w.io.bbat.data x → x ≠ new := fun x hx he => free_not_used hfree (he ▸ hx)
  constructor
  · rw [← hw']; show (w.io.header.bb_blocks.set _ _).length = _; rw [List.length_set]; exact h.slots
  · rw [← hw']; exact hn
  · rw [← hw']; exact Nat.succ_pos _
  · rw [← hw']; exact Or.inl rfl
  · rw [hfs, List.nodup_append]
    refine ⟨h.nodup, by simp, fun a ha b hb => ?_⟩
    rw [List.mem_singleton.1 hb]
    exact hnot a (h.used a ha)
  · intro b hb
    rw [hfs] at hb
    rw [hb', hu]
    rcases List.mem_append.1 hb with hb | hb
    · exact Or.inl (h.used b hb)
    · exact Or.inr (List.mem_singleton.1 hb)
  · intro b hb o hm
    rw [hfs] at hb
    rcases List.mem_append.1 hb with hb | hb
    · exact h.apart b hb o hm
    · exact hnot b (linked_used (ho.linked o (List.ne_nil_of_mem hm)) hm) (List.mem_singleton.1 hb)
  · intro x hx
    obtain ⟨h1, h2⟩ := h.pendUsed x hx
    refine ⟨by rw [hb', hu]; exact Or.inl h1, fun hm => ?_⟩
    rw [hfs] at hm
    rcases List.mem_append.1 hm with hm | hm
    · exact h2 hm
    · exact hnot x h1 (List.mem_singleton.1 hm)
  · have hc := h.cover
    rw [hb', set_length, hlen0, ← hw']
    show _ ≤ 128 * (w.io.header.num_bat + 1) + 0
    omega
  · intro x hx
    rw [hfs]
    rw [hb', hu] at hx
    have hd : w'.bbatDirty = w.bbatDirty := by rw [← hw']; rfl
    rw [hd]
    rcases hx with hx | hx
    · have hsame : w'.io.bbat.data[x]? = w.io.bbat.data[x]? := by
        rw [hb', set_other (by rw [hlen0]; exact hx) (hnot x hx), hlen0]
      rw [hsame]
      rcases h.saved x hx with h1 | h1 | h1
      · exact Or.inl (List.mem_append_left _ h1)
      · exact Or.inr (Or.inl h1)
      · exact Or.inr (Or.inr h1)
    · exact Or.inl (by rw [hx]; simp)
  · intro u hu'
    rw [hb'] at hu'
    rcases set_mem hu' with h1 | h1 | h1
    · rw [hlen0] at h1; exact h.values u h1
    · rw [h1]; decide
    · rw [h1]; decide
  · rw [hb', set_blockSize]; exact h0.blockSize
  · rw [← hw']; exact h.fixed
  · rw [← hw']
    intro b hb
    rcases List.mem_or_eq_of_mem_set hb with hb | hb
    · exact h.slotValues b hb
    · rw [hb]
      have hc := h.cover
      have hf := h.few
      omega
  · rw [hfs]
    exact h.slotPrefix.trans (List.prefix_append _ _)

theorem core_addbbatBlocks {old : Snap} {ω : Type} (n : Nat) : ∀ {w : Writer} {own : ω → List Nat} {pend : List Nat} {slack : Nat}, Core old w own pend slack → slack ≤ 1 →
    Owned w.io.bbat.data own → w.io.header.num_bat + n ≤ 109 → Core old (Writer.addbbatBlocks n w) own pend (if n = 0 then slack else 0) := by
  induction n with
  | zero => intro w own pend slack h _ _ _; exact h
  | succ n ih =>
    intro w own pend slack h hs ho hn
    have h1 := core_addbbatBlock h hs ho (by omega)
    have h2 := ih h1 (by omega) (owned_kept ho (addbbatBlock_spec w).2) (by rw [addbbatBlock_num]; omega)
    rw [if_neg (by omega)]
    have : (if n = 0 then 0 else 0) = 0 := by split <;> rfl
    rw [this] at h2
    exact h2

theorem core_coverBig {old : Snap} {ω : Type} {w : Writer} {own : ω → List Nat} {pend : List Nat} (h : Core old w own pend 1)
    (ho : Owned w.io.bbat.data own) {new : Nat} (hf : (w.coverBig new).io.header.num_bat ≤ 109)
    (hlen : w.io.bbat.data.length ≤ 128 * w.io.header.num_bat ∨ w.io.bbat.data.length = new + 1) : Core old (w.coverBig new) own pend 0 := by
  unfold Writer.coverBig at hf ⊢
  rw [addbbatBlocks_num] at hf
  rw [h.blockSize] at hf ⊢
  have h1 := core_addbbatBlocks (new / (512 / 8) + 1 - w.io.header.num_bat) h (Nat.le_refl _) ho hf
  by_cases h0 : new / (512 / 8) + 1 - w.io.header.num_bat = 0
  · rw [h0] at h1 ⊢
    refine ⟨h.slots, h.few, h.some_bat, h.headerDirty, h.nodup, h.used, h.apart, h.pendUsed, ?_, h.saved, h.values, h.blockSize, h.fixed, h.slotValues, h.slotPrefix⟩
    show w.io.bbat.data.length ≤ 128 * w.io.header.num_bat + 0
    omega
  · rw [if_neg h0] at h1
    exact h1

theorem coverBig_num (w : Writer) (n : Nat) : w.io.header.num_bat ≤ (w.coverBig n).io.header.num_bat := by
  unfold Writer.coverBig
  rw [addbbatBlocks_num]
  omega

/-- `ExtendFile` on the chain of one owner. -/
theorem extend_carries {ω : Type} [DecidableEq ω] (w : Writer) (own : ω → List Nat) (ho : Owned w.io.bbat.data own) (k : ω) :
    Carries w own (w.extend (own k)).1 (replaced own k (own k ++ [w.unusedBig.1])) := by
  have hle : w.io.header.num_bat ≤ (w.extend (own k)).1.io.header.num_bat := by
    unfold Writer.extend
    dsimp only
    have := coverBig_num (w.unusedBig.2.setBig w.unusedBig.1 Eof) w.unusedBig.1
    split <;> exact this
  refine ⟨hle, fun hf hg => ?_⟩
  revert hf
  unfold Writer.extend
  dsimp only
  have hfree := unusedBig_free w
  have c0 := core_unused hg
  generalize hn : w.unusedBig.1 = new at hfree
  have c1 := core_set_free (v := Eof) c0 (by rw [unusedBig_data]; exact hfree) (by decide)
  have k1 : Kept w.io.bbat.data (w.unusedBig.2.setBig new Eof).io.bbat.data := by
    have := kept_set (t := w.unusedBig.2.io.bbat) (v := Eof) (by rw [unusedBig_data]; exact hfree)
    rw [unusedBig_data] at this
    exact this
  have hlen1 : (w.unusedBig.2.setBig new Eof).io.bbat.data.length ≤ 128 * (w.unusedBig.2.setBig new Eof).io.header.num_bat ∨
      (w.unusedBig.2.setBig new Eof).io.bbat.data.length = new + 1 := by
    have hc := hg.cover
    have e1 : (w.unusedBig.2.setBig new Eof).io.bbat.data.length = max w.unusedBig.2.io.bbat.data.length (new + 1) := set_length _ _ _
    have e2 : (w.unusedBig.2.setBig new Eof).io.header.num_bat = w.io.header.num_bat := rfl
    rw [unusedBig_data] at e1
    rw [e1, e2]
    omega
  generalize w.unusedBig.2.setBig new Eof = w1 at c1 k1 hlen1
  have o1 := owned_kept ho k1
  intro hf
  have hf2 : (w1.coverBig new).io.header.num_bat ≤ 109 := by
    cases hl : (own k).getLast? with
    | none => simp only [hl] at hf; exact hf
    | some last => simp only [hl] at hf; exact hf
  have c2 := core_coverBig c1 o1 hf2 hlen1
  have k2 := (addbbatBlocks_spec (new / (w1.io.bbat.blockSize / 8) + 1 - w1.io.header.num_bat) w1).2
  rw [show Writer.addbbatBlocks (new / (w1.io.bbat.blockSize / 8) + 1 - w1.io.header.num_bat) w1 = w1.coverBig new from rfl] at k2
  generalize w1.coverBig new = w2 at c2 k2 hf
  have hnb : ∀ b ∈ fatSectors w2, b ≠ new := fun b hb he => (c2.pendUsed new (by simp)).2 (he ▸ hb)
  have c3 := core_markBig c2 new (pend' := []) (fun x hx => Or.inl (by simpa using hx)) (by simp)
  have happ : ∀ b ∈ fatSectors w2, ∀ o, b ∉ replaced own k (own k ++ [new]) o := by
    intro b hb o hm
    unfold replaced at hm
    split at hm
    · rcases List.mem_append.1 hm with hm | hm
      · exact c2.apart b hb k hm
      · exact hnb b hb (List.mem_singleton.1 hm)
    · exact c2.apart b hb o hm
  cases hl : (own k).getLast? with
  | none => exact core_own c3 happ
  | some last =>
    dsimp only
    have hm : last ∈ own k := List.mem_of_getLast? hl
    have hu : Used (w2.markBig new).io.bbat.data last := linked_used ((owned_kept o1 k2).linked k (List.ne_nil_of_mem hm)) hm
    have hnew : new < Avail := by
      have h1 := (c2.pendUsed new (by simp)).1
      obtain ⟨u, hu, _⟩ := h1
      have h2 := (List.getElem?_eq_some_iff.1 hu).1
      have h3 := c2.cover
      have h4 := c2.few
      unfold Avail
      omega
    have c4 := core_set_used c3 hu (fun hb => c2.apart last hb k hm) hnew
    have c5 := core_markBig c4 last (pend' := []) (by simp) (by simp)
    exact core_own c5 happ

/-- `ExtendFile` several times. -/
theorem extends_carries {ω : Type} [DecidableEq ω] (n : Nat) : ∀ (w : Writer) (own : ω → List Nat),
    Owned w.io.bbat.data own → ∀ (k : ω), (Writer.extends n w (own k)).1.io.bbat.data.length ≤ 0xfffffffc →
    ∀ extra, (Writer.extends n w (own k)).2 = own k ++ extra →
    Carries w own (Writer.extends n w (own k)).1 (replaced own k (own k ++ extra)) := by
  induction n with
  | zero =>
    intro w own h k _ extra he
    have : extra = [] := by simpa [Writer.extends] using he
    subst this
    rw [List.append_nil, replaced_same]
    exact Carries.refl w own
  | succ n ih =>
    intro w own h k hsz extra he
    have hsz1 : (w.extend (own k)).1.io.bbat.data.length ≤ 0xfffffffc := Nat.le_trans (extends_mono n _ _) hsz
    obtain ⟨new, h1, h2, h3⟩ := extend_spec w own h k hsz1
    have c1 := extend_carries w own h k
    have hnew : w.unusedBig.1 = new := by
      have : (w.extend (own k)).2 = own k ++ [w.unusedBig.1] := rfl
      rw [h1] at this
      simpa using this.symm
    rw [hnew] at c1
    have hstep : Writer.extends (n + 1) w (own k) = Writer.extends n (w.extend (own k)).1
        (replaced own k (own k ++ [new]) k) := by
      rw [replaced_self, ← h1]
      rfl
    rw [hstep] at hsz he ⊢
    obtain ⟨extra', e1, _, _, _⟩ := extends_spec n _ _ h3 k hsz
    have c2 := ih _ _ h3 k hsz extra' e1
    rw [e1, replaced_self, List.append_assoc] at he
    have hex : extra = [new] ++ extra' := (List.append_cancel_left he).symm
    subst hex
    rw [replaced_replaced, replaced_self, List.append_assoc] at c2
    rw [replaced_self]
    exact c1.trans c2

/-! ## The small table and the directory -/

theorem addbbatBlock_numSmall (w : Writer) : w.addbbatBlock.io.header.num_sbat = w.io.header.num_sbat := by
  unfold Writer.addbbatBlock
  dsimp only
  have h1 : (w.unusedBig.2.setBig w.unusedBig.1 MetaBat).io.header = w.io.header := rfl
  rw [h1]
  split
  · rfl
  · split <;> rfl

theorem addbbatBlocks_numSmall (n : Nat) : ∀ w : Writer, (Writer.addbbatBlocks n w).io.header.num_sbat = w.io.header.num_sbat := by
  induction n with
  | zero => exact fun w => rfl
  | succ n ih => exact fun w => (ih w.addbbatBlock).trans (addbbatBlock_numSmall w)

theorem extend_numSmall (w : Writer) (c : List Nat) : (w.extend c).1.io.header.num_sbat = w.io.header.num_sbat := by
  unfold Writer.extend
  dsimp only
  have := addbbatBlocks_numSmall (w.unusedBig.1 / ((w.unusedBig.2.setBig w.unusedBig.1 Eof).io.bbat.blockSize / 8) + 1 -
    (w.unusedBig.2.setBig w.unusedBig.1 Eof).io.header.num_bat) (w.unusedBig.2.setBig w.unusedBig.1 Eof)
  split <;> exact this

theorem extends_numSmall (n : Nat) : ∀ (w : Writer) (c : List Nat), (Writer.extends n w c).1.io.header.num_sbat = w.io.header.num_sbat := by
  induction n with
  | zero => exact fun w c => rfl
  | succ n ih => exact fun w c => (ih _ _).trans (extend_numSmall w c)

/-- There are sectors enough for the small table, and what is in use is marked or was saved. -/
structure SmallOk (old : Snap) (w : Writer) (own : Owner → List Nat) : Prop where
  count : w.io.header.num_sbat = (own .miniFat).length
  some_sbat : own .miniFat ≠ []
  cover : w.io.sbat.data.length ≤ 128 * w.io.header.num_sbat
  saved : ∀ x, Used w.io.sbat.data x → x / 128 ∈ w.sbatDirty ∨ old.sbat x = w.io.sbat.data[x]?
  values : ∀ v ∈ w.io.sbat.data, v < 2 ^ 32
  blockSize : w.io.sbat.blockSize = 64
  slotPrefix : old.mini <+: own .miniFat

/-- There are sectors enough for the directory, every entry is marked or was saved and its numbers fit into 32 bits. -/
structure DirOk (old : Snap) (w : Writer) (own : Owner → List Nat) : Prop where
  cover : w.io.dirtree.length ≤ 4 * (own .dir).length
  some_entry : 0 < w.io.dirtree.length
  saved : ∀ i, i < w.io.dirtree.length → i / 4 ∈ w.dirDirty ∨ old.tree i = w.io.dirtree[i]?
  root : 0 ∈ w.dirDirty ∨ old.sb = some w.io.sb_blocks
  inside : ∀ d ∈ w.dirDirty, 4 * d < w.io.dirtree.length
  values : ∀ e ∈ w.io.dirtree, e.start < 2 ^ 32 ∧ e.prev < 2 ^ 32 ∧ e.next < 2 ^ 32 ∧ e.child < 2 ^ 32
  slotPrefix : old.dirs <+: own .dir

/-- Address `a` lies in the header or in one of the sectors. -/
def InSystem (sectors : List Nat) (a : Nat) : Prop := a < 512 ∨ ∃ b ∈ sectors, 512 * (b + 1) ≤ a ∧ a < 512 * (b + 2)

/-- Header and sectors of the tables are as the last flush left them. -/
def KeptFile (old : Snap) (file : Bytes) : Prop :=
  ∀ a v, InSystem (old.fat ++ old.mini ++ old.dirs) a → old.file[a]? = some v → file[a]? = some v

/-- Everything a flush needs. -/
structure Ready (old : Snap) (w : Writer) (own : Owner → List Nat) : Prop where
  big : Good old w own
  small : SmallOk old w own
  dir : DirOk old w own
  file : KeptFile old w.io.file

/-- What a step leaves so, as long as the header has slots for the sectors of the table. -/
structure Readies (w : Writer) (own : Owner → List Nat) (w' : Writer) (own' : Owner → List Nat) : Prop where
  le : w.io.header.num_bat ≤ w'.io.header.num_bat
  ready : ∀ {old : Snap}, w'.io.header.num_bat ≤ 109 → Ready old w own → Ready old w' own'

theorem Readies.refl (w : Writer) (own : Owner → List Nat) : Readies w own w own := ⟨Nat.le_refl _, fun _ h => h⟩

theorem Readies.trans {w w1 w2 : Writer} {own own1 own2 : Owner → List Nat} (h : Readies w own w1 own1)
    (h' : Readies w1 own1 w2 own2) : Readies w own w2 own2 :=
  ⟨Nat.le_trans h.le h'.le, fun hf hg => h'.ready hf (h.ready (Nat.le_trans h'.le hf) hg)⟩

theorem core_mem {old : Snap} {ω : Type} {w : Writer} {own own' : ω → List Nat} {pend : List Nat} {slack : Nat}
    (h : Core old w own pend slack) (ho : ∀ o, ∀ x ∈ own' o, x ∈ own o) : Core old w own' pend slack :=
  core_own h fun b hb o hm => h.apart b hb o (ho o b hm)

/-- Where only things `Good` looks at changed. -/
theorem small_aside {old : Snap} {w w' : Writer} {own own' : Owner → List Nat} (h : SmallOk old w own) (ha : Aside w w')
    (hn : w'.io.header.num_sbat = w.io.header.num_sbat) (ho : own' .miniFat = own .miniFat) : SmallOk old w' own' := by
  constructor
  · rw [hn, ho]; exact h.count
  · rw [ho]; exact h.some_sbat
  · rw [ha.sbat, hn]; exact h.cover
  · rw [ha.sbat, ha.sbatDirty]; exact h.saved
  · rw [ha.sbat]; exact h.values
  · rw [ha.sbat]; exact h.blockSize
  · rw [ho]; exact h.slotPrefix

theorem dir_same {old : Snap} {w w' : Writer} {own own' : Owner → List Nat} (h : DirOk old w own) (hd : w'.io.dirtree = w.io.dirtree)
    (hm : ∀ d, d ∈ w'.dirDirty ↔ d ∈ w.dirDirty ∨ (d = 0 ∧ d ∈ w'.dirDirty)) (ho : own' .dir = own .dir)
    (hb : w'.io.sb_blocks = w.io.sb_blocks ∨ 0 ∈ w'.dirDirty) : DirOk old w' own' := by
  constructor
  · rw [hd, ho]; exact h.cover
  · rw [hd]; exact h.some_entry
  · rw [hd]; exact fun i hi => (h.saved i hi).imp (fun h1 => (hm _).2 (Or.inl h1)) id
  · rcases hb with hb | hb
    · rw [hb]; exact h.root.imp (fun h1 => (hm _).2 (Or.inl h1)) id
    · exact Or.inl hb
  · rw [hd]
    intro d hx
    rcases (hm d).1 hx with h1 | h1
    · exact h.inside d h1
    · rw [h1.1]; exact h.some_entry
  · rw [hd]; exact h.values
  · rw [ho]; exact h.slotPrefix

/-- A table gets another value for a used sector, or a free one is used: the small table. -/
theorem small_set {t : AllocTable} {i v x : Nat} (hv : v ≠ Avail) (h : Used (t.set i v).data x) : Used t.data x ∨ x = i :=
  (used_set hv).1 h

/-- An entry is changed in place. -/
theorem dir_setEntry {old : Snap} {w : Writer} {own own' : Owner → List Nat} (h : DirOk old w own) (hbs : w.io.bbat.blockSize = 512) {i : Nat} {e : DirEntry}
    (hi : i < w.io.dirtree.length) (he : e.start < 2 ^ 32 ∧ e.prev < 2 ^ 32 ∧ e.next < 2 ^ 32 ∧ e.child < 2 ^ 32)
    (ho : own' .dir = own .dir) : DirOk old (w.setEntry i e) own' := by
  have hd : (w.setEntry i e).io.dirtree = w.io.dirtree.set i e := rfl
  have hm : ∀ d, d ∈ (w.setEntry i e).dirDirty ↔ (d ∈ w.dirDirty ∨ d = i / 4) := fun d => by
    show d ∈ markDirty _ _ _ _ ↔ _
    rw [mem_markDirty]
    show _ ∨ d = i / (w.io.bbat.blockSize / 128) ↔ _
    rw [hbs]
  constructor
  · rw [hd, List.length_set, ho]; exact h.cover
  · rw [hd, List.length_set]; exact h.some_entry
  · rw [hd, List.length_set]
    intro j hj
    by_cases hij : j = i
    · exact Or.inl ((hm _).2 (Or.inr (by rw [hij])))
    · rw [List.getElem?_set_ne (fun h => hij h.symm)]
      exact (h.saved j hj).imp (fun h1 => (hm _).2 (Or.inl h1)) id
  · exact h.root.imp (fun h1 => (hm _).2 (Or.inl h1)) id
  · rw [hd, List.length_set]
    intro d hx
    rcases (hm d).1 hx with h1 | h1
    · exact h.inside d h1
    · rw [h1]; omega
  · rw [hd]
    intro x hx
    rcases List.mem_or_eq_of_mem_set hx with h1 | h1
    · exact h.values x h1
    · rw [h1]; exact he
  · rw [ho]; exact h.slotPrefix

theorem ready_file {old : Snap} {w : Writer} {own : Owner → List Nat} (h : Ready old w own) (f : Bytes)
    (hf : ∀ a v, InSystem (fatSectors w ++ own .miniFat ++ own .dir) a → w.io.file[a]? = some v → f[a]? = some v) :
    Ready old { w with io := { w.io with file := f } } own :=
  ⟨core_same h.big rfl rfl rfl rfl rfl rfl,
    ⟨h.small.count, h.small.some_sbat, h.small.cover, h.small.saved, h.small.values, h.small.blockSize, h.small.slotPrefix⟩,
    dir_same h.dir rfl (fun d => ⟨Or.inl, fun h => h.elim id fun h => h.2⟩) rfl (Or.inl rfl), fun a v ha hv => hf a v (by
      rcases ha with ha | ⟨b, hb, ha⟩
      · exact Or.inl ha
      · refine Or.inr ⟨b, ?_, ha⟩
        simp only [List.mem_append] at hb ⊢
        rcases hb with (hb | hb) | hb
        · exact Or.inl (Or.inl (h.big.slotPrefix.subset hb))
        · exact Or.inl (Or.inr (h.small.slotPrefix.subset hb))
        · exact Or.inr (h.dir.slotPrefix.subset hb)) (h.file a v ha hv)⟩

theorem ready_setEntry {old : Snap} {w : Writer} {own : Owner → List Nat} (h : Ready old w own) {i : Nat} {e : DirEntry}
    (hi : i < w.io.dirtree.length) (he : e.start < 2 ^ 32 ∧ e.prev < 2 ^ 32 ∧ e.next < 2 ^ 32 ∧ e.child < 2 ^ 32) :
    Ready old (w.setEntry i e) own :=
  ⟨core_same h.big rfl rfl rfl rfl rfl rfl,
    ⟨h.small.count, h.small.some_sbat, h.small.cover, h.small.saved, h.small.values, h.small.blockSize, h.small.slotPrefix⟩,
    dir_setEntry h.dir h.big.blockSize hi he rfl, h.file⟩

/-- A sector somebody uses is given up. -/
theorem core_free {old : Snap} {ω : Type} [DecidableEq ω] {w : Writer} {own : ω → List Nat} {pend : List Nat} {slack : Nat} (h : Core old w own pend slack) {i : Nat}
    (hi : i < w.io.bbat.data.length) (hb : i ∉ fatSectors w) (hp : i ∉ pend) : Core old (w.setBig i Avail) own pend slack := by
  have hu : ∀ x, Used (w.setBig i Avail).io.bbat.data x ↔ (Used w.io.bbat.data x ∧ x ≠ i) := fun x => used_set_avail
  have hlen : (w.io.bbat.set i Avail).data.length = w.io.bbat.data.length := by
    rw [set_length]
    omega
  refine ⟨h.slots, h.few, h.some_bat, h.headerDirty, h.nodup, fun b hm => (hu b).2 ⟨h.used b hm, fun he => hb (he ▸ hm)⟩, h.apart,
    fun x hx => ⟨(hu x).2 ⟨(h.pendUsed x hx).1, fun he => hp (he ▸ hx)⟩, (h.pendUsed x hx).2⟩,
    by show (w.io.bbat.set i Avail).data.length ≤ _; rw [hlen]; exact h.cover,
    fun x hx => (by
      have h0 := (hu x).1 hx
      have : (w.setBig i Avail).io.bbat.data[x]? = w.io.bbat.data[x]? := set_other h0.1 h0.2
      rw [this]
      exact h.saved x h0.1), fun u hu' => ?_, (set_blockSize _ _ _).trans h.blockSize, h.fixed, h.slotValues, h.slotPrefix⟩
  rcases set_mem hu' with h1 | h1 | h1
  · exact h.values u h1
  · rw [h1]; decide
  · rw [h1]; decide

theorem addbbatBlock_dirty (w : Writer) : w.addbbatBlock.bbatDirty = w.bbatDirty := by
  unfold Writer.addbbatBlock
  dsimp only
  split
  · rfl
  · split <;> rfl

theorem addbbatBlocks_dirty (n : Nat) : ∀ w : Writer, (Writer.addbbatBlocks n w).bbatDirty = w.bbatDirty := by
  induction n with
  | zero => exact fun w => rfl
  | succ n ih => exact fun w => (ih w.addbbatBlock).trans (addbbatBlock_dirty w)

theorem core_unpend {old : Snap} {ω : Type} {w : Writer} {own : ω → List Nat} {pend : List Nat} {slack : Nat} (h : Core old w own pend slack)
    (hp : ∀ x ∈ pend, x / 128 ∈ w.bbatDirty) : Core old w own [] slack :=
  ⟨h.slots, h.few, h.some_bat, h.headerDirty, h.nodup, h.used, h.apart, fun x hx => (by cases hx), h.cover, fun x hx => by
    rcases h.saved x hx with h1 | h1 | h1
    · exact Or.inl h1
    · exact Or.inr (Or.inl h1)
    · exact Or.inr (Or.inl (Or.inl (hp x h1))), h.values, h.blockSize, h.fixed, h.slotValues, h.slotPrefix⟩

end Fileid.Pole
