import Verif.Model.PoleWrite
import Verif.Spec.Store
import Verif.Lemmas.Pole

/-!
# Lemmas about the writing side of the compound-file library: tables and chains
-/

namespace Fileid.Pole

open Spec

/-! ## Tables -/

theorem set_data (t : AllocTable) (i v : Nat) :
    (t.set i v).data = (t.data ++ List.replicate (i + 1 - t.data.length) Avail).set i v := by
  unfold AllocTable.set AllocTable.resize AllocTable.count
  by_cases h : i ≥ t.data.length
  · simp only [h, if_true]
    rw [List.take_of_length_le (by omega)]
  · simp only [h, if_false]
    rw [show i + 1 - t.data.length = 0 by omega, List.replicate_zero, List.append_nil]

theorem set_length (t : AllocTable) (i v : Nat) : (t.set i v).data.length = max t.data.length (i + 1) := by
  rw [set_data, List.length_set, List.length_append, List.length_replicate]
  omega

theorem set_get_self (t : AllocTable) (i v : Nat) : (t.set i v).data[i]? = some v := by
  rw [set_data, List.getElem?_set_self]
  simp
  omega

theorem set_get_ne (t : AllocTable) {i j v x : Nat} (hne : j ≠ i) (h : t.data[j]? = some x) :
    (t.set i v).data[j]? = some x := by
  have hj : j < t.data.length := (List.getElem?_eq_some_iff.1 h).1
  rw [set_data, List.getElem?_set_ne (by omega), List.getElem?_append_left hj, h]

theorem set_blockSize (t : AllocTable) (i v : Nat) : (t.set i v).blockSize = t.blockSize := by
  unfold AllocTable.set AllocTable.resize
  split <;> rfl

/-! ## Linked chains -/

theorem linked_get {fat l : List Nat} (h : Linked fat l) : ∀ x ∈ l, ∃ e, fat[x]? = some e ∧ e < 0xffffffff := by
  induction h with
  | last h1 _ h3 => intro x hx; rw [List.mem_singleton] at hx; subst hx; exact ⟨_, h1, h3⟩
  | next h1 h2 _ ih =>
    intro x hx
    rcases List.mem_cons.1 hx with rfl | hx
    · exact ⟨_, h1, by omega⟩
    · exact ih x hx

theorem linked_lt {fat l : List Nat} (h : Linked fat l) : ∀ x ∈ l, x < fat.length := fun x hx => by
  obtain ⟨e, he, _⟩ := linked_get h x hx
  exact (List.getElem?_eq_some_iff.1 he).1

theorem linked_ne_nil {fat l : List Nat} (h : Linked fat l) : l ≠ [] := by cases h <;> simp

theorem linked_chain {fat l : List Nat} (hsz : fat.length ≤ 0xfffffffc) (h : Linked fat l) :
    ∃ s, l.head? = some s ∧ Chain fat s l := by
  induction h with
  | last h1 h2 _ => exact ⟨_, rfl, .last h1 (by omega)⟩
  | @next s n rest h1 h2 h3 ih =>
    obtain ⟨s', h4, h5⟩ := ih
    simp only [List.head?_cons, Option.some.injEq] at h4
    subst h4
    exact ⟨_, rfl, .next h1 (linked_lt h3 _ (by simp)) h5⟩

theorem linked_set {t : AllocTable} {l : List Nat} {i v : Nat} (h : Linked t.data l) (hi : i ∉ l) :
    Linked (t.set i v).data l := by
  induction h with
  | last h1 h2 h3 => exact .last (set_get_ne t (by rintro rfl; simp at hi) h1) h2 h3
  | next h1 h2 _ ih =>
    exact .next (set_get_ne t (by rintro rfl; simp at hi) h1) h2 (ih (fun hm => hi (List.mem_cons_of_mem _ hm)))

theorem linked_snoc {t : AllocTable} {new : Nat} (hnew : Linked t.data [new]) (h32 : new < 0xfffffffc) {l : List Nat}
    (h : Linked t.data l) (hn : new ∉ l) (hnd : l.Nodup) {last : Nat} (hl : l.getLast? = some last) :
    Linked (t.set last new).data (l ++ [new]) := by
  induction h with
  | @last s e h1 h2 h3 =>
    simp only [List.getLast?_singleton, Option.some.injEq] at hl
    subst hl
    exact .next (set_get_self t s new) h32 (linked_set hnew (fun hm => hn (by simpa using (List.mem_singleton.1 hm).symm)))
  | @next s n rest h1 h2 h3 ih =>
    have hl' : (n :: rest).getLast? = some last := by
      rw [List.getLast?_cons_cons] at hl; exact hl
    have hm : last ∈ n :: rest := List.mem_of_getLast? hl'
    have hs : s ≠ last := by
      rintro rfl
      exact (List.nodup_cons.1 hnd).1 hm
    exact .next (set_get_ne t hs h1) h2 (ih (fun hm => hn (List.mem_cons_of_mem _ hm)) (List.nodup_cons.1 hnd).2 hl')

/-- A block is free: its slot is marked so, or it is the one behind the table. -/
def Free (fat : List Nat) (n : Nat) : Prop := fat[n]? = some Avail ∨ n = fat.length

theorem unused_free (t : AllocTable) : Free t.data t.unused.1 ∧ t.unused.2.data = t.data ∧
    t.unused.2.blockSize = t.blockSize := by
  unfold AllocTable.unused AllocTable.count
  split
  · rename_i i hi
    refine ⟨Or.inl ?_, rfl, rfl⟩
    split at hi
    · obtain ⟨h1, h2, _⟩ := List.findIdx?_eq_some_iff_getElem.1 hi
      rw [List.getElem?_eq_getElem h1]
      simpa using h2
    · cases hi
  · exact ⟨Or.inr rfl, rfl, rfl⟩

theorem free_not_mem {fat l : List Nat} {n : Nat} (hf : Free fat n) (h : Linked fat l) : n ∉ l := fun hm => by
  obtain ⟨e, he, hlt⟩ := linked_get h n hm
  rcases hf with hf | hf
  · rw [hf] at he
    cases he
    exact absurd hlt (by decide)
  · have := (List.getElem?_eq_some_iff.1 he).1
    omega

/-- The table afterwards has every chain it had before, and is not shorter. -/
structure Kept (fat fat' : List Nat) : Prop where
  linked : ∀ l, Linked fat l → Linked fat' l
  length : fat.length ≤ fat'.length

theorem Kept.refl (fat : List Nat) : Kept fat fat := ⟨fun _ h => h, Nat.le_refl _⟩

theorem Kept.trans {a b c : List Nat} (h : Kept a b) (h' : Kept b c) : Kept a c :=
  ⟨fun l hl => h'.linked l (h.linked l hl), Nat.le_trans h.length h'.length⟩

theorem kept_set {t : AllocTable} {n v : Nat} (hf : Free t.data n) : Kept t.data (t.set n v).data :=
  ⟨fun _ hl => linked_set hl (free_not_mem hf hl), by rw [set_length]; omega⟩

theorem linked_single {t : AllocTable} {n v : Nat} (h1 : 0xfffffffc ≤ v) (h2 : v < 0xffffffff) :
    Linked (t.set n v).data [n] := .last (set_get_self t n v) h1 h2

/-! ## What the operations on the big table leave as it is -/

/-- Everything but the big table, the header fields about it and the lists of changed blocks. -/
structure Aside (w w' : Writer) : Prop where
  file : w'.io.file = w.io.file
  sbat : w'.io.sbat = w.io.sbat
  dirtree : w'.io.dirtree = w.io.dirtree
  sb_blocks : w'.io.sb_blocks = w.io.sb_blocks
  blockSize : w'.io.bbat.blockSize = w.io.bbat.blockSize
  threshold : w'.io.header.threshold = w.io.header.threshold
  sbat_start : w'.io.header.sbat_start = w.io.header.sbat_start
  dirent_start : w'.io.header.dirent_start = w.io.header.dirent_start
  writeable : w'.writeable = w.writeable
  sbatDirty : w'.sbatDirty = w.sbatDirty
  dirDirty : w'.dirDirty = w.dirDirty

theorem Aside.refl (w : Writer) : Aside w w := by constructor <;> rfl

theorem Aside.trans {a b c : Writer} (h : Aside a b) (h' : Aside b c) : Aside a c := by
  constructor
  · rw [h'.file, h.file]
  · rw [h'.sbat, h.sbat]
  · rw [h'.dirtree, h.dirtree]
  · rw [h'.sb_blocks, h.sb_blocks]
  · rw [h'.blockSize, h.blockSize]
  · rw [h'.threshold, h.threshold]
  · rw [h'.sbat_start, h.sbat_start]
  · rw [h'.dirent_start, h.dirent_start]
  · rw [h'.writeable, h.writeable]
  · rw [h'.sbatDirty, h.sbatDirty]
  · rw [h'.dirDirty, h.dirDirty]

theorem aside_markBig (w : Writer) (i : Nat) : Aside w (w.markBig i) := by constructor <;> rfl

theorem aside_setBig (w : Writer) (i v : Nat) : Aside w (w.setBig i v) := by
  constructor <;> first | rfl | exact set_blockSize _ _ _

theorem aside_unusedBig (w : Writer) : Aside w w.unusedBig.2 := by
  constructor <;> first | rfl | exact (unused_free _).2.2

theorem unusedBig_data (w : Writer) : w.unusedBig.2.io.bbat.data = w.io.bbat.data := (unused_free _).2.1

theorem unusedBig_free (w : Writer) : Free w.io.bbat.data w.unusedBig.1 := (unused_free _).1

theorem addbbatBlock_spec (w : Writer) : Aside w w.addbbatBlock ∧ Kept w.io.bbat.data w.addbbatBlock.io.bbat.data := by
  have h1 : Aside w (w.unusedBig.2.setBig w.unusedBig.1 MetaBat) := (aside_unusedBig w).trans (aside_setBig _ _ _)
  have k1 : Kept w.io.bbat.data (w.unusedBig.2.setBig w.unusedBig.1 MetaBat).io.bbat.data := by
    have := kept_set (t := w.unusedBig.2.io.bbat) (v := MetaBat) (by rw [unusedBig_data]; exact unusedBig_free w)
    rw [unusedBig_data] at this
    exact this
  unfold Writer.addbbatBlock
  generalize hw1 : w.unusedBig.2.setBig w.unusedBig.1 MetaBat = w1 at h1 k1
  dsimp only
  rw [hw1]
  split
  · exact ⟨h1.trans (by constructor <;> rfl), k1⟩
  · split
    · generalize hw2 : ({ w1 with mbatDirty := true, mbat_data := w1.mbat_data ++ [w.unusedBig.1] } : Writer) = w2
      have h2 : Aside w1 w2 := by subst hw2; constructor <;> rfl
      have d2 : w2.io = w1.io := by subst hw2; rfl
      have h3 : Aside w2 (w2.unusedBig.2.setBig w2.unusedBig.1 MetaBat) := (aside_unusedBig w2).trans (aside_setBig _ _ _)
      have k3 : Kept w2.io.bbat.data (w2.unusedBig.2.setBig w2.unusedBig.1 MetaBat).io.bbat.data := by
        have := kept_set (t := w2.unusedBig.2.io.bbat) (v := MetaBat) (by rw [unusedBig_data]; exact unusedBig_free w2)
        rw [unusedBig_data] at this
        exact this
      refine ⟨(h1.trans (h2.trans h3)).trans ?_, k1.trans ?_⟩
      · have e1 := h3.threshold; have e2 := h3.sbat_start; have e3 := h3.dirent_start
        rw [d2] at e1 e2 e3
        constructor <;> first | rfl | exact e1.symm | exact e2.symm | exact e3.symm
      · rw [d2] at k3; exact k3
    · exact ⟨h1.trans (by constructor <;> rfl), k1⟩

theorem addbbatBlocks_spec (n : Nat) : ∀ w : Writer, Aside w (Writer.addbbatBlocks n w) ∧
    Kept w.io.bbat.data (Writer.addbbatBlocks n w).io.bbat.data := by
  induction n with
  | zero => exact fun w => ⟨Aside.refl w, Kept.refl _⟩
  | succ n ih =>
    intro w
    obtain ⟨h1, k1⟩ := addbbatBlock_spec w
    obtain ⟨h2, k2⟩ := ih w.addbbatBlock
    exact ⟨h1.trans h2, k1.trans k2⟩

/-! ## A chain gets a further sector -/

theorem linked_nodup {fat l : List Nat} (hsz : fat.length ≤ 0xfffffffc) (h : Linked fat l) : l.Nodup := by
  obtain ⟨s, _, hc⟩ := linked_chain hsz h
  exact chain_nodup hc

theorem owned_kept {ω : Type} {fat fat' : List Nat} {own : ω → List Nat} (h : Owned fat own) (k : Kept fat fat') :
    Owned fat' own := ⟨fun i hi => k.linked _ (h.linked i hi), h.apart⟩

theorem set_get (t : AllocTable) (i v j : Nat) : (t.set i v).data[j]? =
    if j = i then some v else if j < t.data.length then t.data[j]? else if j < i then some Avail else none := by
  rw [set_data]
  by_cases h : j = i
  · subst h
    rw [if_pos rfl, ← set_data, set_get_self]
  · rw [if_neg h, List.getElem?_set_ne (by omega)]
    by_cases h2 : j < t.data.length
    · rw [if_pos h2, List.getElem?_append_left h2]
    · rw [if_neg h2, List.getElem?_append_right (by omega), List.getElem?_replicate]
      by_cases h3 : j < i
      · rw [if_pos h3, if_pos (by omega)]
      · rw [if_neg h3, if_neg (by omega)]

theorem set_comm (t : AllocTable) {i j v u : Nat} (hij : i ≠ j) : ((t.set i v).set j u).data = ((t.set j u).set i v).data := by
  apply List.ext_getElem?
  intro k
  rw [set_get, set_get, set_get, set_get, set_length, set_length]
  repeat' split
  all_goals first | rfl | (exfalso; omega)

/-- A new sector is linked to the end of the chain of one owner. -/
theorem owned_link {ω : Type} [DecidableEq ω] {t : AllocTable} {own : ω → List Nat} (h : Owned t.data own) {new : Nat}
    (hnew : Linked t.data [new]) (hno : ∀ i, new ∉ own i) (hsz : t.data.length ≤ 0xfffffffc) (k : ω) :
    Owned (match (own k).getLast? with | none => t | some last => t.set last new).data
      (replaced own k (own k ++ [new])) := by
  have hlt : new < 0xfffffffc := Nat.lt_of_lt_of_le (linked_lt hnew new (by simp)) hsz
  constructor
  · intro i hi
    by_cases hik : i = k
    · subst hik
      unfold replaced
      rw [if_pos rfl]
      cases hl : (own i).getLast? with
      | none => rw [List.getLast?_eq_none_iff.1 hl]; exact hnew
      | some last =>
        have hlk := h.linked i (List.ne_nil_of_mem (List.mem_of_getLast? hl))
        exact linked_snoc hnew hlt hlk (hno i) (linked_nodup hsz hlk) hl
    · unfold replaced at hi ⊢
      rw [if_neg hik] at hi ⊢
      cases hl : (own k).getLast? with
      | none => exact h.linked i hi
      | some last => exact linked_set (h.linked i hi) (h.apart k i (fun hc => hik hc.symm) last (List.mem_of_getLast? hl))
  · intro i j hij x hx
    unfold replaced at hx ⊢
    by_cases hik : i = k
    · subst hik
      rw [if_pos rfl] at hx
      rw [if_neg (fun hjk => hij hjk.symm)]
      rcases List.mem_append.1 hx with hx | hx
      · exact h.apart i j hij x hx
      · rw [List.mem_singleton.1 hx]; exact hno j
    · rw [if_neg hik] at hx
      by_cases hjk : j = k
      · subst hjk
        rw [if_pos rfl]
        intro hm
        rcases List.mem_append.1 hm with hm | hm
        · exact h.apart i j hij x hx hm
        · rw [List.mem_singleton.1 hm] at hx; exact hno i hx
      · rw [if_neg hjk]
        exact h.apart i j hij x hx

theorem extend_mono (w : Writer) (c : List Nat) : w.io.bbat.data.length ≤ (w.extend c).1.io.bbat.data.length := by
  unfold Writer.extend
  dsimp only
  have hfree := unusedBig_free w
  generalize hn : w.unusedBig.1 = new at hfree
  have k1 : Kept w.io.bbat.data (w.unusedBig.2.setBig new Eof).io.bbat.data := by
    have := kept_set (t := w.unusedBig.2.io.bbat) (v := Eof) (by rw [unusedBig_data]; exact hfree)
    rw [unusedBig_data] at this
    exact this
  generalize w.unusedBig.2.setBig new Eof = w1 at k1
  have k2 := (addbbatBlocks_spec (new / (w1.io.bbat.blockSize / 8) + 1 - w1.io.header.num_bat) w1).2
  rw [show Writer.addbbatBlocks (new / (w1.io.bbat.blockSize / 8) + 1 - w1.io.header.num_bat) w1 = w1.coverBig new from rfl]
    at k2
  have h3 := Nat.le_trans k1.length k2.length
  split
  · exact h3
  · refine Nat.le_trans h3 ?_
    show _ ≤ ((w1.coverBig new).io.bbat.set _ _).data.length
    rw [set_length]
    omega

/-- `ExtendFile` on the chain of one owner. -/
theorem extend_spec {ω : Type} [DecidableEq ω] (w : Writer) (own : ω → List Nat) (h : Owned w.io.bbat.data own) (k : ω)
    (hsz : (w.extend (own k)).1.io.bbat.data.length ≤ 0xfffffffc) :
    ∃ new, (w.extend (own k)).2 = own k ++ [new] ∧ Aside w (w.extend (own k)).1 ∧
      Owned (w.extend (own k)).1.io.bbat.data (replaced own k (own k ++ [new])) := by
  revert hsz
  unfold Writer.extend
  dsimp only
  have hfree := unusedBig_free w
  generalize hn : w.unusedBig.1 = new at hfree
  generalize hw1 : w.unusedBig.2.setBig new Eof = w1
  have a1 : Aside w w1 := by rw [← hw1]; exact (aside_unusedBig w).trans (aside_setBig _ _ _)
  have k1 : Kept w.io.bbat.data w1.io.bbat.data := by
    have := kept_set (t := w.unusedBig.2.io.bbat) (v := Eof) (by rw [unusedBig_data]; exact hfree)
    rw [unusedBig_data] at this
    rw [← hw1]
    exact this
  have l1 : Linked w1.io.bbat.data [new] := by
    rw [← hw1]
    exact linked_single (by decide) (by decide)
  obtain ⟨a2, k2⟩ := addbbatBlocks_spec (new / (w1.io.bbat.blockSize / 8) + 1 - w1.io.header.num_bat) w1
  rw [show Writer.addbbatBlocks (new / (w1.io.bbat.blockSize / 8) + 1 - w1.io.header.num_bat) w1 = w1.coverBig new from rfl]
    at a2 k2
  generalize hw2 : w1.coverBig new = w2 at a2 k2
  have hno : ∀ i, new ∉ own i := fun i hm =>
    free_not_mem hfree (h.linked i (List.ne_nil_of_mem hm)) hm
  have hlink := fun hs => owned_link (owned_kept h (k1.trans k2)) (k2.linked _ l1) hno hs k
  have h3 : w.io.bbat.data.length ≤ w2.io.bbat.data.length := Nat.le_trans k1.length k2.length
  have a3 : Aside w (w2.markBig new) := (a1.trans a2).trans (aside_markBig _ _)
  intro hsz
  refine ⟨new, rfl, ?_⟩
  cases hl : (own k).getLast? with
  | none =>
    simp only [hl] at hsz hlink
    exact ⟨a3, hlink hsz⟩
  | some last =>
    simp only [hl] at hsz hlink
    have h5 : (w2.io.bbat.set last new).data.length ≤ 0xfffffffc := hsz
    rw [set_length] at h5
    exact ⟨a3.trans ((aside_setBig _ _ _).trans (aside_markBig _ _)), hlink (by omega)⟩

theorem extends_mono (n : Nat) : ∀ (w : Writer) (c : List Nat),
    w.io.bbat.data.length ≤ (Writer.extends n w c).1.io.bbat.data.length := by
  induction n with
  | zero => exact fun w c => Nat.le_refl _
  | succ n ih => exact fun w c => Nat.le_trans (extend_mono w c) (ih _ _)

theorem replaced_self {ω α : Type} [DecidableEq ω] (f : ω → α) (i : ω) (a : α) : replaced f i a i = a := if_pos rfl

theorem replaced_ne {ω α : Type} [DecidableEq ω] (f : ω → α) {i j : ω} (a : α) (h : j ≠ i) : replaced f i a j = f j :=
  if_neg h

theorem replaced_replaced {ω α : Type} [DecidableEq ω] (f : ω → α) (i : ω) (a b : α) :
    replaced (replaced f i a) i b = replaced f i b := by
  funext j
  unfold replaced
  split <;> rfl

theorem replaced_same {ω α : Type} [DecidableEq ω] (f : ω → α) (i : ω) : replaced f i (f i) = f := by
  funext j
  unfold replaced
  split
  · rename_i h; rw [h]
  · rfl

/-- `ExtendFile` several times on the chain of one owner. -/
theorem extends_spec {ω : Type} [DecidableEq ω] (n : Nat) : ∀ (w : Writer) (own : ω → List Nat),
    Owned w.io.bbat.data own → ∀ k : ω, (Writer.extends n w (own k)).1.io.bbat.data.length ≤ 0xfffffffc →
    ∃ extra, (Writer.extends n w (own k)).2 = own k ++ extra ∧ extra.length = n ∧
      Aside w (Writer.extends n w (own k)).1 ∧
      Owned (Writer.extends n w (own k)).1.io.bbat.data (replaced own k (own k ++ extra)) := by
  induction n with
  | zero =>
    intro w own h k _
    refine ⟨[], by simp [Writer.extends], rfl, Aside.refl w, ?_⟩
    rw [List.append_nil, replaced_same]
    exact h
  | succ n ih =>
    intro w own h k hsz
    have hsz1 : (w.extend (own k)).1.io.bbat.data.length ≤ 0xfffffffc := Nat.le_trans (extends_mono n _ _) hsz
    obtain ⟨new, h1, h2, h3⟩ := extend_spec w own h k hsz1
    have hstep : Writer.extends (n + 1) w (own k) = Writer.extends n (w.extend (own k)).1
        (replaced own k (own k ++ [new]) k) := by
      rw [replaced_self, ← h1]
      rfl
    rw [hstep] at hsz ⊢
    obtain ⟨extra, e1, e2, e3, e4⟩ := ih _ _ h3 k hsz
    rw [replaced_replaced] at e4
    refine ⟨new :: extra, ?_, by simp [e2], h2.trans e3, ?_⟩
    · rw [e1, replaced_self, List.append_assoc]; rfl
    · rw [replaced_self] at e4 ⊢
      rw [List.append_assoc] at e4
      exact e4

end Fileid.Pole
