import Verif.Spec.Formats
import Verif.Lemmas.Bytes
import Verif.Lemmas.Identify
import Verif.Model.Exec
import Verif.Model.OfficeVersions

/-!
# Lemmas on structure fields and tables
-/

namespace Fileid

open Spec Common Tables

theorem num_unique {c : Bytes} {off n v w : Nat} (h : Num c off n v) (h' : Num c off n w) : v = w := by
  obtain ⟨a, ha, la, rfl⟩ := h
  obtain ⟨b, hb, lb, rfl⟩ := h'
  have e1 := ha.eq_take_drop
  have e2 := hb.eq_take_drop
  rw [la] at e1; rw [lb] at e2
  rw [← e1, ← e2]

theorem num_of_le {c : Bytes} {off n : Nat} (h : off + n ≤ c.length) :
    Num c off n (leVal ((c.drop off).take n)) :=
  ⟨_, at_of_le h, by rw [List.length_take, List.length_drop]; omega, (leVal_eq _).symm⟩

theorem Spec.Num.eq {c : Bytes} {off n v : Nat} (h : Num c off n v) : v = leVal ((c.drop off).take n) := by
  obtain ⟨a, ha, la, rfl⟩ := h
  have e1 := ha.eq_take_drop
  rw [la] at e1
  rw [e1, leVal_eq]

theorem Spec.Num.length_le {c : Bytes} {off n v : Nat} (h : Num c off n v) : off + n ≤ c.length := by
  obtain ⟨a, ha, la, _⟩ := h
  have := ha.length_le
  omega

theorem Spec.Num.lt {c : Bytes} {off n v : Nat} (h : Num c off n v) : v < 256 ^ n := by
  obtain ⟨a, ha, la, rfl⟩ := h
  rw [← leVal_eq, ← la]; exact leVal_lt a

theorem member_eq {s : Bytes} {base off n v : Nat} (h : Num s (base + off) n v) :
    Office.member s base off n = .ok v := by
  unfold Office.member
  rw [rdRange_ok h.length_le, Res.bind_ok, ← h.eq]

theorem member_ok {s : Bytes} {base off n : Nat} (h : base + off + n ≤ s.length) :
    Office.member s base off n = .ok (leVal ((s.drop (base + off)).take n)) := by
  unfold Office.member
  rw [rdRange_ok h, Res.bind_ok]

theorem member_ub {s : Bytes} {base off n : Nat} (h : s.length < base + off + n) :
    Office.member s base off n = .ub .oobRead := by
  unfold Office.member
  rw [rdRange_ub h, Res.bind_ub]

/-- A field of a structure copied from the prefix of `c` is a field of `c`. -/
theorem field_copy (c : Bytes) (m base len off n : Nat) (h : off + n ≤ len) (hm : base + len ≤ m) :
    Exec.field (((c.take m).drop base).take len) off n = leVal ((c.drop (base + off)).take n) := by
  unfold Exec.field
  rw [List.drop_take, List.drop_take, List.drop_take, List.take_take, List.take_take, List.drop_drop,
    Nat.min_eq_left (by omega), Nat.min_eq_left (by omega)]

theorem lookup_none {α : Type} [DecidableEq α] (t : List (α × Bytes)) (k : α) (h : ∀ e ∈ t, e.1 ≠ k) :
    lookup t k = none := by
  unfold lookup
  have : (t.find? fun e => decide (e.1 = k)) = none := by
    rw [List.find?_eq_none]
    intro e he
    simp [h e he]
  rw [this]; rfl

/-- A lookup table realises a list of names when it agrees on the listed keys and has no others. -/
theorem realises_lookup {α : Type} [DecidableEq α] (t names : List (α × Bytes)) (d : Bytes)
    (h1 : ∀ e ∈ names, lookup t e.1 = some e.2) (h2 : ∀ e ∈ t, ∃ e' ∈ names, e'.1 = e.1) :
    Realises names d (fun k => (lookup t k).getD d) := by
  constructor
  · intro e he; simp [h1 e he]
  · intro k hk
    show (lookup t k).getD d = d
    rw [lookup_none t k]
    · rfl
    · intro e he heq
      obtain ⟨e', he', h'⟩ := h2 e he
      exact hk e' he' (h'.trans heq)

theorem nameOf_eq {α : Type} [DecidableEq α] (names : List (α × Bytes)) (d : Bytes) (f : α → Bytes)
    (h : Realises names d f) (k : α) : f k = nameOf names d k := by
  obtain ⟨h1, h2⟩ := h
  have key : ∀ l : List (α × Bytes), (∀ e ∈ l, e ∈ names) → (∀ e ∈ names, e ∉ l → e.1 ≠ k) →
      f k = nameOf l d k := by
    intro l
    induction l with
    | nil => intro _ hn; exact h2 k fun e he => hn e he (by simp)
    | cons e es ih =>
      intro hs hn
      rw [nameOf]
      split
      · rename_i hk; rw [← hk]; exact h1 e (hs e (by simp))
      · rename_i hk
        refine ih (fun e' he' => hs e' (by simp [he'])) fun e' he' hnot => ?_
        by_cases heq : e' = e
        · rw [heq]; exact hk
        · exact hn e' he' (by simp [heq, hnot])
  exact key names (fun _ h => h) (fun e he hnot => absurd he hnot)

theorem contains_iff (pat s : Bytes) : Office.contains pat s = true ↔ Occurs pat s := by
  induction s with
  | nil =>
    rw [Office.contains, List.isEmpty_iff]
    constructor
    · rintro rfl; exact ⟨0, [], [], rfl, rfl⟩
    · rintro ⟨off, h⟩
      have := h.length_le
      cases pat with
      | nil => rfl
      | cons x xs => simp at this
  | cons c cs ih =>
    rw [Office.contains, Bool.or_eq_true, ih, List.isPrefixOf_iff_prefix]
    constructor
    · rintro (⟨t, ht⟩ | ⟨off, pre, post, h, hl⟩)
      · exact ⟨0, [], t, by rw [← ht]; simp, rfl⟩
      · exact ⟨off + 1, c :: pre, post, by rw [h]; simp, by simp [hl]⟩
    · rintro ⟨off, pre, post, h, hl⟩
      cases pre with
      | nil => left; exact ⟨post, by rw [h]; simp⟩
      | cons p pre =>
        right
        simp only [List.cons_append, List.cons.injEq] at h
        exact ⟨pre.length, pre, post, h.2, rfl⟩

theorem foldl_filter_map (l : List (Nat × Bytes)) (p : Nat × Bytes → Prop) [DecidablePred p] (acc : List Bytes) :
    l.foldl (fun ans e => if p e then ans ++ [e.2] else ans) acc =
      acc ++ (l.filter fun e => decide (p e)).map (·.2) := by
  induction l generalizing acc with
  | nil => simp
  | cons e l ih =>
    rw [List.foldl_cons, ih]
    by_cases h : p e
    · simp [h]
    · simp [h]

theorem and_bit_ne_zero (n i : Nat) : (n &&& 2 ^ i ≠ 0) ↔ n.testBit i = true := by
  constructor
  · intro h
    apply Classical.byContradiction
    intro hb
    apply h
    apply Nat.eq_of_testBit_eq
    intro j
    rw [Nat.zero_testBit, Nat.testBit_and, Nat.testBit_two_pow]
    by_cases hij : i = j
    · subst hij; simp at hb; simp [hb]
    · simp [hij]
  · intro h h0
    have := congrArg (fun x => x.testBit i) h0
    simp [Nat.testBit_and, h] at this

/-- Names of set bits by bit position, starting at bit `i`. -/
theorem bitNames_eq (names : List Bytes) (v : Nat) (i : Nat) :
    bitNames names (v >>> i) =
      ((names.zipIdx i).filter fun e => v.testBit e.2).map (·.1) := by
  induction names generalizing i with
  | nil => rfl
  | cons n ns ih =>
    rw [bitNames, List.zipIdx_cons, show v >>> i / 2 = v >>> (i + 1) by rw [Nat.shiftRight_succ], ih (i + 1)]
    have hb : (v >>> i) % 2 = 1 ↔ v.testBit i = true := by
      rw [Nat.testBit_eq_decide_div_mod_eq, Nat.shiftRight_eq_div_pow]; simp
    by_cases h : v.testBit i = true
    · rw [if_pos (hb.2 h), List.filter_cons_of_pos (by simpa using h)]; rfl
    · rw [if_neg (fun h' => h (hb.1 h')), List.filter_cons_of_neg (by simpa using h)]; rfl

end Fileid
