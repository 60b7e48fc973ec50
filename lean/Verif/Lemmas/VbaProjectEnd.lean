import Verif.Model.VbaProject
import Verif.Lemmas.Read

/-!
# Reading the directory of a VBA project ends: every read that succeeds is inside the buffer and moves the index on
-/

namespace Fileid.Props

open Vba Common Pole

/-- A computation in two steps ends if the first one does and the second one does for every result of the first. -/
theorem bind_nf {α β : Type} {x : Res α} {f : α → Res β} (h : x ≠ .fuel) (h' : ∀ a, x = .ok a → f a ≠ .fuel) :
    (x >>= f) ≠ .fuel := by
  cases x with
  | ok a => exact h' a rfl
  | throw e => simp [Res.bind_throw]
  | ub u => simp [Res.bind_ub]
  | fuel => exact absurd rfl h

theorem readString_ne_fuel (b : Bytes) (max off n : Nat) : ReadString b max off n ≠ .fuel := by
  unfold ReadString
  split
  · simp
  · exact rdRange_ne_fuel _ _ _

theorem rd_bound {b : Bytes} {i : Nat} {x : UInt8} (h : rd b i = .ok x) : i < b.length := by
  unfold rd at h
  split at h
  · rename_i y hy
    exact (List.getElem?_eq_some_iff.mp hy).1
  · cases h

theorem rdRange_bound {b : Bytes} {i n : Nat} {x : Bytes} (h : rdRange b i n = .ok x) : i + n ≤ b.length := by
  unfold rdRange at h
  split at h
  · assumption
  · cases h

theorem readUShort_bound {b : Bytes} {len i v : Nat} (hb : b.length + 64 < 2 ^ 32) (h : ReadUShort b len i = .ok v) :
    i + 2 ≤ b.length ∧ i < len := by
  unfold ReadUShort at h
  split at h
  · cases h
  · rename_i hg
    rw [if_neg (by decide)] at h
    obtain ⟨x, hx, h⟩ := bind_eq_ok h
    obtain ⟨y, hy, h⟩ := bind_eq_ok h
    have h1 := rd_bound hx
    have h2 := rd_bound hy
    unfold u32 at h1 hg
    omega

theorem readUInt_bound {b : Bytes} {len i v : Nat} (hb : b.length + 64 < 2 ^ 32) (h : ReadUInt b len i true = .ok v) :
    i + 4 ≤ b.length ∧ i < len := by
  unfold ReadUInt at h
  split at h
  · cases h
  · rename_i hg
    obtain ⟨x0, h0, h⟩ := bind_eq_ok h
    obtain ⟨x1, h1, h⟩ := bind_eq_ok h
    obtain ⟨x2, h2, h⟩ := bind_eq_ok h
    obtain ⟨x3, h3, h⟩ := bind_eq_ok h
    have h0 := rd_bound h0
    have h3 := rd_bound h3
    unfold u32 at h3 hg
    omega

theorem readStr_bound {b : Bytes} {len i : Nat} {r : Nat × Bytes} (hb : b.length + 64 < 2 ^ 32)
    (h : readStr b len i = .ok r) : i + 4 ≤ r.1 ∧ r.1 ≤ b.length := by
  unfold readStr at h
  obtain ⟨n, hn, h⟩ := bind_eq_ok h
  obtain ⟨s, hs, h⟩ := bind_eq_ok h
  cases h
  have := readUInt_bound hb hn
  unfold ReadString at hs
  split at hs
  · cases hs
  · have := rdRange_bound hs
    unfold u32 at *
    dsimp only
    omega

theorem readStrW_bound {abi : Abi} (hw : abi.wcharBytes = 2 ∨ abi.wcharBytes = 4) {b : Bytes} {len i : Nat}
    {r : Nat × Bytes × WStr} (hb : b.length + 64 < 2 ^ 32) (h : readStrW abi b len i = .ok r) :
    i + 4 ≤ r.1 ∧ r.1 ≤ b.length + 3 := by
  unfold readStrW at h
  obtain ⟨n, hn, h⟩ := bind_eq_ok h
  have := readUInt_bound hb hn
  dsimp only at h
  split at h
  · cases h
  · obtain ⟨s, hs, h⟩ := bind_eq_ok h
    obtain ⟨t, ht, h⟩ := bind_eq_ok h
    cases h
    have := rdRange_bound ht
    have hn : n < n / abi.wcharBytes * abi.wcharBytes + 4 := by
      rcases hw with e | e <;> rw [e] <;> omega
    generalize n / abi.wcharBytes * abi.wcharBytes = k at *
    unfold u32 at *
    dsimp only
    omega

theorem readStr_ne_fuel (b : Bytes) (len i : Nat) : readStr b len i ≠ .fuel := by
  unfold readStr
  refine bind_nf (ReadUInt_ne_fuel _ _ _ _) fun n _ => bind_nf (readString_ne_fuel _ _ _ _) fun s _ => ?_
  exact ok_ne_fuel _

theorem narrow_ne_fuel (b : Bytes) : ∀ n i, narrow b i n ≠ .fuel := by
  intro n
  induction n with
  | zero => intro i; exact ok_ne_fuel _
  | succ n ih =>
    intro i
    rw [narrow]
    refine bind_nf (rd_ne_fuel _ _) fun n _ => bind_nf (ih _) fun s _ => ?_
    exact ok_ne_fuel _

theorem readStrW_ne_fuel (abi : Abi) (b : Bytes) (len i : Nat) : readStrW abi b len i ≠ .fuel := by
  unfold readStrW
  refine bind_nf (ReadUInt_ne_fuel _ _ _ _) fun n _ => ?_
  dsimp only
  split
  · simp
  · refine bind_nf (narrow_ne_fuel _ _ _) fun s _ => bind_nf (rdRange_ne_fuel _ _ _) fun s _ => ?_
    exact ok_ne_fuel _

theorem referenceRecord_ne_fuel (b : Bytes) (len type i : Nat) : referenceRecord b len type i ≠ .fuel := by
  unfold referenceRecord
  repeat' split
  all_goals repeat' refine bind_nf (readStr_ne_fuel _ _ _) fun _ _ => ?_
  all_goals exact ok_ne_fuel _

theorem referenceRecord_bound {b : Bytes} {len type i r : Nat} (hb : b.length + 64 < 2 ^ 32) (hi : i ≤ b.length)
    (h : referenceRecord b len type i = .ok r) : i ≤ r := by
  unfold referenceRecord at h
  repeat' split at h
  · obtain ⟨a, ha, h⟩ := bind_eq_ok h
    cases h
    have := readStr_bound hb ha
    omega
  · obtain ⟨a1, h1, h⟩ := bind_eq_ok h
    obtain ⟨a2, h2, h⟩ := bind_eq_ok h
    obtain ⟨a3, h3, h⟩ := bind_eq_ok h
    obtain ⟨a4, h4, h⟩ := bind_eq_ok h
    cases h
    have h1 := readStr_bound hb h1
    have h2 := readStr_bound hb h2
    have h3 := readStr_bound hb h3
    have h4 := readStr_bound hb h4
    unfold u32 at *
    omega
  · obtain ⟨a1, h1, h⟩ := bind_eq_ok h
    cases h
    have h1 := readStr_bound hb h1
    unfold u32 at *
    omega
  · obtain ⟨a1, h1, h⟩ := bind_eq_ok h
    obtain ⟨a2, h2, h⟩ := bind_eq_ok h
    cases h
    have h1 := readStr_bound hb h1
    have h2 := readStr_bound hb h2
    unfold u32 at *
    omega
  · cases h
    omega

theorem referenceLoop_ne_fuel (b : Bytes) (len : Nat) (hb : b.length + 64 < 2 ^ 32) : ∀ fuel i refs, len < fuel + i →
    0 < fuel → referenceLoop b len fuel i refs ≠ .fuel := by
  intro fuel
  induction fuel with
  | zero => intro i refs _ h; omega
  | succ f ih =>
    intro i refs hf _
    rw [referenceLoop]
    refine bind_nf (ReadUShort_ne_fuel _ _ _ _) fun id hid => ?_
    have hid := readUShort_bound hb hid
    split
    · refine bind_nf (readStr_ne_fuel _ _ _) fun r hr => bind_nf (readStr_ne_fuel _ _ _) fun u hu =>
        bind_nf (ReadUShort_ne_fuel _ _ _ _) fun t ht => bind_nf (referenceRecord_ne_fuel _ _ _ _) fun j hj => ?_
      have hr := readStr_bound hb hr
      have hu := readStr_bound hb hu
      have ht := readUShort_bound hb ht
      have hj := referenceRecord_bound hb (by omega) hj
      unfold u32 at *
      exact ih j _ (by omega) (by omega)
    · exact ok_ne_fuel _

theorem moduleRecord_ne_fuel (abi : Abi) (b : Bytes) (len id i : Nat) (m : Module) :
    moduleRecord abi b len id i m ≠ .fuel := by
  unfold moduleRecord
  repeat' split
  all_goals repeat' first
    | refine bind_nf (readStr_ne_fuel _ _ _) fun _ _ => ?_
    | refine bind_nf (readStrW_ne_fuel _ _ _ _) fun _ _ => ?_
    | refine bind_nf (ReadUInt_ne_fuel _ _ _ _) fun _ _ => ?_
  all_goals exact ok_ne_fuel _

theorem moduleRecord_bound {abi : Abi} (hw : abi.wcharBytes = 2 ∨ abi.wcharBytes = 4) {b : Bytes} {len id i : Nat}
    {m : Module} {r : Nat × Module} (hb : b.length + 64 < 2 ^ 32) (hi : i ≤ b.length)
    (h : moduleRecord abi b len id i m = .ok r) : i ≤ r.1 ∧ r.1 ≤ b.length + 8 := by
  unfold moduleRecord at h
  repeat' split at h
  · obtain ⟨a, ha, h⟩ := bind_eq_ok h
    cases h
    have := readStr_bound hb ha
    dsimp only
    omega
  · obtain ⟨a, ha, h⟩ := bind_eq_ok h
    cases h
    have := readStr_bound hb ha
    dsimp only
    omega
  · obtain ⟨a, ha, h⟩ := bind_eq_ok h
    obtain ⟨a2, h2, h⟩ := bind_eq_ok h
    cases h
    have := readStr_bound hb ha
    have := readStrW_bound hw hb h2
    unfold u32 at *
    dsimp only
    omega
  · obtain ⟨a, ha, h⟩ := bind_eq_ok h
    obtain ⟨a2, h2, h⟩ := bind_eq_ok h
    cases h
    have := readStr_bound hb ha
    have := readStr_bound hb h2
    unfold u32 at *
    dsimp only
    omega
  · obtain ⟨a, ha, h⟩ := bind_eq_ok h
    cases h
    have := readUInt_bound hb ha
    unfold u32 at *
    dsimp only
    omega
  all_goals
    cases h
    dsimp only
    try unfold u32
    omega

theorem recordLoop_ne_fuel (abi : Abi) (hw : abi.wcharBytes = 2 ∨ abi.wcharBytes = 4) (b : Bytes) (len : Nat)
    (hb : b.length + 64 < 2 ^ 32) : ∀ fuel id i m, len < fuel + i → 0 < fuel → recordLoop abi b len fuel id i m ≠ .fuel := by
  intro fuel
  induction fuel with
  | zero => intro id i m _ h; omega
  | succ f ih =>
    intro id i m hf _
    rw [recordLoop]
    split
    · refine bind_nf (ReadUShort_ne_fuel _ _ _ _) fun id hid => bind_nf (moduleRecord_ne_fuel _ _ _ _ _ _) fun r hr => ?_
      have hid := readUShort_bound hb hid
      have e : u32 (i + 2) = i + 2 := by unfold u32; omega
      have hr := moduleRecord_bound hw hb (by omega) hr
      exact ih id _ _ (by omega) (by omega)
    · exact ok_ne_fuel _

theorem recordLoop_bound {abi : Abi} (hw : abi.wcharBytes = 2 ∨ abi.wcharBytes = 4) {b : Bytes} {len : Nat}
    (hb : b.length + 64 < 2 ^ 32) : ∀ fuel id i m r, i ≤ b.length + 8 → recordLoop abi b len fuel id i m = .ok r →
      i ≤ r.1 ∧ r.1 ≤ b.length + 8 := by
  intro fuel
  induction fuel with
  | zero => intro id i m r _ h; cases h
  | succ f ih =>
    intro id i m r hi h
    rw [recordLoop] at h
    split at h
    · obtain ⟨a, ha, h⟩ := bind_eq_ok h
      obtain ⟨a2, h2, h⟩ := bind_eq_ok h
      have ha := readUShort_bound hb ha
      have e : u32 (i + 2) = i + 2 := by unfold u32; omega
      have h2 := moduleRecord_bound hw hb (by omega) h2
      have := ih _ _ _ _ h2.2 h
      omega
    · cases h
      dsimp only
      omega

theorem moduleLoop_ne_fuel (abi : Abi) (hw : abi.wcharBytes = 2 ∨ abi.wcharBytes = 4) (b : Bytes) (len : Nat)
    (hb : b.length + 64 < 2 ^ 32) (code : WStr → Nat → Res Bytes) (hcode : ∀ n o, code n o ≠ .fuel) :
    ∀ fuel i mods, len < fuel + i → 0 < fuel → moduleLoop abi b len code fuel i mods ≠ .fuel := by
  intro fuel
  induction fuel with
  | zero => intro i m _ h; omega
  | succ f ih =>
    intro i mods hf _
    rw [moduleLoop]
    split
    · refine bind_nf (ReadUShort_ne_fuel _ _ _ _) fun id hid =>
        bind_nf (recordLoop_ne_fuel abi hw b len hb _ _ _ _ (by omega) (by omega)) fun r hr => ?_
      have hid := readUShort_bound hb hid
      have hr := recordLoop_bound hw hb _ _ _ _ _ (by omega) hr
      have e : u32 (r.1 + 4) = r.1 + 4 := by unfold u32; omega
      rw [e]
      split
      · exact ih _ _ (by omega) (by omega)
      · refine bind_nf (hcode _ _) fun c _ => ?_
        exact ih _ _ (by omega) (by omega)
    · exact ok_ne_fuel _

theorem parseDir_ne_fuel (abi : Abi) (hw : abi.wcharBytes = 2 ∨ abi.wcharBytes = 4) (b : Bytes) (len : Nat)
    (hb : b.length + 64 < 2 ^ 32) (code : WStr → Nat → Res Bytes) (hcode : ∀ n o, code n o ≠ .fuel) (info : VbaInfo) :
    parseDir abi b len code info ≠ .fuel := by
  unfold parseDir
  refine bind_nf ?_ fun p hp => bind_nf (referenceLoop_ne_fuel b len hb _ _ _ (by omega) (by omega)) fun r hr =>
    bind_nf (moduleLoop_ne_fuel abi hw b len hb code hcode _ _ _ (by omega) (by omega)) fun m _ => ok_ne_fuel _
  unfold projectRecords
  dsimp only
  repeat' first
    | refine bind_nf (readStr_ne_fuel _ _ _) fun _ _ => ?_
    | refine bind_nf (rdRange_ne_fuel _ _ _) fun _ _ => ?_
  exact ok_ne_fuel _

end Fileid.Props
