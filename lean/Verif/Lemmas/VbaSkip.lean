import Verif.Lemmas.VbaProject

/-!
# Bytes that the search for modules passes over
-/

namespace Fileid.Vba

open Spec Spec.Ovba Common Pole

theorem quiet_append {a b : Bytes} : Quiet a → Quiet b → Quiet (a ++ b) := by
  induction a using Quiet.induct with
  | case1 => intro _ h; exact h
  | case2 x => intro h; cases h
  | case3 x y rest ih => intro h hb; exact ⟨h.1, ih h.2 hb⟩

theorem moduleRecord_quiet {abi : Abi} {b : Bytes} {len id index : Nat} {mod : Module} (h : id ∉ moduleIds) :
    moduleRecord abi b len id index mod = .ok (index, mod) := by
  simp only [moduleIds, List.mem_cons, List.not_mem_nil, or_false, not_or] at h
  unfold moduleRecord
  rw [if_neg h.1, if_neg h.2.1, if_neg h.2.2.1, if_neg h.2.2.2.1, if_neg h.2.2.2.2.1, if_neg h.2.2.2.2.2.1, if_neg h.2.2.2.2.2.2.1,
    if_neg (by omega), if_neg (by omega), if_neg (by omega)]

theorem recordLoop_old {abi : Abi} {b : Bytes} {len fuel old old' i : Nat} {mod : Module} (h : old ≠ 0x2B) (h' : old' ≠ 0x2B)
    (hi : i < len) : recordLoop abi b len fuel old i mod = recordLoop abi b len fuel old' i mod := by
  cases fuel with
  | zero => rfl
  | succ f => rw [recordLoop, recordLoop, if_pos ⟨h, hi⟩, if_pos ⟨h', hi⟩]

theorem pair_at {b : Bytes} {len : Nat} (hs : len + 64 < 2 ^ 32) {i : Nat} {x y : UInt8} {rest : Bytes} (h : At b i (x :: y :: rest))
    (hl : i + 1 ≤ len) : ReadUShort b len i = .ok (x.toNat + 256 * y.toNat) := by
  have hn : Num b i 2 (x.toNat + 256 * y.toNat) := by
    refine ⟨[x, y], (at_append (xs := [x, y]) (ys := rest) h).1, rfl, ?_⟩
    rw [← leVal_eq]
    simp [leVal]
  exact readUShort_num hn (by omega) (by omega)

/-- The loop passes over quiet bytes. -/
theorem recordLoop_quiet {abi : Abi} {b : Bytes} {len : Nat} (hs : len + 64 < 2 ^ 32) {mod : Module} (fuel : Nat) :
    ∀ (q : Bytes), Quiet q → ∀ (i old : Nat), At b i q → i + q.length ≤ len + 1 → old ≠ 0x2B →
      ∃ old', old' ≠ 0x2B ∧
        recordLoop abi b len (fuel + q.length / 2) old i mod = recordLoop abi b len fuel old' (i + q.length) mod := by
  intro q
  induction q using Quiet.induct with
  | case1 => intro _ i old _ _ h; exact ⟨old, h, rfl⟩
  | case2 x => intro h; cases h
  | case3 x y rest ih =>
    intro hq i old hat hl hold
    rw [List.length_cons, List.length_cons] at hl
    have hid : x.toNat + 256 * y.toNat ≠ 0x2B := fun e => hq.1 (by rw [e]; decide)
    obtain ⟨old', h', e⟩ := ih hq.2 (i + 2) (x.toNat + 256 * y.toNat) (at_append (xs := [x, y]) hat).2 (by omega) hid
    refine ⟨old', h', ?_⟩
    rw [List.length_cons, List.length_cons, show fuel + (rest.length + 1 + 1) / 2 = (fuel + rest.length / 2) + 1 by omega, recordLoop,
      if_pos ⟨hold, by omega⟩, pair_at hs hat (by omega), Res.bind_ok, show u32 (i + 2) = i + 2 from Nat.mod_eq_of_lt (by omega),
      moduleRecord_quiet hq.1, Res.bind_ok, e]
    congr 1
    omega

theorem quiet_even {q : Bytes} : Quiet q → q.length % 2 = 0 := by
  induction q using Quiet.induct with
  | case1 => intro _; rfl
  | case2 x => intro h; cases h
  | case3 x y rest ih => intro h; have := ih h.2; simp only [List.length_cons]; omega

/-- The first number of bytes in front of which stand quiet ones. -/
theorem first_id {b : Bytes} {len : Nat} (hs : len + 64 < 2 ^ 32) {q : Bytes} (hq : Quiet q) {i id : Nat} {rest : Bytes}
    (h : At b i (q ++ (leBytes 2 id ++ rest))) (hid : id < 65536) (hid' : id ≠ 0x2B) (hl : i + q.length + 2 ≤ len) :
    ∃ id', id' ≠ 0x2B ∧ ReadUShort b len i = .ok id' := by
  match q, hq with
  | [], _ => exact ⟨id, hid', readUShort_num (num_at (at_append (List.nil_append _ ▸ h)).1 (by omega)) (by omega) (by simp at hl; omega)⟩
  | x :: y :: q, hq =>
    rw [List.length_cons] at hl
    exact ⟨_, fun e => hq.1 (by rw [e]; decide), pair_at hs h (by omega)⟩

/-- Quiet bytes up to the end: no module. -/
theorem moduleLoop_quiet {abi : Abi} {b : Bytes} {len : Nat} (hs : len + 64 < 2 ^ 32) (code : WStr → Nat → Res Bytes)
    {q : Bytes} (hq : Quiet q) {i : Nat} (h : At b i q) (hl : i + q.length = len ∨ i + q.length = len + 1) (hi : i < len)
    (fuel : Nat) (mods : List Module) : moduleLoop abi b len code (fuel + 2) i mods = .ok mods := by
  obtain ⟨x, y, r, rfl⟩ : ∃ x y r, q = x :: y :: r := by
    match q, hq with
    | [], _ => simp at hl; omega
    | x :: y :: r, _ => exact ⟨x, y, r, rfl⟩
  have hne : x.toNat + 256 * y.toNat ≠ 0x2B := fun e => hq.1 (by rw [e]; decide)
  have hlen : (x :: y :: r).length ≤ len + 1 := by omega
  generalize hg : (x :: y :: r) = q at *
  obtain ⟨old', h', e⟩ := recordLoop_quiet (abi := abi) (mod := {}) hs (len + 1 - q.length / 2) q (by rw [← hg]; rw [hg]; exact hq) i _ h
    (by omega) hne
  rw [show len + 1 - q.length / 2 + q.length / 2 = len + 1 by omega] at e
  have h2 : 2 ≤ q.length := by rw [← hg]; simp
  obtain ⟨n, hn⟩ : ∃ n, len + 1 - q.length / 2 = n + 1 := ⟨len - q.length / 2, by omega⟩
  have hend : recordLoop abi b len (n + 1) old' (i + q.length) {} = .ok (i + q.length, {}) := by
    rw [recordLoop, if_neg (by omega)]
  rw [hn, hend] at e
  rw [show fuel + 2 = (fuel + 1) + 1 from rfl, moduleLoop, if_pos hi, pair_at hs (hg ▸ h) (by omega), Res.bind_ok, e, Res.bind_ok]
  dsimp only
  rw [if_pos rfl, moduleLoop, show u32 (i + q.length + 4) = i + q.length + 4 from Nat.mod_eq_of_lt (by omega), if_neg (by omega)]

/-- All modules behind quiet bytes, on Windows. -/
theorem moduleLoop_skip {b : Bytes} {len : Nat} (r : Room b len) (code : WStr → Nat → Res Bytes) (ms : List ModuleInfo)
    (cs : List Bytes) (hcs : cs.length = ms.length) (hfit : ∀ m ∈ ms, ModuleFits m)
    (hcode : ∀ (j : Nat) (m : ModuleInfo) (c : Bytes), ms[j]? = some m → cs[j]? = some c → code m.streamUnits m.offset = .ok c)
    (q : Bytes) (hq : Quiet q) (i fuel : Nat) (mods : List Module)
    (h : At b i (q ++ (ms.flatMap ModuleInfo.encode ++ record 0x10 [])))
    (hl : i + q.length + (ms.flatMap ModuleInfo.encode).length + 6 = len) (hf : ms.length + 2 ≤ fuel) :
    ∃ res : List Module, moduleLoop Abi.windows b len code fuel i mods = .ok (mods ++ res) ∧ res.length = ms.length ∧
      ∀ (j : Nat) (x : Module) (m : ModuleInfo) (c : Bytes), res[j]? = some x → ms[j]? = some m → cs[j]? = some c →
        IsModule x m c := by
  have hsm := r.small
  cases ms with
  | nil =>
    obtain ⟨n, rfl⟩ : ∃ n, fuel = n + 2 := ⟨fuel - 2, by simp at hf; omega⟩
    refine ⟨[], ?_, rfl, by simp⟩
    rw [List.flatMap_nil, List.nil_append] at h
    simp only [List.flatMap_nil, List.length_nil] at hl
    rw [moduleLoop_quiet hsm code (quiet_append hq (show Quiet (record 0x10 []) from
      ⟨by decide, by decide, by decide, trivial⟩)) h (by rw [List.length_append, record_length]; simp; omega) (by omega), List.append_nil]
  | cons m ms =>
    cases cs with
    | nil => simp at hcs
    | cons c cs =>
      rw [List.flatMap_cons, List.append_assoc] at h
      rw [List.flatMap_cons, List.length_append] at hl
      obtain ⟨hq0, h'⟩ := at_append h
      obtain ⟨h1, h2⟩ := at_append h'
      have hm := hfit m (by simp)
      have h70 := encode_length m
      have hev := quiet_even hq
      obtain ⟨n, rfl⟩ : ∃ n, fuel = n + 1 := ⟨fuel - 1, by omega⟩
      obtain ⟨g, hg⟩ : ∃ g, len + 1 = g + 13 + q.length / 2 := ⟨len - 12 - q.length / 2, by omega⟩
      obtain ⟨pole, hrec⟩ := recordLoop_spec r m hm h1 (by omega) g
      obtain ⟨id, hid, hread⟩ : ∃ id', id' ≠ 0x2B ∧ ReadUShort b len i = .ok id' := by
        have : ∃ rest, m.encode = leBytes 2 0x19 ++ rest := by
          unfold ModuleInfo.encode record
          simp only [List.append_assoc]
          exact ⟨_, rfl⟩
        obtain ⟨rest, e⟩ := this
        rw [e, List.append_assoc] at h
        exact first_id hsm hq h (by decide) (by decide) (by omega)
      obtain ⟨old', hold', hskip⟩ := recordLoop_quiet (abi := Abi.windows) (mod := {}) hsm (g + 13) q hq i id hq0 (by omega) hid
      have hc : code m.streamUnits m.offset = .ok c := hcode 0 m c rfl rfl
      obtain ⟨res, hres, hlen, hall⟩ := moduleLoop_spec r code ms cs (by simpa using hcs) (fun x hx => hfit x (by simp [hx]))
        (fun j m' c' h1 h2 => hcode (j + 1) m' c' (by simpa using h1) (by simpa using h2)) (i + q.length + m.encode.length) n
        (mods ++ [{ moduleOf m pole with Code := c }]) h2 (by omega) (by simp at hf; omega)
      refine ⟨{ moduleOf m pole with Code := c } :: res, ?_, by simp [hlen], ?_⟩
      · rw [moduleLoop, if_pos (by omega), hread, Res.bind_ok, hg, hskip, recordLoop_old hold' (show 0x19 ≠ 0x2B by decide) (by omega),
          hrec, Res.bind_ok]
        dsimp only
        rw [if_neg (by simpa [moduleOf] using hm.named)]
        dsimp only [moduleOf]
        rw [hc, Res.bind_ok, r.u (by omega),
          show i + q.length + m.encode.length - 4 + 4 = i + q.length + m.encode.length by omega]
        rw [List.append_assoc] at hres
        exact hres
      · intro j x m' c' h1 h2 h3
        cases j with
        | zero =>
          simp at h1 h2 h3
          subst h1 h2 h3
          exact ⟨rfl, rfl, rfl, rfl, rfl, rfl, rfl⟩
        | succ j => exact hall j x m' c' (by simpa using h1) (by simpa using h2) (by simpa using h3)

end Fileid.Vba
