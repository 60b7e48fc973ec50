import Verif.Model.ExcelEngine
import Verif.Spec.Workbook
import Verif.Lemmas.Asf

/-!
# The walk through a workbook stream, record by record
-/

namespace Fileid.Excel

open Common Spec Spec.Biff ExcelTables

/-! ## `ParseRecord` -/

def interpretedNames : List Bytes :=
  [b!"Formula", b!"Lbl", b!"WinProtect", b!"ExternName", b!"FilePass", b!"Continue", b!"CodePage", b!"WriteAccess",
   b!"BoundSheet8", b!"Country", b!"FnGroupName", b!"BuiltInFnGroupCount", b!"MulBlank", b!"SST", b!"LabelSst",
   b!"SupBook", b!"CodeName", b!"Blank", b!"BoolErr", b!"String", b!"Row", b!"RK", b!"BOF", b!"AreaFormat", b!"AlRuns"]

theorem lookup_mem {α : Type} [DecidableEq α] {t : List (α × Bytes)} {k : α} {v : Bytes} (h : Tables.lookup t k = some v) :
    (k, v) ∈ t := by
  unfold Tables.lookup at h
  rw [Option.map_eq_some_iff] at h
  obtain ⟨e, he, rfl⟩ := h
  have h1 := List.find?_some he
  have h2 := List.mem_of_find?_eq_some he
  simp only [decide_eq_true_eq] at h1
  rw [← h1]
  exact h2

theorem table_interpreted : ∀ p ∈ biff8Classes, p.2 ∈ interpretedNames → p.1 ∈ interpreted := by decide +kernel
theorem table_continue : ∀ p ∈ biff8Classes, p.2 = b!"Continue" → p.1 = continueType := by decide +kernel

theorem class_not_interpreted {type : Nat} (h : type ∉ interpreted) :
    (Tables.lookup biff8Classes type).getD [] ∉ interpretedNames := by
  cases hl : Tables.lookup biff8Classes type with
  | none => show [] ∉ interpretedNames; decide
  | some v => exact fun hv => h (table_interpreted _ (lookup_mem hl) hv)

theorem class_continue {type : Nat} (h : (Tables.lookup biff8Classes type).getD [] = b!"Continue") : type = continueType := by
  cases hl : Tables.lookup biff8Classes type with
  | none => rw [hl] at h; cases h
  | some v => rw [hl] at h; exact table_continue _ (lookup_mem hl) h

theorem simpleView_plain (abi : Abi) (fuel : Nat) {cls : Bytes} (h : cls ∉ interpretedNames) (data : Bytes) :
    simpleView abi fuel cls data = .ok .plain := by
  simp only [interpretedNames, List.mem_cons, not_or] at h
  unfold simpleView
  simp [h]

/-- A record of a type that is not interpreted. -/
theorem parseBiff8_plain (abi : Abi) (fmt : Fmt) (fuel : Nat) (e : Eng) {type : Nat} (data : Bytes)
    (h : type ∉ interpreted) : parseBiff8 abi fmt fuel e type data = .ok (e.master, Rec.make type data .plain) := by
  have hc := class_not_interpreted h
  unfold parseBiff8
  dsimp only
  rw [simpleView_plain abi fuel hc]
  simp only [interpretedNames, List.mem_cons, not_or] at hc
  simp [hc, fresh]

/-- What a constructor leaves: the other records, and a new one with the given type and data. -/
def Made (e : Eng) (type : Nat) (data : Bytes) (m : List Rec) (r : Rec) : Prop :=
  (∃ v, r = Rec.make type data v) ∧
  (m = e.master ∨ type = continueType ∧ ∃ i, lastIdx (fun r => r.type != type) e.master = some i ∧
    m = e.master.modify i (fun r => r.append data))

theorem fresh_made {e : Eng} {type : Nat} {data : Bytes} {v : Res View} {m : List Rec} {r : Rec}
    (h : fresh e type data v = .ok (m, r)) : Made e type data m r := by
  unfold fresh at h
  cases v with
  | ok v =>
    simp only [Res.bind_ok, Res.ok.injEq, Prod.mk.injEq] at h
    exact ⟨⟨v, h.2.symm⟩, Or.inl h.1.symm⟩
  | throw x => cases h
  | ub x => cases h
  | fuel => cases h

theorem bind_ok_inv {α β : Type} {x : Res α} {f : α → Res β} {b : β} (h : (x >>= f) = .ok b) :
    ∃ a, x = .ok a ∧ f a = .ok b := by
  cases x with
  | ok a => exact ⟨a, rfl, h⟩
  | throw x => cases h
  | ub x => cases h
  | fuel => cases h

theorem parseBiff8_made {abi : Abi} {fmt : Fmt} {fuel : Nat} {e : Eng} {type : Nat} {data : Bytes} {m : List Rec} {r : Rec}
    (h : parseBiff8 abi fmt fuel e type data = .ok (m, r)) : Made e type data m r := by
  unfold parseBiff8 at h
  dsimp only at h
  split at h
  · exact fresh_made h
  · split at h
    · unfold freshExternName at h
      obtain ⟨_, _, h⟩ := bind_ok_inv h
      exact fresh_made h
    · split at h
      · unfold freshLabelSst at h
        obtain ⟨_, _, h⟩ := bind_ok_inv h
        obtain ⟨_, _, h⟩ := bind_ok_inv h
        exact fresh_made h
      · split at h
        · rename_i hc
          unfold freshContinue at h
          obtain ⟨m', hm, h⟩ := bind_ok_inv h
          simp only [Res.ok.injEq, Prod.mk.injEq] at h
          obtain ⟨rfl, rfl⟩ := h
          refine ⟨⟨_, rfl⟩, Or.inr ⟨class_continue hc, ?_⟩⟩
          unfold mkContinue Eng.prevNotOfType at hm
          obtain ⟨o, ho, hm⟩ := bind_ok_inv hm
          split at ho
          · cases ho
          · simp only [Res.ok.injEq] at ho
            subst ho
            split at hm
            · cases hm
            · rename_i i hi
              simp only [Res.ok.injEq] at hm
              exact ⟨i, hi, hm.symm⟩
        · exact fresh_made h

theorem ParseRecord_made {abi : Abi} {fmt : Fmt} {fuel : Nat} {e : Eng} {type : Nat} {data : Bytes} {m : List Rec} {r : Rec}
    (h : ParseRecord abi fmt fuel e type data = .ok (some (m, r))) : Made e type data m r := by
  have h' : parseVersioned abi fmt fuel e type data = .ok (m, r) := by
    unfold ParseRecord dropRangeError at h
    split at h <;> simp_all
  unfold parseVersioned at h'
  repeat' split at h'
  all_goals first
    | exact parseBiff8_made h'
    | exact fresh_made h'

/-- Whatever the version, a record of a type that is not interpreted and does not begin a substream. -/
theorem ParseRecord_plain (abi : Abi) (fmt : Fmt) (fuel : Nat) (e : Eng) {type : Nat} (data : Bytes)
    (h : type ∉ interpreted) : ∃ v, ParseRecord abi fmt fuel e type data = .ok (some (e.master, Rec.make type data v)) := by
  have h85 : type ≠ 0x85 := fun h' => h (by rw [h']; decide)
  unfold ParseRecord parseVersioned
  repeat' split
  all_goals first
    | (rw [parseBiff8_plain _ _ _ _ _ h]; exact ⟨_, rfl⟩)
    | exact absurd ‹_› h85
    | exact ⟨_, rfl⟩

/-! ## One record -/

/-- What the body of the loop does with a record, given as type and data. -/
def doRecord (abi : Abi) (fmt : Fmt) (fuel max : Nat) (r : Record) (e : Eng) : Res Eng := do
  let x ← ParseRecord abi fmt fuel { e with index := u32 (e.index + 4) } r.type r.data
  match x with
  | none => .ok { e with index := u32 (u32 (e.index + 4) + r.data.length) }
  | some (m, q) => do
    let e ← effect { e with index := u32 (e.index + 4), master := m } max q
    let e ← addRecord e q
    .ok { e with index := u32 (e.index + r.data.length) }

/-- Several records. -/
def doRecords (abi : Abi) (fmt : Fmt) (fuel max : Nat) : List Record → Eng → Res Eng
  | [], e => .ok e
  | r :: rs, e => do
    let e ← doRecord abi fmt fuel max r e
    doRecords abi fmt fuel max rs e

theorem doRecords_append (abi : Abi) (fmt : Fmt) (fuel max : Nat) (a b : List Record) (e : Eng) :
    doRecords abi fmt fuel max (a ++ b) e = doRecords abi fmt fuel max a e >>= doRecords abi fmt fuel max b := by
  induction a generalizing e with
  | nil => rfl
  | cons r a ih =>
    rw [List.cons_append, doRecords, doRecords]
    cases doRecord abi fmt fuel max r e with
    | ok e' => rw [Res.bind_ok, Res.bind_ok, ih]
    | throw x => rfl
    | ub u => rfl
    | fuel => rfl

theorem Record.bytes_length (r : Record) : r.bytes.length = 4 + r.data.length := by
  simp [Record.bytes, leBytes_length]; omega

theorem stream_cons (r : Record) (rs : List Record) : stream (r :: rs) = r.bytes ++ stream rs := rfl
theorem stream_append (a b : List Record) : stream (a ++ b) = stream a ++ stream b := by simp [stream]

/-- The body of the loop at a record behind which the stream goes on. -/
theorem stepEngine_at {abi : Abi} {fmt : Fmt} {fuel : Nat} {buffer : Bytes} {e : Eng} {r : Record} (hv : r.Valid)
    (h : At buffer e.index r.bytes) (hb : buffer.length < 2 ^ 32) (hm : e.index + r.bytes.length < buffer.length) :
    stepEngine abi fmt fuel buffer e = doRecord abi fmt fuel buffer.length r e := by
  rw [Record.bytes_length] at hm
  unfold Record.bytes at h
  rw [List.append_assoc] at h
  obtain ⟨h1, h2⟩ := at_append h
  obtain ⟨h2, h3⟩ := at_append h2
  rw [leBytes_length] at h2
  rw [leBytes_length, leBytes_length] at h3
  have e2 : u32 (e.index + 2) = e.index + 2 := Nat.mod_eq_of_lt (by omega)
  have e4 : u32 (e.index + 4) = e.index + 4 := Nat.mod_eq_of_lt (by omega)
  unfold stepEngine
  rw [Asf.ushort_at h1 hv.1 hb, Res.bind_ok, e2, Asf.ushort_at h2 hv.2 hb, Res.bind_ok]
  unfold stepRecord doRecord
  have hd : recordData buffer (e.index + 4) r.data.length = r.data := by
    unfold recordData
    rw [show u32 (e.index + 4 + r.data.length) = e.index + 4 + r.data.length from Nat.mod_eq_of_lt (by omega), if_pos (by omega)]
    rw [show e.index + 4 + r.data.length - (e.index + 4) = r.data.length by omega]
    exact h3.eq_take_drop
  rw [e4]
  dsimp only
  rw [hd]
  congr 1

theorem addRecord_index {e e' : Eng} {q : Rec} (h : addRecord e q = .ok e') : e'.index = e.index := by
  unfold addRecord at h
  split at h
  · cases h
  · cases h; rfl
  · cases h; rfl

theorem effect_index {e e' : Eng} {max : Nat} {q : Rec} (hq : q.type ≠ filePassType) (h : effect e max q = .ok e') :
    e'.index = e.index := by
  unfold effect at h
  split at h
  · split at h
    · unfold globalBof at h
      split at h
      · cases h
      · obtain ⟨_, _, h⟩ := bind_ok_inv h
        cases h; rfl
    · cases h
      unfold subStreamBof
      dsimp only
      repeat' split
      all_goals rfl
  · split at h
    · unfold boundSheet at h
      split at h
      · obtain ⟨_, _, h⟩ := bind_ok_inv h
        cases h; rfl
      · split at h <;> (cases h; rfl)
    · split at h
      · exact absurd ‹_› hq
      · cases h; rfl

theorem doRecord_index {abi : Abi} {fmt : Fmt} {fuel max : Nat} {r : Record} {e e' : Eng} (hr : r.type ≠ filePassType)
    (hb : e.index + r.bytes.length < 2 ^ 32) (h : doRecord abi fmt fuel max r e = .ok e') :
    e'.index = e.index + r.bytes.length := by
  rw [Record.bytes_length] at hb ⊢
  have key : u32 (u32 (e.index + 4) + r.data.length) = e.index + (4 + r.data.length) := by unfold u32; omega
  unfold doRecord at h
  obtain ⟨x, hx, h⟩ := bind_ok_inv h
  split at h
  · cases h
    exact key
  · rename_i m q
    obtain ⟨e1, h1, h'⟩ := bind_ok_inv h
    obtain ⟨e2, h2, h''⟩ := bind_ok_inv h'
    obtain ⟨⟨v, rfl⟩, _⟩ := ParseRecord_made hx
    cases h''
    dsimp only
    rw [addRecord_index h2, effect_index hr h1]
    exact key

/-! ## The walk -/

/-- The walk over records behind which one to four bytes follow: the engine it leaves is that after a part of the
records, and after all of them if it ends without an error. -/
theorem walk_inv {abi : Abi} {fmt : Fmt} {fuel : Nat} {buffer tail : Bytes} (hb : buffer.length + 4 ≤ 2 ^ 32)
    (ht : 0 < tail.length ∧ tail.length ≤ 4) (rs : List Record) (hv : ∀ r ∈ rs, r.Valid)
    (hf : ∀ r ∈ rs, r.type ≠ filePassType) : ∀ (n : Nat) (e e' : Eng) (res : Res Unit) (pre : Bytes),
    buffer = pre ++ (stream rs ++ tail) → e.index = pre.length → walk abi fmt fuel buffer n e = (e', res) →
    ∃ k, doRecords abi fmt fuel buffer.length (rs.take k) e = .ok e' ∧ (res = .ok () → k = rs.length) := by
  induction rs with
  | nil =>
    intro n e e' res pre hbuf hi h
    refine ⟨0, ?_, fun _ => rfl⟩
    cases n with
    | zero => cases h; rfl
    | succ n =>
      have hl : buffer.length = pre.length + tail.length := by rw [hbuf]; simp [stream]
      rw [walk, if_neg] at h
      · cases h; rfl
      · unfold u32
        omega
  | cons r rs ih =>
    intro n e e' res pre hbuf hi h
    have hbl := Record.bytes_length r
    have hl : buffer.length = pre.length + (r.bytes.length + ((stream rs).length + tail.length)) := by
      rw [hbuf, stream_cons]; simp
    have hat : At buffer e.index r.bytes := ⟨pre, stream rs ++ tail, by rw [hbuf, stream_cons]; simp, hi.symm⟩
    cases n with
    | zero =>
      cases h
      exact ⟨0, rfl, fun h => by cases h⟩
    | succ n =>
      rw [walk, if_pos (by unfold u32; omega), stepEngine_at (hv r (by simp)) hat (by omega) (by omega)] at h
      cases hd : doRecord abi fmt fuel buffer.length r e with
      | ok e1 =>
        rw [hd] at h
        have hi1 := doRecord_index (hf r (by simp)) (by omega) hd
        obtain ⟨k, hk, hk'⟩ := ih (fun q hq => hv q (by simp [hq])) (fun q hq => hf q (by simp [hq])) n e1 e' res (pre ++ r.bytes)
          (by rw [hbuf, stream_cons]; simp) (by rw [hi1, hi]; simp) h
        refine ⟨k + 1, ?_, fun hr => by rw [hk' hr]; rfl⟩
        rw [List.take_succ_cons, doRecords, hd, Res.bind_ok]
        exact hk
      | throw x =>
        rw [hd] at h; cases h
        exact ⟨0, rfl, fun h => by cases h⟩
      | ub x =>
        rw [hd] at h; cases h
        exact ⟨0, rfl, fun h => by cases h⟩
      | fuel =>
        rw [hd] at h; cases h
        exact ⟨0, rfl, fun h => by cases h⟩

/-- The walk over records all of which can be read, up to what follows them. -/
theorem walk_append {abi : Abi} {fmt : Fmt} {fuel : Nat} {buffer rest : Bytes} (hb : buffer.length + 4 ≤ 2 ^ 32)
    (ht : 0 < rest.length) (rs : List Record) (hv : ∀ r ∈ rs, r.Valid)
    (hf : ∀ r ∈ rs, r.type ≠ filePassType) : ∀ (n : Nat) (e e' : Eng) (pre : Bytes),
    buffer = pre ++ (stream rs ++ rest) → e.index = pre.length → doRecords abi fmt fuel buffer.length rs e = .ok e' →
    walk abi fmt fuel buffer (rs.length + n) e = walk abi fmt fuel buffer n e' := by
  induction rs with
  | nil =>
    intro n e e' pre hbuf hi h
    cases h
    rw [List.length_nil, Nat.zero_add]
  | cons r rs ih =>
    intro n e e' pre hbuf hi h
    have hbl := Record.bytes_length r
    have hl : buffer.length = pre.length + (r.bytes.length + ((stream rs).length + rest.length)) := by
      rw [hbuf, stream_cons]; simp
    have hat : At buffer e.index r.bytes := ⟨pre, stream rs ++ rest, by rw [hbuf, stream_cons]; simp, hi.symm⟩
    rw [doRecords] at h
    obtain ⟨e1, hd, h⟩ := bind_ok_inv h
    rw [List.length_cons, show rs.length + 1 + n = (rs.length + n) + 1 by omega, walk, if_pos (by unfold u32; omega),
      stepEngine_at (hv r (by simp)) hat (by omega) (by omega), hd]
    have hi1 := doRecord_index (hf r (by simp)) (by omega) hd
    exact ih (fun q hq => hv q (by simp [hq])) (fun q hq => hf q (by simp [hq])) n e1 e' (pre ++ r.bytes)
      (by rw [hbuf, stream_cons]; simp) (by rw [hi1, hi]; simp) h

/-- The walk over records all of which can be read. -/
theorem walk_ok {abi : Abi} {fmt : Fmt} {fuel : Nat} {buffer tail : Bytes} (hb : buffer.length + 4 ≤ 2 ^ 32)
    (ht : 0 < tail.length ∧ tail.length ≤ 4) (rs : List Record) (hv : ∀ r ∈ rs, r.Valid)
    (hf : ∀ r ∈ rs, r.type ≠ filePassType) (n : Nat) (e e' : Eng) (pre : Bytes) (hn : rs.length < n)
    (hbuf : buffer = pre ++ (stream rs ++ tail)) (hi : e.index = pre.length)
    (h : doRecords abi fmt fuel buffer.length rs e = .ok e') (hi' : e'.index = pre.length + (stream rs).length) :
    walk abi fmt fuel buffer n e = (e', .ok ()) := by
  obtain ⟨k, rfl⟩ : ∃ k, n = rs.length + (k + 1) := ⟨n - rs.length - 1, by omega⟩
  have hl : buffer.length = pre.length + ((stream rs).length + tail.length) := by rw [hbuf]; simp
  rw [walk_append hb ht.1 rs hv hf (k + 1) e e' pre hbuf hi h, walk, if_neg]
  unfold u32
  omega

end Fileid.Excel
