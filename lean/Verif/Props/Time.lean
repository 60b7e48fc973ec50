import Verif.Lemmas.Text

/-!
# Timestamps (C17)
-/

namespace Fileid.Props

open Common Spec

theorem daysOfYears_succ_left (y n : Nat) :
    daysOfYears y (n + 1) = yearDays y + daysOfYears (y + 1) n := by
  induction n with
  | zero => simp [daysOfYears]
  | succ n ih =>
    rw [daysOfYears, ih, daysOfYears]
    have : y + (n + 1) = y + 1 + n := by omega
    rw [this]; omega

theorem daysOfYears_add (y a b : Nat) :
    daysOfYears y (a + b) = daysOfYears y a + daysOfYears (y + a) b := by
  induction b with
  | zero => simp [daysOfYears]
  | succ b ih => rw [← Nat.add_assoc, daysOfYears, ih, daysOfYears]; simp only [Nat.add_assoc]

theorem yearDays_pos (y : Nat) : 365 ≤ yearDays y := by unfold yearDays; split <;> omega

/-- Peeling off years stops at the right year. -/
theorem gmYear_spec (f days y : Nat) (h : days ≤ f) :
    ∃ n, (gmYear f days y).1 = y + n ∧ (gmYear f days y).2 < yearDays (y + n) ∧
      days = daysOfYears y n + (gmYear f days y).2 := by
  induction f generalizing days y with
  | zero =>
    have := yearDays_pos y
    exact ⟨0, rfl, by simp [gmYear]; omega, by simp [gmYear, daysOfYears]⟩
  | succ f ih =>
    unfold gmYear
    split
    · rename_i hlt
      exact ⟨0, rfl, by simpa using hlt, by simp [daysOfYears]⟩
    · rename_i hge
      have hp := yearDays_pos y
      obtain ⟨n, h1, h2, h3⟩ := ih (days - yearDays y) (y + 1) (by omega)
      have e : y + 1 + n = y + (n + 1) := by omega
      refine ⟨n + 1, by rw [h1, e], by rw [← e]; exact h2, ?_⟩
      rw [daysOfYears_succ_left]
      omega

theorem daysOfMonths_twelve (y : Nat) : daysOfMonths y 12 = yearDays y := by
  simp only [daysOfMonths, monthDays, yearDays]
  split <;> rfl

theorem monthDays_pos (y m : Nat) (h1 : 1 ≤ m) (h2 : m ≤ 12) : 28 ≤ monthDays y m := by
  have : m = 1 ∨ m = 2 ∨ m = 3 ∨ m = 4 ∨ m = 5 ∨ m = 6 ∨ m = 7 ∨ m = 8 ∨ m = 9 ∨ m = 10 ∨ m = 11 ∨
    m = 12 := by omega
  rcases this with h | h | h | h | h | h | h | h | h | h | h | h <;> subst h <;>
    first | (simp [monthDays]; done) | (simp only [monthDays]; split <;> omega)

/-- Peeling off months stops at the right month. -/
theorem gmMonth_spec (y : Nat) (f days m : Nat) (hm1 : 1 ≤ m) (hf : m + f = 12)
    (hd : daysOfMonths y (m - 1) + days < daysOfMonths y 12) :
    m ≤ (gmMonth y f days m).1 ∧ (gmMonth y f days m).1 ≤ 12 ∧
      (gmMonth y f days m).2 < monthDays y (gmMonth y f days m).1 ∧
      daysOfMonths y (m - 1) + days =
        daysOfMonths y ((gmMonth y f days m).1 - 1) + (gmMonth y f days m).2 := by
  induction f generalizing days m with
  | zero =>
    obtain rfl : m = 12 := by omega
    refine ⟨by simp [gmMonth], by simp [gmMonth], ?_, rfl⟩
    simp only [gmMonth]
    have : daysOfMonths y 12 = daysOfMonths y 11 + monthDays y 12 := rfl
    simp only [Nat.add_one_sub_one] at hd
    omega
  | succ f ih =>
    unfold gmMonth
    split
    · rename_i hlt
      exact ⟨Nat.le_refl _, by omega, hlt, rfl⟩
    · rename_i hge
      have e : daysOfMonths y m = daysOfMonths y (m - 1) + monthDays y m := by
        obtain ⟨k, rfl⟩ : ∃ k, m = k + 1 := ⟨m - 1, by omega⟩
        simp [daysOfMonths]
      have := ih (days - monthDays y m) (m + 1) (by omega) (by omega) (by
        simp only [Nat.add_one_sub_one]; omega)
      obtain ⟨h1, h2, h3, h4⟩ := this
      simp only [Nat.add_one_sub_one] at h4
      exact ⟨by omega, h2, h3, by omega⟩

/-- The broken-down time is a calendar date and lies the right number of seconds after 1601. -/
theorem gmtime_spec (t : Nat) :
    (gmtime t).Valid ∧ (gmtime t).secondsSince1601 = t + 11644473600 := by
  obtain ⟨n, h1, h2, h3⟩ := gmYear_spec (t / 86400) (t / 86400) 1970 (Nat.le_refl _)
  cases hy : gmYear (t / 86400) (t / 86400) 1970 with
  | mk year yday =>
  rw [hy] at h1 h2 h3
  simp only [] at h1 h2 h3
  subst h1
  obtain ⟨g1, g2, g3, g4⟩ := gmMonth_spec (1970 + n) 11 yday 1 (by omega) (by omega) (by
    rw [daysOfMonths_twelve]; simpa [daysOfMonths] using h2)
  cases hm : gmMonth (1970 + n) 11 yday 1 with
  | mk mon mday =>
  rw [hm] at g1 g2 g3 g4
  simp only [Nat.sub_self, daysOfMonths, Nat.zero_add] at g1 g2 g3 g4
  have heq : gmtime t = ⟨1970 + n, mon, mday + 1, t % 86400 / 3600, t % 86400 % 3600 / 60,
      t % 86400 % 60⟩ := by
    simp only [gmtime, hy, hm]
  rw [heq]
  refine ⟨⟨?_, g1, g2, ?_, ?_, ?_, ?_, ?_⟩, ?_⟩
  · simp only []; omega
  · simp only []; omega
  · simp only []; omega
  · simp only []; omega
  · simp only []; omega
  · simp only []; omega
  · simp only [DateTime.secondsSince1601, Nat.add_one_sub_one]
    have e : 1970 + n - 1601 = 369 + n := by omega
    have e369 : daysOfYears 1601 369 = 134774 := by decide +kernel
    have e1970 : 1601 + 369 = 1970 := rfl
    rw [e, daysOfYears_add, e369, e1970]
    omega

/-- The printed form of a valid date reads back as its six fields. -/
theorem readTimestamp_strftime (d : DateTime) (h : d.Valid) :
    readTimestamp (strftimeFT d) = some (d.year, d.mon, d.day, d.hour, d.min, d.sec) := by
  obtain ⟨_, _, h3, _, h5, h6, h7, h8⟩ := h
  have hday : d.day < 100 := by
    have : monthDays d.year d.mon ≤ 31 := by
      unfold monthDays; split <;> first | omega | (split <;> omega)
    omega
  have c45 : (45 : UInt8) < 48 ∨ 57 < (45 : UInt8) := by decide
  have c32 : (32 : UInt8) < 48 ∨ 57 < (32 : UInt8) := by decide
  have c58 : (58 : UInt8) < 48 ∨ 57 < (58 : UInt8) := by decide
  have e : strftimeFT d = dec d.year ++ 45 :: (setw0 2 (dec d.mon) ++ 45 :: (setw0 2 (dec d.day) ++ 32 ::
      (setw0 2 (dec d.hour) ++ 58 :: (setw0 2 (dec d.min) ++ 58 :: setw0 2 (dec d.sec))))) := by
    simp [strftimeFT]
  rw [e, readTimestamp]
  simp only [Option.bind_eq_bind, splitFirst_append (dec_ne d.year 45 c45), Option.bind_some,
    splitFirst_append (setw0_dec_ne 2 d.mon 45 c45), splitFirst_append (setw0_dec_ne 2 d.day 32 c32),
    splitFirst_append (setw0_dec_ne 2 d.hour 58 c58), splitFirst_append (setw0_dec_ne 2 d.min 58 c58),
    readNumeral_dec, readFixed_setw0_dec 2 d.mon (by omega) (by omega),
    readFixed_setw0_dec 2 d.day (by omega) (by omega), readFixed_setw0_dec 2 d.hour (by omega) (by omega),
    readFixed_setw0_dec 2 d.min (by omega) (by omega), readFixed_setw0_dec 2 d.sec (by omega) (by omega)]

/-- A FILETIME is printed correctly: the text reads as a date and time that exists in the calendar and
lies the FILETIME's whole seconds after 1601-01-01 00:00:00. -/
def TimestampCorrect (errnoOverflow : Bool) (time : Nat) : Prop :=
  ∃ d : DateTime, d.Valid ∧ d.secondsSince1601 = time / 10000000 ∧
    readTimestamp (FileTimeToString errnoOverflow time) =
      some (d.year, d.mon, d.day, d.hour, d.min, d.sec)

/-- C17 for FILETIMEs at least one second after 1970-01-01 00:00:00, while `errno` is not `EOVERFLOW`.
Missing: earlier instants and the influence of `errno`, for both of which the property is false
(`C17_timestamp_wrong_before_1970`, `C17_timestamp_depends_on_errno`). -/
theorem C17_timestamp_partial (time : Nat) (h64 : time < 2 ^ 64)
    (hpost : 11644473601 ≤ time / 10000000) : TimestampCorrect false time := by
  have h1 : time / 10000000 < 2 ^ 63 := by omega
  have hc : convertFILETIME time = ((time / 10000000 - 11644473600 : Nat) : Int) := by
    unfold convertFILETIME sub64 toSigned
    have e : (time / 10000000 + 18446744073709551616 - 11644473600 % 18446744073709551616) %
        18446744073709551616 % 2 ^ 64 = time / 10000000 - 11644473600 := by omega
    simp only [e]
    rw [if_pos (by omega)]
  obtain ⟨v, s⟩ := gmtime_spec (time / 10000000 - 11644473600)
  refine ⟨gmtime (time / 10000000 - 11644473600), v, by omega, ?_⟩
  unfold FileTimeToString
  simp only [hc]
  rw [if_pos (by omega), Int.toNat_natCast]
  simp [readTimestamp_strftime _ v]

example : (132000000000000000 : Nat) < 2 ^ 64 ∧ 11644473601 ≤ 132000000000000000 / 10000000 := by decide
example : FileTimeToString false 132000000000000000 = b!"2019-04-17 18:40:00" := by decide +kernel

/-- C17, the first second of the FILETIME epoch is also printed correctly. -/
theorem C17_timestamp_epoch (e : Bool) (time : Nat) (h : time < 10000000) : TimestampCorrect e time := by
  refine ⟨⟨1601, 1, 1, 0, 0, 0⟩, by decide, ?_, ?_⟩
  · have : time / 10000000 = 0 := by omega
    rw [this]; decide
  · have h0 : time / 10000000 = 0 := by omega
    have hc : convertFILETIME time = -11644473600 := by
      unfold convertFILETIME; rw [h0]; decide
    unfold FileTimeToString
    simp only [hc]
    rw [if_neg (by decide)]
    decide

/-- C17 is false of the code: 1970-01-01 00:00:00 is printed as 1601-01-01 00:00:00. -/
theorem C17_timestamp_wrong_before_1970 : ¬ ∀ time < 2 ^ 64, TimestampCorrect false time := by
  intro h
  obtain ⟨d, hv, hs, hr⟩ := h 116444736000000000 (by decide)
  have hf : FileTimeToString false 116444736000000000 = b!"1601-01-01 00:00:00" := by decide +kernel
  rw [hf] at hr
  have hr' : readTimestamp b!"1601-01-01 00:00:00" = some (1601, 1, 1, 0, 0, 0) := by decide
  rw [hr'] at hr
  cases d
  simp only [Option.some.injEq, Prod.mk.injEq] at hr
  obtain ⟨rfl, rfl, rfl, rfl, rfl, rfl⟩ := hr
  revert hs; decide +kernel

/-- C17 is false of the code: the text depends on an `errno` value left behind by unrelated calls. -/
theorem C17_timestamp_depends_on_errno :
    ¬ ∀ (e : Bool) (time : Nat), time < 2 ^ 64 → 11644473601 ≤ time / 10000000 →
      TimestampCorrect e time := by
  intro h
  obtain ⟨d, hv, hs, hr⟩ := h true 132000000000000000 (by decide) (by decide)
  have hf : FileTimeToString true 132000000000000000 = b!"invalid time" := by decide +kernel
  rw [hf] at hr
  have hr' : readTimestamp b!"invalid time" = none := by decide
  rw [hr'] at hr
  exact absurd hr (by simp)

/-- C17, exactly where it holds: of all FILETIMEs those of the first second of 1601 and, while `errno` is not
`EOVERFLOW`, those from the second second of 1970 on are printed correctly, and no others. -/
theorem C17_timestamp_iff_partial (e : Bool) (time : Nat) (h64 : time < 2 ^ 64) :
    TimestampCorrect e time ↔ time < 10000000 ∨ (e = false ∧ 11644473601 ≤ time / 10000000) := by
  refine ⟨fun h => ?_, fun h => ?_⟩
  · obtain ⟨d, hv, hs, hr⟩ := h
    by_cases h0 : time < 10000000
    · exact Or.inl h0
    right
    unfold FileTimeToString at hr
    by_cases hpost : 11644473601 ≤ time / 10000000
    · refine ⟨?_, hpost⟩
      cases e with
      | false => rfl
      | true =>
        exfalso
        have hc : convertFILETIME time = ((time / 10000000 - 11644473600 : Nat) : Int) := by
          unfold convertFILETIME sub64 toSigned
          have e : (time / 10000000 + 18446744073709551616 - 11644473600 % 18446744073709551616) %
              18446744073709551616 % 2 ^ 64 = time / 10000000 - 11644473600 := by omega
          simp only [e]
          rw [if_pos (by omega)]
        simp only [hc] at hr
        rw [if_pos (by omega)] at hr
        exact absurd hr (by simp [show readTimestamp b!"invalid time" = none by decide])
    · exfalso
      have hc : convertFILETIME time ≤ 0 := by
        unfold convertFILETIME sub64 toSigned
        split <;> omega
      dsimp only at hr
      rw [if_neg (by omega), show readTimestamp b!"1601-01-01 00:00:00" = some (1601, 1, 1, 0, 0, 0) by decide] at hr
      cases d
      simp only [Option.some.injEq, Prod.mk.injEq] at hr
      obtain ⟨rfl, rfl, rfl, rfl, rfl, rfl⟩ := hr
      have : (DateTime.mk 1601 1 1 0 0 0).secondsSince1601 = 0 := by decide
      rw [this] at hs
      omega
  · rcases h with h | ⟨rfl, h⟩
    · exact C17_timestamp_epoch e time h
    · exact C17_timestamp_partial time h64 h

-- The last tick before 1970-01-01 00:00:01 is printed wrongly, the next one correctly.
example : ¬ TimestampCorrect false 116444736009999999 ∧ TimestampCorrect false 116444736010000000 := by
  constructor
  · rw [C17_timestamp_iff_partial _ _ (by decide)]; decide
  · rw [C17_timestamp_iff_partial _ _ (by decide)]; decide

end Fileid.Props
