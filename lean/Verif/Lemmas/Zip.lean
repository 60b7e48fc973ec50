import Verif.Spec.Zip
import Verif.Lemmas.Formats
import Verif.Model.Zip

/-!
# Lemmas on text search and on the content-type scan
-/

namespace Fileid

open Spec Zip

theorem at_zero_iff (s pat : Bytes) : At s 0 pat ↔ pat <+: s := by
  constructor
  · rintro ⟨pre, post, h, hl⟩
    have : pre = [] := List.length_eq_zero_iff.1 hl
    subst this
    exact ⟨post, by simpa using h.symm⟩
  · rintro ⟨t, ht⟩
    exact ⟨[], t, by simp [ht], rfl⟩

theorem at_succ_iff (c : UInt8) (s pat : Bytes) (i : Nat) : At (c :: s) (i + 1) pat ↔ At s i pat := by
  constructor
  · rintro ⟨pre, post, h, hl⟩
    cases pre with
    | nil => simp at hl
    | cons p pre =>
      simp only [List.cons_append, List.cons.injEq] at h
      exact ⟨pre, post, h.2, by simpa using hl⟩
  · rintro ⟨pre, post, h, hl⟩
    exact ⟨c :: pre, post, by simp [h], by simp [hl]⟩

theorem findAt_first (pat : Bytes) : ∀ (s : Bytes) (i : Nat), At s i pat → (∀ j < i, ¬ At s j pat) →
    findAt pat s = some i := by
  intro s
  induction s with
  | nil =>
    intro i h _
    have hl := h.length_le
    simp only [List.length_nil] at hl
    have h0 : i = 0 := by omega
    have hp : pat = [] := List.length_eq_zero_iff.1 (by omega)
    simp [findAt, h0, hp]
  | cons c cs ih =>
    intro i h hmin
    rw [findAt]
    cases i with
    | zero => rw [if_pos (List.isPrefixOf_iff_prefix.2 ((at_zero_iff _ _).1 h))]
    | succ i =>
      rw [if_neg (fun hp => hmin 0 (by omega) ((at_zero_iff _ _).2 (List.isPrefixOf_iff_prefix.1 hp)))]
      rw [ih i ((at_succ_iff c cs pat i).1 h) fun j hj hat => hmin (j + 1) (by omega) ((at_succ_iff _ _ _ _).2 hat)]
      rfl

theorem findAt_none (pat : Bytes) : ∀ (s : Bytes), ¬ Occurs pat s → findAt pat s = none := by
  intro s
  induction s with
  | nil =>
    intro h
    rw [findAt, if_neg]
    intro hp
    rw [List.isEmpty_iff] at hp
    exact h ⟨0, [], [], by simp [hp], rfl⟩
  | cons c cs ih =>
    intro h
    rw [findAt, if_neg, ih]
    · rfl
    · rintro ⟨i, hi⟩; exact h ⟨i + 1, (at_succ_iff _ _ _ _).2 hi⟩
    · intro hp; exact h ⟨0, (at_zero_iff _ _).2 (List.isPrefixOf_iff_prefix.1 hp)⟩

/-- The first occurrence of an occurring pattern. -/
theorem first_occurrence {pat s : Bytes} (h : Occurs pat s) : ∃ i, At s i pat ∧ ∀ j < i, ¬ At s j pat := by
  obtain ⟨i, hi⟩ := h
  induction i using Nat.strongRecOn with
  | ind i ih =>
    by_cases h : ∃ j, j < i ∧ At s j pat
    · obtain ⟨j, hj, hat⟩ := h
      exact ih j hj hat
    · exact ⟨i, hi, fun j hj hat => h ⟨j, hj, hat⟩⟩

theorem ctOpen_length : ctOpen.length = 13 := rfl

theorem ctOpen_C : ∀ k, 0 < k → k < 13 → ctOpen[k]? ≠ some 67 := by
  intro k h1 h2
  have : ∀ k : Fin 13, 0 < k.val → ctOpen[k.val]? ≠ some 67 := by decide
  exact this ⟨k, h2⟩ h1

/-- The opening text cannot overlap itself, so after a gap without it its first occurrence is right there. -/
theorem findAt_ctOpen (gap rest : Bytes) (h : ¬ Occurs ctOpen gap) :
    findAt ctPat (gap ++ ctOpen ++ rest) = some gap.length := by
  show findAt ctOpen _ = _
  apply findAt_first
  · exact ⟨gap, rest, rfl, rfl⟩
  · rintro j hj hat
    by_cases hle : j + 13 ≤ gap.length
    · apply h
      obtain ⟨pre, post, h1, h2⟩ := hat
      refine ⟨j, pre, (gap.drop (j + 13)), ?_, h2⟩
      have := congrArg (List.take (j + 13)) h1
      rw [List.append_assoc gap, List.take_append_of_le_length hle, List.take_append_of_le_length (by simp [h2, ctOpen_length]),
        List.take_of_length_le (l := pre ++ ctOpen) (by simp [h2, ctOpen_length])] at this
      rw [← this, List.take_append_drop]
    · have h1 := hat.getElem? (gap.length - j) (by rw [ctOpen_length]; omega)
      rw [show j + (gap.length - j) = gap.length by omega, List.append_assoc, List.getElem?_append_right (Nat.le_refl _),
        Nat.sub_self] at h1
      exact ctOpen_C (gap.length - j) (by omega) (by omega) (h1.symm.trans rfl)

theorem findAt_quote (value rest : Bytes) (h : 34 ∉ value) :
    findAt b!"\"" (value ++ b!"\"" ++ rest) = some value.length := by
  apply findAt_first
  · exact ⟨value, rest, rfl, rfl⟩
  · intro j hj hat
    have h1 := hat.getElem? 0 (by simp)
    rw [Nat.add_zero, List.append_assoc, List.getElem?_append_left hj] at h1
    simp only [List.getElem?_cons_zero] at h1
    exact h (List.mem_of_getElem? h1)

theorem not_occurs_quote {s : Bytes} (h : 34 ∉ s) : ¬ Occurs b!"\"" s := by
  rintro ⟨i, hi⟩
  have h1 := hi.getElem? 0 (by simp)
  exact h (List.mem_of_getElem? h1)

theorem find_append (pat pre suf : Bytes) : find pat (pre ++ suf) pre.length = (findAt pat suf).map (· + pre.length) := by
  unfold find
  rw [if_pos (by simp), List.drop_left]

/-- The scan visits exactly these values. -/
theorem scanLoop_eq {σ : Type} (step : σ → Bytes → Res σ) :
    ∀ (suf : Bytes) (vs : List Bytes), Scans suf vs →
    ∀ (pre : Bytes) (fuel : Nat) (st : σ), suf.length < fuel →
      scanLoop step (pre ++ suf) fuel (find ctPat (pre ++ suf) pre.length) st = vs.foldlM step st := by
  intro suf vs h
  induction h with
  | done text hno =>
    intro pre fuel st hf
    obtain ⟨fuel, rfl⟩ : ∃ f, fuel = f + 1 := ⟨fuel - 1, by omega⟩
    rw [find_append, show findAt ctPat text = none from findAt_none ctOpen text hno]
    rfl
  | unterminated gap rest hgap hrest =>
    intro pre fuel st hf
    obtain ⟨fuel, rfl⟩ : ∃ f, fuel = f + 1 := ⟨fuel - 1, by omega⟩
    rw [find_append, findAt_ctOpen gap rest hgap, Option.map_some, scanLoop]
    have hq : find b!"\"" (pre ++ (gap ++ ctOpen ++ rest)) (gap.length + pre.length + 14) = none := by
      unfold find
      split
      · rw [show pre ++ (gap ++ ctOpen ++ rest) = (pre ++ gap ++ ctOpen) ++ rest by simp,
          show gap.length + pre.length + 14 = (pre ++ gap ++ ctOpen).length + 1 by
            simp [ctOpen_length]; omega,
          List.drop_append]
        rw [findAt_none]
        · rfl
        · apply not_occurs_quote
          rw [List.drop_of_length_le (by omega)]
          simp only [List.nil_append]
          rwa [show (pre ++ gap ++ ctOpen).length + 1 - (pre ++ gap ++ ctOpen).length = 1 by omega]
      · rfl
    simp only [hq]
    rfl
  | attr gap c value rest vs hgap hval _ ih =>
    intro pre fuel st hf
    obtain ⟨fuel, rfl⟩ : ∃ f, fuel = f + 1 := ⟨fuel - 1, by omega⟩
    have e1 : gap ++ ctOpen ++ (c :: value) ++ b!"\"" ++ rest = gap ++ ctOpen ++ ((c :: value) ++ b!"\"" ++ rest) := by
      simp
    rw [find_append, e1, findAt_ctOpen gap _ hgap, Option.map_some, scanLoop]
    have e2 : pre ++ (gap ++ ctOpen ++ ((c :: value) ++ b!"\"" ++ rest)) =
        (pre ++ gap ++ ctOpen ++ [c]) ++ (value ++ b!"\"" ++ rest) := by simp
    have l2 : gap.length + pre.length + 14 = (pre ++ gap ++ ctOpen ++ [c]).length := by
      simp [ctOpen_length]; omega
    have hq : find b!"\"" (pre ++ (gap ++ ctOpen ++ ((c :: value) ++ b!"\"" ++ rest))) (gap.length + pre.length + 14) =
        some (value.length + (gap.length + pre.length + 14)) := by
      rw [e2, l2, find_append, findAt_quote value rest hval]
      rfl
    simp only [hq]
    have hct : ((pre ++ (gap ++ ctOpen ++ ((c :: value) ++ b!"\"" ++ rest))).drop (gap.length + pre.length + 14 - 1)).take
        (value.length + (gap.length + pre.length + 14) - (gap.length + pre.length + 14) + 1) = c :: value := by
      rw [show pre ++ (gap ++ ctOpen ++ ((c :: value) ++ b!"\"" ++ rest)) =
          (pre ++ gap ++ ctOpen) ++ ((c :: value) ++ (b!"\"" ++ rest)) by simp,
        show gap.length + pre.length + 14 - 1 = (pre ++ gap ++ ctOpen).length by simp [ctOpen_length]; omega,
        List.drop_left, show value.length + (gap.length + pre.length + 14) - (gap.length + pre.length + 14) + 1 =
          (c :: value).length by simp, List.take_left]
    rw [hct, List.foldlM_cons]
    have hnext : ∀ st', scanLoop step (pre ++ (gap ++ ctOpen ++ ((c :: value) ++ b!"\"" ++ rest))) fuel
        (find ctPat (pre ++ (gap ++ ctOpen ++ ((c :: value) ++ b!"\"" ++ rest)))
          (value.length + (gap.length + pre.length + 14) + 1)) st' = vs.foldlM step st' := by
      intro st'
      have := ih (pre ++ gap ++ ctOpen ++ (c :: value) ++ b!"\"") fuel st'
        (by simp [ctOpen_length] at hf ⊢; omega)
      rw [show (pre ++ gap ++ ctOpen ++ (c :: value) ++ b!"\"").length =
        value.length + (gap.length + pre.length + 14) + 1 by simp [ctOpen_length]; omega] at this
      rw [← this]
      simp
    simp only [hnext]

theorem scan_exact {σ : Type} (step : σ → Bytes → Res σ) (text : Bytes) (vs : List Bytes) (h : Scans text vs) (st : σ) :
    scan step text st = vs.foldlM step st :=
  scanLoop_eq step text vs h [] (text.length + 1) st (by omega)

/-- Without empty values the values taken are those declared. -/
theorem scans_of_declares {text : Bytes} {vs : List Bytes} (h : Declares text vs) (hne : ∀ v ∈ vs, v ≠ []) : Scans text vs := by
  induction h with
  | done text hno => exact .done text hno
  | unterminated gap rest hgap hrest => exact .unterminated gap rest hgap fun hm => hrest (List.mem_of_mem_drop hm)
  | attr gap value rest vs hgap hval _ ih =>
    cases value with
    | nil => exact absurd rfl (hne [] (by simp))
    | cons c v => exact .attr gap c v rest vs hgap (fun h => hval (by simp [h])) (ih fun w hw => hne w (by simp [hw]))

theorem scan_eq {σ : Type} (step : σ → Bytes → Res σ) (text : Bytes) (vs : List Bytes) (h : Declares text vs)
    (hne : ∀ v ∈ vs, v ≠ []) (st : σ) : scan step text st = vs.foldlM step st :=
  scan_exact step text vs (scans_of_declares h hne) st

/-- From every text some values are taken … -/
theorem scans_total (text : Bytes) : ∃ vs, Scans text vs := by
  induction hn : text.length using Nat.strongRecOn generalizing text with
  | ind n ih =>
    by_cases h : Occurs ctOpen text
    · obtain ⟨i, ⟨gap, rest, rfl, rfl⟩, hmin⟩ := first_occurrence h
      have hgap : ¬ Occurs ctOpen gap := by
        rintro ⟨j, pre, post, rfl, rfl⟩
        exact hmin pre.length (by simp [ctOpen_length]; omega) ⟨pre, post ++ ctOpen ++ rest, by simp, rfl⟩
      by_cases hq : 34 ∈ rest.drop 1
      · cases rest with
        | nil => simp at hq
        | cons c rest =>
          obtain ⟨value, rest, hr, hval⟩ := List.eq_append_cons_of_mem hq
          rw [List.drop_succ_cons, List.drop_zero] at hr
          subst hr
          obtain ⟨vs, hvs⟩ := ih rest.length (by simp at hn; omega) rest rfl
          refine ⟨(c :: value) :: vs, ?_⟩
          have := Scans.attr gap c value rest vs hgap hval hvs
          simpa using this
      · exact ⟨[], .unterminated gap rest hgap hq⟩
    · exact ⟨[], .done text h⟩

/-- … and only these. -/
theorem scans_unique {text : Bytes} {vs vs' : List Bytes} (h : Scans text vs) (h' : Scans text vs') : vs = vs' := by
  have key : ∀ vs, Scans text vs → scan (fun acc v => .ok (acc ++ [v])) text [] = .ok vs := by
    intro vs hs
    rw [scan_exact _ text vs hs]
    have : ∀ (vs acc : List Bytes),
        vs.foldlM (fun acc v => (Res.ok (acc ++ [v]) : Res (List Bytes))) acc = .ok (acc ++ vs) := by
      intro vs
      induction vs with
      | nil => intro acc; simp
      | cons v vs ih => intro acc; rw [List.foldlM_cons, Res.bind_ok, ih]; simp
    simpa using this vs []
  have h1 := key vs h
  rw [key vs' h'] at h1
  injection h1 with h1
  exact h1.symm

/-- Every text declares some list of values … -/
theorem declares_total (text : Bytes) : ∃ vs, Declares text vs := by
  induction hn : text.length using Nat.strongRecOn generalizing text with
  | ind n ih =>
    by_cases h : Occurs ctOpen text
    · obtain ⟨i, ⟨gap, rest, rfl, rfl⟩, hmin⟩ := first_occurrence h
      have hgap : ¬ Occurs ctOpen gap := by
        rintro ⟨j, pre, post, rfl, rfl⟩
        exact hmin pre.length (by simp [ctOpen_length]; omega) ⟨pre, post ++ ctOpen ++ rest, by simp, rfl⟩
      by_cases hq : 34 ∈ rest
      · obtain ⟨value, rest, rfl, hval⟩ := List.eq_append_cons_of_mem hq
        obtain ⟨vs, hvs⟩ := ih rest.length (by simp at hn; omega) rest rfl
        refine ⟨value :: vs, ?_⟩
        have := Declares.attr gap value rest vs hgap hval hvs
        simpa using this
      · exact ⟨[], .unterminated gap rest hgap hq⟩
    · exact ⟨[], .done text h⟩

theorem first_split {gap gap' rest rest' : Bytes} (h : ¬ Occurs ctOpen gap) (h' : ¬ Occurs ctOpen gap')
    (he : gap ++ ctOpen ++ rest = gap' ++ ctOpen ++ rest') : gap = gap' ∧ rest = rest' := by
  have h1 := findAt_ctOpen gap rest h
  rw [he, findAt_ctOpen gap' rest' h'] at h1
  have hl : gap'.length = gap.length := Option.some.inj h1
  have := List.append_inj he (by simp [hl])
  exact ⟨(List.append_inj this.1 hl.symm).1, this.2⟩

theorem quote_split {v v' r r' : Bytes} (h : 34 ∉ v) (h' : 34 ∉ v')
    (he : v ++ b!"\"" ++ r = v' ++ b!"\"" ++ r') : v = v' ∧ r = r' := by
  have h1 := findAt_quote v r h
  rw [he, findAt_quote v' r' h'] at h1
  have hl : v'.length = v.length := Option.some.inj h1
  have := List.append_inj he (by simp [hl])
  exact ⟨(List.append_inj this.1 hl.symm).1, this.2⟩

/-- … and only one. -/
theorem declares_unique {text : Bytes} {vs : List Bytes} (h : Declares text vs) :
    ∀ vs', Declares text vs' → vs = vs' := by
  have occ : ∀ gap rest : Bytes, Occurs ctOpen (gap ++ ctOpen ++ rest) := fun gap rest => ⟨_, gap, rest, rfl, rfl⟩
  induction h with
  | done text hno =>
    intro vs' h'
    cases h' with
    | done => rfl
    | unterminated => rfl
    | attr gap value rest vs => exact absurd (by simpa using occ gap (value ++ b!"\"" ++ rest)) hno
  | unterminated gap rest hgap hrest =>
    intro vs' h'
    generalize ht : gap ++ ctOpen ++ rest = t at h'
    cases h' with
    | done => rfl
    | unterminated => rfl
    | attr gap' value rest' vs hgap' =>
      have e : gap ++ ctOpen ++ rest = gap' ++ ctOpen ++ (value ++ b!"\"" ++ rest') := by rw [ht]; simp
      have := (first_split hgap hgap' e).2
      exact absurd (by rw [this]; simp) hrest
  | attr gap value rest vs hgap hval _ ih =>
    intro vs' h'
    generalize ht : gap ++ ctOpen ++ value ++ b!"\"" ++ rest = t at h'
    cases h' with
    | done _ hno => exact absurd (by rw [← ht]; simpa using occ gap (value ++ b!"\"" ++ rest)) hno
    | unterminated gap' rest' hgap' hrest' =>
      have e : gap' ++ ctOpen ++ rest' = gap ++ ctOpen ++ (value ++ b!"\"" ++ rest) := by rw [← ht]; simp
      have := (first_split hgap' hgap e).2
      exact absurd (by rw [this]; simp) hrest'
    | attr gap' value' rest' vs' hgap' hval' hd' =>
      have e : gap ++ ctOpen ++ (value ++ b!"\"" ++ rest) = gap' ++ ctOpen ++ (value' ++ b!"\"" ++ rest') := by
        simpa using ht
      have e2 := quote_split hval hval' (first_split hgap hgap' e).2
      obtain ⟨rfl, rfl⟩ := e2
      rw [ih vs' hd']

end Fileid
