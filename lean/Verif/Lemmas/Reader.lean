import Verif.Spec.Reader
import Verif.Lemmas.Text

/-!
# Lemmas on the document readers
-/

namespace Fileid

open Spec Common

theorem run_append {σ ε : Type} {step : σ → UInt8 → Option (σ × List ε)} {s s' s'' : σ} {t u : Bytes}
    {ev ev' : List ε} (h1 : run step s t = some (s', ev)) (h2 : run step s' u = some (s'', ev')) :
    run step s (t ++ u) = some (s'', ev ++ ev') := by
  induction t generalizing s ev with
  | nil =>
    simp only [run, Option.some.injEq, Prod.mk.injEq] at h1
    obtain ⟨rfl, rfl⟩ := h1
    simpa using h2
  | cons c cs ih =>
    rw [run] at h1
    rw [List.cons_append, run]
    cases hs : step s c with
    | none => simp [hs] at h1
    | some p =>
      obtain ⟨s1, e1⟩ := p
      simp only [hs] at h1 ⊢
      cases hr : run step s1 cs with
      | none => simp [hr] at h1
      | some q =>
        obtain ⟨s2, e2⟩ := q
        simp only [hr, Option.some.injEq, Prod.mk.injEq] at h1
        obtain ⟨rfl, rfl⟩ := h1
        rw [ih hr]
        simp

theorem run_cons {σ ε : Type} {step : σ → UInt8 → Option (σ × List ε)} {s s' s'' : σ} {c : UInt8} {t : Bytes}
    {ev ev' : List ε} (h1 : step s c = some (s', ev)) (h2 : run step s' t = some (s'', ev')) :
    run step s (c :: t) = some (s'', ev ++ ev') := by
  simp [run, h1, h2]

/-! ### JSON strings -/

theorem run_esc (k : Bool) (raw : Bytes) (stack : List Bool) (c : UInt8) (t : Bytes) :
    run jsonStep (.inStr k raw true, stack) (c :: t) =
      run jsonStep (.inStr k (raw ++ [c]) false, stack) t := by
  simp only [run, jsonStep]
  cases run jsonStep (.inStr k (raw ++ [c]) false, stack) t <;> rfl

theorem run_plain (k : Bool) (raw : Bytes) (stack : List Bool) (c : UInt8) (t : Bytes) (h1 : c ≠ 34)
    (h2 : c ≠ 92) :
    run jsonStep (.inStr k raw false, stack) (c :: t) =
      run jsonStep (.inStr k (raw ++ [c]) false, stack) t := by
  have : (c == 92) = false := by simpa using h2
  simp only [run, jsonStep, h1, this, if_false]
  cases run jsonStep (.inStr k (raw ++ [c]) false, stack) t <;> rfl

theorem run_backslash (k : Bool) (raw : Bytes) (stack : List Bool) (t : Bytes) :
    run jsonStep (.inStr k raw false, stack) (92 :: t) =
      run jsonStep (.inStr k (raw ++ [92]) true, stack) t := by
  have : ((92 : UInt8) = 34) = False := by decide
  simp only [run, jsonStep, this, if_false, BEq.rfl]
  cases run jsonStep (.inStr k (raw ++ [92]) true, stack) t <;> rfl

theorem readDigits_isSome (b : Nat) (s : Bytes) (a v : Nat) (h : readDigits b a s = some v) :
    ∀ c ∈ s, (digitVal c).isSome = true := by
  induction s generalizing a with
  | nil => simp
  | cons x xs ih =>
    intro c hc
    rw [readDigits] at h
    cases hd : digitVal x with
    | none => simp [hd] at h
    | some d =>
      simp only [hd] at h
      split at h
      · rcases List.mem_cons.1 hc with rfl | hc
        · simp [hd]
        · exact ih _ h c hc
      · simp at h

/-- Scanning a legal string body stays inside the string literal. -/
theorem run_jsonBody (k : Bool) (stack : List Bool) (s : Bytes) :
    ∀ (raw : Bytes) (cs : List Nat), jsonBody s = some cs →
      run jsonStep (.inStr k raw false, stack) s = some ((.inStr k (raw ++ s) false, stack), []) := by
  induction s using jsonBody.induct with
  | case1 => intro raw cs _; simp [run]
  | case2 a b c d rest n r hr hn ih =>
    intro raw cs h
    have := ih (raw ++ [92, 117, a, b, c, d]) r hr
    have hd : ∀ x ∈ [a, b, c, d], x ≠ 34 ∧ x ≠ 92 := by
      intro x hx
      have := readDigits_isSome 16 _ _ _ (by simpa [readNumeral] using hn) x hx
      constructor <;> intro hx' <;> subst hx' <;> exact absurd this (by decide)
    have ha := hd a (by simp)
    have hb := hd b (by simp)
    have hc := hd c (by simp)
    have hd := hd d (by simp)
    rw [run_backslash, run_esc, run_plain _ _ _ _ _ ha.1 ha.2, run_plain _ _ _ _ _ hb.1 hb.2,
      run_plain _ _ _ _ _ hc.1 hc.2, run_plain _ _ _ _ _ hd.1 hd.2]
    simpa using this
  | case3 a b c d rest h' ih =>
    intro raw cs h
    exfalso
    rw [jsonBody] at h
    split at h
    · rename_i n r hn hr; exact h' n r hn hr
    · simp at h
  | case4 e rest hne v n r hr hv ih =>
    intro raw cs h
    have := ih (raw ++ [92, e]) r hr
    rw [run_backslash, run_esc]
    simpa using this
  | case5 e rest hne v h' ih =>
    intro raw cs h
    exfalso
    rw [jsonBody] at h
    · split at h
      · rename_i n r hn hr; exact h' n r hn hr
      · simp at h
    · exact hne
  | case6 c rest h1 h2 hc =>
    intro raw cs h
    exfalso
    rw [jsonBody] at h
    · rw [if_pos hc] at h; simp at h
    · exact h1
    · exact h2
  | case7 c rest h1 h2 hc r hr ih =>
    intro raw cs h
    have := ih (raw ++ [c]) r hr
    have h34 : c ≠ 34 := fun h => hc (by simp [h])
    have h92 : c ≠ 92 := fun h => hc (by simp [h])
    rw [run_plain _ _ _ _ _ h34 h92]
    simpa using this
  | case8 c rest h1 h2 hc hr ih =>
    intro raw cs h
    exfalso
    rw [jsonBody] at h
    · rw [if_neg hc, hr] at h; simp at h
    · exact h1
    · exact h2

/-- A complete string value. -/
theorem run_jsonStr (k : Bool) (stack : List Bool) (s : Bytes) (cs : List Nat) (h : jsonBody s = some cs) :
    run jsonStep (.inStr k [] false, stack) (s ++ [34]) =
      some (if k then ((.colon, stack), [.key cs]) else ((afterValue stack, stack), [.str cs])) := by
  have h1 := run_jsonBody k stack s [] cs h
  have h2 : run jsonStep (.inStr k ([] ++ s) false, stack) [34] =
      some (if k then ((.colon, stack), [.key cs]) else ((afterValue stack, stack), [.str cs])) := by
    cases k <;> simp [run, jsonStep, h]
  cases k
  · exact run_append h1 h2
  · exact run_append h1 h2

/-- Characters that stand for themselves in JSON strings. -/
def jsonPlain (s : Bytes) : Bool := s.all fun c => 32 ≤ c && c ≤ 127 && c != 34 && c != 92

theorem jsonBody_plain (s : Bytes) (h : jsonPlain s = true) : jsonBody s = some (s.map UInt8.toNat) := by
  induction s with
  | nil => rfl
  | cons c s ih =>
    simp only [jsonPlain, List.all_cons, Bool.and_eq_true, decide_eq_true_eq, bne_iff_ne] at h
    obtain ⟨⟨⟨⟨h1, h2⟩, h3⟩, h4⟩, h5⟩ := h
    rw [jsonBody_lit h1 h3 h4 h2 s, ih (by simpa [jsonPlain] using h5)]
    rfl

/-! ### Separated text -/

theorem splitAll_none (sep : UInt8) (s : Bytes) (h : sep ∉ s) : splitAll sep s = [s] := by
  induction s with
  | nil => rfl
  | cons c s ih =>
    have hc : c ≠ sep := fun h' => h (by simp [h'])
    rw [splitAll, if_neg hc, ih (fun h' => h (by simp [h']))]

theorem splitAll_sep (sep : UInt8) (s t : Bytes) (h : sep ∉ s) :
    splitAll sep (s ++ sep :: t) = s :: splitAll sep t := by
  induction s with
  | nil => simp [splitAll]
  | cons c s ih =>
    have hc : c ≠ sep := fun h' => h (by simp [h'])
    rw [List.cons_append, splitAll, if_neg hc, ih (fun h' => h (by simp [h']))]

end Fileid
