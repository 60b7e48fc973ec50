import Verif.Lemmas.Report

/-!
# A document can stand inside another one
-/

namespace Fileid.Report

open Spec

/-- A mode at the top of a document, as it is inside of a container. -/
def lowerJ : JMode → JMode
  | .fin => .after
  | m => m

theorem lowerJ_after (st : List Bool) {s : List Bool} (hs : s ≠ []) : lowerJ (afterValue st) = afterValue (st ++ s) := by
  unfold afterValue
  cases st with
  | nil =>
    cases s with
    | nil => exact absurd rfl hs
    | cons b s => rfl
  | cons b st => rfl

theorem end_lower {st : List Bool} {c : UInt8} {x : JState} {ev : List JEvent} {s : List Bool} (hs : s ≠ [])
    (h : endContainer st c = some (x, ev)) : endContainer (st ++ s) c = some ((lowerJ x.1, x.2 ++ s), ev) := by
  unfold endContainer at h
  split at h
  · rename_i rest
    split at h
    · rename_i hc
      injection h with h; injection h with h1 h2; subst h1; subst h2
      simp only [List.cons_append, endContainer, if_pos hc, lowerJ_after rest hs]
    · cases h
  · rename_i rest
    split at h
    · rename_i hc
      injection h with h; injection h with h1 h2; subst h1; subst h2
      simp only [List.cons_append, endContainer, if_pos hc, lowerJ_after rest hs]
    · cases h
  · cases h

theorem start_lower {st : List Bool} {c : UInt8} {x : JState} {ev : List JEvent} (s : List Bool)
    (h : startValue st c = some (x, ev)) : startValue (st ++ s) c = some ((lowerJ x.1, x.2 ++ s), ev) := by
  unfold startValue at h ⊢
  repeat' split at h
  all_goals first | (cases h; done) | skip
  all_goals (injection h with h; injection h with h1 h2; subst h1; subst h2)
  all_goals simp_all [lowerJ]

theorem out_lower {m : JMode} {st : List Bool} {c : UInt8} {x : JState} {ev : List JEvent} {s : List Bool} (hs : s ≠ [])
    (h : jsonStepOut m st c = some (x, ev)) : jsonStepOut (lowerJ m) (st ++ s) c = some ((lowerJ x.1, x.2 ++ s), ev) := by
  unfold jsonStepOut at h
  by_cases hw : isWs c = true
  · rw [if_pos hw] at h
    injection h with h; injection h with h1 h2; subst h1; subst h2
    unfold jsonStepOut
    rw [if_pos hw]
  · rw [if_neg hw] at h
    unfold jsonStepOut
    rw [if_neg hw]
    cases m with
    | value => exact start_lower s h
    | valueOrEnd =>
      simp only [lowerJ] at h ⊢
      split
      · rename_i hc; rw [if_pos hc] at h; exact end_lower hs h
      · rename_i hc; rw [if_neg hc] at h; exact start_lower s h
    | keyOrEnd =>
      simp only [lowerJ] at h ⊢
      split
      · rename_i hc; rw [if_pos hc] at h
        injection h with h; injection h with h1 h2; subst h1; subst h2; rfl
      · rename_i hc; rw [if_neg hc] at h; exact end_lower hs h
    | key =>
      simp only [lowerJ] at h ⊢
      split
      · rename_i hc; rw [if_pos hc] at h
        injection h with h; injection h with h1 h2; subst h1; subst h2; rfl
      · rename_i hc; rw [if_neg hc] at h; cases h
    | colon =>
      simp only [lowerJ] at h ⊢
      split
      · rename_i hc; rw [if_pos hc] at h
        injection h with h; injection h with h1 h2; subst h1; subst h2; rfl
      · rename_i hc; rw [if_neg hc] at h; cases h
    | after =>
      simp only [lowerJ] at h ⊢
      split
      · rename_i hc; rw [if_pos hc] at h
        cases st with
        | nil => cases h
        | cons b st =>
          cases b <;> (injection h with h; injection h with h1 h2; subst h1; subst h2; rfl)
      · rename_i hc; rw [if_neg hc] at h; exact end_lower hs h
    | fin => cases h
    | inStr _ _ _ => cases h
    | inBare _ => cases h

theorem step_lower {m : JMode} {st : List Bool} {c : UInt8} {x : JState} {ev : List JEvent} {s : List Bool} (hs : s ≠ [])
    (h : jsonStep (m, st) c = some (x, ev)) : jsonStep (lowerJ m, st ++ s) c = some ((lowerJ x.1, x.2 ++ s), ev) := by
  cases m with
  | inStr k raw esc =>
    cases esc with
    | true =>
      simp only [jsonStep] at h
      injection h with h; injection h with h1 h2; subst h1; subst h2; rfl
    | false =>
      simp only [jsonStep, lowerJ] at h ⊢
      split
      · rename_i hc
        rw [if_pos hc] at h
        cases hb : jsonBody raw with
        | none => rw [hb] at h; cases h
        | some cs =>
          rw [hb] at h
          cases k with
          | true =>
            injection h with h; injection h with h1 h2; subst h1; subst h2; rfl
          | false =>
            injection h with h; injection h with h1 h2; subst h1; subst h2
            exact congrArg (fun m => some ((m, st ++ s), [JEvent.str cs])) (lowerJ_after st hs).symm
      · rename_i hc
        rw [if_neg hc] at h
        injection h with h; injection h with h1 h2; subst h1; subst h2; rfl
  | inBare raw =>
    simp only [jsonStep, lowerJ] at h ⊢
    split
    · rename_i hd
      rw [if_pos hd] at h
      split
      · rename_i hb
        rw [if_pos hb] at h
        cases ho : jsonStepOut (afterValue st) st c with
        | none => rw [ho] at h; cases h
        | some p =>
          rw [ho] at h
          have := out_lower hs ho
          rw [lowerJ_after st hs] at this
          injection h with h; injection h with h1 h2; subst h1; subst h2
          rw [this]
          rfl
      · rename_i hb
        rw [if_neg hb] at h; cases h
    · rename_i hd
      rw [if_neg hd] at h
      injection h with h; injection h with h1 h2; subst h1; subst h2; rfl
  | value => exact out_lower hs h
  | valueOrEnd => exact out_lower hs h
  | keyOrEnd => exact out_lower hs h
  | key => exact out_lower hs h
  | colon => exact out_lower hs h
  | after => exact out_lower hs h
  | fin => exact out_lower hs h

theorem run_lower {t : Bytes} {m : JMode} {st : List Bool} {x : JState} {ev : List JEvent} {s : List Bool} (hs : s ≠ [])
    (h : run jsonStep (m, st) t = some (x, ev)) : run jsonStep (lowerJ m, st ++ s) t = some ((lowerJ x.1, x.2 ++ s), ev) := by
  induction t generalizing m st ev with
  | nil =>
    injection h with h; injection h with h1 h2; subst h1; subst h2; rfl
  | cons c t ih =>
    rw [run] at h
    cases h1 : jsonStep (m, st) c with
    | none => rw [h1] at h; cases h
    | some p =>
      obtain ⟨⟨m', st'⟩, ev1⟩ := p
      rw [h1] at h
      cases h2 : run jsonStep (m', st') t with
      | none => simp only [h2] at h; cases h
      | some q =>
        obtain ⟨x', ev2⟩ := q
        simp only [h2] at h
        injection h with h; injection h with h3 h4; subst h3; subst h4
        rw [run, step_lower hs h1]
        simp only [ih h2]

/-- A text that is read where a value is expected is read where a value or the end of a list is expected. -/
theorem run_valueOrEnd {t : Bytes} {st : List Bool} {x : JState} {ev : List JEvent} (hne : x.1 ≠ .value)
    (h : run jsonStep (.value, st) t = some (x, ev)) : run jsonStep (.valueOrEnd, st) t = some (x, ev) := by
  induction t generalizing ev with
  | nil => injection h with h; injection h with h1 h2; subst h1; exact absurd rfl hne
  | cons c t ih =>
    by_cases hw : isWs c = true
    · have e1 : jsonStep (.value, st) c = some ((.value, st), []) := by
        simp [jsonStep, jsonStepOut, hw]
      have e2 : jsonStep (.valueOrEnd, st) c = some ((.valueOrEnd, st), []) := by
        simp [jsonStep, jsonStepOut, hw]
      rw [run, e1] at h
      rw [run, e2]
      cases h2 : run jsonStep (.value, st) t with
      | none => simp only [h2] at h; cases h
      | some q =>
        obtain ⟨x', ev2⟩ := q
        simp only [h2] at h
        injection h with h; injection h with h3 h4; subst h3; subst h4
        simp only [ih h2]
    · have hc : c ≠ 93 := by
        rintro rfl
        have : jsonStep (.value, st) 93 = none := rfl
        rw [run, this] at h; cases h
      have e : jsonStep (.valueOrEnd, st) c = jsonStep (.value, st) c := by
        simp [jsonStep, jsonStepOut, hw, hc]
      rw [run] at h ⊢
      rw [e]
      exact h

/-- An object that is a document of its own is a value wherever one may stand. -/
theorem closed_of_document {t : Bytes} {ms : List (Bytes × JVal)} (h : jsonDocument t = some (JVal.obj ms).events) :
    JClosed t (.obj ms) := by
  have hr : run jsonStep (.value, []) t = some ((.fin, []), (JVal.obj ms).events) := by
    unfold jsonDocument at h
    split at h
    · rename_i ev hr
      injection h with h; subst h; exact hr
    · rename_i raw ev hr
      split at h
      · injection h with h
        have := congrArg List.getLast? h
        rw [JVal.events, List.getLast?_concat, List.getLast?_concat] at this
        injection this with this; cases this
      · cases h
    · cases h
  intro m s hm
  by_cases hs : s = []
  · subst hs
    rcases hm with rfl | rfl
    · exact hr
    · exact run_valueOrEnd (by decide) hr
  · have h1 := run_lower hs hr
    have e : lowerJ JMode.value = .value := rfl
    have e' : afterValue s = .after := by
      cases s with
      | nil => exact absurd rfl hs
      | cons => rfl
    simp only [lowerJ, List.nil_append] at h1
    rw [e']
    rcases hm with rfl | rfl
    · exact h1
    · exact run_valueOrEnd (by simp) h1

/-! ## XML -/

def lowerX : XMode → XMode
  | .fin => .text
  | m => m

theorem stepX_lower {m : XMode} {st : List Bytes} {c : UInt8} {x : XState} {ev : List XEvent} {s : List Bytes} (hs : s ≠ [])
    (h : xmlStep (m, st) c = some (x, ev)) : xmlStep (lowerX m, st ++ s) c = some ((lowerX x.1, x.2 ++ s), ev) := by
  have hne : (st ++ s).isEmpty = false := by
    cases st with
    | nil => cases s with
      | nil => exact absurd rfl hs
      | cons => rfl
    | cons => rfl
  cases m with
  | text =>
    simp only [xmlStep, lowerX] at h ⊢
    rw [hne]
    repeat' split at h
    all_goals first | (cases h; done) | skip
    all_goals (injection h with h; injection h with h1 h2; subst h1; subst h2)
    all_goals simp_all [lowerX]
  | lt =>
    simp only [xmlStep, lowerX] at h ⊢
    rw [hne]
    repeat' split at h
    all_goals first | (cases h; done) | skip
    all_goals (injection h with h; injection h with h1 h2; subst h1; subst h2)
    all_goals simp_all [lowerX]
  | openName n =>
    simp only [xmlStep, lowerX] at h ⊢
    repeat' split at h
    all_goals first | (cases h; done) | skip
    all_goals (injection h with h; injection h with h1 h2; subst h1; subst h2)
    all_goals simp_all [lowerX]
  | closeName n =>
    simp only [xmlStep, lowerX] at h ⊢
    split at h
    · rename_i hc
      rw [if_pos hc]
      cases st with
      | nil => cases h
      | cons y st =>
        simp only [List.cons_append] at h ⊢
        split at h
        · rename_i hn
          rw [if_pos hn]
          injection h with h; injection h with h1 h2; subst h1; subst h2
          cases st with
          | nil => cases s with
            | nil => exact absurd rfl hs
            | cons => rfl
          | cons => rfl
        · cases h
    · rename_i hc
      rw [if_neg hc]
      injection h with h; injection h with h1 h2; subst h1; subst h2; rfl
  | bang k =>
    simp only [xmlStep, lowerX] at h ⊢
    split at h
    · rename_i hc
      rw [if_pos hc]
      injection h with h; injection h with h1 h2; subst h1; subst h2
      split <;> rfl
    · cases h
  | cdata k =>
    simp only [xmlStep, lowerX] at h ⊢
    repeat' split at h
    all_goals first | (cases h; done) | skip
    all_goals (injection h with h; injection h with h1 h2; subst h1; subst h2)
    all_goals simp_all [lowerX]
  | amp =>
    simp only [xmlStep, lowerX] at h ⊢
    split at h
    · rename_i hc
      rw [if_pos hc]
      injection h with h; injection h with h1 h2; subst h1; subst h2; rfl
    · cases h
  | ref ds =>
    simp only [xmlStep, lowerX] at h ⊢
    split at h
    · rename_i hc
      rw [if_pos hc]
      cases hr : readNumeral 10 ds with
      | none => rw [hr] at h; cases h
      | some n =>
        rw [hr] at h
        simp only [] at h ⊢
        split at h
        · rename_i hx
          rw [if_pos hx]
          injection h with h; injection h with h1 h2; subst h1; subst h2; rfl
        · cases h
    · rename_i hc
      rw [if_neg hc]
      injection h with h; injection h with h1 h2; subst h1; subst h2; rfl
  | fin => cases h

theorem runX_lower {t : Bytes} {m : XMode} {st : List Bytes} {x : XState} {ev : List XEvent} {s : List Bytes} (hs : s ≠ [])
    (h : run xmlStep (m, st) t = some (x, ev)) : run xmlStep (lowerX m, st ++ s) t = some ((lowerX x.1, x.2 ++ s), ev) := by
  induction t generalizing m st ev with
  | nil =>
    injection h with h; injection h with h1 h2; subst h1; subst h2; rfl
  | cons c t ih =>
    rw [run] at h
    cases h1 : xmlStep (m, st) c with
    | none => rw [h1] at h; cases h
    | some p =>
      obtain ⟨⟨m', st'⟩, ev1⟩ := p
      rw [h1] at h
      cases h2 : run xmlStep (m', st') t with
      | none => simp only [h2] at h; cases h
      | some q =>
        obtain ⟨x', ev2⟩ := q
        simp only [h2] at h
        injection h with h; injection h with h3 h4; subst h3; subst h4
        rw [run, stepX_lower hs h1]
        simp only [ih h2]

/-- A document is content wherever content may stand. -/
theorem runX_document {t : Bytes} {ev : List XEvent} (h : xmlDocument t = some ev) (n : Bytes) (stack : List Bytes) :
    run xmlStep (.text, n :: stack) t = some ((.text, n :: stack), ev) := by
  unfold xmlDocument at h
  split at h
  · rename_i ev' hr
    injection h with h; subst h
    exact runX_lower (s := n :: stack) (by simp) hr
  · cases h

end Fileid.Report
