import Verif.Props.PoleCalm
import Verif.Props.PoleEdit

/-!
# C117: programs that change a compound file they opened
-/

namespace Fileid.Props

open Spec Pole

/-- C117: the same for programs that open a compound file, by whatever program, and change it: if after every part of the program the storage is
within the limits of size, and the next action is one that a user may take and takes no stream over the threshold, then all actions come to
an end without undefined behaviour, and the outcomes are right. A flush then gives a compound file again (C114). -/
theorem C117_edit_program_partial (file : Bytes) (P : CfbParts) (f : FileMap) (hfile : CfbFile file P f) (hedit : P.Editable file)
    (io : StorageIO) (hio : openStorage .windows (some file) = .ok (.opened io)) (actions : List Action)
    (h : ∀ before a rest S outcomes, actions = before ++ a :: rest →
      (⟨reopened io, []⟩ : Session).live .windows before = .ok (S, outcomes) →
      Roomy S.w ∧ S.w.io.header.num_bat ≤ 109 ∧ ((PathView.of f).lastly before outcomes).Fine .windows a ∧
      ((PathView.of f).lastly before outcomes).Gentle 4096 a) :
    ∃ S outcomes, (⟨reopened io, []⟩ : Session).live .windows actions = .ok (S, outcomes) ∧
      (Roomy S.w → S.w.io.header.num_bat ≤ 109 → (PathView.of f).AllProper .windows actions outcomes) := by
  obtain ⟨io', O⟩ := cfb_opened hfile
  have := O.opened
  rw [hio] at this
  cases this
  obtain ⟨S, os, h1, h2⟩ := live_room actions (cfb_matches hfile O) (edit_saveable hfile hedit O) (edit_storable hfile hedit O) h
  exact ⟨S, os, h1, fun a b => (h2 a b).1⟩

/-- C117: the hypotheses are met by the program of C114 that writes a stream anew. -/
example : (∃ P, CfbFile laterFile P laterMap ∧ P.Editable laterFile) ∧
    ∀ before a rest S outcomes, editActions = before ++ a :: rest →
      (⟨reopened laterOpened, []⟩ : Session).live .windows before = .ok (S, outcomes) →
      Roomy S.w ∧ S.w.io.header.num_bat ≤ 109 ∧ ((PathView.of laterMap).lastly before outcomes).Fine .windows a ∧
      ((PathView.of laterMap).lastly before outcomes).Gentle 4096 a := by
  refine ⟨later_cfb, fun before a rest S outcomes he h => ?_⟩
  have fine := edit_fine
  simp only [editActions, editOutcomes, editAnswers, editRequests, List.map_cons, List.map_nil, PathView.AllFine] at fine
  rcases before with _ | ⟨r, _ | ⟨r2, before⟩⟩
  · cases h
    cases he
    exact ⟨⟨by decide +kernel, by decide +kernel, by decide +kernel⟩, by decide +kernel, fine.1, by decide, id⟩
  · cases he
    have h' : (match (⟨reopened laterOpened, []⟩ : Session).live .windows [.request (.openStream [[101]] false 0)] with
      | .ok (S', r) => decide (r = [.answer (.opened (some 0))]) && decide (S'.w.io.header.num_bat ≤ 109) &&
          decide (S'.w.io.bbat.data.length ≤ 2 ^ 30) &&
          decide (S'.w.io.sbat.data.length ≤ 2 ^ 26) && decide (S'.w.io.dirtree.length ≤ 2 ^ 20)
      | _ => false) = true := by decide +kernel
    rw [h] at h'
    simp only [Bool.and_eq_true, decide_eq_true_eq] at h'
    obtain ⟨⟨⟨⟨h1, h2⟩, h3⟩, h4⟩, h5⟩ := h'
    subst h1
    refine ⟨⟨h3, h4, h5⟩, h2, fine.2.1, by decide, ?_⟩
    rintro ⟨path, size, byte, hp, hfile, _, _, hc, _⟩
    exact absurd hc (by decide)
  · simp only [editActions, editRequests, List.map_cons, List.map_nil, List.cons_append, List.cons.injEq] at he
    obtain ⟨_, _, he⟩ := he
    exact absurd he.symm (by simp)

end Fileid.Props
