import Verif.Lemmas.PoleLive
import Verif.Props.PolePaths
import Verif.Props.PoleUse

/-!
# Properties of compound files in use: C117 which requests are defined
-/

namespace Fileid.Props

open Spec Pole

/-- C117 is false: a write or `setSize` that takes a stream with bytes from below 4096 bytes to 4096 or more, or `setSize` that takes
it back, has undefined behaviour (an array is deleted with `delete`), after whatever history of a new storage. -/
theorem C117_crossing_wrong (abi : Abi) (habi : abi = Abi.linux ∨ abi = Abi.windows) (w : Writer) (hw : Writer.fresh = .ok w)
    (S : Session) (requests : List Request) (answers : List Answer)
    (h : (⟨w, []⟩ : Session).serve abi requests = .ok (S, answers)) (hs : PathView.empty.AllSensible abi requests answers)
    (hf : Spec.Fits S.w) (hlen : S.w.io.dirtree.length < 0xffffffff) (q : Request)
    (hq : (PathView.empty.finally requests answers).Sensible abi q)
    (hx : (PathView.empty.finally requests answers).Crosses 4096 q) : S.request abi q = .ub .badDelete := by
  rw [fresh_eq] at hw
  cases hw
  obtain ⟨_, M⟩ := serve_matches habi requests (fresh_paths abi) h hs hf hlen
  refine request_crosses M hq ?_
  rw [serve_threshold _ h]
  exact hx

/-- C117: every other request is defined, after whatever history of a new storage: it is answered. No exception, no access
outside of memory. The answer is right as long as the tables fit the format. Missing: what is false (`C117_crossing_wrong`; reading
from behind the end of a stream, `C103_read_behind_end_wrong`; opening a stream a second time, `C105_two_objects_wrong`), and, in
storages close to the limits of the format, that requests which create several entries at once, or write to a stream of less than
4096 bytes, come to an end (`.fuel`: they follow chains in tables they made longer themselves; it is shown that they do nothing else
that is wrong, and `C117_answered_partial` shows that they come to an end in all storages that are not close to the limits). -/
theorem C117_requests_partial (abi : Abi) (habi : abi = Abi.linux ∨ abi = Abi.windows) (w : Writer) (hw : Writer.fresh = .ok w)
    (S : Session) (requests : List Request) (answers : List Answer)
    (h : (⟨w, []⟩ : Session).serve abi requests = .ok (S, answers)) (hs : PathView.empty.AllSensible abi requests answers)
    (hf : Spec.Fits S.w) (q : Request) (hlen : S.w.io.dirtree.length + entriesAdded q < 0xffffffff)
    (hq : (PathView.empty.finally requests answers).Sensible abi q)
    (hx : ¬ (PathView.empty.finally requests answers).Crosses 4096 q) :
    (S.request abi q = .fuel ∧ (PathView.empty.finally requests answers).Builds 4096 q) ∨
    ∃ S' a, S.request abi q = .ok (S', a) ∧
      (Spec.Fits S'.w → S'.w.io.dirtree.length < 0xffffffff → (PathView.empty.finally requests answers).Right abi q a) := by
  rw [fresh_eq] at hw
  cases hw
  obtain ⟨_, M⟩ := serve_matches habi requests (fresh_paths abi) h hs hf (Nat.lt_of_le_of_lt (Nat.le_add_right _ _) hlen)
  have hx' : ¬ (PathView.empty.finally requests answers).Crosses S.w.io.header.threshold q := by
    rw [serve_threshold _ h]
    exact hx
  have hok : ∀ r, S.request abi q = .ok r → ∃ S' a, S.request abi q = .ok (S', a) ∧
      (Spec.Fits S'.w → S'.w.io.dirtree.length < 0xffffffff → (PathView.empty.finally requests answers).Right abi q a) := by
    rintro ⟨S', a⟩ hr
    exact ⟨S', a, hr, fun hf' hl' => (request_matches habi M hq hr hf' hl').1⟩
  by_cases hg : (PathView.empty.finally requests answers).Builds 4096 q
  · rcases request_calm habi M hq (Nat.le_of_lt hlen) hx' with hr | ⟨r, hr⟩
    · exact Or.inl ⟨hr, hg⟩
    · exact Or.inr (hok r hr)
  · obtain ⟨r, hr⟩ := request_ok habi M hq hf (by rw [serve_threshold _ h]; exact hg) (Nat.le_of_lt hlen) hx'
    exact Or.inr (hok r hr)

/-- C117: the same for every storage that shows what the user knows (for example a file by another program, C113), where the
threshold is that of its header. -/
theorem C117_any_storage_partial (abi : Abi) (habi : abi = Abi.linux ∨ abi = Abi.windows) (S : Session) (v : PathView)
    (hS : Session.MatchesPaths abi S v) (q : Request) (hq : v.Sensible abi q)
    (hlen : S.w.io.dirtree.length + entriesAdded q < 0xffffffff) :
    (S.request abi q = .ub .badDelete ↔ v.Crosses S.w.io.header.threshold q) ∧
    (S.request abi q = .ub .badDelete ∨ S.request abi q = .fuel ∨ ∃ S' a, S.request abi q = .ok (S', a)) := by
  by_cases hx : v.Crosses S.w.io.header.threshold q
  · have := request_crosses hS hq hx
    exact ⟨⟨fun _ => hx, fun _ => this⟩, Or.inl this⟩
  · rcases request_calm habi hS hq (Nat.le_of_lt hlen) hx with hr | ⟨⟨S', a⟩, hr⟩
    · exact ⟨⟨fun h => (by rw [hr] at h; cases h), fun h => absurd h hx⟩, Or.inr (Or.inl hr)⟩
    · exact ⟨⟨fun h => (by rw [hr] at h; cases h), fun h => absurd h hx⟩, Or.inr (Or.inr ⟨S', a, hr⟩)⟩

/-- C117: the same after every history of requests, deletes, flushes and closing (C112), on Windows. Together with
`C112_no_failure_partial`: the only thing a program can do in such a history that is undefined is to take a stream over the threshold. -/
theorem C117_in_use_partial (w : Writer) (hw : Writer.fresh = .ok w) (S : Session) (actions : List Action) (outcomes : List Outcome)
    (h : (⟨w, []⟩ : Session).live .windows actions = .ok (S, outcomes)) (hs : PathView.empty.AllFine .windows actions outcomes)
    (hf : Spec.Fits S.w) (hbat : S.w.io.header.num_bat ≤ 109) (q : Request)
    (hlen : S.w.io.dirtree.length + entriesAdded q < 0xffffffff)
    (hq : (PathView.empty.lastly actions outcomes).Sensible .windows q) :
    (S.request .windows q = .ub .badDelete ↔ (PathView.empty.lastly actions outcomes).Crosses 4096 q) ∧
    (S.request .windows q = .ub .badDelete ∨ (S.request .windows q = .fuel ∧ (PathView.empty.lastly actions outcomes).Builds 4096 q) ∨
      ∃ S' a, S.request .windows q = .ok (S', a) ∧
        (Spec.Fits S'.w → S'.w.io.dirtree.length < 0xffffffff → (PathView.empty.lastly actions outcomes).Right .windows q a)) := by
  rw [fresh_eq] at hw
  cases hw
  obtain ⟨_, M, ⟨old, _, P⟩, _⟩ := live_matches actions (fresh_paths .windows) ⟨{}, disk_none, fresh_prepared⟩ fresh_storable h hs hf
    (Nat.lt_of_le_of_lt (Nat.le_add_right _ _) hlen) hbat
  have ht : S.w.io.header.threshold = 4096 := by
    obtain ⟨⟨u, kids, hM, _⟩, _, _⟩ := id M
    obtain ⟨L, H, _⟩ := hM.holds
    exact (P L _ H).big.fixed.2.2.1
  obtain ⟨h1, h2⟩ := C117_any_storage_partial .windows (Or.inr rfl) S _ M q hq hlen
  rw [ht] at h1
  refine ⟨h1, ?_⟩
  rcases h2 with h2 | h2 | ⟨S', a, h2⟩
  · exact Or.inl h2
  · refine Or.inr (Or.inl ⟨h2, Classical.byContradiction fun hg => ?_⟩)
    obtain ⟨r, hr⟩ := request_ok (Or.inr rfl) M hq hf (by rw [ht]; exact hg) (Nat.le_of_lt hlen) (fun hc => by rw [ht] at hc; rw [h1.2 hc] at h2; cases h2)
    rw [hr] at h2
    cases h2
  · exact Or.inr (Or.inr ⟨S', a, h2, fun hf' hl' => (request_matches (Or.inr rfl) M hq h2 hf' hl').1⟩)

/-- C117: in a storage of at most 512 GB, with at most 4 GB of small streams and 2^20 entries, every request that does not take a
stream over the threshold, and names at most 512 components, is answered, after whatever history of a new storage, and the answer is
right as long as the tables fit the format. -/
theorem C117_answered_partial (abi : Abi) (habi : abi = Abi.linux ∨ abi = Abi.windows) (w : Writer) (hw : Writer.fresh = .ok w)
    (S : Session) (requests : List Request) (answers : List Answer)
    (h : (⟨w, []⟩ : Session).serve abi requests = .ok (S, answers)) (hs : PathView.empty.AllSensible abi requests answers)
    (hr : Roomy S.w) (q : Request) (hlen : entriesAdded q ≤ 512)
    (hq : (PathView.empty.finally requests answers).Sensible abi q)
    (hx : ¬ (PathView.empty.finally requests answers).Crosses 4096 q) :
    ∃ S' a, S.request abi q = .ok (S', a) ∧
      (Spec.Fits S'.w → S'.w.io.dirtree.length < 0xffffffff → (PathView.empty.finally requests answers).Right abi q a) := by
  rw [fresh_eq] at hw
  cases hw
  obtain ⟨_, M⟩ := serve_matches habi requests (fresh_paths abi) h hs (roomy_fits hr).1 (roomy_fits hr).2
  have ht := serve_threshold _ h
  have hz := serve_sized _ h
  obtain ⟨⟨S', a⟩, hreq⟩ := request_room habi M hq hr hlen (by rw [ht]; exact Nat.le_refl _) (by rw [hz.1]; rfl) (by rw [hz.2]; rfl)
    (by rw [ht]; exact hx)
  exact ⟨S', a, hreq, fun hf hl => (request_matches habi M hq hreq hf hl).1⟩

/-- C117: whole programs. If after every part of the program the storage is within these limits, and the next request is one that a
user may make and does not take a stream over the threshold, then all requests are answered, and rightly so. -/
theorem C117_program_partial (abi : Abi) (habi : abi = Abi.linux ∨ abi = Abi.windows) (w : Writer) (hw : Writer.fresh = .ok w)
    (requests : List Request)
    (h : ∀ before q rest S answers, requests = before ++ q :: rest → (⟨w, []⟩ : Session).serve abi before = .ok (S, answers) →
      Roomy S.w ∧ entriesAdded q ≤ 512 ∧ (PathView.empty.finally before answers).Sensible abi q ∧
      ¬ (PathView.empty.finally before answers).Crosses 4096 q) :
    ∃ S answers, (⟨w, []⟩ : Session).serve abi requests = .ok (S, answers) ∧
      (Roomy S.w → PathView.empty.AllRight abi requests answers) := by
  rw [fresh_eq] at hw
  cases hw
  exact serve_room habi (Nat.le_refl _) requests (fresh_paths abi) rfl rfl rfl h

/-- C117: the same for every storage with sectors of 512 and 64 bytes that shows what the user knows (for example a file by another
program, C113). -/
theorem C117_any_program_partial (abi : Abi) (habi : abi = Abi.linux ∨ abi = Abi.windows) (S : Session) (v : PathView)
    (hS : Session.MatchesPaths abi S v) (hbig : S.w.io.bbat.blockSize = 512) (hsmall : S.w.io.sbat.blockSize = 64)
    (ht : S.w.io.header.threshold ≤ 4096) (requests : List Request)
    (h : ∀ before q rest S' answers, requests = before ++ q :: rest → S.serve abi before = .ok (S', answers) →
      Roomy S'.w ∧ entriesAdded q ≤ 512 ∧ (v.finally before answers).Sensible abi q ∧
      ¬ (v.finally before answers).Crosses S.w.io.header.threshold q) :
    ∃ S' answers, S.serve abi requests = .ok (S', answers) ∧ (Roomy S'.w → v.AllRight abi requests answers) :=
  serve_room habi ht requests hS rfl hbig hsmall h

/-- C117: in use, on Windows: the same after every history of requests, deletes, flushes and closing (C112). -/
theorem C117_in_use_answered_partial (w : Writer) (hw : Writer.fresh = .ok w) (S : Session) (actions : List Action) (outcomes : List Outcome)
    (h : (⟨w, []⟩ : Session).live .windows actions = .ok (S, outcomes)) (hs : PathView.empty.AllFine .windows actions outcomes)
    (hr : Roomy S.w) (hbat : S.w.io.header.num_bat ≤ 109) (q : Request) (hlen : entriesAdded q ≤ 512)
    (hq : (PathView.empty.lastly actions outcomes).Sensible .windows q)
    (hx : ¬ (PathView.empty.lastly actions outcomes).Crosses 4096 q) :
    ∃ S' a, S.request .windows q = .ok (S', a) ∧
      (Spec.Fits S'.w → S'.w.io.dirtree.length < 0xffffffff → (PathView.empty.lastly actions outcomes).Right .windows q a) := by
  rw [fresh_eq] at hw
  cases hw
  obtain ⟨_, M, ⟨old, _, P⟩, _⟩ := live_matches actions (fresh_paths .windows) ⟨{}, disk_none, fresh_prepared⟩ fresh_storable h hs
    (roomy_fits hr).1 (roomy_fits hr).2 hbat
  obtain ⟨⟨u, kids, hM, _⟩, _, _⟩ := id M
  obtain ⟨L, H, _⟩ := hM.holds
  have ht := (P L _ H).big.fixed.2.2.1
  obtain ⟨⟨S', a⟩, hreq⟩ := request_room (Or.inr rfl) M hq hr hlen (by rw [ht]; exact Nat.le_refl _) (P L _ H).big.blockSize
    (P L _ H).small.blockSize (by rw [ht]; exact hx)
  exact ⟨S', a, hreq, fun hf hl => (request_matches (Or.inr rfl) M hq hreq hf hl).1⟩

/-- C117: the hypotheses are met after the history of `pathRequests`: growing the stream of 4 bytes to 5000 crosses the threshold,
and growing it to 4000 does not. -/
example : ∃ S, (⟨freshWriter, []⟩ : Session).serve .windows pathRequests = .ok (S, pathAnswers) ∧
    PathView.empty.AllSensible .windows pathRequests pathAnswers ∧ Spec.Fits S.w ∧ S.w.io.dirtree.length + 0 < 0xffffffff ∧
    (PathView.empty.finally pathRequests pathAnswers).Sensible .windows (.use (.setSize 1 5000)) ∧
    (PathView.empty.finally pathRequests pathAnswers).Crosses 4096 (.use (.setSize 1 5000)) ∧
    (PathView.empty.finally pathRequests pathAnswers).Sensible .windows (.use (.setSize 1 4000)) ∧
    ¬ (PathView.empty.finally pathRequests pathAnswers).Crosses 4096 (.use (.setSize 1 4000)) ∧
    ¬ (PathView.empty.finally pathRequests pathAnswers).Builds 4096 (.use (.setSize 1 4000)) := by
  obtain ⟨S, h1, h2, h3, h4⟩ := pathRequests_served
  refine ⟨S, h1, h2, h3, h4, (by decide : 5000 < 2 ^ 63), ⟨[[99, 99], [100]], 4, _, rfl, rfl, by decide, by decide, by decide⟩,
    (by decide : 4000 < 2 ^ 63), ?_, id⟩
  rintro ⟨path, size, byte, hp, hfile, _, _, hc⟩
  have hp' : path = [[99, 99], [100]] := by
    have : some [[99, 99], [100]] = some path := hp
    cases this; rfl
  subst hp'
  have : some (Node.stream 4 _) = some (Node.stream size byte) := hfile
  cases this
  exact hc (by decide)

/-- C117: the storage is within the limits after the same history, and the hypotheses are met by a request that needs what it adds
itself: a further write to the small stream. -/
example : ∃ S, (⟨freshWriter, []⟩ : Session).serve .windows pathRequests = .ok (S, pathAnswers) ∧
    PathView.empty.AllSensible .windows pathRequests pathAnswers ∧ Roomy S.w ∧ entriesAdded (.use (.write 1 b!"more")) ≤ 512 ∧
    (PathView.empty.finally pathRequests pathAnswers).Sensible .windows (.use (.write 1 b!"more")) ∧
    (PathView.empty.finally pathRequests pathAnswers).Builds 4096 (.use (.write 1 b!"more")) ∧
    ¬ (PathView.empty.finally pathRequests pathAnswers).Crosses 4096 (.use (.write 1 b!"more")) := by
  obtain ⟨S, h1, h2, _⟩ := pathRequests_served
  have h : (match (⟨freshWriter, []⟩ : Session).serve .windows pathRequests with
      | .ok (S', _) => decide (S'.w.io.bbat.data.length ≤ 2 ^ 30) &&
          decide (S'.w.io.sbat.data.length ≤ 2 ^ 26) && decide (S'.w.io.dirtree.length ≤ 2 ^ 20)
      | _ => false) = true := by decide +kernel
  rw [h1] at h
  simp only [Bool.and_eq_true, decide_eq_true_eq] at h
  refine ⟨S, h1, h2, ⟨h.1.1, h.1.2, h.2⟩, by decide, (by decide : 4 + 4 < 2 ^ 64),
    ⟨[[99, 99], [100]], 4, _, rfl, rfl, by decide, by decide⟩, ?_⟩
  rintro ⟨path, size, byte, hp, hfile, _, _, hc, _⟩
  exact absurd hc (by decide)

/-- C117: a program that meets the hypotheses: it creates a storage with a stream in it, and writes into it. -/
example : ∀ before q rest S answers,
    [Request.openStream [[99, 99], [100]] true 0, .use (.write 0 b!"deep")] = before ++ q :: rest →
    (⟨freshWriter, []⟩ : Session).serve .windows before = .ok (S, answers) →
      Roomy S.w ∧ entriesAdded q ≤ 512 ∧ (PathView.empty.finally before answers).Sensible .windows q ∧
      ¬ (PathView.empty.finally before answers).Crosses 4096 q := by
  intro before q rest S answers he h
  rcases before with _ | ⟨r, _ | ⟨r2, before⟩⟩
  · cases h
    cases he
    exact ⟨⟨by decide +kernel, by decide +kernel, by decide +kernel⟩, by decide, ⟨by decide, by decide, fun h => by
      simp [PathView.empty, PathView.finally]⟩, id⟩
  · cases he
    have h' : (match (⟨freshWriter, []⟩ : Session).serve .windows [.openStream [[99, 99], [100]] true 0] with
      | .ok (S', r) => decide (r = [.opened (some 0)]) && decide (S'.w.io.bbat.data.length ≤ 2 ^ 30) &&
          decide (S'.w.io.sbat.data.length ≤ 2 ^ 26) && decide (S'.w.io.dirtree.length ≤ 2 ^ 20)
      | _ => false) = true := by decide +kernel
    rw [h] at h'
    simp only [Bool.and_eq_true, decide_eq_true_eq] at h'
    obtain ⟨⟨⟨h1, h2⟩, h3⟩, h4⟩ := h'
    subst h1
    refine ⟨⟨h2, h3, h4⟩, by decide, (by decide : 0 + 4 < 2 ^ 64), ?_⟩
    rintro ⟨path, size, byte, hp, hfile, _, _, hc, _⟩
    exact absurd hc (by decide)
  · simp only [List.cons_append, List.cons.injEq] at he
    obtain ⟨_, _, he⟩ := he
    exact absurd he.symm (by simp)

/-- C117: whole programs that also delete, flush and close, on Windows. If after every part of the program the storage is within these
limits and has at most 109 sectors for its FAT, and the next action is one that a user may take and takes no stream over the threshold,
then all actions come to an end without undefined behaviour, with the right outcomes. -/
theorem C117_live_program_partial (w : Writer) (hw : Writer.fresh = .ok w) (actions : List Action)
    (h : ∀ before a rest S outcomes, actions = before ++ a :: rest → (⟨w, []⟩ : Session).live .windows before = .ok (S, outcomes) →
      Roomy S.w ∧ S.w.io.header.num_bat ≤ 109 ∧ (PathView.empty.lastly before outcomes).Fine .windows a ∧
      (PathView.empty.lastly before outcomes).Gentle 4096 a) :
    ∃ S outcomes, (⟨w, []⟩ : Session).live .windows actions = .ok (S, outcomes) ∧
      (Roomy S.w → S.w.io.header.num_bat ≤ 109 → PathView.empty.AllProper .windows actions outcomes) := by
  rw [fresh_eq] at hw
  cases hw
  obtain ⟨S, os, h1, h2⟩ := live_room actions (fresh_paths .windows) ⟨{}, disk_none, fresh_prepared⟩ fresh_storable h
  exact ⟨S, os, h1, fun a b => (h2 a b).1⟩

/-- C117: a program that meets the hypotheses: it creates a stream, flushes, and deletes what is not there. -/
example : ∀ before a rest S outcomes,
    [Action.request (.openStream [[99]] true 0), .flush 0 (fun _ _ => 0), .delete [[100]] (fun _ _ => 0)] = before ++ a :: rest →
    (⟨freshWriter, []⟩ : Session).live .windows before = .ok (S, outcomes) →
      Roomy S.w ∧ S.w.io.header.num_bat ≤ 109 ∧ (PathView.empty.lastly before outcomes).Fine .windows a ∧
      (PathView.empty.lastly before outcomes).Gentle 4096 a := by
  intro before a rest S outcomes he h
  rcases before with _ | ⟨r, _ | ⟨r2, _ | ⟨r3, before⟩⟩⟩
  · cases h
    cases he
    exact ⟨⟨by decide +kernel, by decide +kernel, by decide +kernel⟩, by decide +kernel,
      ⟨⟨by decide, by decide, fun h => by simp [PathView.empty, PathView.lastly]⟩,
        (by decide : ∀ n ∈ ([[99]] : List WStr), n.length ≤ 32 ∧ ∀ x ∈ n, 0 < x ∧ x < 256)⟩, by decide, id⟩
  · cases he
    have h' : (match (⟨freshWriter, []⟩ : Session).live .windows [.request (.openStream [[99]] true 0)] with
      | .ok (S', r) => decide (S'.w.io.header.num_bat ≤ 109) && decide (S'.w.io.bbat.data.length ≤ 2 ^ 30) &&
          decide (S'.w.io.sbat.data.length ≤ 2 ^ 26) && decide (S'.w.io.dirtree.length ≤ 2 ^ 20)
      | _ => false) = true := by decide +kernel
    rw [h] at h'
    simp only [Bool.and_eq_true, decide_eq_true_eq] at h'
    exact ⟨⟨h'.1.1.2, h'.1.2, h'.2⟩, h'.1.1.1, trivial, trivial⟩
  · cases he
    have h' : (match (⟨freshWriter, []⟩ : Session).live .windows [.request (.openStream [[99]] true 0), .flush 0 (fun _ _ => 0)] with
      | .ok (S', r) => decide (r = [.answer (.opened (some 0)), .done]) && decide (S'.w.io.header.num_bat ≤ 109) && decide (S'.w.io.bbat.data.length ≤ 2 ^ 30) &&
          decide (S'.w.io.sbat.data.length ≤ 2 ^ 26) && decide (S'.w.io.dirtree.length ≤ 2 ^ 20)
      | _ => false) = true := by decide +kernel
    rw [h] at h'
    simp only [Bool.and_eq_true, decide_eq_true_eq] at h'
    obtain ⟨⟨⟨⟨h1, h2⟩, h3⟩, h4⟩, h5⟩ := h'
    subst h1
    refine ⟨⟨h3, h4, h5⟩, h2, ⟨by decide, by decide, ?_, ?_⟩, trivial⟩
    · have hnone : ∀ q, [[100]] <+: q → (FileMap.empty.create [[99]] 0) q = none := by
        rintro q ⟨t, rfl⟩
        simp [FileMap.create, FileMap.empty]
      exact ⟨fun q hq hs => by
          have hs : ((FileMap.empty.create [[99]] 0) q).isSome := hs
          rw [hnone q hq] at hs; exact absurd hs (by decide),
        fun q n byte hq hs => by
          have hs : (FileMap.empty.create [[99]] 0) q = some (.stream n byte) := hs
          rw [hnone q hq] at hs; cases hs⟩
    · intro k p hk
      have hk : replaced (fun _ => none) 0 (some [[99]]) k = some p := hk
      unfold replaced at hk
      split at hk
      · cases hk; decide
      · cases hk
  · simp only [List.cons_append, List.cons.injEq] at he
    obtain ⟨_, _, _, he⟩ := he
    exact absurd he.symm (by simp)

end Fileid.Props
