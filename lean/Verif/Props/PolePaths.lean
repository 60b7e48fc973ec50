import Verif.Lemmas.PoleServe

/-!
# Properties of compound files that are used by path: C106 histories of a new storage, C107 streams below streams
-/

namespace Fileid.Props

open Spec Pole

/-! ## C106 -/

/-- C106: a storage is a map from paths to streams. Whatever history of opening and creating streams by path, listing, asking
what exists, seeking, writing, reading and changing sizes a storage goes through, every answer is the one the map gives:
a stream opens exactly when it is there or is to be created, and what is created is found at its path, with the storages
on the way; creating changes nothing that was there; storages list what they hold, once, in order; and bytes are read as they were
written. Missing: what is missing in C103; opening a stream that is open; directories of 0xffffffff entries. -/
theorem C106_requests_partial (abi : Abi) (habi : abi = Abi.linux ∨ abi = Abi.windows) (S S' : Session) (v : PathView)
    (hS : Session.MatchesPaths abi S v) (requests : List Request) (answers : List Answer)
    (h : S.serve abi requests = .ok (S', answers)) (hs : v.AllSensible abi requests answers) (hf : Fits S'.w)
    (hlen : S'.w.io.dirtree.length < 0xffffffff) :
    v.AllRight abi requests answers ∧ Session.MatchesPaths abi S' (v.finally requests answers) :=
  serve_matches habi requests hS h hs hf hlen

/-- C106: so for every history of a storage just created: the map is that of a storage with nothing in it. -/
theorem C106_new_storage_partial (abi : Abi) (habi : abi = Abi.linux ∨ abi = Abi.windows) (w : Writer) (hw : Writer.fresh = .ok w)
    (S' : Session) (requests : List Request) (answers : List Answer)
    (h : (⟨w, []⟩ : Session).serve abi requests = .ok (S', answers)) (hs : PathView.empty.AllSensible abi requests answers)
    (hf : Fits S'.w) (hlen : S'.w.io.dirtree.length < 0xffffffff) :
    PathView.empty.AllRight abi requests answers := by
  rw [fresh_eq] at hw
  cases hw
  exact (serve_matches habi requests (fresh_paths abi) h hs hf hlen).1

/-- C106: a stream that is created is there, and what was there is still there. -/
theorem C106_create (abi : Abi) (habi : abi = Abi.linux ∨ abi = Abi.windows) (S S' : Session) (v : PathView)
    (hS : Session.MatchesPaths abi S v) (path : List WStr) (n : Nat) (a : Answer) (hp : PathOk abi path) (hn : n < 2 ^ 31)
    (hnew : v.file path = none) (hopen : ∀ h, v.path h ≠ some path)
    (h : S.request abi (.openStream path true n) = .ok (S', a)) (hf : Fits S'.w) (hlen : S'.w.io.dirtree.length < 0xffffffff) :
    ∃ f, Session.MatchesPaths abi S' ⟨f, replaced v.path v.count (some path), replaced v.pos v.count 0, v.count + 1⟩ ∧
      a = .opened (some v.count) ∧ f path = some (.stream n fun _ => none) ∧
      (∀ q, q <+: path → (f q).isSome) ∧ (∀ q node, v.file q = some node → f q = some node) ∧
      ∀ q, v.file q = none → ¬ q <+: path → f q = none := by
  obtain ⟨hr, hM⟩ := request_matches (q := .openStream path true n) habi hS ⟨hp, hn, hopen⟩ h hf hlen
  have ha : a = .opened (some v.count) := by
    rw [show a = _ from hr, hnew]
    rfl
  refine ⟨v.file.create path n, ?_, ha, ?_, fun q hq => ?_, fun q node hq => ?_, fun q hq hne => ?_⟩
  · rw [ha] at hM
    exact hM
  · unfold FileMap.create
    rw [hnew]
    dsimp only
    rw [if_pos rfl]
  · unfold FileMap.create
    split
    · rfl
    · split
      · rfl
      · rfl
  · unfold FileMap.create
    rw [hq]
  · unfold FileMap.create
    rw [hq]
    dsimp only
    rw [if_neg (fun hc => hne (by rw [hc]; exact List.prefix_refl _)), if_neg hne]

instance (abi : Abi) (path : List WStr) : Decidable (PathOk abi path) := by unfold PathOk; infer_instance

/-- The history of the example: streams in storages are created out of order, written, listed and read. -/
def pathRequests : List Request :=
  [.openStream [[98]] true 0, .openStream [[99, 99], [100]] true 0, .openStream [[97]] true 0, .list [],
   .use (.write 1 b!"deep"), .use (.seek 1 1), .use (.read 1 9), .ask [[99, 99], [100]], .askDir [[99, 99]], .ask [[120]],
   .list [[99, 99]], .openStream [[99, 99]] true 0, .openStream [[120]] false 0]

def pathAnswers : List Answer :=
  [.opened (some 0), .opened (some 1), .opened (some 2), .names [[97], [98], [99, 99]],
   .reply (.wrote 4), .reply .done, .reply (.got (b!"eep".map some)), .yes true, .yes true, .yes false,
   .names [[100]], .opened none, .opened none]

/-- C106: the hypotheses are met by this history. -/
theorem pathRequests_served : ∃ S', (⟨freshWriter, []⟩ : Session).serve .windows pathRequests = .ok (S', pathAnswers) ∧
    PathView.empty.AllSensible .windows pathRequests pathAnswers ∧ Fits S'.w ∧ S'.w.io.dirtree.length < 0xffffffff := by
  have h : (match (⟨freshWriter, []⟩ : Session).serve .windows pathRequests with
      | .ok (S', r) => decide (r = pathAnswers) && decide (S'.w.io.bbat.data.length ≤ 0xfffffffc) &&
          decide (S'.w.io.sbat.data.length ≤ 0xfffffffc) && decide (S'.w.io.dirtree.length < 0xffffffff)
      | _ => false) = true := by decide +kernel
  cases hr : (⟨freshWriter, []⟩ : Session).serve .windows pathRequests with
  | ok p =>
    obtain ⟨S', r⟩ := p
    rw [hr] at h
    simp only [Bool.and_eq_true, decide_eq_true_eq] at h
    obtain ⟨⟨⟨h1, h2⟩, h3⟩, h4⟩ := h
    subst h1
    refine ⟨S', rfl, ?_, ⟨h2, h3⟩, h4⟩
    have hno : ∀ {h : Nat} {p : List WStr} {f : Nat → Option (List WStr)} {q : List WStr}, p ≠ q → (∀ h, f h ≠ some q) →
        ∀ h', replaced f h (some p) h' ≠ some q := by
      intro h p f q hpq hf h' hh
      unfold replaced at hh
      split at hh
      · cases hh; exact hpq rfl
      · exact hf h' hh
    simp only [PathView.AllSensible, pathRequests, pathAnswers]
    refine ⟨⟨by decide, by decide, fun h => by simp [PathView.empty]⟩, ⟨by decide, by decide, ?_⟩, ⟨by decide, by decide, ?_⟩, (by decide : PathOk .windows []), ?_,
      (by decide : 1 < 2 ^ 64), ⟨?_, ?_⟩, (by decide : PathOk .windows [[99, 99], [100]]), (by decide : PathOk .windows [[99, 99]]),
      (by decide : PathOk .windows [[120]]), (by decide : PathOk .windows [[99, 99]]), ⟨by decide, by decide, ?_⟩, ⟨by decide, by decide, ?_⟩, trivial⟩
    · exact hno (by decide) (fun h => by simp [PathView.empty])
    · exact hno (by decide) (hno (by decide) (fun h => by simp [PathView.empty]))
    · exact (by decide : 0 + 4 < 2 ^ 64)
    · exact (by decide : 1 + 9 < 2 ^ 64)
    · intro path size byte hp hfile
      have hp' : path = [[99, 99], [100]] := by
        have : some [[99, 99], [100]] = some path := hp
        cases this; rfl
      subst hp'
      have : some (Node.stream 4 _) = some (Node.stream size byte) := hfile
      cases this
      decide +kernel
    · exact hno (by decide) (hno (by decide) (hno (by decide) (fun h => by simp [PathView.empty])))
    · exact hno (by decide) (hno (by decide) (hno (by decide) (fun h => by simp [PathView.empty])))
  | throw e => rw [hr] at h; cases h
  | ub u => rw [hr] at h; cases h
  | fuel => rw [hr] at h; cases h

/-! ## C107 -/

/-- C107 is false: a stream can be created below a stream; it is found at its path, but nothing lists it, and no
storage is there to hold it. -/
theorem C107_below_stream_wrong :
    (do let (_, r) ← (⟨freshWriter, []⟩ : Session).serve .windows
          [.openStream [[97]] true 0, .openStream [[97], [98]] true 0, .use (.write 1 b!"lost"), .ask [[97], [98]], .list [[97]],
           .askDir [[97]], .list []]
        .ok r) =
      .ok [.opened (some 0), .opened (some 1), .reply (.wrote 4), .yes true, .names [], .yes false, .names [[97]]] := by
  decide +kernel

/-- C107: as long as streams are created below storages or below nothing at all, everything that is there lies in a
storage, which lists it. -/
theorem C107_listed_partial (abi : Abi) (habi : abi = Abi.linux ∨ abi = Abi.windows) (S : Session) (v : PathView)
    (hS : Session.MatchesPaths abi S v) (path : List WStr) (name : WStr) (hp : PathOk abi path)
    (h : (v.file (path ++ [name])).isSome) :
    (v.file path = some .storage ∧ ∀ l, S.w.io.entries abi (pathText path) = .ok l → name ∈ l) ∨
    ∃ n byte, v.file path = some (.stream n byte) := by
  obtain ⟨⟨u, kids, hM, hSh, hF, _⟩, _, _⟩ := id hS
  cases hn : v.file (path ++ [name]) with
  | none => rw [hn] at h; cases h
  | some node =>
    obtain ⟨k, hk⟩ := hF.complete _ _ hn
    obtain ⟨j, hj, _⟩ := resolves_split (i := 0) path hk
    obtain ⟨e, he, hfile⟩ := hF.sound path j hj
    by_cases hd : e.dir = true
    · rw [if_pos hd] at hfile
      refine Or.inl ⟨hfile, fun l hl => ?_⟩
      obtain ⟨l', h1, h2⟩ := (look_right habi hS hp).1 l hl
      rw [hfile] at h2
      cases h1
      exact (h2.2 name).2 h
    · rw [if_neg hd] at hfile
      exact Or.inr ⟨_, _, hfile⟩

/-- C107: the case is met: the root of a storage in which "/b" was created holds it. -/
example : ∃ S' v, Session.MatchesPaths .windows S' v ∧ (v.file ([] ++ [[98]])).isSome := by
  have h : (match (⟨freshWriter, []⟩ : Session).request .windows (.openStream [[98]] true 0) with
      | .ok (S', r) => decide (r = .opened (some 0)) && decide (S'.w.io.bbat.data.length ≤ 0xfffffffc) &&
          decide (S'.w.io.sbat.data.length ≤ 0xfffffffc) && decide (S'.w.io.dirtree.length < 0xffffffff)
      | _ => false) = true := by decide +kernel
  cases hr : (⟨freshWriter, []⟩ : Session).request .windows (.openStream [[98]] true 0) with
  | ok p =>
    obtain ⟨S', r⟩ := p
    rw [hr] at h
    simp only [Bool.and_eq_true, decide_eq_true_eq] at h
    obtain ⟨⟨⟨h1, h2⟩, h3⟩, h4⟩ := h
    obtain ⟨f, hM, _, hf, _⟩ := C106_create .windows (Or.inr rfl) _ S' _ (fresh_paths _) [[98]] 0 r (by decide) (by decide) (by decide)
      (fun h => by simp [PathView.empty]) hr ⟨h2, h3⟩ h4
    exact ⟨S', _, hM, by show (f [[98]]).isSome = true; rw [hf]; rfl⟩
  | throw e => rw [hr] at h; cases h
  | ub u => rw [hr] at h; cases h
  | fuel => rw [hr] at h; cases h

end Fileid.Props
