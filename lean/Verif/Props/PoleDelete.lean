import Verif.Lemmas.PoleDeletes
import Verif.Lemmas.PoleReady
import Verif.Props.PolePaths
import Verif.Spec.Delete

/-!
# Properties of deleting in compound files: C109
-/

namespace Fileid.Props

open Spec Pole

/-- What the user knows to be tidy is tidy in the directory. -/
theorem shows_tidy {abi : Abi} {t : DirTree} {kids : Nat → List Nat} {c : Contents} {f : FileMap} (F : Shows t kids c f) {P : List WStr}
    (h : f.TidyBelow abi P) : Tidy abi t kids P := by
  refine ⟨fun x k hx hr => ?_, fun x k e hx hr he hd => ?_⟩
  · obtain ⟨e, _, hf⟩ := F.sound x k hr
    exact h.1 x hx (by rw [hf]; rfl)
  · obtain ⟨e', he', hf⟩ := F.sound x k hr
    rw [he] at he'
    cases he'
    rw [hd, if_neg (by simp)] at hf
    rw [List.eq_nil_iff_forall_not_mem]
    intro j hj
    obtain ⟨_, _, hf'⟩ := F.sound _ j (resolves_snoc hr hj)
    rw [h.2 x _ _ hx hf] at hf'
    cases hf'

theorem delete_matches {abi : Abi} (habi : abi = Abi.linux ∨ abi = Abi.windows) {S : Session} {v : PathView}
    (hS : Session.MatchesPaths abi S v) {P : List WStr} (hP : P ≠ []) (hthere : (v.file P).isSome) (htidy : v.file.TidyBelow abi P)
    (hopen : ∀ h p, v.path h = some p → ¬ P <+: p) (hf : Fits S.w) (hlen : S.w.io.dirtree.length < 0xffffffff) :
    ∃ w', S.w.deleteByName abi (pathText P) = .ok (w', true) ∧
      Session.MatchesPaths abi ⟨w', S.streams⟩ { v with file := v.file.delete P } ∧ Fits w' ∧
      w'.io.dirtree.length = S.w.io.dirtree.length ∧ Prepares S.w w' := by
  obtain ⟨⟨u, kids, M, hSh, F, hpos, hnone, hsome⟩, hstart, hcount⟩ := id hS
  obtain ⟨L, H, hbl⟩ := M.holds
  cases hfile : v.file P with
  | none => rw [hfile] at hthere; cases hthere
  | some node =>
    obtain ⟨i, hi⟩ := F.complete P node hfile
    obtain ⟨w', kids', L', c', h1, G⟩ := deleteByName_gone habi H hf hSh M.writeable hlen hP hi (shows_tidy F htidy)
    have hkeep : ∀ (h : Nat) (s : WStream), S.streams[h]? = some s → ∃ e e' p, S.w.io.dirtree[s.idx]? = some e ∧ IsStream e ∧
        w'.io.dirtree[s.idx]? = some e' ∧ Relinked e e' ∧ (L'.small s.idx = L.small s.idx ∧ L'.big (.stream s.idx) = L.big (.stream s.idx)) ∧
        v.path h = some p ∧ Resolves kids' (entryName w'.io.dirtree) 0 p s.idx := by
      intro h s hs
      obtain ⟨e, he, hse⟩ := M.entry h s hs
      obtain ⟨p, hp, hr⟩ := hsome h s.idx (by rw [M.stream h, hs]; rfl)
      have hno := hopen h p hp
      obtain ⟨e', h2, h3, h4, _⟩ := G.keep s.idx e he (fun x hx => by rw [← resolves_path hSh _ rfl hr hx]; exact hno)
      exact ⟨e, e', p, he, hse, h2, h3, h4, hp, (G.paths _ _).2 ⟨hr, hno⟩⟩
    refine ⟨w', h1, ⟨⟨{ u with contents := c' }, kids', ?_, G.shape, ?_, hpos, hnone, ?_⟩, by show w'.io.header.dirent_start < _; rw [G.start]; exact hstart, hcount⟩,
      ⟨by rw [G.big]; exact hf.1, by rw [G.small]; exact hf.2⟩, G.length,
      prepares_of H G.holds ⟨by rw [G.big]; exact hf.1, by rw [G.small]; exact hf.2⟩ G.readies⟩
    · refine ⟨by show w'.writeable = true; rw [G.writeable]; exact M.writeable, ⟨L', G.holds, fun h s hs => ?_⟩, M.stream, M.pos, fun h s hs => ?_, M.distinct⟩
      · obtain ⟨e, e', p, _, _, _, _, h4, _⟩ := hkeep h s hs
        rw [hbl h s hs]
        unfold Layout.chain
        rw [h4.1, h4.2]
      · obtain ⟨e, e', p, _, h5, h6, h7, _⟩ := hkeep h s hs
        exact ⟨e', h6, (relinked_stream h7).2 h5⟩
    · refine ⟨fun q k hr => ?_, fun q nd hq => ?_⟩
      · obtain ⟨h2, h3⟩ := (G.paths q k).1 hr
        obtain ⟨e, he, hfq⟩ := F.sound q k h2
        obtain ⟨e', k1, k2, _, k4, k5⟩ := G.keep k e he (fun x hx => by rw [← resolves_path hSh _ rfl h2 hx]; exact h3)
        refine ⟨e', k1, ?_⟩
        show (if P <+: q then none else v.file q) = some (if e'.dir = true then Node.storage else .stream (c'.size k) (c'.byte k))
        rw [if_neg h3, hfq, k2.dir, k4, k5]
      · have hq' : (if P <+: q then none else v.file q) = some nd := hq
        by_cases hc : P <+: q
        · rw [if_pos hc] at hq'; cases hq'
        · rw [if_neg hc] at hq'
          obtain ⟨k, hk⟩ := F.complete q nd hq'
          exact ⟨k, (G.paths q k).2 ⟨hk, hc⟩⟩
    · intro h k hk
      have hk' : u.stream h = some k := hk
      rw [M.stream h] at hk'
      cases hs : S.streams[h]? with
      | none => rw [hs] at hk'; cases hk'
      | some s =>
        rw [hs] at hk'
        have : s.idx = k := by simpa using hk'
        obtain ⟨_, _, p, _, _, _, _, _, h5, h6⟩ := hkeep h s hs
        rw [this] at h6
        exact ⟨p, h5, h6⟩

/-- C109: deleting what is at a path, a stream or a storage with all that is in it, always comes to an end without
undefined behaviour, and afterwards the storage is what the user expects: what was at the path and below it is gone, everything else is
there as it was, byte for byte, and every stream object that is open goes on to work. Missing:
streams that hold streams, which are left behind, and streams that are open. The flush that follows is C112's. -/
theorem C109_delete_partial (abi : Abi) (habi : abi = Abi.linux ∨ abi = Abi.windows) (S : Session) (v : PathView)
    (hS : Session.MatchesPaths abi S v) (P : List WStr) (hP : P ≠ []) (hthere : (v.file P).isSome) (htidy : v.file.TidyBelow abi P)
    (hopen : ∀ h p, v.path h = some p → ¬ P <+: p) (hf : Fits S.w) (hlen : S.w.io.dirtree.length < 0xffffffff) :
    ∃ w', S.w.deleteByName abi (pathText P) = .ok (w', true) ∧
      Session.MatchesPaths abi ⟨w', S.streams⟩ { v with file := v.file.delete P } ∧ Fits w' ∧
      w'.io.dirtree.length = S.w.io.dirtree.length := by
  obtain ⟨w', h1, h2, h3, h4, _⟩ := delete_matches habi hS hP hthere htidy hopen hf hlen
  exact ⟨w', h1, h2, h3, h4⟩

/-- C109: nothing is deleted, and nothing changes, when nothing is at the path. -/
theorem C109_nothing (abi : Abi) (habi : abi = Abi.linux ∨ abi = Abi.windows) (S : Session) (v : PathView)
    (hS : Session.MatchesPaths abi S v) (P : List WStr) (hP : PathOk abi P) (hnot : v.file P = none) :
    S.w.deleteByName abi (pathText P) = .ok (S.w, false) := by
  obtain ⟨⟨u, kids, M, hSh, F, _⟩, _⟩ := id hS
  unfold Writer.deleteByName
  rw [if_neg (pathText_length P), if_neg (by rw [M.writeable]; simp)]
  rcases lookup habi hSh hP with ⟨k, h1, _⟩ | ⟨_, h2⟩
  · obtain ⟨_, _, hf⟩ := F.sound P k h1
    rw [hnot] at hf
    cases hf
  · rw [h2]
    rfl

/-- C109: a storage that cannot be written to is left as it is. -/
theorem C109_read_only (abi : Abi) (w : Writer) (hw : w.writeable = false) (full : WStr) : w.deleteByName abi full = .ok (w, false) := by
  unfold Writer.deleteByName
  rw [hw]
  split <;> simp

/-- C109: what was deleted takes no space: all the sectors of the streams at the path and below are free afterwards, and so are those that were
free; the tables do not grow. -/
theorem C109_space (abi : Abi) (habi : abi = Abi.linux ∨ abi = Abi.windows) (w : Writer) (L : Layout) (c : Contents)
    (kids : Nat → List Nat) (P : List WStr) (i : Nat) (H : Holds w L c) (hf : Fits w) (hS : Shape abi w.io.dirtree kids) (hw : w.writeable = true)
    (hlen : w.io.dirtree.length < 0xffffffff) (hP : P ≠ []) (hr : Resolves kids (entryName w.io.dirtree) 0 P i)
    (ht : Tidy abi w.io.dirtree kids P) :
    ∃ w', w.deleteByName abi (pathText P) = .ok (w', true) ∧
      w'.io.bbat.data.length = w.io.bbat.data.length ∧ w'.io.sbat.data.length = w.io.sbat.data.length ∧
      (∀ j q, Resolves kids (entryName w.io.dirtree) 0 q j → P <+: q →
        (∀ x ∈ L.big (.stream j), w'.io.bbat.data[x]? = some Avail) ∧ ∀ x ∈ L.small j, w'.io.sbat.data[x]? = some Avail) ∧
      ∀ x : Nat, (w.io.bbat.data[x]? = some Avail → w'.io.bbat.data[x]? = some Avail) ∧
        (w.io.sbat.data[x]? = some Avail → w'.io.sbat.data[x]? = some Avail) := by
  obtain ⟨w', _, _, _, h1, G⟩ := deleteByName_gone habi H hf hS hw hlen hP hr ht
  exact ⟨w', h1, G.big, G.small, G.freed, G.still⟩

/-- C109: closing all stream objects leaves the storage to itself, so that everything in it can be deleted. -/
theorem C109_close (abi : Abi) (S : Session) (v : PathView) (hS : Session.MatchesPaths abi S v) :
    Session.MatchesPaths abi ⟨S.w, []⟩ v.closed := by
  obtain ⟨⟨u, kids, M, hSh, F, _⟩, hstart, _⟩ := id hS
  obtain ⟨L, H, _⟩ := M.holds
  exact ⟨⟨⟨u.contents, fun _ => none, fun _ => 0⟩, kids,
    ⟨M.writeable, ⟨L, H, fun h s hs => by simp at hs⟩, fun h => by simp, fun h s hs => by simp at hs, fun h s hs => by simp at hs,
      fun h h' s s' hs => by simp at hs⟩, hSh, F, rfl, fun _ _ => rfl, fun h i hi => by cases hi⟩, hstart, rfl⟩

/-! ### The hypotheses are met -/

theorem create_some {f : FileMap} {path q : List WStr} {n : Nat} (h : (f.create path n q).isSome) : (f q).isSome ∨ q <+: path := by
  unfold FileMap.create at h
  cases hq : f q with
  | some x => exact Or.inl rfl
  | none =>
    rw [hq] at h
    dsimp only at h
    split at h
    · rename_i hc; rw [hc]; exact Or.inr (List.prefix_refl _)
    · split at h
      · rename_i hc; exact Or.inr hc
      · cases h

theorem create_stream {f : FileMap} {path q : List WStr} {n m : Nat} {byte : Nat → Option UInt8} (h : f.create path n q = some (.stream m byte)) :
    f q = some (.stream m byte) ∨ q = path := by
  unfold FileMap.create at h
  cases hq : f q with
  | some x => rw [hq] at h; exact Or.inl h
  | none =>
    rw [hq] at h
    dsimp only at h
    split at h
    · rename_i hc; exact Or.inr hc
    · split at h <;> cases h

/-- The streams of the example: two in a storage, and one beside it. -/
def deleteRequests : List Request :=
  [.openStream [[115], [120]] true 0, .openStream [[97]] true 0, .openStream [[115], [121]] true 7]

def deleteAnswers : List Answer := [.opened (some 0), .opened (some 1), .opened (some 2)]

/-- What is in the storage of the example. -/
def deleteMap : FileMap := ((FileMap.empty.create [[115], [120]] 0).create [[97]] 0).create [[115], [121]] 7

/-- C109: the hypotheses are met, by the storage in which "/s/x", "/a" and "/s/y" were created, when "/s" is deleted. -/
example : ∃ S v, Session.MatchesPaths .windows S v ∧ (v.file [[115]]).isSome ∧ v.file.TidyBelow .windows [[115]] ∧
    (∀ h p, v.path h = some p → ¬ [[115]] <+: p) ∧ Fits S.w ∧ S.w.io.dirtree.length < 0xffffffff := by
  have h : (match (⟨freshWriter, []⟩ : Session).serve .windows deleteRequests with
      | .ok (S', r) => decide (r = deleteAnswers) && decide (S'.w.io.bbat.data.length ≤ 0xfffffffc) &&
          decide (S'.w.io.sbat.data.length ≤ 0xfffffffc) && decide (S'.w.io.dirtree.length < 0xffffffff)
      | _ => false) = true := by decide +kernel
  cases hr : (⟨freshWriter, []⟩ : Session).serve .windows deleteRequests with
  | ok p =>
    obtain ⟨S', r⟩ := p
    rw [hr] at h
    simp only [Bool.and_eq_true, decide_eq_true_eq] at h
    obtain ⟨⟨⟨h1, h2⟩, h3⟩, h4⟩ := h
    subst h1
    have hno : ∀ {h : Nat} {p : List WStr} {f : Nat → Option (List WStr)} {q : List WStr}, p ≠ q → (∀ h, f h ≠ some q) →
        ∀ h', replaced f h (some p) h' ≠ some q := by
      intro h p f q hpq hf h' hh
      unfold replaced at hh
      split at hh
      · cases hh; exact hpq rfl
      · exact hf h' hh
    have hs : PathView.empty.AllSensible .windows deleteRequests deleteAnswers := by
      refine ⟨⟨by decide, by decide, fun h => by simp [PathView.empty]⟩, ⟨by decide, by decide, hno (by decide) (fun h => by simp [PathView.empty])⟩,
        ⟨by decide, by decide, hno (by decide) (hno (by decide) (fun h => by simp [PathView.empty]))⟩, trivial⟩
    obtain ⟨_, hM⟩ := serve_matches (Or.inr rfl) deleteRequests (fresh_paths .windows) hr hs ⟨h2, h3⟩ h4
    refine ⟨_, _, C109_close _ _ _ hM, by decide, ⟨fun q hq hq' => ?_, fun q n byte hq hq' name => ?_⟩, (fun h p hp => by cases hp), ⟨h2, h3⟩, h4⟩
    · have hq1 : (deleteMap q).isSome := hq'
      have hcase : q <+: [[115], [120]] ∨ q <+: [[97]] ∨ q <+: [[115], [121]] := by
        rcases create_some hq1 with h5 | h5
        · rcases create_some h5 with h5 | h5
          · rcases create_some h5 with h5 | h5
            · unfold FileMap.empty at h5
              split at h5
              · rename_i hc; rw [hc]; exact Or.inl (List.nil_prefix)
              · cases h5
            · exact Or.inl h5
          · exact Or.inr (Or.inl h5)
        · exact Or.inr (Or.inr h5)
      intro m hm
      rcases hcase with h5 | h5 | h5
      · exact (by decide : PathOk .windows [[115], [120]]) m (h5.subset hm)
      · exact (by decide : PathOk .windows [[97]]) m (h5.subset hm)
      · exact (by decide : PathOk .windows [[115], [121]]) m (h5.subset hm)
    · have hq1 : deleteMap q = some (.stream n byte) := hq'
      show deleteMap (q ++ [name]) = none
      have hcase : q = [[115], [120]] ∨ q = [[97]] ∨ q = [[115], [121]] := by
        rcases create_stream hq1 with h5 | h5
        · rcases create_stream h5 with h5 | h5
          · rcases create_stream h5 with h5 | h5
            · unfold FileMap.empty at h5
              split at h5 <;> cases h5
            · exact Or.inl h5
          · exact Or.inr (Or.inl h5)
        · exact Or.inr (Or.inr h5)
      have hpre : [[115]] <+: q := hq
      rcases hcase with rfl | rfl | rfl
      · simp [deleteMap, FileMap.create, FileMap.empty]
      · exact absurd hpre (by decide)
      · simp [deleteMap, FileMap.create, FileMap.empty]
  | throw e => rw [hr] at h; cases h
  | ub u => rw [hr] at h; cases h
  | fuel => rw [hr] at h; cases h

/-! ### Where deleting fails -/

/-- Deleting between the requests of a session. -/
def Session.delete (abi : Abi) (S : Session) (path : List WStr) : Res (Session × Bool) := do
  let (w, b) ← S.w.deleteByName abi (pathText path)
  .ok (⟨w, S.streams⟩, b)

/-- C109: so it goes in this session: of a storage with streams among other streams nothing is left, the others are read as they were written,
and a stream created afterwards is found beside them. -/
example :
    (do let (S, _) ← (⟨freshWriter, []⟩ : Session).serve .windows [.openStream [[109], [120]] true 0, .openStream [[97]] true 0,
          .use (.write 1 b!"kept"), .openStream [[109], [121]] true 7, .openStream [[122]] true 0]
        let (S, b) ← Session.delete .windows ⟨S.w, []⟩ [[109]]
        let (_, r) ← S.serve .windows [.list [], .ask [[109], [121]], .openStream [[98]] true 0, .use (.write 0 b!"new"), .list [],
          .openStream [[97]] false 0, .use (.read 1 9)]
        .ok (b, r)) =
      .ok (true, [.names [[97], [122]], .yes false, .opened (some 0), .reply (.wrote 3), .names [[97], [98], [122]], .opened (some 1),
        .reply (.got (b!"kept".map some))]) := by
  decide +kernel

/-- C109 is false of the root: it can be deleted, and the next stream that is created takes its place in the directory; it is not found, and
the root is a storage no more. -/
theorem C109_root_wrong :
    (do let (S, _) ← (⟨freshWriter, []⟩ : Session).serve .windows [.openStream [[97]] true 0]
        let (S, b) ← Session.delete .windows S []
        let (_, r) ← S.serve .windows [.openStream [[99]] true 0, .list [], .ask [[99]], .askDir []]
        .ok (b, r)) = .ok (true, [.opened (some 1), .names [], .yes false, .yes false]) := by
  decide +kernel

/-- C109 is false of a stream that is open: the object of the deleted stream writes into the stream that is created next. -/
theorem C109_open_wrong :
    (do let (S, _) ← (⟨freshWriter, []⟩ : Session).serve .windows [.openStream [[97]] true 0, .use (.write 0 b!"aaaa")]
        let (S, b) ← Session.delete .windows S [[97]]
        let (_, r) ← S.serve .windows [.openStream [[98]] true 0, .use (.write 1 b!"bbbb"), .use (.seek 0 0), .use (.write 0 b!"zz"),
          .use (.seek 1 0), .use (.read 1 4), .list []]
        .ok (b, r)) =
      .ok (true, [.opened (some 1), .reply (.wrote 4), .reply .done, .reply (.wrote 2), .reply .done,
        .reply (.got (b!"zzbb".map some)), .names [[98]]]) := by
  decide +kernel

/-- C109 is false of a stream with a stream below it: that one is no longer found, but it keeps its entry and its sector. -/
theorem C109_below_stream_wrong :
    (do let (S, _) ← (⟨freshWriter, []⟩ : Session).serve .windows [.openStream [[97]] true 0, .openStream [[97], [98]] true 0,
          .use (.write 1 b!"lost")]
        let (S, b) ← Session.delete .windows S [[97]]
        let (S, r) ← S.serve .windows [.list [], .ask [[97], [98]]]
        .ok (b, r, S.w.io.dirtree.map DirEntry.valid, S.w.io.sbat.data[0]?)) =
      .ok (true, [.names [], .yes false], [true, false, true], some Eof) := by
  decide +kernel

end Fileid.Props
