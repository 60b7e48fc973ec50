import Verif.Lemmas.PoleUse
import Verif.Props.PoleDelete

/-!
# Lemmas about storages in use: what is in the directory can be stored, and the history goes on
-/

namespace Fileid.Pole

open Spec Props

/-- Names and sizes of an entry that can be stored. -/
def Fitting (e : DirEntry) : Prop := e.name.length ≤ 32 ∧ (e.valid = true → ∀ x ∈ e.name, 0 < x ∧ x < 256) ∧ e.size < 2 ^ 32

theorem storable_set {t : DirTree} (h : Storable t) (i : Nat) {e : DirEntry} (he : Fitting e) : Storable (t.set i e) := by
  intro x hx
  rcases List.mem_or_eq_of_mem_set hx with h1 | h1
  · exact h x h1
  · rw [h1]; exact he

theorem storable_modify {t : DirTree} (h : Storable t) (i : Nat) {f : DirEntry → DirEntry} (hf : ∀ e, Fitting e → Fitting (f e)) :
    Storable (t.modify i f) := by
  intro x hx
  obtain ⟨j, hj⟩ := List.mem_iff_getElem?.1 hx
  rw [List.getElem?_modify] at hj
  cases ht : t[j]? with
  | none => rw [ht] at hj; cases hj
  | some e =>
    rw [ht] at hj
    have he := h e (List.mem_of_getElem? ht)
    by_cases hij : i = j
    · simp [hij] at hj; rw [← hj]; exact hf e he
    · simp [hij] at hj; rw [← hj]; exact he

theorem storable_unused {t : DirTree} (h : Storable t) : Storable (unusedEntry t).2 := by
  unfold unusedEntry
  split
  · exact h
  · intro x hx
    rw [List.mem_append, List.mem_singleton] at hx
    rcases hx with hx | hx
    · exact h x hx
    · rw [hx]; exact ⟨by decide, by decide, by decide⟩

theorem linkEntry_storable {abi : Abi} {t t' : DirTree} {index p closest changed : Nat} {e : DirEntry} (ht : Storable t) (he : Fitting e)
    (h : linkEntry abi t index p closest e = .ok (t', changed)) : Storable t' := by
  unfold linkEntry at h
  split at h
  · split at h
    · cases h
    · cases h
      exact storable_modify (storable_set ht _ (e := { e with prev := End, next := _ }) he) _ fun _ h => h
  · split at h
    · cases h
    · split at h
      · cases h
        exact storable_modify (storable_set ht _ (e := { e with prev := _, next := End }) he) _ fun _ h => h
      · cases h
        exact storable_modify (storable_set ht _ (e := { e with next := _, prev := End }) he) _ fun _ h => h

theorem newEntry_storable {abi : Abi} {w w' : Writer} {p closest idx size : Nat} {name : WStr} {dir : Bool} (hw : Storable w.io.dirtree)
    (hn : name.length ≤ 32 ∧ ∀ x ∈ name, 0 < x ∧ x < 256) (hs : size < 2 ^ 32)
    (h : w.newEntry abi p closest name dir size = .ok (w', idx)) : Storable w'.io.dirtree := by
  unfold Writer.newEntry at h
  dsimp only at h
  obtain ⟨⟨t', changed⟩, h1, h⟩ := bind_inv h
  dsimp only at h
  obtain ⟨blocks, _, h⟩ := bind_inv h
  injection h with h
  injection h with h _
  rw [← h, (growDir_aside _ _ _).dirtree]
  refine linkEntry_storable (storable_unused hw) ⟨hn.1, fun _ => hn.2, ?_⟩ h1
  show (if dir = true then 0 else size) < _
  split
  · decide
  · exact hs

theorem descendCreate_storable {abi : Abi} {create : Bool} {size : Nat} (hs : size < 2 ^ 32) (names : List WStr) :
    ∀ {w w' : Writer} {i : Nat} {r : Option Nat}, Storable w.io.dirtree → (∀ n ∈ names, n.length ≤ 32 ∧ ∀ x ∈ n, 0 < x ∧ x < 256) →
    w.descendCreate abi create size i names = .ok (w', r) → Storable w'.io.dirtree := by
  induction names with
  | nil => intro w w' i r hw _ h; cases h; exact hw
  | cons n ns ih =>
    intro w w' i r hw hn h
    unfold Writer.descendCreate at h
    obtain ⟨child, _, h⟩ := bind_inv h
    split at h
    · exact ih hw (fun m hm => hn m (by simp [hm])) h
    · split at h
      · obtain ⟨closest, _, h⟩ := bind_inv h
        obtain ⟨⟨w1, idx⟩, h1, h⟩ := bind_inv h
        exact ih (newEntry_storable hw (hn n (by simp)) hs h1) (fun m hm => hn m (by simp [hm])) h
      · cases h; exact hw

theorem stream_storable {abi : Abi} {w w' : Writer} {path : List WStr} (hp : PathOk abi path) {create : Bool} {size : Nat} {s : Option WStream}
    (hw : Storable w.io.dirtree) (hn : ∀ n ∈ path, n.length ≤ 32 ∧ ∀ x ∈ n, 0 < x ∧ x < 256) (hs : size < 2 ^ 31)
    (h : w.stream abi (pathText path) create size = .ok (w', s)) : Storable w'.io.dirtree := by
  unfold Writer.stream at h
  rw [if_neg (pathText_length _)] at h
  dsimp only at h
  have hu : u32 size = size := Nat.mod_eq_of_lt (by omega)
  rw [hu, if_pos hs] at h
  obtain ⟨⟨w1, i⟩, h1, h⟩ := bind_inv h
  have h2 : Storable w1.io.dirtree := by
    cases path with
    | nil =>
      rw [pathText_nil] at h1
      unfold Writer.entryCreate at h1
      rw [if_neg (by decide), if_pos rfl] at h1
      cases h1; exact hw
    | cons n ns =>
      rw [entryCreate_path hp] at h1
      exact descendCreate_storable (by omega) _ hw hn h1
  cases i with
  | none => cases h; exact h2
  | some i =>
    dsimp only at h
    obtain ⟨e, _, h⟩ := bind_inv h
    split at h
    · cases h; exact h2
    · obtain ⟨x, _, h⟩ := bind_inv h
      cases h; exact h2

theorem setEntry_storable {w : Writer} {i : Nat} {e e' : DirEntry} (hw : Storable w.io.dirtree) (he : w.io.dirtree[i]? = some e)
    (hn : e'.name = e.name) (hv : e'.valid = e.valid) (hs : e'.size < 2 ^ 32) : Storable (w.setEntry i e').io.dirtree := by
  have := hw e (List.mem_of_getElem? he)
  exact storable_set hw i ⟨by rw [hn]; exact this.1, by rw [hn, hv]; exact this.2.1, hs⟩

theorem writeBlocks_storable {w w' : Writer} {s s' : WStream} {e : DirEntry} {pos n : Nat} {data : Bytes} (hw : Storable w.io.dirtree)
    (he : w.io.dirtree[s.idx]? = some e) (h : s.writeBlocks w e pos data = .ok (w', s', n)) : Storable w'.io.dirtree := by
  unfold WStream.writeBlocks at h
  dsimp only at h
  have last : ∀ {w1 : Writer} {f : Bytes} {blocks : List Nat} {s1 : WStream} {t : Nat}, Still w w1 →
      Res.ok ((match blocks.head? with
        | none => ({ w1 with io := { w1.io with file := f } } : Writer)
        | some b => if e.start ≠ b then ({ w1 with io := { w1.io with file := f } } : Writer).setEntry s.idx { e with start := b }
          else { w1 with io := { w1.io with file := f } }), s1, t) = Res.ok (w', s', n) → Storable w'.io.dirtree := by
    intro w1 f blocks s1 t hk h
    injection h with h
    injection h with h _
    rw [← h]
    have h0 : Storable ({ w1 with io := { w1.io with file := f } } : Writer).io.dirtree := by
      show Storable w1.io.dirtree
      rw [hk.2.1]; exact hw
    cases blocks.head? with
    | none => exact h0
    | some b =>
      dsimp only
      split
      · refine setEntry_storable (e := e) h0 ?_ rfl rfl (hw e (List.mem_of_getElem? he)).2.2
        show w1.io.dirtree[s.idx]? = some e
        rw [hk.2.1]
        exact he
      · exact h0
  split at h
  · obtain ⟨⟨w1, b1⟩, h1, h⟩ := bind_inv h
    exact last (extendsSmall_still _ h1) h
  · obtain ⟨⟨w1, b1⟩, h1, h⟩ := bind_inv h
    have h2 := congrArg Prod.fst (Res.ok.inj h1)
    dsimp only at h2
    refine last ?_ h
    rw [← h2]; exact (extends_aside _ _ _).still

theorem setSize_storable {w w' : Writer} {s s' : WStream} {n : Nat} (hw : Storable w.io.dirtree) (hn : n < 2 ^ 32)
    (h : s.setSize w n = .ok (w', s')) : Storable w'.io.dirtree := by
  unfold WStream.setSize at h
  split at h
  · obtain ⟨e, he, h⟩ := bind_inv h
    have he := entryOf_inv he
    dsimp only at h
    split at h
    · generalize (if n > e.size then e.size else n) = len at h
      split at h
      · cases h
      · injection h with h
        injection h with h _
        rw [← h]
        have hs : ∀ (q : Bool), Still w (List.foldl (fun (w : Writer) (x : Nat × Nat) =>
            if q = true then (w.setSmall x.1 Avail).markSmall x.2 else (w.setBig x.1 Avail).markBig x.2) w s.blocks.zipIdx) := fun q =>
          foldl_still _ (fun w x => by split <;> exact ⟨rfl, rfl, rfl⟩) _ w
        refine setEntry_storable (e := e) ?_ ?_ rfl rfl hn
        · rw [(hs _).2.1]; exact hw
        · rw [(hs _).2.1]; exact he
    · split at h
      · injection h with h
        injection h with h _
        rw [← h]
        exact setEntry_storable hw he rfl rfl hn
      · injection h with h
        injection h with h _
        rw [← h]
        exact hw
  · injection h with h
    injection h with h _
    rw [← h]
    exact hw

theorem writeAt_storable {w w' : Writer} {s s' : WStream} {pos n : Nat} {data : Bytes} (hw : Storable w.io.dirtree)
    (hn : pos + data.length < 2 ^ 32) (h : s.writeAt w pos data = .ok (w', s', n)) : Storable w'.io.dirtree := by
  unfold WStream.writeAt at h
  have hu : u64 (pos + data.length) = pos + data.length := Nat.mod_eq_of_lt (by omega)
  rw [hu] at h
  split at h
  · cases h; exact hw
  · split at h
    · obtain ⟨e, _, h⟩ := bind_inv h
      split at h
      · obtain ⟨⟨w1, s1⟩, h1, h⟩ := bind_inv h
        obtain ⟨e1, h2, h⟩ := bind_inv h
        exact writeBlocks_storable (setSize_storable hw hn h1) (entryOf_inv h2) h
      · obtain ⟨⟨w1, s1⟩, h1, h⟩ := bind_inv h
        cases h1
        obtain ⟨e1, h2, h⟩ := bind_inv h
        exact writeBlocks_storable hw (entryOf_inv h2) h
    · cases h; exact hw

theorem request_storable {abi : Abi} {S S' : Session} {v : PathView} {q : Request} {a : Answer} (M : Session.MatchesPaths abi S v)
    (hs : v.Sensible abi q) (hc : v.CanStore q) (hw : Storable S.w.io.dirtree) (h : S.request abi q = .ok (S', a)) :
    Storable S'.w.io.dirtree := by
  cases q with
  | openStream path create n =>
    obtain ⟨⟨w', s⟩, h1, h⟩ := bind_inv h
    have := stream_storable hs.1 hw hc hs.2.1 h1
    cases s <;> (cases h; exact this)
  | list path =>
    obtain ⟨l, h1, h⟩ := bind_inv h
    cases h; exact hw
  | ask path =>
    obtain ⟨l, h1, h⟩ := bind_inv h
    cases h; exact hw
  | askDir path =>
    obtain ⟨l, h1, h⟩ := bind_inv h
    cases h; exact hw
  | use c =>
    obtain ⟨⟨S1, r⟩, h1, h⟩ := bind_inv h
    cases h
    obtain ⟨u, kids, hM, _, _, hpos, _⟩ := M.inner
    unfold Session.step at h1
    cases c with
    | seek k pos =>
      dsimp only at h1
      split at h1 <;> (cases h1; exact hw)
    | write k data =>
      dsimp only at h1
      split at h1
      · cases h1; exact hw
      · rename_i s hk
        obtain ⟨⟨w1, s1, n⟩, h2, h1⟩ := bind_inv h1
        cases h1
        refine writeAt_storable hw ?_ h2
        rw [hM.pos k s hk, hpos]
        exact hc
    | read k maxlen =>
      dsimp only at h1
      split at h1
      · cases h1; exact hw
      · obtain ⟨⟨n, d, s1⟩, _, h1⟩ := bind_inv h1
        cases h1
        exact hw
    | setSize k n =>
      dsimp only at h1
      split at h1
      · cases h1; exact hw
      · obtain ⟨⟨w1, s1⟩, h2, h1⟩ := bind_inv h1
        cases h1
        exact setSize_storable hw hc h2

/-! ## Deleting -/

theorem deleteEntry_storable {abi : Abi} {t t' : DirTree} {i : Nat} {full : WStr} {marked : List Nat} (ht : Storable t)
    (h : deleteEntry abi t i full = .ok (t', marked)) : Storable t' := by
  unfold deleteEntry at h
  obtain ⟨⟨p, s⟩, _, h⟩ := bind_inv h
  dsimp only at h
  split at h
  · cases h
  · obtain ⟨⟨t1, repl, m⟩, h1, h⟩ := bind_inv h
    have h2 : Storable t1 := by
      unfold takeOut at h1
      split at h1
      · cases h1; exact ht
      · split at h1
        · cases h1
        · split at h1
          · cases h1; exact storable_modify ht _ fun _ h => h
          · obtain ⟨⟨a, b⟩, _, h1⟩ := bind_inv h1
            cases h1
            refine storable_modify (storable_modify ht _ ?_) _ ?_ <;> exact fun _ h => h
    cases h
    unfold putIn
    split
    · refine storable_modify (storable_modify h2 _ fun e h => ?_) _ fun _ h => ⟨h.1, fun hv => (by simp at hv), h.2.2⟩
      split <;> exact h
    · refine storable_modify (storable_modify h2 _ ?_) _ ?_
      · exact fun _ h => h
      · exact fun _ h => ⟨h.1, fun hv => (by simp at hv), h.2.2⟩

theorem wdeleteEntry_storable {abi : Abi} {w w' : Writer} {i : Nat} {full : WStr} (hw : Storable w.io.dirtree)
    (h : w.deleteEntry abi i full = .ok w') : Storable w'.io.dirtree := by
  unfold Writer.deleteEntry at h
  obtain ⟨⟨t, marked⟩, h1, h⟩ := bind_inv h
  cases h
  rw [(markDirs_io _ _).1]
  exact deleteEntry_storable hw h1

theorem deleteLeaf_storable {abi : Abi} {w w' : Writer} {i : Nat} {full : WStr} (hw : Storable w.io.dirtree)
    (h : w.deleteLeaf abi i full = .ok w') : Storable w'.io.dirtree := by
  unfold Writer.deleteLeaf at h
  obtain ⟨e, _, h⟩ := bind_inv h
  split at h
  · obtain ⟨blocks, _, h⟩ := bind_inv h
    refine wdeleteEntry_storable ?_ h
    rw [(foldl_still (fun (w : Writer) (x : Nat × Nat) => (w.setBig x.1 Avail).markBig x.2) (fun w x => ⟨rfl, rfl, rfl⟩) _ _).2.1]
    exact hw
  · obtain ⟨blocks, _, h⟩ := bind_inv h
    refine wdeleteEntry_storable ?_ h
    rw [(foldl_still (fun (w : Writer) (x : Nat × Nat) => (w.setSmall x.1 Avail).markSmall x.2) (fun w x => ⟨rfl, rfl, rfl⟩) _ _).2.1]
    exact hw

theorem deleteNode_storable {abi : Abi} (f : Nat) : ∀ {w w' : Writer} {i : Nat} {full : WStr}, Storable w.io.dirtree →
    Writer.deleteNode abi f w i full = .ok w' → Storable w'.io.dirtree := by
  induction f with
  | zero => intro w w' i full _ h; cases h
  | succ f ih =>
    intro w w' i full hw h
    unfold Writer.deleteNode at h
    obtain ⟨e, _, h⟩ := bind_inv h
    dsimp only at h
    split at h
    · obtain ⟨c, _, h⟩ := bind_inv h
      split at h
      · obtain ⟨w1, h1, h⟩ := bind_inv h
        exact ih (ih hw h1) h
      · obtain ⟨w1, h1, h⟩ := bind_inv h
        exact ih (deleteLeaf_storable hw h1) h
    · exact wdeleteEntry_storable hw h

theorem deleteByName_storable {abi : Abi} {w w' : Writer} {full : WStr} {b : Bool} (hw : Storable w.io.dirtree)
    (h : w.deleteByName abi full = .ok (w', b)) : Storable w'.io.dirtree := by
  unfold Writer.deleteByName at h
  split at h
  · cases h; exact hw
  · split at h
    · cases h; exact hw
    · obtain ⟨i, _, h⟩ := bind_inv h
      cases i with
      | none => cases h; exact hw
      | some i =>
        dsimp only at h
        obtain ⟨e, _, h⟩ := bind_inv h
        split at h
        · obtain ⟨w1, h1, h⟩ := bind_inv h
          cases h
          exact deleteNode_storable _ hw h1
        · obtain ⟨w1, h1, h⟩ := bind_inv h
          cases h
          exact deleteLeaf_storable hw h1

theorem Flat.storable {w w' : Writer} (h : Flat w w') (hw : Storable w.io.dirtree) : Storable w'.io.dirtree := by
  intro e' he'
  obtain ⟨e, he, h1, h2, h3⟩ := h.entries e' he'
  have := hw e he
  rw [h1, h2]
  exact ⟨this.1, this.2.1, Nat.lt_of_le_of_lt h3 this.2.2⟩

/-! ## One action -/

theorem reaches_flat {w w' : Writer} (h : Flat w w') {file : Bytes} (hr : Reaches w' file) : Reaches w file := by
  obtain ⟨h1, h2, h3, h4⟩ := hr
  rw [h.header] at h1 h2 h3 h4
  rw [h.big] at h2 h3 h4
  rw [h.dir] at h4
  exact ⟨h1, h2, h3, h4⟩

/-- The file of the storage shows the same to who opens it. -/
def Saved (w : Writer) (v : PathView) : Prop := Reaches w w.io.file →
  ∃ io, openStorage Abi.windows (some w.io.file) = .ok (.opened io) ∧ Session.MatchesPaths Abi.windows ⟨reopened io, []⟩ v.closed

/-- A flush at any time. -/
theorem flush_saved {S : Session} {v : PathView} (M : Session.MatchesPaths Abi.windows S v) (hf : Fits S.w) (hp : Saveable S.w)
    (hn : Storable S.w.io.dirtree) (hlen : S.w.io.dirtree.length < End) (junk : Nat → Nat → UInt8) :
    ∃ w', S.w.flush junk = .ok w' ∧ Session.MatchesPaths Abi.windows ⟨w', S.streams⟩ v ∧ Saveable w' ∧ Storable w'.io.dirtree ∧ Saved w' v := by
  obtain ⟨w', h1, ⟨h2, h3, _⟩, h4⟩ := again_matches M hf hp hn hlen junk
  have hfl := flush_flat h1
  refine ⟨w', h1, h2, h3, hfl.storable hn, fun hr => ?_⟩
  have hr := reaches_flat hfl hr
  exact h4 hr.fat hr.miniFat fun l hl => ⟨hr.dir l hl, hr.unused l hl⟩

theorem act_matches {S S' : Session} {v : PathView} {a : Action} {o : Outcome} (M : Session.MatchesPaths Abi.windows S v) (hp : Saveable S.w)
    (hn : Storable S.w.io.dirtree) (hs : v.Fine .windows a) (h : S.act .windows a = .ok (S', o)) (hf : Fits S'.w)
    (hlen : S'.w.io.dirtree.length < End) (hbat : S'.w.io.header.num_bat ≤ 109) :
    v.Proper .windows a o ∧ Session.MatchesPaths Abi.windows S' (v.next a o) ∧ Saveable S'.w ∧ Storable S'.w.io.dirtree := by
  have hL := act_larger h
  unfold Session.act at h
  cases a with
  | request r =>
    obtain ⟨⟨S1, a⟩, h1, h⟩ := bind_inv h
    cases h
    obtain ⟨hr, M'⟩ := request_matches (Or.inr rfl) M hs.1 h1 hf hlen
    obtain ⟨old, hd, hpr⟩ := hp
    exact ⟨⟨a, rfl, hr⟩, M', ⟨old, hd, (request_prepares (Or.inr rfl) M hs.1 h1 hf hlen).ready hbat hpr⟩,
      request_storable M hs.1 hs.2 hn h1⟩
  | delete path junk =>
    obtain ⟨⟨w1, b⟩, h1, h⟩ := bind_inv h
    cases h
    have hf0 := hL.tables.fits hf
    have hl0 := Nat.lt_of_le_of_lt hL.dir hlen
    unfold Writer.deleteFlush at h1
    obtain ⟨⟨w2, b'⟩, h2, h1⟩ := bind_inv h1
    cases hv : v.file path with
    | none =>
      rw [C109_nothing .windows (Or.inr rfl) S v M path hs.2.1 hv] at h2
      cases h2
      cases h1
      exact ⟨by show Outcome.deleted false = Outcome.deleted (v.file path).isSome; rw [hv]; rfl, M, hp, hn⟩
    | some node =>
      obtain ⟨w3, d1, d2, d3, d4, d5⟩ := delete_matches (Or.inr rfl) M hs.1 (by rw [hv]; rfl) hs.2.2.1 hs.2.2.2 hf0 hl0
      rw [d1] at h2
      cases h2
      dsimp only at h1
      rw [if_pos rfl] at h1
      obtain ⟨w4, h3, h1⟩ := bind_inv h1
      cases h1
      have hb : w2.io.header.num_bat ≤ 109 := by rw [← (flush_flat h3).header]; exact hbat
      obtain ⟨old, hd, hpr⟩ := hp
      obtain ⟨w5, f1, f2, f3, f4, _⟩ := flush_saved (S := ⟨w2, S.streams⟩) d2 d3 ⟨old, hd, d5.ready hb hpr⟩ (deleteByName_storable hn d1)
        (by show w2.io.dirtree.length < _; rw [d4]; exact hl0) junk
      rw [h3] at f1
      cases f1
      exact ⟨by show Outcome.deleted true = Outcome.deleted (v.file path).isSome; rw [hv]; rfl, f2, f3, f4⟩
  | flush k junk =>
    dsimp only at h
    split at h
    · cases h; exact ⟨rfl, M, hp, hn⟩
    · obtain ⟨w1, h1, h⟩ := bind_inv h
      cases h
      obtain ⟨w2, f1, f2, f3, f4, _⟩ := flush_saved M (hL.tables.fits hf) hp hn (Nat.lt_of_le_of_lt hL.dir hlen) junk
      rw [h1] at f1
      cases f1
      exact ⟨rfl, f2, f3, f4⟩
  | close =>
    cases h
    exact ⟨rfl, C109_close _ _ _ M, hp, hn⟩

theorem live_matches (as : List Action) : ∀ {S S' : Session} {v : PathView} {os : List Outcome}, Session.MatchesPaths Abi.windows S v →
    Saveable S.w → Storable S.w.io.dirtree → S.live .windows as = .ok (S', os) → v.AllFine .windows as os → Fits S'.w →
    S'.w.io.dirtree.length < End → S'.w.io.header.num_bat ≤ 109 →
    v.AllProper .windows as os ∧ Session.MatchesPaths Abi.windows S' (v.lastly as os) ∧ Saveable S'.w ∧ Storable S'.w.io.dirtree := by
  induction as with
  | nil => intro S S' v os M hp hn h _ _ _ _; cases h; exact ⟨trivial, M, hp, hn⟩
  | cons a as ih =>
    intro S S' v os M hp hn h hs hf hlen hbat
    unfold Session.live at h
    obtain ⟨⟨S1, o⟩, h1, h⟩ := bind_inv h
    obtain ⟨⟨S2, os'⟩, h2, h⟩ := bind_inv h
    cases h
    have hL := live_larger as h2
    obtain ⟨r1, M1, p1, n1⟩ := act_matches M hp hn hs.1 h1 (hL.tables.fits hf) (Nat.lt_of_le_of_lt hL.dir hlen) (Nat.le_trans hL.num hbat)
    obtain ⟨r2, M2, p2, n2⟩ := ih M1 p1 n1 h2 hs.2 hf hlen hbat
    exact ⟨⟨r1, r2⟩, M2, p2, n2⟩

theorem fresh_storable : Storable freshWriter.io.dirtree := by unfold Storable; decide +kernel

end Fileid.Pole
