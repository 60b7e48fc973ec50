import Verif.Lemmas.PoleKeep
import Verif.Lemmas.PolePaths

/-!
# Lemmas about requests by path
-/

namespace Fileid.Pole

open Spec Props

/-! ## Looking up -/

theorem pathText_nil : pathText [] = [47] := rfl

theorem pathText_cons (n : WStr) (ns : List WStr) : pathText (n :: ns) = (n :: ns).flatMap fun n => 47 :: n := if_neg (by simp)

theorem pathText_length (path : List WStr) : (pathText path).length ≠ 0 := by
  cases path with
  | nil => decide
  | cons n ns => rw [pathText_cons, List.flatMap_cons]; simp

theorem lookup {abi : Abi} (habi : abi = Abi.linux ∨ abi = Abi.windows) {t : DirTree} {kids : Nat → List Nat} (S : Shape abi t kids)
    {path : List WStr} (hp : PathOk abi path) :
    (∃ k, Resolves kids (entryName t) 0 path k ∧ entryIdx abi t (pathText path) = .ok (some k)) ∨
    ((∀ k, ¬ Resolves kids (entryName t) 0 path k) ∧ entryIdx abi t (pathText path) = .ok none) := by
  obtain ⟨root, hr, hv, _⟩ := S.root
  cases path with
  | nil =>
    left
    refine ⟨0, .here, ?_⟩
    unfold entryIdx
    rw [pathText_nil, if_neg (by decide), if_pos rfl, if_pos (List.getElem?_eq_some_iff.1 hr).1]
  | cons n ns =>
    rw [pathText_cons]
    exact C43_path abi habi t kids S.tree root hr hv (n :: ns) (by simp) (fun m hm => ⟨(hp m hm).2.1, (hp m hm).1⟩)
      (fun m hm => (hp m hm).2.2)

theorem entryCreate_path {abi : Abi} {w : Writer} {n : WStr} {ns : List WStr} (hp : PathOk abi (n :: ns)) (create : Bool) (size : Nat) :
    w.entryCreate abi (pathText (n :: ns)) create size = w.descendCreate abi create size 0 (n :: ns) := by
  have hn := hp n (by simp)
  unfold Writer.entryCreate
  rw [if_neg (pathText_length _), pathText_cons, List.flatMap_cons, if_neg]
  · have := splitNames_path n ns ⟨hn.2.1, hn.1⟩ (fun m hm => ⟨(hp m (by simp [hm])).2.1, (hp m (by simp [hm])).1⟩)
    rw [pathOf] at this
    simp [this]
  · intro hc
    have := congrArg List.length hc
    simp at this
    exact hn.1 this.1

/-- Nothing is at a path that leads nowhere. -/
theorem shows_none {t : DirTree} {kids : Nat → List Nat} {c : Contents} {f : FileMap} (F : Shows t kids c f) {q : List WStr}
    (h : ∀ k, ¬ Resolves kids (entryName t) 0 q k) : f q = none := by
  cases hf : f q with
  | none => rfl
  | some node =>
    obtain ⟨k, hk⟩ := F.complete q node hf
    exact absurd hk (h k)

theorem nameBefore_trans {value : Nat → Int} {a b c : List Nat} (h : NameBefore value a b) (h' : NameBefore value b c) :
    NameBefore value a c := by
  have at_ : ∀ {a b : List Nat} {k m : Nat}, a.take k = b.take k → m < k → a[m]? = b[m]? := by
    intro a b k m h hm
    have := congrArg (fun l => l[m]?) h
    simpa [List.getElem?_take, hm] using this
  have less : ∀ {a b : List Nat} {k m : Nat}, a.take k = b.take k → m ≤ k → a.take m = b.take m := by
    intro a b k m h hm
    have := congrArg (List.take m) h
    rwa [List.take_take, List.take_take, Nat.min_eq_left hm] at this
  rcases h with h | ⟨hl, k, x, y, h1, h2, h3, h4⟩
  · rcases h' with h' | ⟨hl', _⟩
    · exact Or.inl (by omega)
    · exact Or.inl (by omega)
  · rcases h' with h' | ⟨hl', m, y', z, h1', h2', h3', h4'⟩
    · exact Or.inl (by omega)
    · refine Or.inr ⟨by omega, ?_⟩
      rcases Nat.lt_trichotomy k m with hkm | hkm | hkm
      · exact ⟨k, x, y, h1.trans (less h1' (by omega)), h2, by rw [← at_ h1' hkm]; exact h3, h4⟩
      · subst hkm
        rw [h3] at h2'
        cases h2'
        exact ⟨k, x, z, h1.trans h1', h2, h3', by omega⟩
      · exact ⟨m, y', z, (less h1 (by omega)).trans h1', by rw [at_ h1 hkm]; exact h2', h3', h4'⟩

/-- The order of a search tree is that of its listing. -/
theorem ordered_pairwise {before : Nat → Nat → Prop} (htr : ∀ a b c, before a b → before b c → before a c) {T : SibTree}
    (h : T.Ordered before) : T.inorder.Pairwise before := by
  induction h with
  | leaf => exact List.Pairwise.nil
  | @node l r i hl hr _ _ ihl ihr =>
    rw [SibTree.inorder]
    rw [List.pairwise_append]
    refine ⟨?_, ihr, ?_⟩
    · rw [List.pairwise_append]
      exact ⟨ihl, List.pairwise_singleton _ _, fun a ha b hb => by simp at hb; rw [hb]; exact hl a ha⟩
    · intro a ha b hb
      rcases List.mem_append.1 ha with ha | ha
      · exact htr _ _ _ (hl a ha) (hr b hb)
      · simp at ha
        rw [ha]
        exact hr b hb

/-! ## What the directory shows after a call on a stream -/

theorem shows_alike {t t' : DirTree} {kids : Nat → List Nat} {c : Contents} {f : FileMap} (h : Alike t t') (F : Shows t kids c f) :
    Shows t' kids c f := by
  obtain ⟨f1, _, _⟩ := h.funs
  constructor
  · intro q k hr
    rw [f1] at hr
    obtain ⟨e, he, hq⟩ := F.sound q k hr
    obtain ⟨e', h1, h2⟩ := h.entry k e he
    refine ⟨e', h1, ?_⟩
    rw [hq, ← h2]
  · intro q node hq
    rw [f1]
    exact F.complete q node hq

theorem shows_at {abi : Abi} {t : DirTree} {kids : Nat → List Nat} {c c' : Contents} {f f' : FileMap} (S : Shape abi t kids)
    (F : Shows t kids c f) {p : List WStr} {i : Nat} {e : DirEntry} (hp : Resolves kids (entryName t) 0 p i) (he : t[i]? = some e)
    (hd : e.dir = false) (hc : ∀ j, j ≠ i → c'.size j = c.size j ∧ c'.byte j = c.byte j) (hf : ∀ q, q ≠ p → f' q = f q)
    (hi : f' p = some (.stream (c'.size i) (c'.byte i))) : Shows t kids c' f' := by
  constructor
  · intro q k hr
    by_cases hq : q = p
    · subst hq
      have := resolves_entry S hr hp
      subst this
      exact ⟨e, he, by rw [hi, hd]; rfl⟩
    · have hk : k ≠ i := fun hk => hq (resolves_path S _ rfl (hk ▸ hr) hp)
      obtain ⟨x, hx, h1⟩ := F.sound q k hr
      refine ⟨x, hx, ?_⟩
      rw [hf q hq, h1, (hc k hk).1, (hc k hk).2]
  · intro q node hq
    by_cases h : q = p
    · subst h
      exact ⟨i, hp⟩
    · rw [hf q h] at hq
      exact F.complete q node hq

theorem shows_write {abi : Abi} {t : DirTree} {kids : Nat → List Nat} {c : Contents} {f : FileMap} (S : Shape abi t kids)
    (F : Shows t kids c f) {p : List WStr} {i : Nat} {e : DirEntry} (hp : Resolves kids (entryName t) 0 p i) (he : t[i]? = some e)
    (hd : e.dir = false) (pos : Nat) (data : Bytes) : Shows t kids (c.write i pos data) (f.write p pos data) := by
  have hfp : f p = some (.stream (c.size i) (c.byte i)) := by
    obtain ⟨x, hx, h1⟩ := F.sound p i hp
    rw [he] at hx
    cases hx
    rw [h1, hd]
    rfl
  refine shows_at S F hp he hd (fun j hj => ⟨replaced_ne _ _ hj, funext fun p => if_neg fun h => hj h.1⟩) (fun q hq => ?_) ?_
  · unfold FileMap.write
    split
    · rename_i h
      rw [if_neg hq, h]
    · rfl
  · unfold FileMap.write
    rw [hfp]
    dsimp only
    rw [if_pos rfl]
    congr 2
    · exact (replaced_self _ _ _).symm
    · funext x
      show _ = if i = i ∧ _ then _ else _
      simp

theorem shows_resize {abi : Abi} {t : DirTree} {kids : Nat → List Nat} {c : Contents} {f : FileMap} (S : Shape abi t kids)
    (F : Shows t kids c f) {p : List WStr} {i : Nat} {e : DirEntry} (hp : Resolves kids (entryName t) 0 p i) (he : t[i]? = some e)
    (hd : e.dir = false) (n : Nat) : Shows t kids (c.resize i n) (f.resize p n) := by
  have hfp : f p = some (.stream (c.size i) (c.byte i)) := by
    obtain ⟨x, hx, h1⟩ := F.sound p i hp
    rw [he] at hx
    cases hx
    rw [h1, hd]
    rfl
  refine shows_at S F hp he hd (fun j hj => ⟨replaced_ne _ _ hj, funext fun p => if_neg fun h => hj h.1⟩) (fun q hq => ?_) ?_
  · unfold FileMap.resize
    split
    · rename_i h
      rw [if_neg hq, h]
    · rfl
  · unfold FileMap.resize
    rw [hfp]
    dsimp only
    rw [if_pos rfl]
    congr 2
    · exact (replaced_self _ _ _).symm
    · funext x
      show _ = if i = i ∧ _ then _ else _
      simp

/-! ## Requests -/

theorem use_matches {abi : Abi} {S S' : Session} {v : PathView} {c : Call} {r : Reply} (M : Session.MatchesPaths abi S v)
    (hs : v.Sensible abi (.use c)) (h : S.step c = .ok (S', r)) (hf : Fits S'.w) :
    v.Right abi (.use c) (.reply r) ∧ Session.MatchesPaths abi S' (v.after (.use c) (.reply r)) := by
  obtain ⟨⟨u, kids, hM, hS, hF, hpos, hnone, hsome⟩, hstart, hcount⟩ := M
  obtain ⟨hk, hl⟩ := step_keeps h
  have hpath : ∀ k, (v.path k).isSome = (u.stream k).isSome := by
    intro k
    cases hu : u.stream k with
    | none => rw [hnone k hu]; rfl
    | some i => obtain ⟨p, hp, _⟩ := hsome k i hu; rw [hp]; rfl
  have hentry : ∀ k i, u.stream k = some i → ∃ p e, v.path k = some p ∧ Resolves kids (entryName S.w.io.dirtree) 0 p i ∧
      S.w.io.dirtree[i]? = some e ∧ e.dir = false ∧ v.file p = some (.stream (u.contents.size i) (u.contents.byte i)) := by
    intro k i hu
    obtain ⟨p, hp, hr⟩ := hsome k i hu
    have hst := hM.stream k
    rw [hu] at hst
    cases hx : S.streams[k]? with
    | none => rw [hx] at hst; cases hst
    | some s =>
      rw [hx] at hst
      have hst : i = s.idx := by injection hst
      obtain ⟨e, he, hi⟩ := hM.entry k s hx
      rw [← hst] at he
      obtain ⟨x, hx', h1⟩ := hF.sound p i hr
      rw [he] at hx'
      cases hx'
      exact ⟨p, e, hp, hr, he, hi.2, by rw [h1, hi.2]; rfl⟩
  have hsens : u.Sensible c := by
    cases c with
    | seek k pos => exact hs
    | write k data => show u.pos k + _ < _; rw [hpos]; exact hs
    | read k n =>
      refine ⟨by rw [hpos]; exact hs.1, fun i hi => ?_⟩
      obtain ⟨p, e, hp, _, _, _, hv⟩ := hentry k i hi
      rw [hpos]
      exact hs.2 p _ _ hp hv
    | setSize k n => exact hs
  obtain ⟨hr, hM'⟩ := step_matches hM hsens h hf
  have hA := hk.alike
  have hS' := alike_shape hA hS
  obtain ⟨f1, _, _⟩ := hA.funs
  refine ⟨?_, ⟨u.after c r, kids, hM', hS', ?_⟩, by rw [hk.start]; exact hstart, ?_⟩
  · cases c with
    | seek k pos => exact congrArg Answer.reply hr
    | write k data => show Answer.reply r = _; rw [show r = _ from hr, hpath]
    | read k n =>
      intro path size byte bytes hp hfile hlen hknown
      cases hu : u.stream k with
      | none => rw [hnone k hu] at hp; cases hp
      | some i =>
        obtain ⟨p, e, hp', _, _, _, hv⟩ := hentry k i hu
        rw [hp] at hp'
        cases hp'
        rw [hfile] at hv
        cases hv
        refine congrArg Answer.reply (hr i hu bytes ?_ ?_)
        · rw [hpos]; exact hlen
        · rw [hpos]; exact hknown
    | setSize k n => exact congrArg Answer.reply hr
  · have hF' := shows_alike hA hF
    have same : ∀ (s : Nat → Option Nat), s = u.stream → (∀ h, s h = none → v.path h = none) ∧
        ∀ h i, s h = some i → ∃ p, v.path h = some p ∧ Resolves kids (entryName S'.w.io.dirtree) 0 p i := by
      rintro s rfl
      rw [f1]
      exact ⟨hnone, hsome⟩
    have hentry' : ∀ k i, u.stream k = some i → ∃ p e, v.path k = some p ∧ Resolves kids (entryName S'.w.io.dirtree) 0 p i ∧
        S'.w.io.dirtree[i]? = some e ∧ e.dir = false := by
      intro k i hu
      obtain ⟨p, e, hp, hr, he, hd, _⟩ := hentry k i hu
      obtain ⟨e', h1, h2⟩ := hA.entry i e he
      exact ⟨p, e', hp, by rw [f1]; exact hr, h1, by rw [← h2]; exact hd⟩
    cases c with
    | seek k pos =>
      unfold View.after PathView.after
      dsimp only
      rw [hpath]
      split
      · exact ⟨hF', by rw [hpos], same _ rfl⟩
      · exact ⟨hF', hpos, same _ rfl⟩
    | write k data =>
      unfold View.after PathView.after
      dsimp only
      cases hu : u.stream k with
      | none =>
        rw [hnone k hu]
        exact ⟨hF', hpos, same _ rfl⟩
      | some i =>
        obtain ⟨p, e, hp, hr, he, hd⟩ := hentry' k i hu
        rw [hp]
        dsimp only
        split
        · exact ⟨hF', hpos, same _ rfl⟩
        · refine ⟨?_, by rw [hpos], same _ rfl⟩
          rw [← hpos]
          exact shows_write hS' hF' hr he hd _ _
    | read k n =>
      unfold View.after PathView.after
      cases r with
      | got bytes =>
        dsimp only
        rw [hpath]
        split
        · exact ⟨hF', by rw [hpos], same _ rfl⟩
        · exact ⟨hF', hpos, same _ rfl⟩
      | wrote n => exact ⟨hF', hpos, same _ rfl⟩
      | done => exact ⟨hF', hpos, same _ rfl⟩
    | setSize k n =>
      unfold View.after PathView.after
      dsimp only
      cases hu : u.stream k with
      | none =>
        rw [hnone k hu]
        exact ⟨hF', hpos, same _ rfl⟩
      | some i =>
        obtain ⟨p, e, hp, hr, he, hd⟩ := hentry' k i hu
        rw [hp]
        dsimp only
        exact ⟨shows_resize hS' hF' hr he hd _, hpos, same _ rfl⟩
  · rw [hl, hcount]
    cases c with
    | seek k pos => unfold PathView.after; dsimp only; split <;> rfl
    | write k data => unfold PathView.after; dsimp only; (repeat' split) <;> rfl
    | read k n =>
      unfold PathView.after
      cases r with
      | got bytes => dsimp only; split <;> rfl
      | wrote n => rfl
      | done => rfl
    | setSize k n => unfold PathView.after; dsimp only; split <;> rfl

/-- The listing, and the two questions. -/
theorem look_right {abi : Abi} (habi : abi = Abi.linux ∨ abi = Abi.windows) {S : Session} {v : PathView} (M : Session.MatchesPaths abi S v)
    {path : List WStr} (hp : PathOk abi path) :
    (∀ l, S.w.io.entries abi (pathText path) = .ok l → v.Right abi (.list path) (.names l)) ∧
    (∀ b, S.w.io.exists abi (pathText path) = .ok b → v.Right abi (.ask path) (.yes b)) ∧
    (∀ b, S.w.io.isDirectory abi (pathText path) = .ok b → v.Right abi (.askDir path) (.yes b)) := by
  obtain ⟨⟨u, kids, hM, hS, hF, _⟩, _, _⟩ := M
  unfold StorageIO.entries StorageIO.exists StorageIO.isDirectory
  rcases lookup habi hS hp with ⟨k, hr, hi⟩ | ⟨hr, hi⟩
  · obtain ⟨e, he, hfile⟩ := hF.sound path k hr
    obtain ⟨e1, he1, hv⟩ := resolves_valid hS hr
    rw [he] at he1
    cases he1
    rw [hi]
    simp only [Res.bind_ok]
    refine ⟨fun l hl => ⟨l, rfl, ?_⟩, fun b hb => ?_, fun b hb => ?_⟩
    · rw [hfile]
      unfold entriesAt at hl
      dsimp only at hl
      rw [he] at hl
      dsimp only at hl
      unfold entriesOf at hl
      by_cases hd : e.dir = true
      · rw [if_pos hd] at hl ⊢
        dsimp only
        obtain ⟨T, hT, hk⟩ := hS.tree k e he hv
        rw [C42_children _ hS.short k e he hv T hT.below, Res.bind_ok] at hl
        injection hl with hl
        have hl' : l = T.inorder.map (entryName S.w.io.dirtree) := hl.symm
        refine ⟨?_, fun n => ?_⟩
        · rw [hl', List.pairwise_map]
          exact ordered_pairwise (before := fun i j => NameBefore (wcharVal abi) (entryName S.w.io.dirtree i) (entryName S.w.io.dirtree j))
            (fun a b c hab hbc => nameBefore_trans hab hbc) hT.ordered
        · rw [hl', hk]
          constructor
          · intro hn
            obtain ⟨j, hj, hjn⟩ := List.mem_map.1 hn
            obtain ⟨x, _, hx⟩ := hF.sound _ _ (resolves_snoc hr hj)
            rw [← hjn, hx]
            rfl
          · intro hn
            cases hfn : v.file (path ++ [n]) with
            | none => rw [hfn] at hn; cases hn
            | some node =>
              obtain ⟨j, hj⟩ := hF.complete _ _ hfn
              rcases resolves_snoc_inv hj with ⟨h1, _⟩ | ⟨q', j', h1, h2, h3⟩
              · have := congrArg List.length h1; simp at this
              · obtain ⟨h4, h5⟩ := List.append_inj' h1 rfl
                rw [← h4] at h2
                injection h5 with h5
                rw [resolves_entry hS h2 hr] at h3
                rw [h5]
                exact List.mem_map_of_mem h3
      · rw [if_neg hd] at hl ⊢
        injection hl with hl
        exact hl.symm
    · injection hb with hb
      show Answer.yes b = _
      rw [hfile, ← hb]
      rfl
    · injection hb with hb
      show Answer.yes b = _
      rw [hfile, ← hb]
      simp only [Option.bind_some, he, Option.map_some, Option.getD_some]
      cases e.dir <;> rfl
  · have hfile := shows_none hF hr
    rw [hi]
    simp only [Res.bind_ok]
    refine ⟨fun l hl => ⟨l, rfl, ?_⟩, fun b hb => ?_, fun b hb => ?_⟩
    · rw [hfile]
      injection hl with hl
      exact hl.symm
    · injection hb with hb
      show Answer.yes b = _
      rw [hfile, ← hb]
      rfl
    · injection hb with hb
      show Answer.yes b = _
      rw [hfile, ← hb]
      rfl

/-- What is found, or made, at a path. -/
theorem entryCreate_holds {abi : Abi} (habi : abi = Abi.linux ∨ abi = Abi.windows) {size : Nat} {path : List WStr} (hp : PathOk abi path)
    {create : Bool} {w w' : Writer} {L : Layout} {c : Contents} {kids : Nat → List Nat} {f : FileMap} {r : Option Nat}
    (h : w.entryCreate abi (pathText path) create size = .ok (w', r)) (hf : Fits w') (H : Holds w L c) (S : Shape abi w.io.dirtree kids)
    (F : Shows w.io.dirtree kids c f) (hd : w.io.header.dirent_start < 0xfffffffc) (hw : w.writeable = true)
    (hlen : w'.io.dirtree.length < End) :
    (r = none ∧ w' = w ∧ create = false ∧ f path = none) ∨
    ∃ k L' c' kids', r = some k ∧ Holds w' L' c' ∧ Shape abi w'.io.dirtree kids' ∧
      Shows w'.io.dirtree kids' c' (if create then f.create path size else f) ∧
      w'.io.header.dirent_start = w.io.header.dirent_start ∧
      w'.writeable = true ∧ Resolves kids' (entryName w'.io.dirtree) 0 path k ∧
      (∀ q j, Resolves kids (entryName w.io.dirtree) 0 q j → Resolves kids' (entryName w'.io.dirtree) 0 q j) ∧
      (∀ j, L'.chain j = L.chain j) ∧
      (∀ (j : Nat) (e : DirEntry), w.io.dirtree[j]? = some e → IsStream e → ∃ e', w'.io.dirtree[j]? = some e' ∧ IsStream e') ∧
      Readies w L.big w' L'.big := by
  cases create with
  | false =>
    rw [entryCreate_false] at h
    rcases lookup habi S hp with ⟨k, hr, hi⟩ | ⟨hr, hi⟩
    · rw [hi] at h
      cases h
      exact Or.inr ⟨k, L, c, kids, rfl, H, S, F, rfl, hw, hr, fun _ _ h => h, fun _ => rfl, fun j e he hs => ⟨e, he, hs⟩, Readies.refl w _⟩
    · rw [hi] at h
      cases h
      exact Or.inl ⟨rfl, rfl, rfl, shows_none F hr⟩
  | true =>
    right
    rw [if_pos rfl]
    cases path with
    | nil =>
      unfold Writer.entryCreate at h
      rw [pathText_nil, if_neg (by decide), if_pos rfl] at h
      obtain ⟨e, he, _⟩ := S.root
      rw [if_pos (List.getElem?_eq_some_iff.1 he).1] at h
      cases h
      exact ⟨0, L, c, kids, rfl, H, S, by rw [create_resolved S F .here]; exact F, rfl, hw, .here, fun _ _ h => h, fun _ => rfl,
        fun j e he hs => ⟨e, he, hs⟩, Readies.refl w _⟩
    | cons n ns =>
      rw [entryCreate_path hp] at h
      obtain ⟨k, L', c', kids', h1, h2, h3, h4, h5, h6, h7, h8, h9, h10, _, h12⟩ :=
        descendCreate_holds habi (n :: ns) h hf H S F hd hw .here (fun m hm => (hp m hm).2.2) hlen
      exact ⟨k, L', c', kids', h1, h2, h3, h4, h5, h6, h7, h8, h9, fun j e he hs => (h10 j e he hs).2, h12⟩

theorem open_matches {abi : Abi} (habi : abi = Abi.linux ∨ abi = Abi.windows) {S S' : Session} {v : PathView} {path : List WStr}
    {create : Bool} {n : Nat} {a : Answer} (M : Session.MatchesPaths abi S v) (hs : v.Sensible abi (.openStream path create n))
    (h : S.request abi (.openStream path create n) = .ok (S', a)) (hf : Fits S'.w) (hlen : S'.w.io.dirtree.length < End) :
    v.Right abi (.openStream path create n) a ∧ Session.MatchesPaths abi S' (v.after (.openStream path create n) a) := by
  obtain ⟨⟨u, kids, hM, hS, hF, hpos, hnone, hsome⟩, hstart, hcount⟩ := M
  obtain ⟨hpath, hn, hnew⟩ := hs
  obtain ⟨L, H, hL⟩ := hM.holds
  unfold Session.request at h
  dsimp only at h
  have h3 := bind_inv h
  clear h
  obtain ⟨⟨w', s⟩, h1, h⟩ := h3
  dsimp only at h
  unfold Writer.stream at h1
  have h32 : u32 n = n := Nat.mod_eq_of_lt (by omega)
  rw [if_neg (pathText_length _)] at h1
  dsimp only at h1
  rw [h32, if_pos hn] at h1
  have h3 := bind_inv h1
  clear h1
  obtain ⟨⟨w1, i⟩, h2, h1⟩ := h3
  dsimp only at h1
  have hw : S'.w = w1 := by
    have e1 : S'.w = w' := by
      cases s <;> (dsimp only at h; injection h with h; injection h with h _; rw [← h])
    rw [e1]
    cases i with
    | none => injection h1 with h1; injection h1 with h1 _; exact h1.symm
    | some i =>
      dsimp only at h1
      obtain ⟨e, _, h1⟩ := bind_inv h1
      split at h1
      · injection h1 with h1; injection h1 with h1 _; exact h1.symm
      · obtain ⟨x, _, h1⟩ := bind_inv h1
        injection h1 with h1; injection h1 with h1 _; exact h1.symm
  rw [hw] at hf hlen
  rcases entryCreate_holds habi hpath h2 hf H hS hF hstart hM.writeable hlen with ⟨hi, hww, hc, hfile⟩ |
    ⟨k, L', c', kids', hi, H', hS', hF', hst', hw', hr', hold, hch, hstr, _⟩
  · subst hi hww hc
    cases h1
    cases h
    refine ⟨?_, ⟨u, kids, hM, hS, hF, hpos, hnone, hsome⟩, hstart, hcount⟩
    show _ = Answer.opened _
    rw [hfile]
    rfl
  · subst hi
    dsimp only at h1
    have h3 := bind_inv h1
    clear h1
    obtain ⟨e, he', h1⟩ := h3
    have he := entryOf_inv he'
    clear he'
    obtain ⟨e1, he1, hv⟩ := resolves_valid hS' hr'
    rw [he] at he1
    cases he1
    obtain ⟨e2, he2, hfile⟩ := hF'.sound path k hr'
    rw [he] at he2
    cases he2
    have hblocks : ∀ (h : Nat) (x : WStream), S.streams[h]? = some x → x.blocks = L'.chain x.idx := fun h x hx => by
      rw [hch]; exact hL h x hx
    have hent : ∀ (h : Nat) (x : WStream), S.streams[h]? = some x → ∃ e, w1.io.dirtree[x.idx]? = some e ∧ IsStream e := fun h x hx => by
      obtain ⟨y, hy, hs⟩ := hM.entry h x hx
      exact hstr _ y hy hs
    have hkept : ∀ node, v.file path = some node → (if create then v.file.create path n else v.file) = v.file := by
      intro node hnode
      split
      · obtain ⟨j, hj⟩ := hF.complete path node hnode
        exact create_resolved hS hF hj n
      · rfl
    by_cases hd : e.dir = true
    · rw [if_pos hd] at h1 hfile
      cases h1
      cases h
      have hvf : v.file path = some .storage := by
        cases hx : v.file path with
        | some node => rw [hkept node hx, hx] at hfile; exact hfile
        | none =>
          cases create with
          | false => rw [if_neg (by simp), hx] at hfile; cases hfile
          | true => rw [if_pos rfl, FileMap.create, hx] at hfile; dsimp only at hfile; rw [if_pos rfl] at hfile; cases hfile
      rw [hkept _ hvf] at hF'
      refine ⟨?_, ⟨⟨c', u.stream, u.pos⟩, kids', ⟨hw', ⟨L', H', hblocks⟩, hM.stream, hM.pos, hent, hM.distinct⟩, hS', hF', hpos, hnone,
        fun h i hi => ?_⟩, by show w'.io.header.dirent_start < _; rw [hst']; exact hstart, hcount⟩
      · show _ = Answer.opened _
        rw [hvf]
      · obtain ⟨p, hp, hr⟩ := hsome h i hi
        exact ⟨p, hp, hold _ _ hr⟩
    · have hd : e.dir = false := by simpa using hd
      have hno : ¬ e.dir = true := by rw [hd]; simp
      rw [if_neg hno] at h1 hfile
      rw [new_holds H' hf he ⟨hv, hd⟩] at h1
      cases h1
      cases h
      refine ⟨?_, ⟨⟨c', replaced u.stream S.streams.length (some k), replaced u.pos S.streams.length 0⟩, kids', ?_, hS', hF', ?_, ?_, ?_⟩, ?_, ?_⟩
      · show Answer.opened _ = Answer.opened _
        rw [hcount]
        cases hx : v.file path with
        | some node => rw [hkept node hx, hx] at hfile; cases hfile; rfl
        | none =>
          cases create with
          | false => rw [if_neg (by simp), hx] at hfile; cases hfile
          | true => rfl
      · refine matches_append (s := { idx := k, blocks := L'.chain k }) hw' L' H' hM rfl rfl hblocks hent he ⟨hv, hd⟩ fun h hh => ?_
        obtain ⟨p, hp, hr⟩ := hsome h k hh
        rw [resolves_path hS' _ rfl (hold _ _ hr) hr'] at hp
        exact hnew h hp
      · show replaced u.pos _ 0 = replaced v.pos _ 0
        rw [hpos]
      · intro h hh
        dsimp only at hh
        show replaced v.path _ _ h = none
        by_cases hx : h = S.streams.length
        · subst hx; rw [replaced_self] at hh; cases hh
        · rw [replaced_ne _ _ hx] at hh ⊢
          exact hnone h hh
      · intro h i hh
        dsimp only at hh
        show ∃ p, replaced v.path _ _ h = some p ∧ _
        by_cases hx : h = S.streams.length
        · subst hx
          rw [replaced_self] at hh ⊢
          cases hh
          exact ⟨path, rfl, hr'⟩
        · rw [replaced_ne _ _ hx] at hh ⊢
          obtain ⟨p, hp, hr⟩ := hsome h i hh
          exact ⟨p, hp, hold _ _ hr⟩
      · show w'.io.header.dirent_start < _
        rw [hst']
        exact hstart
      · show (S.streams ++ _).length = v.count + 1
        simp [hcount]

theorem request_matches {abi : Abi} (habi : abi = Abi.linux ∨ abi = Abi.windows) {S S' : Session} {v : PathView} {q : Request} {a : Answer}
    (M : Session.MatchesPaths abi S v) (hs : v.Sensible abi q) (h : S.request abi q = .ok (S', a)) (hf : Fits S'.w)
    (hlen : S'.w.io.dirtree.length < End) : v.Right abi q a ∧ Session.MatchesPaths abi S' (v.after q a) := by
  cases q with
  | openStream path create n => exact open_matches habi M hs h hf hlen
  | list path =>
    obtain ⟨l, h1, h⟩ := bind_inv h
    cases h
    exact ⟨(look_right habi M hs).1 l h1, M⟩
  | ask path =>
    obtain ⟨l, h1, h⟩ := bind_inv h
    cases h
    exact ⟨(look_right habi M hs).2.1 l h1, M⟩
  | askDir path =>
    obtain ⟨l, h1, h⟩ := bind_inv h
    cases h
    exact ⟨(look_right habi M hs).2.2 l h1, M⟩
  | use c =>
    obtain ⟨⟨S1, r⟩, h1, h⟩ := bind_inv h
    cases h
    exact use_matches M hs h1 hf

theorem entryCreate_mono {abi : Abi} {w w' : Writer} {path : WStr} {create : Bool} {size : Nat} {r : Option Nat}
    (h : w.entryCreate abi path create size = .ok (w', r)) : Longer w w' ∧ w.io.dirtree.length ≤ w'.io.dirtree.length := by
  unfold Writer.entryCreate at h
  split at h
  · cases h; exact ⟨Longer.refl _, Nat.le_refl _⟩
  · split at h
    · cases h; exact ⟨Longer.refl _, Nat.le_refl _⟩
    · exact ⟨descendCreate_longer _ h, descendCreate_dir _ h⟩

theorem stream_mono {abi : Abi} {w w' : Writer} {path : WStr} {create : Bool} {size : Nat} {s : Option WStream}
    (h : w.stream abi path create size = .ok (w', s)) : Longer w w' ∧ w.io.dirtree.length ≤ w'.io.dirtree.length := by
  unfold Writer.stream at h
  split at h
  · cases h; exact ⟨Longer.refl _, Nat.le_refl _⟩
  · dsimp only at h
    obtain ⟨⟨w1, i⟩, h1, h⟩ := bind_inv h
    have := entryCreate_mono h1
    cases i with
    | none => cases h; exact this
    | some i =>
      dsimp only at h
      obtain ⟨e, _, h⟩ := bind_inv h
      split at h
      · cases h; exact this
      · obtain ⟨x, _, h⟩ := bind_inv h
        cases h; exact this

theorem request_mono {abi : Abi} {S S' : Session} {q : Request} {a : Answer} (h : S.request abi q = .ok (S', a)) :
    Longer S.w S'.w ∧ S.w.io.dirtree.length ≤ S'.w.io.dirtree.length := by
  cases q with
  | openStream path create n =>
    obtain ⟨⟨w', s⟩, h1, h⟩ := bind_inv h
    cases s <;> (cases h; exact stream_mono h1)
  | list path =>
    obtain ⟨l, h1, h⟩ := bind_inv h
    cases h; exact ⟨Longer.refl _, Nat.le_refl _⟩
  | ask path =>
    obtain ⟨l, h1, h⟩ := bind_inv h
    cases h; exact ⟨Longer.refl _, Nat.le_refl _⟩
  | askDir path =>
    obtain ⟨l, h1, h⟩ := bind_inv h
    cases h; exact ⟨Longer.refl _, Nat.le_refl _⟩
  | use c =>
    obtain ⟨⟨S1, r⟩, h1, h⟩ := bind_inv h
    cases h
    exact ⟨step_longer h1, Nat.le_of_eq (step_keeps h1).1.length.symm⟩

theorem serve_mono {abi : Abi} (rs : List Request) : ∀ {S S' : Session} {as : List Answer}, S.serve abi rs = .ok (S', as) →
    Longer S.w S'.w ∧ S.w.io.dirtree.length ≤ S'.w.io.dirtree.length := by
  induction rs with
  | nil => intro S S' as h; cases h; exact ⟨Longer.refl _, Nat.le_refl _⟩
  | cons r rs ih =>
    intro S S' as h
    obtain ⟨⟨S1, a⟩, h1, h⟩ := bind_inv h
    obtain ⟨⟨S2, as'⟩, h2, h⟩ := bind_inv h
    cases h
    obtain ⟨a1, a2⟩ := request_mono h1
    obtain ⟨b1, b2⟩ := ih h2
    exact ⟨a1.trans b1, Nat.le_trans a2 b2⟩

theorem serve_matches {abi : Abi} (habi : abi = Abi.linux ∨ abi = Abi.windows) (rs : List Request) :
    ∀ {S S' : Session} {v : PathView} {as : List Answer}, Session.MatchesPaths abi S v → S.serve abi rs = .ok (S', as) →
    v.AllSensible abi rs as → Fits S'.w → S'.w.io.dirtree.length < End →
    v.AllRight abi rs as ∧ Session.MatchesPaths abi S' (v.finally rs as) := by
  induction rs with
  | nil => intro S S' v as M h _ _ _; cases h; exact ⟨trivial, M⟩
  | cons r rs ih =>
    intro S S' v as M h hs hf hlen
    obtain ⟨⟨S1, a⟩, h1, h⟩ := bind_inv h
    obtain ⟨⟨S2, as'⟩, h2, h⟩ := bind_inv h
    cases h
    obtain ⟨b1, b2⟩ := serve_mono rs h2
    obtain ⟨r1, M1⟩ := request_matches habi M hs.1 h1 (b1.fits hf) (Nat.lt_of_le_of_lt b2 hlen)
    obtain ⟨r2, M2⟩ := ih M1 h2 hs.2 hf hlen
    exact ⟨⟨r1, r2⟩, M2⟩

/-! ## A storage just created -/

theorem fresh_paths (abi : Abi) : Session.MatchesPaths abi ⟨freshWriter, []⟩ PathView.empty := by
  have hr : ∀ q k, Resolves (fun _ => []) (entryName newTree) 0 q k → q = [] ∧ k = 0 := by
    intro q k h
    rcases resolves_snoc_inv h with h | ⟨_, _, _, _, h⟩
    · exact h
    · cases h
  have h0 : ∀ (i : Nat) (e : DirEntry), newTree[i]? = some e → i = 0 ∧ e.dir = true ∧ newTree.length ≤ e.child ∧ End ≤ e.prev ∧
      End ≤ e.next ∧ End ≤ e.child := by
    intro i e h
    match i, h with
    | 0, h => cases h; exact ⟨rfl, rfl, by decide, by decide, by decide, by decide⟩
    | i + 1, h => cases h
  refine ⟨⟨⟨nothing, fun _ => none, fun _ => 0⟩, fun _ => [], ?_, ?_, ?_, rfl, fun _ _ => rfl, fun _ _ h => by cases h⟩, by decide, rfl⟩
  · refine ⟨rfl, ⟨freshLayout, ?_, fun h s hs => (by cases hs)⟩, fun _ => rfl, fun h s hs => (by cases hs), fun h s hs => (by cases hs),
      fun h h' s s' hs => (by cases hs)⟩
    exact fresh_holds newTree fun i e he hs => by
      have := (h0 i e he).2.1
      rw [hs.2] at this
      cases this
  · refine ⟨fun i p hp _ => ⟨.leaf, ⟨.leaf (h0 i p hp).2.2.1, .leaf, fun j hj => by cases hj⟩, rfl⟩, fun _ _ _ x hx => (by cases hx),
      fun _ _ => rfl, fun j e he _ => ?_, by decide, ⟨_, rfl, rfl, rfl⟩⟩
    have := (h0 j e he).2.2.2
    exact ⟨Or.inr this.1, Or.inr this.2.1, Or.inr this.2.2⟩
  · constructor
    · intro q k h
      obtain ⟨rfl, rfl⟩ := hr q k h
      exact ⟨_, rfl, rfl⟩
    · intro q node h
      refine ⟨0, ?_⟩
      have : q = [] := Classical.byContradiction fun hc => by
        simp [PathView.empty, FileMap.empty, hc] at h
      rw [this]
      exact .here

end Fileid.Pole
