import Verif.Lemmas.PoleDelete
import Verif.Spec.Delete

/-!
# Lemmas about deleting streams and storages
-/

namespace Fileid.Pole

open Spec Props

/-- How many entries are in use. -/
def inUse (t : DirTree) : Nat := t.countP (·.valid)

theorem countP_less {t t' : DirTree} : t'.length = t.length →
    (∀ (j : Nat) (e e' : DirEntry), t[j]? = some e → t'[j]? = some e' → e'.valid = true → e.valid = true) →
    ∀ i : Nat, inUse t' ≤ inUse t ∧
      ((∃ e e' : DirEntry, t[i]? = some e ∧ t'[i]? = some e' ∧ e.valid = true ∧ e'.valid = false) → inUse t' < inUse t) := by
  induction t generalizing t' with
  | nil =>
    intro h _ i
    rw [List.length_eq_zero_iff.1 h]
    exact ⟨Nat.le_refl _, fun ⟨e, _, h, _⟩ => by simp at h⟩
  | cons x t ih =>
    intro hlen hall i
    cases t' with
    | nil => simp at hlen
    | cons y t' =>
      have hx := hall 0 x y rfl rfl
      have hrest := fun i => ih (t' := t') (by simpa using hlen) (fun j e e' h1 h2 => hall (j + 1) e e' (by simpa using h1) (by simpa using h2)) i
      simp only [inUse, List.countP_cons] at *
      have h0 := (hrest 0).1
      refine ⟨?_, fun ⟨e, e', h1, h2, h3, h4⟩ => ?_⟩
      · cases hy : y.valid with
        | false => simp only [Bool.false_eq_true, if_false]; omega
        | true => rw [hx hy]; simp only [if_true]; omega
      · cases i with
        | zero =>
          simp at h1 h2
          subst h1
          subst h2
          rw [h3, h4]
          simp only [Bool.false_eq_true, if_false, if_true]
          omega
        | succ i =>
          have := (hrest i).2 ⟨e, e', by simpa using h1, by simpa using h2, h3, h4⟩
          cases hy : y.valid with
          | false => simp only [Bool.false_eq_true, if_false]; omega
          | true => rw [hx hy]; simp only [if_true]; omega

/-- A path is shorter than the directory. -/
theorem resolves_short {abi : Abi} {t : DirTree} {kids : Nat → List Nat} (S : Shape abi t kids) {x : List WStr} {k : Nat}
    (h : Resolves kids (entryName t) 0 x k) : x.length < t.length := by
  have key : ∀ (n : Nat) (x : List WStr) (k : Nat), x.length = n → Resolves kids (entryName t) 0 x k →
      ∃ l : List Nat, l.length = n + 1 ∧ l.Nodup ∧ (∀ y ∈ l, y < t.length ∧ ∃ z, Resolves kids (entryName t) 0 z y ∧ z.length ≤ n) := by
    intro n
    induction n with
    | zero =>
      intro x k _ _
      obtain ⟨r, hr, _⟩ := S.root
      refine ⟨[0], rfl, by simp, fun y hy => ?_⟩
      simp at hy
      subst hy
      exact ⟨(List.getElem?_eq_some_iff.1 hr).1, [], .here, by simp⟩
    | succ n ih =>
      intro x k hx h
      rcases resolves_snoc_inv h with ⟨h1, _⟩ | ⟨x', j, h1, h2, h3⟩
      · rw [h1] at hx; simp at hx
      · obtain ⟨l, l1, l2, l3⟩ := ih x' j (by rw [h1] at hx; simpa using hx) h2
        obtain ⟨e, he, _⟩ := resolves_valid S h
        refine ⟨k :: l, by simp [l1], List.nodup_cons.2 ⟨fun hm => ?_, l2⟩, fun y hy => ?_⟩
        · obtain ⟨_, z, hz, hzl⟩ := l3 k hm
          have := resolves_path S _ rfl hz h
          rw [this] at hzl
          omega
        · rcases List.mem_cons.1 hy with rfl | hy
          · exact ⟨(List.getElem?_eq_some_iff.1 he).1, x, h, by omega⟩
          · obtain ⟨h4, z, h5, h6⟩ := l3 y hy
            exact ⟨h4, z, h5, by omega⟩
  obtain ⟨l, l1, l2, l3⟩ := key x.length x k rfl h
  have := nodup_length_le t.length l l2 (fun y hy => (l3 y hy).1)
  omega

/-- What deleting what is at path `P` does to a storage. -/
structure Gone (abi : Abi) (w w' : Writer) (kids kids' : Nat → List Nat) (L L' : Layout) (c c' : Contents) (P : List WStr) : Prop where
  shape : Shape abi w'.io.dirtree kids'
  holds : Holds w' L' c'
  paths : ∀ x k, Resolves kids' (entryName w'.io.dirtree) 0 x k ↔ Resolves kids (entryName w.io.dirtree) 0 x k ∧ ¬ P <+: x
  keep : ∀ (j : Nat) (e : DirEntry), w.io.dirtree[j]? = some e → (∀ x, Resolves kids (entryName w.io.dirtree) 0 x j → ¬ P <+: x) →
    ∃ e', w'.io.dirtree[j]? = some e' ∧ Relinked e e' ∧ (L'.small j = L.small j ∧ L'.big (.stream j) = L.big (.stream j)) ∧
      c'.size j = c.size j ∧ c'.byte j = c.byte j
  freed : ∀ (j : Nat) (x : List WStr), Resolves kids (entryName w.io.dirtree) 0 x j → P <+: x →
    (∀ y ∈ L.big (.stream j), w'.io.bbat.data[y]? = some Avail) ∧ ∀ y ∈ L.small j, w'.io.sbat.data[y]? = some Avail
  still : ∀ y : Nat, (w.io.bbat.data[y]? = some Avail → w'.io.bbat.data[y]? = some Avail) ∧
    (w.io.sbat.data[y]? = some Avail → w'.io.sbat.data[y]? = some Avail)
  length : w'.io.dirtree.length = w.io.dirtree.length
  big : w'.io.bbat.data.length = w.io.bbat.data.length
  small : w'.io.sbat.data.length = w.io.sbat.data.length
  writeable : w'.writeable = w.writeable
  start : w'.io.header.dirent_start = w.io.header.dirent_start
  fewer : inUse w'.io.dirtree < inUse w.io.dirtree
  readies : Readies w L.big w' L'.big

/-! ## Marks -/

/-- The numbers of an entry fit into 32 bits. -/
def Fits32 (e : DirEntry) : Prop := e.start < 2 ^ 32 ∧ e.prev < 2 ^ 32 ∧ e.next < 2 ^ 32 ∧ e.child < 2 ^ 32

/-- The directory is changed in the marked entries only, and if `Q` its numbers fit into 32 bits as before. -/
structure Marked (Q : Prop) (t t' : DirTree) (marked : List Nat) : Prop where
  length : t'.length = t.length
  other : ∀ j, j ∉ marked → t'[j]? = t[j]?
  values : Q → (∀ e ∈ t, Fits32 e) → ∀ e ∈ t', Fits32 e

theorem Marked.refl (Q : Prop) (t : DirTree) : Marked Q t t [] := ⟨rfl, fun _ _ => rfl, fun _ => id⟩

theorem Marked.trans {Q : Prop} {t t1 t2 : DirTree} {m m1 : List Nat} (h : Marked Q t t1 m) (h' : Marked Q t1 t2 m1) : Marked Q t t2 (m ++ m1) :=
  ⟨h'.length.trans h.length, fun j hj => by
    rw [List.mem_append, not_or] at hj
    rw [h'.other j hj.2, h.other j hj.1], fun q hv => h'.values q (h.values q hv)⟩

theorem marked_modify {Q : Prop} (t : DirTree) (i : Nat) (f : DirEntry → DirEntry) (hf : Q → ∀ e, Fits32 e → Fits32 (f e)) :
    Marked Q t (t.modify i f) [i] := by
  refine ⟨List.length_modify _ _ _, fun j hj => ?_, fun q hv e he => ?_⟩
  · rw [List.getElem?_modify]
    rw [List.mem_singleton] at hj
    have : ¬ i = j := fun h => hj h.symm
    simp [this]
  · obtain ⟨j, hj⟩ := List.mem_iff_getElem?.1 he
    rw [List.getElem?_modify] at hj
    cases hx : t[j]? with
    | none => rw [hx] at hj; cases hj
    | some x =>
      rw [hx] at hj
      have hm := hv x (List.mem_of_getElem? hx)
      injection hj with hj
      rw [← hj]
      split
      · exact hf q x hm
      · exact hm

theorem left32 {t : DirTree} (hv : ∀ e ∈ t, Fits32 e) (i : Nat) : leftOf t i < 2 ^ 32 ∧ rightOf t i < 2 ^ 32 := by
  unfold leftOf rightOf
  cases hx : t[i]? with
  | none => exact ⟨by decide, by decide⟩
  | some x => exact ⟨(hv x (List.mem_of_getElem? hx)).2.1, (hv x (List.mem_of_getElem? hx)).2.2.1⟩

theorem leftmost_inside {t : DirTree} : ∀ (f i s m : Nat), i < t.length → leftmost t f i = .ok (s, m) → s < t.length ∧ m < t.length ∧ m = leftOf t s := by
  intro f
  induction f with
  | zero => intro i s m _ h; cases h
  | succ f ih =>
    intro i s m hi h
    unfold leftmost at h
    cases hx : t[leftOf t i]? with
    | none => rw [hx] at h; cases h
    | some x =>
      rw [hx] at h
      dsimp only at h
      have hlt := (List.getElem?_eq_some_iff.1 hx).1
      split at h
      · injection h with h
        injection h with h1 h2
        rw [← h1, ← h2]
        exact ⟨hi, hlt, rfl⟩
      · exact ih _ s m hlt h

theorem takeOut_marked {t t1 : DirTree} {d : DirEntry} (hd : d ∈ t) {repl : Nat} {marked : List Nat} (h : takeOut t d = .ok (t1, repl, marked)) :
    Marked (∀ e ∈ t, Fits32 e) t t1 marked ∧ (∀ m ∈ marked, m < t.length) ∧ ((∀ e ∈ t, Fits32 e) → repl < 2 ^ 32) := by
  unfold takeOut at h
  split at h
  · cases h
    exact ⟨Marked.refl _ t, fun m hm => (by cases hm), fun hv => (hv d hd).2.1⟩
  · cases hn : t[d.next]? with
    | none => rw [hn] at h; cases h
    | some n =>
      rw [hn] at h
      dsimp only at h
      have hlt := (List.getElem?_eq_some_iff.1 hn).1
      split at h
      · cases h
        refine ⟨marked_modify _ _ _ fun hv e he => ⟨he.1, (hv d hd).2.1, he.2.2⟩, fun m hm => ?_, fun hv => (hv d hd).2.2.1⟩
        rw [List.mem_singleton.1 hm]
        exact hlt
      · obtain ⟨⟨s, m⟩, h1, h⟩ := bind_inv h
        obtain ⟨g1, g2, g3⟩ := leftmost_inside _ _ _ _ hlt h1
        cases h
        have hM1 : Marked (∀ e ∈ t, Fits32 e) t (t.modify s fun e => { e with prev := rightOf t m }) [s] :=
          marked_modify t s _ fun hv e he => ⟨he.1, (left32 hv m).2, he.2.2⟩
        refine ⟨hM1.trans (m1 := [m])
          (marked_modify _ m _ fun hv e he => ⟨he.1, (hv d hd).2.1, (hv d hd).2.2.1, he.2.2.2⟩), fun x hx => ?_, fun hv => ?_⟩
        · simp only [List.mem_cons, List.not_mem_nil, or_false] at hx
          rcases hx with rfl | rfl <;> assumption
        · rw [g3]; exact (left32 hv s).1

theorem findSib_inside {abi : Abi} {t : DirTree} {i : Nat} : ∀ (f s r : Nat), findSib abi t i f s = .ok r → r = 0 ∨ r < t.length := by
  intro f
  induction f with
  | zero => intro s r h; cases h
  | succ f ih =>
    intro s r h
    unfold findSib at h
    cases hs : t[s]? with
    | none => rw [hs] at h; cases h; exact Or.inl rfl
    | some sib =>
      rw [hs] at h
      dsimp only at h
      split at h
      · cases h; exact Or.inl rfl
      · split at h
        · cases h; exact Or.inr (List.getElem?_eq_some_iff.1 hs).1
        · cases ht : t[i]? with
          | none => rw [ht] at h; cases h
          | some target =>
            rw [ht] at h
            dsimp only at h
            split at h <;> exact ih _ _ h

theorem findParentAndSib_inside {abi : Abi} {t : DirTree} {i : Nat} {full : WStr} {p s : Nat} (h0 : 0 < t.length)
    (h : findParentAndSib abi t i full = .ok (p, s)) : p < t.length ∧ (s = 0 ∨ s < t.length) := by
  unfold findParentAndSib at h
  split at h
  · cases h; exact ⟨h0, Or.inl rfl⟩
  · obtain ⟨o, h1, h⟩ := bind_inv h
    cases o with
    | none => cases h
    | some q =>
      dsimp only at h
      cases hq : t[q]? with
      | none => rw [hq] at h; cases h
      | some parent =>
        rw [hq] at h
        dsimp only at h
        have hlt := (List.getElem?_eq_some_iff.1 hq).1
        split at h
        · cases h; exact ⟨hlt, Or.inl rfl⟩
        · obtain ⟨sib, h2, h⟩ := bind_inv h
          cases h
          exact ⟨hlt, findSib_inside _ _ _ h2⟩

/-- Deleting an entry marks all entries that it changes. -/
theorem deleteEntry_marked {abi : Abi} {t t' : DirTree} {i : Nat} {full : WStr} {marked : List Nat} (h : deleteEntry abi t i full = .ok (t', marked)) :
    Marked (∀ e ∈ t, Fits32 e) t t' marked ∧ ∀ m ∈ marked, m < t.length := by
  unfold deleteEntry at h
  obtain ⟨⟨p, s⟩, h1, h⟩ := bind_inv h
  dsimp only at h
  cases hd : t[i]? with
  | none => rw [hd] at h; cases h
  | some d =>
    rw [hd] at h
    dsimp only at h
    have hlt := (List.getElem?_eq_some_iff.1 hd).1
    obtain ⟨g1, g2⟩ := findParentAndSib_inside (by omega) h1
    obtain ⟨⟨t1, repl, m1⟩, h2, h⟩ := bind_inv h
    obtain ⟨k1, k2, k3⟩ := takeOut_marked (List.mem_of_getElem? hd) h2
    have hput : Marked (∀ e ∈ t, Fits32 e) t1 (putIn t1 i p s repl).1 [(putIn t1 i p s repl).2] ∧ (putIn t1 i p s repl).2 < t.length := by
      unfold putIn
      split
      · rename_i hs
        refine ⟨marked_modify _ _ _ fun hv e he => ?_, g2.resolve_left hs⟩
        split
        · exact ⟨he.1, he.2.1, k3 hv, he.2.2.2⟩
        · exact ⟨he.1, k3 hv, he.2.2⟩
      · exact ⟨marked_modify _ _ _ fun hv e he => ⟨he.1, he.2.1, he.2.2.1, k3 hv⟩, g1⟩
    cases h
    refine ⟨k1.trans (m1 := [_, _]) (hput.1.trans (m1 := [_]) (marked_modify _ i _ fun _ e he => he)), fun m hm => ?_⟩
    simp only [List.mem_append, List.mem_cons, List.not_mem_nil, or_false] at hm
    rcases hm with hm | rfl | rfl
    · exact k2 m hm
    · exact hput.2
    · exact hlt

theorem markDirs_dirty (l : List Nat) : ∀ w : Writer, w.io.bbat.blockSize = 512 →
    (l.foldl Writer.markDir w = { w with dirDirty := (l.foldl Writer.markDir w).dirDirty }) ∧
    ∀ d, d ∈ (l.foldl Writer.markDir w).dirDirty ↔ d ∈ w.dirDirty ∨ ∃ m ∈ l, d = m / 4 := by
  induction l with
  | nil => exact fun w _ => ⟨rfl, fun d => by simp⟩
  | cons x l ih =>
    intro w hw
    obtain ⟨h1, h2⟩ := ih (w.markDir x) hw
    rw [List.foldl_cons]
    refine ⟨by rw [h1]; rfl, fun d => ?_⟩
    rw [h2 d]
    have : d ∈ (w.markDir x).dirDirty ↔ d ∈ w.dirDirty ∨ d = x / 4 := by
      show d ∈ markDirty _ _ _ _ ↔ _
      rw [mem_markDirty, hw]
    rw [this]
    simp only [List.mem_cons]
    constructor
    · rintro ((h | h) | ⟨m, h, h'⟩)
      · exact Or.inl h
      · exact Or.inr ⟨x, Or.inl rfl, h⟩
      · exact Or.inr ⟨m, Or.inr h, h'⟩
    · rintro (h | ⟨m, rfl | h, h'⟩)
      · exact Or.inl (Or.inl h)
      · exact Or.inl (Or.inr h')
      · exact Or.inr ⟨m, h, h'⟩

/-- A directory changed in marked entries is ready for a flush. -/
theorem ready_marked {old : Snap} {w : Writer} {own : Owner → List Nat} (h : Ready old w own) {t' : DirTree} {marked : List Nat}
    (hm : Marked (∀ e ∈ w.io.dirtree, Fits32 e) w.io.dirtree t' marked) (hin : ∀ m ∈ marked, m < w.io.dirtree.length) :
    Ready old (marked.foldl Writer.markDir { w with io := { w.io with dirtree := t' } }) own := by
  obtain ⟨h1, h2⟩ := markDirs_dirty marked { w with io := { w.io with dirtree := t' } } h.big.blockSize
  generalize (marked.foldl Writer.markDir { w with io := { w.io with dirtree := t' } }).dirDirty = dd at h1 h2
  rw [h1]
  have DO := h.dir
  refine ⟨core_same h.big rfl rfl rfl rfl rfl rfl,
    ⟨h.small.count, h.small.some_sbat, h.small.cover, h.small.saved, h.small.values, h.small.blockSize, h.small.slotPrefix⟩, ?_, h.file⟩
  constructor
  · show t'.length ≤ _; rw [hm.length]; exact DO.cover
  · show 0 < t'.length; rw [hm.length]; exact DO.some_entry
  · intro i hi
    have hi' : i < w.io.dirtree.length := by rw [← hm.length]; exact hi
    show i / 4 ∈ dd ∨ old.tree i = t'[i]?
    by_cases hx : i ∈ marked
    · exact Or.inl ((h2 _).2 (Or.inr ⟨i, hx, rfl⟩))
    · rw [hm.other i hx]
      exact (DO.saved i hi').imp (fun h => (h2 _).2 (Or.inl h)) id
  · exact DO.root.imp (fun h => (h2 _).2 (Or.inl h)) id
  · intro d hd
    show 4 * d < t'.length
    rw [hm.length]
    rcases (h2 d).1 hd with hd | ⟨m, hm', rfl⟩
    · exact DO.inside d hd
    · have := hin m hm'
      omega
  · exact hm.values DO.values DO.values
  · exact DO.slotPrefix

/-! ## One entry -/

theorem removed_name {abi : Abi} {t t' : DirTree} {kids kids' : Nat → List Nat} {p i : Nat} (R : Removed abi t kids p i t' kids') {j : Nat}
    (hj : j ≠ i) : entryName t' j = entryName t j := by
  unfold entryName
  cases he : t[j]? with
  | none =>
    have : t'[j]? = none := by
      rw [List.getElem?_eq_none_iff] at he ⊢
      rw [R.length]
      exact he
    rw [this]
  | some e =>
    obtain ⟨e', h1, h2⟩ := R.old j e hj he
    rw [h1]
    show e'.name = e.name
    exact h2.name

theorem removed_kids {abi : Abi} {t t' : DirTree} {kids kids' : Nat → List Nat} (S : Shape abi t kids) {p i : Nat}
    (R : Removed abi t kids p i t' kids') (s j : Nat) : j ∈ kids' s ↔ j ∈ kids s ∧ j ≠ i := by
  obtain ⟨a, b, h1, h2, h3⟩ := R.place
  rw [h3]
  unfold replaced
  split
  · rename_i hs
    rw [hs, h1]
    constructor
    · intro h
      refine ⟨?_, fun hc => h2 (hc ▸ h)⟩
      rcases List.mem_append.1 h with h | h <;> simp [h]
    · rintro ⟨h, hne⟩
      rcases List.mem_append.1 h with h | h
      · simp [h]
      · rcases List.mem_cons.1 h with h | h
        · exact absurd h hne
        · simp [h]
  · rename_i hs
    refine ⟨fun h => ⟨h, fun hc => S.apart s p hs j h ?_⟩, fun h => h.1⟩
    rw [hc, h1]
    simp

theorem removed_paths {abi : Abi} {t t' : DirTree} {kids kids' : Nat → List Nat} (S : Shape abi t kids) {p i : Nat}
    (R : Removed abi t kids p i t' kids') (hleaf : kids i = []) {q : List WStr} (hp : Resolves kids (entryName t) 0 q p) (hi : i ∈ kids p)
    (x : List WStr) (k : Nat) : Resolves kids' (entryName t') 0 x k ↔
      Resolves kids (entryName t) 0 x k ∧ ¬ (q ++ [entryName t i]) <+: x := by
  have hpi := resolves_snoc hp hi
  have down : ∀ {s : Nat} {x : List WStr} {k : Nat}, Resolves kids' (entryName t') s x k →
      Resolves kids (entryName t) s x k ∧ (k = i → s = i) := by
    intro s x k h
    induction h with
    | here => exact ⟨.here, id⟩
    | @down s j k names hm _ ih =>
      obtain ⟨h1, h2⟩ := (removed_kids S R s j).1 hm
      rw [removed_name R h2]
      exact ⟨.down h1 ih.1, fun hk => absurd (ih.2 hk) h2⟩
  have up : ∀ {s : Nat} {x : List WStr} {k : Nat}, Resolves kids (entryName t) s x k → k ≠ i →
      Resolves kids' (entryName t') s x k := by
    intro s x k h
    induction h with
    | here => exact fun _ => .here
    | @down s j k names hm hr ih =>
      intro hk
      have hj : j ≠ i := by
        rintro rfl
        cases hr with
        | here => exact hk rfl
        | down hm' _ => rw [hleaf] at hm'; simp at hm'
      rw [← removed_name R hj]
      exact .down ((removed_kids S R s j).2 ⟨hm, hj⟩) (ih hk)
  have hi0 : 0 ≠ i := fun h => (kids_valid S hi).1 h.symm
  constructor
  · intro h
    obtain ⟨h1, h2⟩ := down h
    refine ⟨h1, fun ⟨y, hy⟩ => ?_⟩
    have hk : k ≠ i := fun hc => hi0 (h2 hc)
    rw [← hy] at h1
    obtain ⟨j, h3, h4⟩ := resolves_split (i := 0) _ h1
    have := resolves_entry S h3 hpi
    subst this
    cases h4 with
    | here => exact hk rfl
    | down hm' _ => rw [hleaf] at hm'; simp at hm'
  · rintro ⟨h1, h2⟩
    refine up h1 fun hk => h2 ?_
    subst hk
    rw [resolves_path S _ rfl h1 hpi]
    exact List.prefix_refl _

/-- Nothing is known of the bytes of stream `i`. -/
def _root_.Fileid.Spec.Contents.forget (c : Contents) (i : Nat) : Contents := { c with byte := replaced c.byte i (fun _ => none) }

/-- Stream `i` has no sectors. -/
def _root_.Fileid.Spec.Layout.without (L : Layout) (i : Nat) : Layout := ⟨replaced L.big (.stream i) [], replaced L.small i []⟩

theorem without_keep (L : Layout) {i j : Nat} (hj : j ≠ i) :
    (L.without i).small j = L.small j ∧ (L.without i).big (.stream j) = L.big (.stream j) :=
  ⟨replaced_ne _ _ hj, replaced_ne _ _ (by simpa using hj)⟩

theorem removed_holds {abi : Abi} {w w1 w2 : Writer} {L : Layout} {c : Contents} (H : Holds w L c) {kids kids' : Nat → List Nat} {p i : Nat}
    {t' : DirTree} (R : Removed abi w.io.dirtree kids p i t' kids') (hsame : Same w w1) (hmini : w1.io.sb_blocks = w.io.sb_blocks)
    (hbig : Owned w1.io.bbat.data (L.without i).big) (hsmall : Owned w1.io.sbat.data (L.without i).small)
    (h2 : w2.io = { w1.io with dirtree := t' }) : Holds w2 (L.without i) (c.forget i) := by
  have hsys : ∀ o : Owner, (∀ j, o ≠ .stream j) → (L.without i).big o = L.big o := fun o ho => replaced_ne _ _ (ho i)
  have hother : ∀ j, j ≠ i → (L.without i).small j = L.small j ∧ (L.without i).big (.stream j) = L.big (.stream j) := fun j hj =>
    ⟨replaced_ne _ _ hj, replaced_ne _ _ (by simpa using hj)⟩
  have hself : (L.without i).small i = [] ∧ (L.without i).big (.stream i) = [] := ⟨replaced_self _ _ _, replaced_self _ _ _⟩
  obtain ⟨g, hg, hgv⟩ := R.gone
  have hback : ∀ (j : Nat) (e' : DirEntry), j ≠ i → t'[j]? = some e' → ∃ e, w.io.dirtree[j]? = some e ∧ Relinked e e' := fun j e' hj h => by
    have := (List.getElem?_eq_some_iff.1 h).1
    rw [R.length] at this
    obtain ⟨e'', h1, h2⟩ := R.old j _ hj (List.getElem?_eq_getElem this)
    rw [h] at h1
    cases h1
    exact ⟨_, List.getElem?_eq_getElem this, h2⟩
  constructor
  · rw [h2]; show 0 < w1.io.sbat.blockSize; rw [hsame.smallSize]; exact H.smallPos
  · rw [h2]; show 0 < w1.io.bbat.blockSize; rw [hsame.bigSize]; exact H.bigPos
  · rw [h2]; show w1.io.sbat.blockSize ∣ w1.io.bbat.blockSize; rw [hsame.smallSize, hsame.bigSize]; exact H.divides
  · rw [h2]; show w1.io.bbat.blockSize < _; rw [hsame.bigSize]; exact H.bigLt
  · rw [h2]; exact hbig
  · rw [h2]; exact hsmall
  · rw [h2, hsys .mini (by simp)]; show w1.io.sb_blocks = _; rw [hmini]; exact H.mini
  · rw [h2, hsys .miniFat (by simp)]; show Begins w1.io.header.sbat_start _; rw [hsame.sbat_start]; exact H.miniFat
  · rw [h2, hsys .dir (by simp)]; show Begins w1.io.header.dirent_start _; rw [hsame.dirent_start]; exact H.dir
  · intro j x hx
    rw [h2, hsys .mini (by simp)]
    show x * w1.io.sbat.blockSize / w1.io.bbat.blockSize < _
    rw [hsame.smallSize, hsame.bigSize]
    by_cases hj : j = i
    · rw [hj, hself.1] at hx; simp at hx
    · rw [(hother j hj).1] at hx; exact H.inMini j x hx
  · intro j e' he' hs'
    rw [h2] at he' ⊢
    have hji : j ≠ i := fun h => by
      subst h
      have : t'[j]? = some e' := he'
      rw [hg] at this
      cases this
      rw [hs'.1] at hgv
      cases hgv
    obtain ⟨e, h3, h4⟩ := hback j e' hji he'
    obtain ⟨h5, h6⟩ := H.entry j e h3 ((relinked_stream h4).1 hs')
    show e'.size = c.size j ∧ if e'.size < w1.io.header.threshold then _ else _
    rw [hsame.threshold, (hother j hji).1, (hother j hji).2, h4.size, h4.start]
    exact ⟨h5, h6⟩
  · intro j hj
    by_cases hji : j = i
    · rw [hji]; exact hself
    · rw [(hother j hji).1, (hother j hji).2]
      refine H.other j fun e he hs => ?_
      obtain ⟨e', h3, h4⟩ := R.old j e hji he
      exact hj e' (by rw [h2]; exact h3) ((relinked_stream h4).2 hs)
  · intro j q v hv
    have hji : j ≠ i := fun h => by
      subst h
      have : replaced c.byte j (fun _ => none) j q = some v := hv
      rw [replaced_self] at this
      cases this
    have hv' : c.byte j q = some v := by
      have : replaced c.byte i (fun _ => none) j q = some v := hv
      rwa [replaced_ne _ _ hji] at this
    obtain ⟨h3, e, a, h4, h5, h6, h7⟩ := H.known j q v hv'
    obtain ⟨e', h8, h9⟩ := R.old j e hji h4
    refine ⟨h3, e', a, by rw [h2]; exact h8, (relinked_stream h9).2 h5, ?_, by rw [h2]; show w1.io.file[a]? = _; rw [hsame.file]; exact h7⟩
    unfold place at h6 ⊢
    rw [h2]
    show (if e'.size < w1.io.header.threshold then smallPlace w1.io.bbat.blockSize w1.io.sbat.blockSize _ _ _ else
      bigPlace w1.io.bbat.blockSize _ _) = _
    rw [hsame.threshold, hsame.bigSize, hsame.smallSize, h9.size, hsys .mini (by simp), (hother j hji).1, (hother j hji).2]
    exact h6

theorem markDirs_io (l : List Nat) : ∀ w : Writer, (l.foldl Writer.markDir w).io = w.io ∧ (l.foldl Writer.markDir w).writeable = w.writeable := by
  induction l with
  | nil => exact fun w => ⟨rfl, rfl⟩
  | cons x l ih => exact fun w => ih (w.markDir x)

/-- Deleting an entry without entries below it, after its sectors were freed. -/
theorem deleteEntry_gone {abi : Abi} (habi : abi = Abi.linux ∨ abi = Abi.windows) {w w1 : Writer} {L : Layout} {c : Contents}
    (H : Holds w L c) {kids : Nat → List Nat} (S : Shape abi w.io.dirtree kids) (hshort : w.io.dirtree.length < End) {q : List WStr} {p i : Nat}
    (hq : PathOk abi q) (hp : Resolves kids (entryName w.io.dirtree) 0 q p) (hi : i ∈ kids p)
    (hn : 47 ∉ entryName w.io.dirtree i ∧ entryName w.io.dirtree i ≠ []) (hleaf : kids i = [])
    (hsame : Same w w1) (hmini : w1.io.sb_blocks = w.io.sb_blocks)
    (hbig : Owned w1.io.bbat.data (L.without i).big) (hsmall : Owned w1.io.sbat.data (L.without i).small)
    (hbl : w1.io.bbat.data.length = w.io.bbat.data.length) (hsl : w1.io.sbat.data.length = w.io.sbat.data.length)
    (hfb : ∀ y, y ∈ L.big (.stream i) ∨ w.io.bbat.data[y]? = some Avail → w1.io.bbat.data[y]? = some Avail)
    (hfs : ∀ y, y ∈ L.small i ∨ w.io.sbat.data[y]? = some Avail → w1.io.sbat.data[y]? = some Avail)
    (hready : Readies w L.big w1 (L.without i).big) :
    ∃ w' kids' L' c', w1.deleteEntry abi i (pathText (q ++ [entryName w.io.dirtree i])) = .ok w' ∧
      Gone abi w w' kids kids' L L' c c' (q ++ [entryName w.io.dirtree i]) := by
  obtain ⟨t', marked, kids', h1, R⟩ := deleteEntry_removed habi S hshort hq hp hi hn hleaf
  obtain ⟨hi0, d, hd, hdv, _⟩ := kids_valid S hi
  generalize hw2 : marked.foldl Writer.markDir { w1 with io := { w1.io with dirtree := t' } } = w2
  have hio : w2.io = { w1.io with dirtree := t' } := by rw [← hw2]; exact (markDirs_io marked _).1
  have hwr : w2.writeable = w1.writeable := by rw [← hw2]; exact (markDirs_io marked _).2
  have hdir : w2.io.dirtree = t' := by rw [hio]
  refine ⟨w2, kids', L.without i, c.forget i, ?_, by rw [hdir]; exact R.shape,
    removed_holds H R hsame hmini hbig hsmall hio, ?_, ?_, ?_, fun y => by rw [hio]; exact ⟨fun h => hfb y (Or.inr h), fun h => hfs y (Or.inr h)⟩, by rw [hdir]; exact R.length, by rw [hio]; exact hbl, by rw [hio]; exact hsl,
    by rw [hwr]; exact hsame.writeable, by rw [hio]; exact hsame.dirent_start, ?_, hready.trans ⟨by rw [hio]; exact Nat.le_refl _, fun _ hR => ?_⟩⟩
  · unfold Writer.deleteEntry
    rw [hsame.dirtree, h1, Res.bind_ok]
    dsimp only
    rw [hw2]
  · intro x k
    rw [hdir]
    exact removed_paths S R hleaf hp hi x k
  · intro j e he hno
    rw [hdir]
    have hji : j ≠ i := fun h => by
      subst h
      exact hno _ (resolves_snoc hp hi) (List.prefix_refl _)
    obtain ⟨e', h3, h4⟩ := R.old j e hji he
    refine ⟨e', h3, h4, without_keep L hji, rfl, ?_⟩
    show replaced c.byte i (fun _ => none) j = _
    exact replaced_ne _ _ hji
  · intro j x hx hpre
    have hji : j = i := by
      obtain ⟨y, hy⟩ := hpre
      rw [← hy] at hx
      obtain ⟨j', h3, h4⟩ := resolves_split (i := 0) _ hx
      have := resolves_entry S h3 (resolves_snoc hp hi)
      subst this
      cases h4 with
      | here => rfl
      | down hm' _ => rw [hleaf] at hm'; simp at hm'
    subst hji
    rw [hio]
    exact ⟨fun y hy => hfb y (Or.inl hy), fun y hy => hfs y (Or.inl hy)⟩
  · rw [hdir]
    obtain ⟨g, hg, hgv⟩ := R.gone
    refine (countP_less R.length (fun j e e' he he' hv => ?_) i).2 ⟨d, g, hd, hg, hdv, hgv⟩
    have hji : j ≠ i := fun h => by
      subst h
      rw [hg] at he'
      cases he'
      rw [hv] at hgv
      cases hgv
    obtain ⟨e'', h3, h4⟩ := R.old j e hji he
    rw [he'] at h3
    cases h3
    rw [← h4.valid]
    exact hv
  · obtain ⟨g1, g2⟩ := deleteEntry_marked h1
    rw [← hsame.dirtree] at g1 g2
    rw [← hw2]
    exact ready_marked hR g1 g2

/-- Fewer sectors belong to somebody. -/
theorem without_mem (L : Layout) (i : Nat) (o : Owner) : ∀ x ∈ (L.without i).big o, x ∈ L.big o := fun x hx => by
  have hx : x ∈ replaced L.big (.stream i) [] o := hx
  unfold replaced at hx
  split at hx
  · cases hx
  · exact hx

theorem ready_without {old : Snap} {w : Writer} {L : Layout} (h : Ready old w L.big) (i : Nat) : Ready old w (L.without i).big := by
  have h1 : replaced L.big (.stream i) [] .miniFat = L.big .miniFat := replaced_ne _ _ (by simp)
  have h2 : replaced L.big (.stream i) [] .dir = L.big .dir := replaced_ne _ _ (by simp)
  refine ⟨core_mem h.big (without_mem L i), ?_, dir_same h.dir rfl (fun d => ⟨Or.inl, fun h => h.elim id fun h => h.2⟩) h2 (Or.inl rfl), h.file⟩
  have s := h.small
  exact ⟨s.count.trans (congrArg List.length h1.symm), fun h => s.some_sbat (h1.symm.trans h), s.cover, s.saved, s.values, s.blockSize,
    (congrArg (old.mini <+: ·) h1).mpr s.slotPrefix⟩

/-! ## A stream -/

theorem freed_set {t : AllocTable} {x : Nat} (hx : x < t.data.length) :
    (t.set x Avail).data.length = t.data.length ∧
    ∀ y, y = x ∨ t.data[y]? = some Avail → (t.set x Avail).data[y]? = some Avail := by
  refine ⟨by rw [set_length]; omega, fun y hy => ?_⟩
  by_cases h : y = x
  · rw [h]; exact set_get_self _ _ _
  · exact set_get_ne _ h (hy.resolve_left h)

theorem freeBig_data (l : List (Nat × Nat)) : ∀ w : Writer, (∀ x ∈ l, x.1 < w.io.bbat.data.length) →
    (l.foldl (fun (w : Writer) (x : Nat × Nat) => (w.setBig x.1 Avail).markBig x.2) w).io.bbat.data.length = w.io.bbat.data.length ∧
    ∀ y, (∃ x ∈ l, y = x.1) ∨ w.io.bbat.data[y]? = some Avail →
      (l.foldl (fun (w : Writer) (x : Nat × Nat) => (w.setBig x.1 Avail).markBig x.2) w).io.bbat.data[y]? = some Avail := by
  induction l with
  | nil => exact fun w _ => ⟨rfl, fun y hy => hy.resolve_left (by simp)⟩
  | cons x l ih =>
    intro w hx
    rw [List.foldl_cons]
    have h0 := freed_set (t := w.io.bbat) (hx x (by simp))
    have hw : ((w.setBig x.1 Avail).markBig x.2).io.bbat = w.io.bbat.set x.1 Avail := rfl
    obtain ⟨h1, h2⟩ := ih ((w.setBig x.1 Avail).markBig x.2) (fun y hy => by rw [hw, h0.1]; exact hx y (by simp [hy]))
    rw [hw] at h1 h2
    refine ⟨by rw [h1, h0.1], fun y hy => h2 y ?_⟩
    rcases hy with ⟨z, hz, rfl⟩ | hy
    · rcases List.mem_cons.1 hz with rfl | hz
      · exact Or.inr (h0.2 _ (Or.inl rfl))
      · exact Or.inl ⟨z, hz, rfl⟩
    · exact Or.inr (h0.2 _ (Or.inr hy))

theorem freeSmall_data (l : List (Nat × Nat)) : ∀ w : Writer, (∀ x ∈ l, x.1 < w.io.sbat.data.length) →
    (l.foldl (fun (w : Writer) (x : Nat × Nat) => (w.setSmall x.1 Avail).markSmall x.2) w).io.sbat.data.length = w.io.sbat.data.length ∧
    ∀ y, (∃ x ∈ l, y = x.1) ∨ w.io.sbat.data[y]? = some Avail →
      (l.foldl (fun (w : Writer) (x : Nat × Nat) => (w.setSmall x.1 Avail).markSmall x.2) w).io.sbat.data[y]? = some Avail := by
  induction l with
  | nil => exact fun w _ => ⟨rfl, fun y hy => hy.resolve_left (by simp)⟩
  | cons x l ih =>
    intro w hx
    rw [List.foldl_cons]
    have h0 := freed_set (t := w.io.sbat) (hx x (by simp))
    have hw : ((w.setSmall x.1 Avail).markSmall x.2).io.sbat = w.io.sbat.set x.1 Avail := rfl
    obtain ⟨h1, h2⟩ := ih ((w.setSmall x.1 Avail).markSmall x.2) (fun y hy => by rw [hw, h0.1]; exact hx y (by simp [hy]))
    rw [hw] at h1 h2
    refine ⟨by rw [h1, h0.1], fun y hy => h2 y ?_⟩
    rcases hy with ⟨z, hz, rfl⟩ | hy
    · rcases List.mem_cons.1 hz with rfl | hz
      · exact Or.inr (h0.2 _ (Or.inl rfl))
      · exact Or.inl ⟨z, hz, rfl⟩
    · exact Or.inr (h0.2 _ (Or.inr hy))

theorem owned_lt {ω : Type} {fat : List Nat} {own : ω → List Nat} (h : Owned fat own) {i : ω} {x : Nat} (hx : x ∈ own i) : x < fat.length :=
  linked_lt (h.linked i (fun h0 => by rw [h0] at hx; simp at hx)) x hx

theorem mem_zipIdx_of {l : List Nat} {y : Nat} (h : y ∈ l) : ∃ x ∈ l.zipIdx, y = x.1 := by
  obtain ⟨k, hk, rfl⟩ := List.getElem_of_mem h
  exact ⟨(l[k], k), List.mk_mem_zipIdx_iff_getElem?.2 (List.getElem?_eq_getElem hk), rfl⟩

theorem deleteLeaf_gone {abi : Abi} (habi : abi = Abi.linux ∨ abi = Abi.windows) {w : Writer} {L : Layout} {c : Contents}
    (H : Holds w L c) (hf : Fits w) {kids : Nat → List Nat} (S : Shape abi w.io.dirtree kids) (hshort : w.io.dirtree.length < End)
    {q : List WStr} {p i : Nat}
    (hq : PathOk abi q) (hp : Resolves kids (entryName w.io.dirtree) 0 q p) (hi : i ∈ kids p)
    (hn : 47 ∉ entryName w.io.dirtree i ∧ entryName w.io.dirtree i ≠ []) (hleaf : kids i = []) {e : DirEntry}
    (he : w.io.dirtree[i]? = some e) (hs : e.dir = false) :
    ∃ w' kids' L' c', w.deleteLeaf abi i (pathText (q ++ [entryName w.io.dirtree i])) = .ok w' ∧
      Gone abi w w' kids kids' L L' c c' (q ++ [entryName w.io.dirtree i]) := by
  obtain ⟨_, d, hd, hdv, _⟩ := kids_valid S hi
  rw [he] at hd
  cases hd
  obtain ⟨_, hent⟩ := H.entry i e he ⟨hdv, hs⟩
  have hwb : Owned w.io.bbat.data (L.without i).big := owned_drop H.big _
  have hws : Owned w.io.sbat.data (L.without i).small := owned_drop H.small _
  have heo : w.entryOf i = .ok e := by unfold Writer.entryOf; rw [he]
  unfold Writer.deleteLeaf
  rw [heo, Res.bind_ok]
  by_cases ht : e.size < w.io.header.threshold
  · rw [if_pos ht] at hent
    rw [if_neg (by omega), follow_begins H.small hf.2 hent.1, Res.bind_ok]
    obtain ⟨f1, f2, f3, f4, f5⟩ := freeSmall_fold (replaced L.small i []) (L.small i).zipIdx w hws
      (fun x hx j => replaced_nil_not_mem H.small i (mem_zipIdx_fst hx) j)
    obtain ⟨g1, g2⟩ := freeSmall_data (L.small i).zipIdx w (fun x hx => owned_lt H.small (mem_zipIdx_fst hx))
    generalize (L.small i).zipIdx.foldl (fun (w : Writer) (x : Nat × Nat) => (w.setSmall x.1 Avail).markSmall x.2) w = w1
      at f1 f2 f3 f4 f5 g1 g2
    exact deleteEntry_gone habi H S hshort hq hp hi hn hleaf f2 f4 (by rw [f3]; exact hwb) f1 (by rw [f3]) g1
      (fun y hy => by
        rw [hent.2] at hy
        rw [f3]
        exact hy.resolve_left (by simp))
      (fun y hy => g2 y (hy.imp mem_zipIdx_of id))
      ((f5 L.big fun x hx => owned_lt H.small (mem_zipIdx_fst hx)).trans ⟨Nat.le_refl _, fun _ hR => ready_without hR i⟩)
  · rw [if_neg ht] at hent
    rw [if_pos (by omega), follow_begins H.big hf.1 hent.1, Res.bind_ok]
    obtain ⟨f1, f2, f4, f3⟩ := freeBig_fold (replaced L.big (.stream i) []) (L.big (.stream i)).zipIdx w hwb
      (fun x hx j => replaced_nil_not_mem H.big (.stream i) (mem_zipIdx_fst hx) j)
    obtain ⟨g1, g2⟩ := freeBig_data (L.big (.stream i)).zipIdx w (fun x hx => owned_lt H.big (mem_zipIdx_fst hx))
    generalize (L.big (.stream i)).zipIdx.foldl (fun (w : Writer) (x : Nat × Nat) => (w.setBig x.1 Avail).markBig x.2) w = w1
      at f1 f2 f3 f4 g1 g2
    exact deleteEntry_gone habi H S hshort hq hp hi hn hleaf f2.same f2.sb_blocks f1 (by rw [f2.sbat]; exact hws) g1 (by rw [f2.sbat])
      (fun y hy => g2 y (hy.imp mem_zipIdx_of id))
      (fun y hy => by
        rw [hent.2] at hy
        rw [f2.sbat]
        exact hy.resolve_left (by simp))
      ⟨Nat.le_of_eq (congrArg Header.num_bat f4).symm, fun _ hR => ready_without (L := L) (by
        refine ⟨f3 L.big (fun x hx => owned_lt H.big (mem_zipIdx_fst hx)) (fun x hx hm => hR.big.apart _ hm _ (mem_zipIdx_fst hx)) _ hR.big,
          small_aside hR.small f2 (by rw [f4]) rfl, ?_, by rw [f2.file]; exact hR.file⟩
        exact dir_same hR.dir f2.dirtree (fun d => by rw [f2.dirDirty]; exact ⟨Or.inl, fun h => h.elim id fun h => h.2⟩) rfl (Or.inl f2.sb_blocks)) i⟩

/-! ## A storage -/

theorem Gone.then {abi : Abi} {w w1 w2 : Writer} {kids kids1 kids2 : Nat → List Nat} {L L1 L2 : Layout} {c c1 c2 : Contents}
    {P : List WStr} {n : WStr} (S : Shape abi w.io.dirtree kids) (G : Gone abi w w1 kids kids1 L L1 c c1 (P ++ [n]))
    (G' : Gone abi w1 w2 kids1 kids2 L1 L2 c1 c2 P) : Gone abi w w2 kids kids2 L L2 c c2 P := by
  have hpre : ∀ {x : List WStr}, ¬ P <+: x → ¬ (P ++ [n]) <+: x := fun h hc => h ((List.prefix_append P [n]).trans hc)
  refine ⟨G'.shape, G'.holds, fun x k => ?_, fun j e he hno => ?_, fun j x hx hP => ?_, fun y => ?_, ?_, ?_, ?_, ?_, ?_, ?_, G.readies.trans G'.readies⟩
  · rw [G'.paths, G.paths]
    exact ⟨fun h => ⟨h.1.1, h.2⟩, fun h => ⟨⟨h.1, hpre h.2⟩, h.2⟩⟩
  · obtain ⟨e1, h1, h2, h3, h4, h5⟩ := G.keep j e he (fun x hx => hpre (hno x hx))
    obtain ⟨e2, k1, k2, k3, k4, k5⟩ := G'.keep j e1 h1 (fun x hx => hno x ((G.paths x j).1 hx).1)
    exact ⟨e2, k1, ⟨k2.valid.trans h2.valid, k2.name.trans h2.name, k2.dir.trans h2.dir, k2.size.trans h2.size, k2.start.trans h2.start⟩, ⟨k3.1.trans h3.1, k3.2.trans h3.2⟩, k4.trans h4, k5.trans h5⟩
  · by_cases hc : (P ++ [n]) <+: x
    · obtain ⟨h1, h2⟩ := G.freed j x hx hc
      exact ⟨fun y hy => (G'.still y).1 (h1 y hy), fun y hy => (G'.still y).2 (h2 y hy)⟩
    · obtain ⟨e, he, _⟩ := resolves_valid S hx
      obtain ⟨_, _, _, h3, _⟩ := G.keep j e he (fun z hz => by rw [← resolves_path S _ rfl hx hz]; exact hc)
      obtain ⟨h1, h2⟩ := G'.freed j x ((G.paths x j).2 ⟨hx, hc⟩) hP
      rw [h3.1] at h2
      rw [h3.2] at h1
      exact ⟨h1, h2⟩
  · exact ⟨fun h => (G'.still y).1 ((G.still y).1 h), fun h => (G'.still y).2 ((G.still y).2 h)⟩
  · rw [G'.length, G.length]
  · rw [G'.big, G.big]
  · rw [G'.small, G.small]
  · rw [G'.writeable, G.writeable]
  · rw [G'.start, G.start]
  · exact Nat.lt_trans G'.fewer G.fewer

theorem _root_.Fileid.Spec.Tidy.below {abi : Abi} {t : DirTree} {kids : Nat → List Nat} {P : List WStr} (h : Tidy abi t kids P) (n : WStr) :
    Tidy abi t kids (P ++ [n]) :=
  ⟨fun x k hx => h.path x k ((List.prefix_append P [n]).trans hx), fun x k e hx => h.leaf x k e ((List.prefix_append P [n]).trans hx)⟩

theorem _root_.Fileid.Spec.Tidy.gone {abi : Abi} {w w1 : Writer} {kids kids1 : Nat → List Nat} {L L1 : Layout} {c c1 : Contents}
    {P Q : List WStr} (S : Shape abi w.io.dirtree kids) (G : Gone abi w w1 kids kids1 L L1 c c1 Q) (h : Tidy abi w.io.dirtree kids P) :
    Tidy abi w1.io.dirtree kids1 P := by
  refine ⟨fun x k hx hr => h.path x k hx ((G.paths x k).1 hr).1, fun x k e1 hx hr he1 hd => ?_⟩
  obtain ⟨h1, h2⟩ := (G.paths x k).1 hr
  obtain ⟨e, he, _⟩ := resolves_valid S h1
  obtain ⟨e1', k1, k2, _⟩ := G.keep k e he (fun z hz => by rw [← resolves_path S _ rfl h1 hz]; exact h2)
  rw [he1] at k1
  cases k1
  have hk := h.leaf x k e hx h1 he (by rw [← k2.dir]; exact hd)
  rw [List.eq_nil_iff_forall_not_mem]
  intro j hj
  have h3 := ((G.paths _ _).1 (resolves_snoc hr hj)).1
  obtain ⟨j', h4, h5⟩ := resolves_split (i := 0) _ h3
  have := resolves_entry S h4 h1
  subst this
  generalize hn : [entryName w1.io.dirtree j] = names at h5
  cases h5 with
  | here => cases hn
  | down hm _ => rw [hk] at hm; simp at hm

theorem pathText_snoc {P : List WStr} (hP : P ≠ []) (n : WStr) : pathText (P ++ [n]) = pathText P ++ [47] ++ n := by
  cases P with
  | nil => exact absurd rfl hP
  | cons a P =>
    rw [List.cons_append, pathText_cons, pathText_cons, ← List.cons_append, List.flatMap_append]
    simp

theorem pathText_last {P : List WStr} {n : WStr} (h : 47 ∉ n) (h' : n ≠ []) : (pathText (P ++ [n])).getLast? ≠ some 47 := by
  have : ∃ a, pathText (P ++ [n]) = a ++ n := by
    cases P with
    | nil => exact ⟨[47], by simp [pathText]⟩
    | cons a P => exact ⟨_, pathText_snoc (by simp) n⟩
  obtain ⟨a, ha⟩ := this
  rw [ha, List.getLast?_append]
  cases hl : n.getLast? with
  | none => exact absurd (List.getLast?_eq_none_iff.1 hl) h'
  | some x =>
    intro hc
    have hx : x = 47 := by simpa using hc
    exact h (hx ▸ List.mem_of_getLast? hl)

/-- The link to what is in an entry leads somewhere exactly if something is in it. -/
theorem child_kid {abi : Abi} {t : DirTree} {kids : Nat → List Nat} (S : Shape abi t kids) {i : Nat} {e : DirEntry} (he : t[i]? = some e)
    (hv : e.valid = true) : if e.child ≠ 0 ∧ e.child < t.length then e.child ∈ kids i else kids i = [] := by
  obtain ⟨T, hT, hk⟩ := S.tree i e he hv
  have h0 : 0 ∉ T.inorder := fun h => (kids_valid S (hk ▸ h)).1 rfl
  split
  · rename_i h
    obtain ⟨l, r, h1, _⟩ := below_node hT.1 h.2
    rw [← hk, h1]
    simp [SibTree.inorder]
  · rename_i h
    rw [← hk]
    have : T = .leaf := by
      cases hT.1 with
      | leaf => rfl
      | @node i l r hi _ _ => 
        by_cases h1 : e.child = 0
        · rw [h1] at h0; simp [SibTree.inorder] at h0
        · exact absurd ⟨h1, hi⟩ h
    rw [this]; rfl

theorem ite_bind {α β : Type} {p : Prop} [Decidable p] (a b : Res α) (k : α → Res β) :
    (if p then a >>= k else b >>= k) = (if p then a else b) >>= k := by split <;> rfl

theorem deleteNode_gone {abi : Abi} (habi : abi = Abi.linux ∨ abi = Abi.windows) (f : Nat) : ∀ {w : Writer} {L : Layout} {c : Contents}
    {kids : Nat → List Nat} {P : List WStr} {i : Nat} {e : DirEntry}, Holds w L c → Fits w → Shape abi w.io.dirtree kids →
    w.io.dirtree.length < End → P ≠ [] → Resolves kids (entryName w.io.dirtree) 0 P i → w.io.dirtree[i]? = some e → e.dir = true →
    Tidy abi w.io.dirtree kids P → w.io.dirtree.length - P.length + inUse w.io.dirtree < f →
    ∃ w' kids' L' c', Writer.deleteNode abi f w i (pathText P) = .ok w' ∧ Gone abi w w' kids kids' L L' c c' P := by
  induction f with
  | zero => intros; omega
  | succ f ih =>
    intro w L c kids P i e H hf S hshort hP hr he hd ht hfuel
    have hok := ht.path P i (List.prefix_refl _) hr
    have hlen := resolves_short S hr
    rcases resolves_snoc_inv hr with ⟨h0, _⟩ | ⟨q, p, hPq, hq, hi⟩
    · exact absurd h0 hP
    · obtain ⟨_, d, hd', hv, _⟩ := kids_valid S hi
      rw [he] at hd'
      cases hd'
      have hqok : PathOk abi q := fun n hn => hok n (by rw [hPq]; simp [hn])
      have hnok := hok (entryName w.io.dirtree i) (by rw [hPq]; simp)
      have hlast : (pathText P).getLast? ≠ some 47 := by rw [hPq]; exact pathText_last hnok.2.1 hnok.1
      have heo : w.entryOf i = .ok e := by unfold Writer.entryOf; rw [he]
      have hck := child_kid S he hv
      rw [Writer.deleteNode, heo, Res.bind_ok]
      dsimp only
      rw [if_neg hlast]
      by_cases hc : e.child ≠ 0 ∧ e.child < w.io.dirtree.length
      · rw [if_pos hc] at hck ⊢
        obtain ⟨_, ce, hce, hcv, _⟩ := kids_valid S hck
        have hceo : w.entryOf e.child = .ok ce := by unfold Writer.entryOf; rw [hce]
        have hname : entryName w.io.dirtree e.child = ce.name := by unfold entryName; rw [hce]; rfl
        have hrc := resolves_snoc hr hck
        have hcok := ht.path _ _ (List.prefix_append P _) hrc
        have hnc := hcok (entryName w.io.dirtree e.child) (by simp)
        rw [hceo, Res.bind_ok, ← hname, ← pathText_snoc hP]
        have key : ∃ w1 kids1 L1 c1, (if ce.dir = true then Writer.deleteNode abi f w e.child (pathText (P ++ [entryName w.io.dirtree e.child]))
            else w.deleteLeaf abi e.child (pathText (P ++ [entryName w.io.dirtree e.child]))) = .ok w1 ∧
            Gone abi w w1 kids kids1 L L1 c c1 (P ++ [entryName w.io.dirtree e.child]) := by
          cases hcd : ce.dir with
          | true =>
            rw [if_pos rfl]
            exact ih H hf S hshort (by simp) hrc hce hcd (ht.below _) (by simp; omega)
          | false =>
            rw [if_neg (by simp)]
            exact deleteLeaf_gone habi H hf S hshort hok hr hck ⟨hnc.2.1, hnc.1⟩ (ht.leaf _ _ ce (List.prefix_append P _) hrc hce hcd) hce hcd
        obtain ⟨w1, kids1, L1, c1, h1, G⟩ := key
        rw [ite_bind, h1, Res.bind_ok]
        have hnot : ¬ (P ++ [entryName w.io.dirtree e.child]) <+: P := fun hc => by
          have := hc.length_le
          simp at this
          omega
        obtain ⟨e1, he1, hrel, _⟩ := G.keep i e he (fun x hx => by rw [← resolves_path S _ rfl hr hx]; exact hnot)
        have hfew := G.fewer
        obtain ⟨w2, kids2, L2, c2, h2, G2⟩ := ih G.holds ⟨by rw [G.big]; exact hf.1, by rw [G.small]; exact hf.2⟩ G.shape
          (by rw [G.length]; exact hshort) hP ((G.paths P i).2 ⟨hr, hnot⟩) he1 (by rw [hrel.dir]; exact hd) (ht.gone S G)
          (by rw [G.length]; omega)
        exact ⟨w2, kids2, L2, c2, h2, G.then S G2⟩
      · rw [if_neg hc] at hck ⊢
        have hns : ∀ e', w.io.dirtree[i]? = some e' → ¬ IsStream e' := fun e' he' hs => by
          rw [he] at he'
          cases he'
          rw [hs.2] at hd
          cases hd
        obtain ⟨hs0, hb0⟩ := H.other i hns
        rw [hPq]
        exact deleteEntry_gone habi H S hshort hqok hq hi ⟨hnok.2.1, hnok.1⟩ hck (Same.refl w) rfl (owned_drop H.big _) (owned_drop H.small _) rfl rfl
          (fun y hy => by rw [hb0] at hy; exact hy.resolve_left (by simp)) (fun y hy => by rw [hs0] at hy; exact hy.resolve_left (by simp))
          ⟨Nat.le_refl _, fun _ hR => ready_without hR i⟩

theorem inUse_le (t : DirTree) : inUse t ≤ t.length := List.countP_le_length

/-- Deleting what is at a path. -/
theorem deleteByName_gone {abi : Abi} (habi : abi = Abi.linux ∨ abi = Abi.windows) {w : Writer} {L : Layout} {c : Contents}
    {kids : Nat → List Nat} {P : List WStr} {i : Nat} (H : Holds w L c) (hf : Fits w) (S : Shape abi w.io.dirtree kids)
    (hw : w.writeable = true)
    (hshort : w.io.dirtree.length < End) (hP : P ≠ []) (hr : Resolves kids (entryName w.io.dirtree) 0 P i)
    (ht : Tidy abi w.io.dirtree kids P) :
    ∃ w' kids' L' c', w.deleteByName abi (pathText P) = .ok (w', true) ∧ Gone abi w w' kids kids' L L' c c' P := by
  have hok := ht.path P i (List.prefix_refl _) hr
  obtain ⟨e, he, hv⟩ := resolves_valid S hr
  have heo : w.entryOf i = .ok e := by unfold Writer.entryOf; rw [he]
  have hlook : entryIdx abi w.io.dirtree (pathText P) = .ok (some i) := by
    rcases lookup habi S hok with ⟨k, h1, h2⟩ | ⟨h1, _⟩
    · rw [h2, resolves_entry S hr h1]
    · exact absurd hr (h1 i)
  have key : ∃ w1 kids1 L1 c1, (if e.dir = true then Writer.deleteNode abi (2 * w.io.dirtree.length + 2) w i (pathText P)
      else w.deleteLeaf abi i (pathText P)) = .ok w1 ∧ Gone abi w w1 kids kids1 L L1 c c1 P := by
    cases hd : e.dir with
    | true =>
      rw [if_pos rfl]
      have := inUse_le w.io.dirtree
      exact deleteNode_gone habi _ H hf S hshort hP hr he hd ht (by omega)
    | false =>
      rw [if_neg (by simp)]
      rcases resolves_snoc_inv hr with ⟨h0, _⟩ | ⟨q, p, hPq, hq, hi⟩
      · exact absurd h0 hP
      · have hnok := hok (entryName w.io.dirtree i) (by rw [hPq]; simp)
        have hleaf := ht.leaf P i e (List.prefix_refl _) hr he hd
        rw [hPq]
        exact deleteLeaf_gone habi H hf S hshort (fun n hn => hok n (by rw [hPq]; simp [hn])) hq hi ⟨hnok.2.1, hnok.1⟩ hleaf he hd
  obtain ⟨w1, kids1, L1, c1, h1, G⟩ := key
  refine ⟨w1, kids1, L1, c1, ?_, G⟩
  unfold Writer.deleteByName
  rw [if_neg (pathText_length P), if_neg (by rw [hw]; simp), hlook, Res.bind_ok]
  dsimp only
  rw [heo, Res.bind_ok, ite_bind, h1]
  rfl

end Fileid.Pole
