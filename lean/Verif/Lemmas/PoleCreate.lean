import Verif.Lemmas.PoleLink
import Verif.Lemmas.PoleOpenStream

/-!
# Lemmas about entries that are created
-/

namespace Fileid.Pole

open Spec Props

theorem coverBig_spec (w : Writer) (n : Nat) : Aside w (w.coverBig n) ∧ Kept w.io.bbat.data (w.coverBig n).io.bbat.data :=
  addbbatBlocks_spec _ w

/-- One round of `growDir`. -/
def dirStep (w : Writer) (blocks : List Nat) : Writer :=
  let (new, w) := w.unusedBig
  let w := match blocks.getLast? with
    | none => w
    | some last => (w.setBig last new).markBig last
  let w := (w.setBig new Eof).markBig new
  w.coverBig new

theorem growDir_succ (n : Nat) (w : Writer) (blocks : List Nat) :
    Writer.growDir (n + 1) w blocks = Writer.growDir n (dirStep w blocks) (blocks ++ [w.unusedBig.1]) := rfl

theorem dirStep_parts (w : Writer) (blocks : List Nat) : ∃ w2 : Writer, Aside w w2 ∧
    w2.io.bbat = (match blocks.getLast? with
      | none => w.unusedBig.2.io.bbat
      | some last => w.unusedBig.2.io.bbat.set last w.unusedBig.1).set w.unusedBig.1 Eof ∧
    Aside w2 (dirStep w blocks) ∧ Kept w2.io.bbat.data (dirStep w blocks).io.bbat.data := by
  unfold dirStep
  dsimp only
  have a0 := aside_unusedBig w
  generalize hw1 : (match blocks.getLast? with
      | none => w.unusedBig.2
      | some last => (w.unusedBig.2.setBig last w.unusedBig.1).markBig last) = w1
  have a1 : Aside w w1 := by
    rw [← hw1]
    split
    · exact a0
    · exact a0.trans ((aside_setBig _ _ _).trans (aside_markBig _ _))
  have d1 : w1.io.bbat = (match blocks.getLast? with
      | none => w.unusedBig.2.io.bbat
      | some last => w.unusedBig.2.io.bbat.set last w.unusedBig.1) := by
    rw [← hw1]
    split <;> rfl
  refine ⟨(w1.setBig w.unusedBig.1 Eof).markBig w.unusedBig.1, a1.trans ((aside_setBig _ _ _).trans (aside_markBig _ _)), ?_,
    (coverBig_spec _ _).1, (coverBig_spec _ _).2⟩
  rw [← d1]
  rfl

theorem dirStep_mono (w : Writer) (blocks : List Nat) : w.io.bbat.data.length ≤ (dirStep w blocks).io.bbat.data.length := by
  obtain ⟨w2, _, h2, _, h4⟩ := dirStep_parts w blocks
  refine Nat.le_trans ?_ h4.length
  rw [h2, set_length]
  have := unusedBig_data w
  split
  · rw [this]; omega
  · rw [set_length, this]; omega

theorem growDir_mono (n : Nat) : ∀ (w : Writer) (blocks : List Nat),
    w.io.bbat.data.length ≤ (Writer.growDir n w blocks).io.bbat.data.length := by
  induction n with
  | zero => exact fun w _ => Nat.le_refl _
  | succ n ih => exact fun w blocks => Nat.le_trans (dirStep_mono w blocks) (ih _ _)

theorem growDir_aside (n : Nat) : ∀ (w : Writer) (blocks : List Nat), Aside w (Writer.growDir n w blocks) := by
  induction n with
  | zero => exact fun w _ => Aside.refl w
  | succ n ih =>
    intro w blocks
    obtain ⟨w2, h1, _, h3, _⟩ := dirStep_parts w blocks
    exact (h1.trans h3).trans (ih _ _)

theorem dirStep_num (w : Writer) (blocks : List Nat) : w.io.header.num_bat ≤ (dirStep w blocks).io.header.num_bat ∧
    (dirStep w blocks).io.header.num_sbat = w.io.header.num_sbat := by
  have h0 := unusedBig_data w
  unfold dirStep
  dsimp only
  generalize hw1 : (match blocks.getLast? with
      | none => w.unusedBig.2
      | some last => (w.unusedBig.2.setBig last w.unusedBig.1).markBig last) = w1
  have h1 : w1.io.header = w.io.header := by
    rw [← hw1]
    cases blocks.getLast? with
    | none => rfl
    | some last => rfl
  have h2 : ((w1.setBig w.unusedBig.1 Eof).markBig w.unusedBig.1).io.header = w.io.header := h1
  generalize (w1.setBig w.unusedBig.1 Eof).markBig w.unusedBig.1 = w2 at h2
  rw [← h2]
  exact ⟨coverBig_num _ _, addbbatBlocks_numSmall _ _⟩

/-- A further block for the directory. -/
theorem dirStep_carries (w : Writer) (own : Owner → List Nat) (ho : Owned w.io.bbat.data own) :
    Carries w own (dirStep w (own .dir)) (replaced own .dir (own .dir ++ [w.unusedBig.1])) := by
  refine ⟨(dirStep_num w _).1, fun {old} hf hg => ?_⟩
  obtain ⟨_, _, ht2, _, _⟩ := dirStep_parts w (own .dir)
  clear ht2
  revert hf
  unfold dirStep
  dsimp only
  have hfree := unusedBig_free w
  have hdata := unusedBig_data w
  have c0 := core_unused hg
  have hnew := owned_newSmall w.io.bbat own ho .dir w.unusedBig.2.io.bbat hdata hfree
  generalize w.unusedBig.1 = new at hfree hnew
  generalize w.unusedBig.2 = w0 at hdata c0 hnew
  have hle : new ≤ w.io.bbat.data.length := by
    rcases hfree with h | h
    · have := (List.getElem?_eq_some_iff.1 h).1; omega
    · omega
  have hcov := hg.cover
  have hfew := hg.few
  have hlast : ∀ last, (own .dir).getLast? = some last → Used w.io.bbat.data last ∧ last ≠ new ∧ last < w.io.bbat.data.length := fun last hl => by
    have hu := linked_used (ho.linked .dir (List.ne_nil_of_mem (List.mem_of_getLast? hl))) (List.mem_of_getLast? hl)
    refine ⟨hu, fun he => free_not_used hfree (he ▸ hu), ?_⟩
    obtain ⟨v, hv, _⟩ := hu
    exact (List.getElem?_eq_some_iff.1 hv).1
  generalize hw1 : (match (own .dir).getLast? with
      | none => w0
      | some last => (w0.setBig last new).markBig last) = w1
  have c1 : Core old w1 own [] 0 := by
    rw [← hw1]
    cases hl : (own .dir).getLast? with
    | none => exact c0
    | some last => exact core_markBig (core_set_used c0 (by rw [hdata]; exact (hlast last hl).1) (fun hb => c0.apart last hb .dir (List.mem_of_getLast? hl)) (by unfold Avail; omega)) last (by simp) (by simp)
  have hf1 : Free w1.io.bbat.data new ∧ w1.io.bbat.data.length = w.io.bbat.data.length := by
    rw [← hw1]
    cases hl : (own .dir).getLast? with
    | none => simp only; rw [hdata]; exact ⟨hfree, rfl⟩
    | some last =>
      obtain ⟨_, h2, h3⟩ := hlast last hl
      have hlen : (w0.io.bbat.set last new).data.length = w.io.bbat.data.length := by rw [set_length, hdata]; omega
      refine ⟨?_, hlen⟩
      rcases hfree with h | h
      · left
        show (w0.io.bbat.set last new).data[new]? = _
        rw [set_get, if_neg (fun h => h2 h.symm), if_pos (by rw [hdata]; exact (List.getElem?_eq_some_iff.1 h).1), hdata]
        exact h
      · right
        show _ = (w0.io.bbat.set last new).data.length
        rw [hlen]; exact h
  have c2 := core_markBig (core_set_free (v := Eof) c1 hf1.1 (by decide)) new (pend' := [new]) (fun x hx => Or.inr hx) (fun x hx => hx)
  have hd2 : ((w1.setBig new Eof).markBig new).io.bbat = (match (own .dir).getLast? with
      | none => w0.io.bbat
      | some last => w0.io.bbat.set last new).set new Eof := by
    rw [← hw1]
    cases (own .dir).getLast? <;> rfl
  have hdirty : new / 128 ∈ ((w1.setBig new Eof).markBig new).bbatDirty := by
    refine mem_markDirty.2 (Or.inr ?_)
    rw [show (w1.setBig new Eof).io.bbat.blockSize = 512 from (set_blockSize _ _ _).trans c1.blockSize]
  have hlen2 : ((w1.setBig new Eof).markBig new).io.bbat.data.length = max w.io.bbat.data.length (new + 1) := by
    show (w1.io.bbat.set new Eof).data.length = _
    rw [set_length, hf1.2]
  have hnum2 : ((w1.setBig new Eof).markBig new).io.header.num_bat = w.io.header.num_bat ∨ True := Or.inr trivial
  obtain ⟨o2, _⟩ := hnew _ hd2 (by rw [hlen2]; omega)
  have hcov1 := c1.cover
  have hn2 : ((w1.setBig new Eof).markBig new).io.header = w1.io.header := rfl
  have hcl : ((w1.setBig new Eof).markBig new).io.bbat.data.length ≤ 128 * ((w1.setBig new Eof).markBig new).io.header.num_bat ∨
      ((w1.setBig new Eof).markBig new).io.bbat.data.length = new + 1 := by
    rw [hn2, hlen2]
    rw [hf1.2] at hcov1
    omega
  generalize (w1.setBig new Eof).markBig new = w2 at c2 hdirty o2 hcl
  intro hf
  have c3 : Core old w2 (replaced own .dir (own .dir ++ [new])) [new] 1 := by
    refine core_own c2 fun b hb o hm => ?_
    unfold replaced at hm
    split at hm
    · rcases List.mem_append.1 hm with hm | hm
      · exact c2.apart b hb .dir hm
      · rw [List.mem_singleton] at hm
        exact (c2.pendUsed new (by simp)).2 (hm ▸ hb)
    · exact c2.apart b hb o hm
  have c4 := core_coverBig c3 o2 hf hcl
  refine core_unpend c4 fun x hx => ?_
  rw [List.mem_singleton] at hx
  rw [hx]
  show _ ∈ (Writer.addbbatBlocks _ w2).bbatDirty
  rw [addbbatBlocks_dirty]
  exact hdirty

theorem growDir_spec (n : Nat) : ∀ (w : Writer) (own : Owner → List Nat), Owned w.io.bbat.data own →
    (Writer.growDir n w (own .dir)).io.bbat.data.length ≤ 0xfffffffc →
    ∃ extra, extra.length = n ∧ Owned (Writer.growDir n w (own .dir)).io.bbat.data (replaced own .dir (own .dir ++ extra)) ∧
      Carries w own (Writer.growDir n w (own .dir)) (replaced own .dir (own .dir ++ extra)) ∧
      (Writer.growDir n w (own .dir)).io.header.num_sbat = w.io.header.num_sbat := by
  induction n with
  | zero =>
    intro w own ho _
    refine ⟨[], rfl, ?_⟩
    rw [List.append_nil, replaced_same]
    exact ⟨ho, Carries.refl w own, rfl⟩
  | succ n ih =>
    intro w own ho hsz
    rw [growDir_succ] at hsz ⊢
    obtain ⟨w2, _, h2, _, h4⟩ := dirStep_parts w (own .dir)
    have hs1 := Nat.le_trans (growDir_mono n _ _) hsz
    have hs2 := Nat.le_trans h4.length hs1
    have h5 := (owned_newSmall w.io.bbat own ho .dir w.unusedBig.2.io.bbat (unusedBig_data w) (unusedBig_free w) w2.io.bbat h2 hs2).1
    have h6 := owned_kept h5 h4
    have e1 : own .dir ++ [w.unusedBig.1] = replaced own .dir (own .dir ++ [w.unusedBig.1]) .dir := (replaced_self _ _ _).symm
    rw [e1] at hsz ⊢
    obtain ⟨extra, x1, x2, x3, x4⟩ := ih _ _ h6 hsz
    have hc := dirStep_carries w own ho
    refine ⟨w.unusedBig.1 :: extra, by simp [x1], ?_⟩
    rw [replaced_replaced, replaced_self, List.append_assoc] at x2 x3
    rw [replaced_self] at x4 ⊢
    exact ⟨x2, hc.trans x3, x4.trans (dirStep_num w _).2⟩

/-- A stream of `n` bytes more, of which nothing is known. -/
def Contents.create (c : Contents) (i n : Nat) : Contents := { c with size := replaced c.size i n }

theorem relinked_stream {e e' : DirEntry} (h : Relinked e e') : IsStream e' ↔ IsStream e := by
  unfold IsStream; rw [h.valid, h.dir]

/-- A storage with an entry more holds what it held, and a stream more. -/
theorem added_holds {abi : Abi} {w w1 : Writer} {L : Layout} {c : Contents} (H : Holds w L c) {kids kids' : Nat → List Nat}
    {p index : Nat} {name : WStr} {dir : Bool} {size : Nat} {t' : DirTree}
    (A : Added abi w.io.dirtree kids p name dir size index t' kids') (hdir : w1.io.dirtree = t')
    (hfile : w1.io.file = w.io.file) (hss : w1.io.sbat = w.io.sbat) (hbs : w1.io.bbat.blockSize = w.io.bbat.blockSize)
    (hsb : w1.io.sb_blocks = w.io.sb_blocks) (hthr : w1.io.header.threshold = w.io.header.threshold)
    (hss0 : w1.io.header.sbat_start = w.io.header.sbat_start) (hds : w1.io.header.dirent_start = w.io.header.dirent_start)
    {extra : List Nat} (hbeg : Begins w.io.header.dirent_start (L.big .dir ++ extra))
    (hbig : Owned w1.io.bbat.data (replaced L.big .dir (L.big .dir ++ extra))) :
    Holds w1 { L with big := replaced L.big .dir (L.big .dir ++ extra) } (Contents.create c index size) := by
  have hfreshNot : ∀ e, w.io.dirtree[index]? = some e → ¬ IsStream e := fun e he hs => by
    have := A.fresh e he; rw [hs.1] at this; cases this
  obtain ⟨hLs, hLb⟩ := H.other index hfreshNot
  obtain ⟨ne, hne, hnv, hnn, hnd, hns, hnstart⟩ := A.entry
  have back : ∀ (j : Nat) (e' : DirEntry), j ≠ index → t'[j]? = some e' → ∃ e, w.io.dirtree[j]? = some e ∧ Relinked e e' := by
    intro j e' hj he'
    obtain ⟨e, he⟩ := A.noNew j e' hj he'
    obtain ⟨e'', h1, h2⟩ := A.old j e hj he
    rw [he'] at h1; cases h1
    exact ⟨e, he, h2⟩
  have hsize : ∀ j, j ≠ index → (Contents.create c index size).size j = c.size j := fun j hj => replaced_ne _ _ hj
  constructor
  · rw [hss]; exact H.smallPos
  · rw [hbs]; exact H.bigPos
  · rw [hss, hbs]; exact H.divides
  · rw [hbs]; exact H.bigLt
  · exact hbig
  · rw [hss]; exact H.small
  · rw [hsb, H.mini]; exact (replaced_ne L.big (i := .dir) (j := .mini) (L.big .dir ++ extra) (by decide)).symm
  · rw [hss0]; show Begins _ (replaced L.big .dir (L.big .dir ++ extra) .miniFat); rw [replaced_ne _ _ (by decide)]; exact H.miniFat
  · rw [hds]; show Begins _ (replaced L.big .dir (L.big .dir ++ extra) .dir); rw [replaced_self]; exact hbeg
  · intro i x hx
    rw [hss, hbs]
    show _ < (replaced L.big .dir (L.big .dir ++ extra) .mini).length
    rw [replaced_ne _ _ (by decide)]
    exact H.inMini i x hx
  · intro i e he hs
    rw [hdir] at he
    rw [hthr]
    show e.size = _ ∧ (if _ then Begins e.start (L.small i) ∧ replaced L.big .dir (L.big .dir ++ extra) (.stream i) = [] else
      Begins e.start (replaced L.big .dir (L.big .dir ++ extra) (.stream i)) ∧ L.small i = [])
    rw [replaced_ne _ _ (by simp)]
    by_cases hi : i = index
    · subst hi
      rw [hne] at he
      cases he
      refine ⟨?_, ?_⟩
      · show _ = replaced _ _ _ _; rw [replaced_self, hns]
      · rw [hnstart, hLs, hLb]
        have : Begins Eof [] := Or.inl ⟨rfl, by decide⟩
        split <;> exact ⟨this, rfl⟩
    · obtain ⟨e0, h1, h2⟩ := back i e hi he
      obtain ⟨h3, h4⟩ := H.entry i e0 h1 ((relinked_stream h2).1 hs)
      rw [hsize i hi, h2.size, h2.start]
      exact ⟨h3, h4⟩
  · intro i hi
    rw [hdir] at hi
    show L.small i = [] ∧ replaced L.big .dir (L.big .dir ++ extra) (.stream i) = []
    rw [replaced_ne _ _ (by simp)]
    by_cases hii : i = index
    · rw [hii]; exact ⟨hLs, hLb⟩
    · refine H.other i fun e he hs => ?_
      obtain ⟨e', h1, h2⟩ := A.old i e hii he
      exact hi e' h1 ((relinked_stream h2).2 hs)
  · intro i q v hv
    obtain ⟨h1, e, a, h2, h3, h4, h5⟩ := H.known i q v hv
    have hi : i ≠ index := fun h => hfreshNot e (h ▸ h2) h3
    obtain ⟨e', k1, k2⟩ := A.old i e hi h2
    refine ⟨by rw [hsize i hi]; exact h1, e', a, by rw [hdir]; exact k1, (relinked_stream k2).2 h3, ?_, by rw [hfile]; exact h5⟩
    unfold place at h4 ⊢
    rw [hthr, hbs, hss, k2.size]
    show (if _ then smallPlace _ _ (replaced L.big .dir (L.big .dir ++ extra) .mini) (L.small i) q else
      bigPlace _ (replaced L.big .dir (L.big .dir ++ extra) (.stream i)) q) = _
    rw [replaced_ne _ _ (by decide), replaced_ne _ _ (by simp)]
    exact h4

/-- The numbers in the entries after a new one is linked. -/
theorem linkEntry_values {abi : Abi} {t t' : DirTree} {index p closest changed : Nat} {e : DirEntry}
    (h : linkEntry abi t index p closest e = .ok (t', changed)) (hi : index < 2 ^ 32) (he : e.start < 2 ^ 32 ∧ e.child < 2 ^ 32)
    (ht : ∀ x ∈ t, x.start < 2 ^ 32 ∧ x.prev < 2 ^ 32 ∧ x.next < 2 ^ 32 ∧ x.child < 2 ^ 32) :
    (∀ x ∈ t', x.start < 2 ^ 32 ∧ x.prev < 2 ^ 32 ∧ x.next < 2 ^ 32 ∧ x.child < 2 ^ 32) ∧ changed < t.length ∧
    t'.length = t.length := by
  have hend : End < 2 ^ 32 := by decide
  have key : ∀ (x : DirEntry) (k : Nat) (f : DirEntry → DirEntry), (x.start < 2 ^ 32 ∧ x.prev < 2 ^ 32 ∧ x.next < 2 ^ 32 ∧ x.child < 2 ^ 32) →
      (∀ y : DirEntry, (y.start < 2 ^ 32 ∧ y.prev < 2 ^ 32 ∧ y.next < 2 ^ 32 ∧ y.child < 2 ^ 32) →
        (f y).start < 2 ^ 32 ∧ (f y).prev < 2 ^ 32 ∧ (f y).next < 2 ^ 32 ∧ (f y).child < 2 ^ 32) →
      ∀ z ∈ (t.set index x).modify k f, z.start < 2 ^ 32 ∧ z.prev < 2 ^ 32 ∧ z.next < 2 ^ 32 ∧ z.child < 2 ^ 32 := by
    intro x k f hx hf z hz
    obtain ⟨j, hj⟩ := List.getElem?_of_mem hz
    rw [List.getElem?_modify] at hj
    have hset : ∀ y, (t.set index x)[j]? = some y → y.start < 2 ^ 32 ∧ y.prev < 2 ^ 32 ∧ y.next < 2 ^ 32 ∧ y.child < 2 ^ 32 := fun y hy => by
      rcases List.mem_or_eq_of_mem_set (List.mem_of_getElem? hy) with h | h
      · exact ht y h
      · rw [h]; exact hx
    cases hy : (t.set index x)[j]? with
    | none => rw [hy] at hj; simp at hj
    | some y =>
      rw [hy] at hj
      have hyv := hset y hy
      simp only [Option.map_eq_map, Option.map_some, Option.some.injEq] at hj
      rw [← hj]
      split
      · exact hf y hyv
      · exact hyv
  unfold linkEntry at h
  split at h
  · split at h
    · cases h
    · rename_i pe hpe
      injection h with h
      injection h with h h2
      subst h h2
      refine ⟨key _ _ _ ⟨he.1, hend, (ht pe (List.mem_of_getElem? hpe)).2.2.2, he.2⟩ fun y hy => ⟨hy.1, hy.2.1, hy.2.2.1, hi⟩, ?_, by simp⟩
      exact (List.getElem?_eq_some_iff.1 hpe).1
  · split at h
    · cases h
    · rename_i c hc
      have hcv := ht c (List.mem_of_getElem? hc)
      split at h <;>
      · injection h with h
        injection h with h h2
        subst h h2
        refine ⟨key _ _ _ ?_ fun y hy => ?_, (List.getElem?_eq_some_iff.1 hc).1, by simp⟩
        · first | exact ⟨he.1, hcv.2.2.1, hend, he.2⟩ | exact ⟨he.1, hend, hcv.2.1, he.2⟩
        · first | exact ⟨hy.1, hy.2.1, hi, hy.2.2.2⟩ | exact ⟨hy.1, hi, hy.2.2.1, hy.2.2.2⟩

theorem linkEntry_other {abi : Abi} {t t' : DirTree} {index parent2 closest changed : Nat} {e : DirEntry}
    (h : linkEntry abi t index parent2 closest e = .ok (t', changed)) (i : Nat) (h1 : i ≠ index) (h2 : i ≠ changed) : t'[i]? = t[i]? := by
  have key : ∀ (k : Nat) (x : DirEntry) (f : DirEntry → DirEntry), i ≠ k → ((t.set index x).modify k f)[i]? = t[i]? := fun k x f hk => by
    have hk' : k ≠ i := fun h => hk h.symm
    rw [List.getElem?_modify, List.getElem?_set_ne (fun h => h1 h.symm)]
    simp [hk']
  unfold linkEntry at h
  split at h
  · split at h
    · cases h
    · cases h
      exact key _ _ _ h2
  · split at h
    · cases h
    · dsimp only at h
      split at h <;>
      · cases h
        exact key _ _ _ h2

theorem unusedEntry_get (t : DirTree) {i : Nat} (hi : i < t.length) : (unusedEntry t).2[i]? = t[i]? := by
  unfold unusedEntry
  split
  · rfl
  · exact List.getElem?_append_left hi

/-- What making one entry does. -/
theorem newEntry_holds {abi : Abi} (habi : abi = Abi.linux ∨ abi = Abi.windows) {w : Writer} {L : Layout} {c : Contents}
    (H : Holds w L c) (hf : Fits w) {kids : Nat → List Nat} (S : Shape abi w.io.dirtree kids) (hd : w.io.header.dirent_start < 0xfffffffc) {p : Nat} {pe : DirEntry}
    (hp : w.io.dirtree[p]? = some pe) (hpv : pe.valid = true) {name : WStr}
    (hn : ∀ x ∈ name, x < 2 ^ (8 * abi.wcharBytes)) (hno : ∀ i ∈ kids p, entryName w.io.dirtree i ≠ name) (dir : Bool) (size : Nat)
    (hshort : w.io.dirtree.length < End) :
    ∃ closest w' kids', closestChild abi w.io.dirtree p name = .ok closest ∧
      w.newEntry abi p closest name dir size = .ok (w', (unusedEntry w.io.dirtree).1) ∧
      Added abi w.io.dirtree kids p name dir (if dir then 0 else size) (unusedEntry w.io.dirtree).1 w'.io.dirtree kids' ∧
      w'.writeable = w.writeable ∧ w.io.bbat.data.length ≤ w'.io.bbat.data.length ∧ w'.io.sbat = w.io.sbat ∧
      w'.io.header.threshold = w.io.header.threshold ∧ w'.io.header.dirent_start = w.io.header.dirent_start ∧
      (Fits w' → ∃ extra, Holds w' { L with big := replaced L.big .dir (L.big .dir ++ extra) }
        (Contents.create c (unusedEntry w.io.dirtree).1 (if dir then 0 else size)) ∧
        Readies w L.big w' (replaced L.big .dir (L.big .dir ++ extra))) := by
  obtain ⟨closest, t', changed, kids', h1, h2, A⟩ := link_added habi S hp hpv hn hno dir (if dir then 0 else size) hshort rfl
  have hfol := follow_begins H.big hf.1 H.dir
  generalize hw1 : ((({ w with io := { w.io with dirtree := t' } } : Writer).markDir changed).markDir (unusedEntry w.io.dirtree).1) = w1
  have e1 : w1.io = { w.io with dirtree := t' } := by subst hw1; rfl
  have e2 : w1.writeable = w.writeable := by subst hw1; rfl
  have hg := growDir_aside ((unusedEntry w.io.dirtree).1 / (w1.io.bbat.blockSize / 128) + 1 - (L.big .dir).length) w1 (L.big .dir)
  have hm := growDir_mono ((unusedEntry w.io.dirtree).1 / (w1.io.bbat.blockSize / 128) + 1 - (L.big .dir).length) w1 (L.big .dir)
  have hspec := growDir_spec ((unusedEntry w.io.dirtree).1 / (w1.io.bbat.blockSize / 128) + 1 - (L.big .dir).length) w1 L.big
    (by rw [e1]; exact H.big)
  generalize hw2 : Writer.growDir ((unusedEntry w.io.dirtree).1 / (w1.io.bbat.blockSize / 128) + 1 - (L.big .dir).length) w1 (L.big .dir)
    = w2 at hg hm hspec
  have hdt : w2.io.dirtree = t' := by rw [hg.dirtree, e1]
  refine ⟨closest, w2, kids', h1, ?_, by rw [hdt]; exact A, by rw [hg.writeable, e2], by rw [e1] at hm; exact hm, by rw [hg.sbat, e1],
    by rw [hg.threshold, e1], by rw [hg.dirent_start, e1], fun hfit => ?_⟩
  · unfold Writer.newEntry
    dsimp only
    rw [h2, Res.bind_ok]
    dsimp only
    rw [hw1, show w1.io.bbat.follow w1.io.header.dirent_start = .ok (L.big .dir) by rw [e1]; exact hfol, Res.bind_ok, hw2]
  · obtain ⟨extra, hxl, x2, x3, x4⟩ := hspec hfit.1
    refine ⟨extra, added_holds H A hdt (by rw [hg.file, e1]) (by rw [hg.sbat, e1]) (by rw [hg.blockSize, e1]) (by rw [hg.sb_blocks, e1])
      (by rw [hg.threshold, e1]) (by rw [hg.sbat_start, e1]) (by rw [hg.dirent_start, e1]) ?_ x2, ?_⟩
    rotate_left
    · have hw1' : w1.headerDirty = w.headerDirty ∧ w1.bbatDirty = w.bbatDirty ∧ w1.mbat_blocks = w.mbat_blocks ∧ w1.mbat_data = w.mbat_data ∧
          w1.sbatDirty = w.sbatDirty := by subst hw1; exact ⟨rfl, rfl, rfl, rfl, rfl⟩
      have hc : Carries w L.big w1 L.big := ⟨by rw [e1]; exact Nat.le_refl _, fun _ h => core_same h (by rw [e1]) (by rw [e1]) hw1'.1 hw1'.2.1
        hw1'.2.2.1 hw1'.2.2.2.1⟩
      have hc2 := hc.trans x3
      refine ⟨hc2.le, fun hfew hR => ⟨hc2.good hfew hR.big, ?_, ?_, by rw [hg.file, e1]; exact hR.file⟩⟩
      · have hno : replaced L.big .dir (L.big .dir ++ extra) .miniFat = L.big .miniFat := replaced_ne _ _ (by decide)
        constructor
        · rw [x4, e1, hno]; exact hR.small.count
        · rw [hno]; exact hR.small.some_sbat
        · rw [hg.sbat, x4, e1]; exact hR.small.cover
        · rw [hg.sbat, hg.sbatDirty, e1, hw1'.2.2.2.2]; exact hR.small.saved
        · rw [hg.sbat, e1]; exact hR.small.values
        · rw [hg.sbat, e1]; exact hR.small.blockSize
        · rw [hno]; exact hR.small.slotPrefix
      · obtain ⟨u1, u2, u3, u4⟩ := unusedEntry_spec w.io.dirtree
        have hul : (unusedEntry w.io.dirtree).2.length = max w.io.dirtree.length ((unusedEntry w.io.dirtree).1 + 1) ∧
            (∀ x ∈ (unusedEntry w.io.dirtree).2, x ∈ w.io.dirtree ∨ x = {}) ∧ (unusedEntry w.io.dirtree).1 < 2 ^ 32 := by
          have : End = 0xffffffff := rfl
          unfold unusedEntry
          split
          · rename_i i hi
            have := (List.findIdx?_eq_some_iff_getElem.1 hi).1
            exact ⟨by simp only; omega, fun x hx => Or.inl hx, by simp only; omega⟩
          · exact ⟨by simp only [List.length_append, List.length_singleton]; omega, fun x hx => (List.mem_append.1 hx).imp id List.mem_singleton.1,
              by simp only; omega⟩
        obtain ⟨v1, v2, hlen⟩ := linkEntry_values h2 hul.2.2 ⟨by show Eof < 2 ^ 32; decide, by show End < 2 ^ 32; decide⟩ fun x hx => by
          rcases hul.2.1 x hx with h | h
          · exact hR.dir.values x h
          · rw [h]; decide
        have hbs : w1.io.bbat.blockSize = 512 := by rw [e1]; exact hR.big.blockSize
        have hm : ∀ d, d ∈ w2.dirDirty ↔ ((d ∈ w.dirDirty ∨ d = changed / 4) ∨ d = (unusedEntry w.io.dirtree).1 / 4) := fun d => by
          rw [hg.dirDirty, ← hw1]
          show d ∈ markDirty (markDirty w.dirDirty _ _ _) _ _ _ ↔ _
          rw [mem_markDirty, mem_markDirty]
          show (_ ∨ d = changed / (w.io.bbat.blockSize / 128)) ∨ d = _ / (w.io.bbat.blockSize / 128) ↔ _
          rw [hR.big.blockSize]
        constructor
        · rw [hdt, hlen, hul.1, replaced_self, List.length_append, hxl, hbs]
          have := hR.dir.cover
          omega
        · rw [hdt, hlen, hul.1]; omega
        · rw [hdt, hlen, hul.1]
          intro i hi
          by_cases h : i < w.io.dirtree.length
          · by_cases hic : i = changed
            · exact Or.inl ((hm _).2 (Or.inl (Or.inr (by rw [hic]))))
            · by_cases hii : i = (unusedEntry w.io.dirtree).1
              · exact Or.inl ((hm _).2 (Or.inr (by rw [← hii])))
              · rw [linkEntry_other h2 i hii hic, unusedEntry_get _ h]
                exact (hR.dir.saved i h).imp (fun h => (hm _).2 (Or.inl (Or.inl h))) id
          · refine Or.inl ((hm _).2 (Or.inr ?_))
            have : w.io.dirtree.length ≤ (unusedEntry w.io.dirtree).1 → (unusedEntry w.io.dirtree).1 = w.io.dirtree.length := fun h => by
              unfold unusedEntry at h ⊢
              split
              · rename_i j hj
                rw [hj] at h
                have := (List.findIdx?_eq_some_iff_getElem.1 hj).1
                simp only at h
                omega
              · rfl
            have : i = (unusedEntry w.io.dirtree).1 := by omega
            rw [this]
        · rw [hg.sb_blocks, e1]
          exact hR.dir.root.imp (fun h => (hm _).2 (Or.inl (Or.inl h))) id
        · rw [hdt, hlen, hul.1]
          intro d hd
          rcases (hm d).1 hd with (h | h) | h
          · have := hR.dir.inside d h; omega
          · rw [h]; rw [hul.1] at v2; omega
          · rw [h]; omega
        · rw [hdt]; exact v1
        · rw [replaced_self]; exact hR.dir.slotPrefix.trans (List.prefix_append _ _)
    rcases H.dir with ⟨_, h⟩ | h
    · omega
    · right
      cases hl : L.big .dir with
      | nil => rw [hl] at h; cases h
      | cons a l => rw [hl] at h; exact h

end Fileid.Pole
