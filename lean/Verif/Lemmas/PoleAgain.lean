import Verif.Lemmas.PoleLoaded
import Verif.Spec.Delete
import Verif.Spec.Flush

/-!
# Lemmas about a storage that is opened again: it holds what was flushed
-/

namespace Fileid.Pole

open Spec Props

theorem loaded_of {old : Snap} {w : Writer} {L : Layout} {c : Contents} {file : Bytes} {hd : CfbHeader} {fat minifat : List Nat} {dir : Bytes}
    (H : Holds w L c) (hf : Fits w) (R : Ready old w L.big) (D : Readable w L file hd fat minifat dir)
    (hn : ∀ e ∈ w.io.dirtree, e.valid = true → ∀ x ∈ e.name, 0 < x ∧ x < 256)
    (hfree : ∀ i, w.io.dirtree.length ≤ i → i < 4 * (L.big .dir).length → dir[128 * i + 0x42]? = some 0) {t' : DirTree}
    (hroot : ∃ r : DirEntry, w.io.dirtree[0]? = some r ∧ r.valid = true) (hl : t'.length = dir.length / 128)
    (ht : ∀ i e, t'[i]? = some e → loadEntry Abi.windows (dir.map some) (128 * i) = .ok e ∧ EntryAt dir (128 * i) e) :
    Loaded w.io.dirtree t' := by
  obtain ⟨root, es, h1, ⟨st, sz, _, h2⟩, h3⟩ := D.entries
  have hdl := D.dirLength
  have hlen : t'.length = 4 * (L.big .dir).length := by omega
  have hcov := R.dir.cover
  have hsmall : (L.big .dir).length ≤ 128 * 109 := by
    have a1 := R.big.cover
    have a2 := R.big.few
    have a3 : (L.big .dir).length ≤ w.io.bbat.data.length := by
      by_cases h : L.big .dir = []
      · rw [h]; simp
      · refine nodup_length_le _ _ (linked_nodup hf.1 (H.big.linked _ h)) fun x hx => ?_
        obtain ⟨v, hv, _⟩ := linked_get (H.big.linked _ h) x hx
        exact (List.getElem?_eq_some_iff.1 hv).1
    omega
  have load : ∀ i e ty, i < t'.length → Stored (dir.map some) (128 * i) e ty → (∀ x ∈ e.name, 0 < x ∧ x < 256) →
      t'[i]? = some { e with valid := decide (ty = 2 ∨ ty = 1 ∨ ty = 5), dir := decide (ty ≠ 2) } := fun i e ty hi hs hu => by
    have hx := List.getElem?_eq_getElem hi
    have := (ht i _ hx).1
    rw [stored_load hs hu] at this
    injection this with this
    rw [hx, this]
  refine ⟨by omega, by rw [hlen]; unfold End; omega, ?_, ?_, ?_⟩
  · refine ⟨root, _, by rw [h1]; rfl, load 0 _ 5 (by have := R.dir.some_entry; omega) h2 ?_, rfl, rfl, rfl, Or.inl rfl, Or.inl rfl⟩
    show ∀ x ∈ b!"Root Entry".map UInt8.toNat, 0 < x ∧ x < 256
    decide +kernel
  · intro i e hi he hv
    have hm := List.mem_of_getElem? he
    have hlt := (List.getElem?_eq_some_iff.1 he).1
    obtain ⟨j, rfl⟩ : ∃ j, i = j + 1 := ⟨i - 1, by omega⟩
    have he' := he
    rw [h1, List.getElem?_cons_succ] at he'
    have hst := h3 j e he'
    obtain ⟨st, sz, hst, hd⟩ := hst.2 hv
    have e1 : 128 + 128 * j = 128 * (j + 1) := by omega
    rw [e1] at hst
    refine ⟨_, load (j + 1) _ _ (by omega) hst (hn e hm hv), ?_⟩
    unfold typeOf
    rw [if_pos hv]
    cases hdir : e.dir <;> simp_all
  · intro i e' he' hv'
    have hlt := (List.getElem?_eq_some_iff.1 he').1
    have hE := (ht i e' he').2
    have hty := (hE.valid.1 hv').1
    have hin : 128 * i + 0x42 < dir.length := by omega
    rw [at_one hin, at_one hin, at_one hin] at hty
    have hi : i < w.io.dirtree.length := by
      apply Decidable.byContradiction
      intro hi
      have := hfree i (by omega) (by omega)
      rw [List.getElem?_eq_getElem hin] at this
      injection this with this
      rw [this] at hty
      simp at hty
    obtain ⟨e, he⟩ : ∃ e, w.io.dirtree[i]? = some e := ⟨_, List.getElem?_eq_getElem hi⟩
    refine ⟨e, he, ?_⟩
    cases i with
    | zero =>
      obtain ⟨r, hr, hv⟩ := hroot
      rw [he] at hr
      cases hr
      exact hv
    | succ j =>
      cases hv : e.valid with
      | true => rfl
      | false =>
        exfalso
        rw [h1, List.getElem?_cons_succ] at he
        have hst := (h3 j e he).1
        have e1 : 128 + 128 * j + 0x42 = 128 * (j + 1) + 0x42 := by omega
        unfold typeOf at hst
        rw [hv, e1] at hst
        unfold mrd at hst
        rw [List.getElem?_map, List.getElem?_eq_getElem hin] at hst
        have hst : dir[128 * (j + 1) + 0x42] = 0 := by
          injection hst
        rw [hst] at hty
        simp at hty

theorem bigPlace_sector {l : List Nat} {p a : Nat} (h : bigPlace 512 l p = some a) : ∃ b k, b ∈ l ∧ k < 512 ∧ a = 512 * (b + 1) + k := by
  unfold bigPlace at h
  cases hl : l[p / 512]? with
  | none => rw [hl] at h; cases h
  | some b =>
    rw [hl] at h
    injection h with h
    exact ⟨b, p % 512, List.mem_of_getElem? hl, Nat.mod_lt _ (by decide), h.symm⟩

theorem place_sector {w : Writer} {L : Layout} {i p a : Nat} {e : DirEntry} (hb : w.io.bbat.blockSize = 512) (h : place w L i e p = some a) :
    ∃ o b k, (o = .mini ∨ o = .stream i) ∧ b ∈ L.big o ∧ k < 512 ∧ a = 512 * (b + 1) + k := by
  unfold place at h
  rw [hb] at h
  split at h
  · unfold smallPlace at h
    cases hl : (L.small i)[p / w.io.sbat.blockSize]? with
    | none => rw [hl] at h; cases h
    | some x =>
      rw [hl] at h
      obtain ⟨b, k, h1, h2, h3⟩ := bigPlace_sector h
      exact ⟨_, b, k, Or.inl rfl, h1, h2, h3⟩
  · obtain ⟨b, k, h1, h2, h3⟩ := bigPlace_sector h
    exact ⟨_, b, k, Or.inr rfl, h1, h2, h3⟩

/-- A storage whose directory is the same, loaded again, and whose tables and bytes are the same where they are in use, holds the same. -/
theorem holds_loaded {abi : Abi} {w w' : Writer} {L : Layout} {c : Contents} {kids : Nat → List Nat} (H : Holds w L c)
    (S : Shape abi w.io.dirtree kids) (hL : Loaded w.io.dirtree w'.io.dirtree) (hh : w'.io.header = w.io.header)
    (h4 : w'.io.bbat.blockSize = w.io.bbat.blockSize) (h6 : w'.io.sbat.blockSize = w.io.sbat.blockSize)
    (h8 : w'.io.sb_blocks = L.big .mini) (h5 : Owned w'.io.bbat.data L.big) (h7 : Owned w'.io.sbat.data L.small)
    (hbytes : ∀ i e p a v, place w L i e p = some a → w.io.file[a]? = some v → w'.io.file[a]? = some v) : Holds w' L c := by
  obtain ⟨r, hr1, hr2, hr3⟩ := S.root
  have stream : ∀ i e', w'.io.dirtree[i]? = some e' → IsStream e' → ∃ e, w.io.dirtree[i]? = some e ∧ IsStream e ∧ e'.start = e.start ∧ e'.size = e.size :=
    fun i e' he' hs => by
      obtain ⟨e, he, hv, _, hdir⟩ := hL.both S he' hs.1
      have hdf : e.dir = false := by rw [← hdir]; exact hs.2
      have h0 : i ≠ 0 := by
        rintro rfl
        rw [hr1] at he
        cases he
        rw [hr3] at hdf
        cases hdf
      obtain ⟨e2, g1, g2, g3, g4, g5, g6, g7, g8⟩ := hL.entry i e (by omega) he hv
      rw [he'] at g1
      cases g1
      exact ⟨e, he, ⟨hv, hdf⟩, (g8 hdf).1, (g8 hdf).2⟩
  have streamBack : ∀ i e, w.io.dirtree[i]? = some e → IsStream e → ∃ e', w'.io.dirtree[i]? = some e' ∧ IsStream e' ∧ e'.start = e.start ∧ e'.size = e.size :=
    fun i e he hs => by
      have h0 : i ≠ 0 := by
        rintro rfl
        rw [hr1] at he
        cases he
        rw [hs.2] at hr3
        cases hr3
      obtain ⟨e2, g1, g2, g3, g4, g5, g6, g7, g8⟩ := hL.entry i e (by omega) he hs.1
      exact ⟨e2, g1, ⟨g2, by rw [g4]; exact hs.2⟩, (g8 hs.2).1, (g8 hs.2).2⟩
  constructor
  · rw [h6]; exact H.smallPos
  · rw [h4]; exact H.bigPos
  · rw [h4, h6]; exact H.divides
  · rw [h4]; exact H.bigLt
  · exact h5
  · exact h7
  · exact h8
  · rw [hh]; exact H.miniFat
  · rw [hh]; exact H.dir
  · rw [h4, h6]
    exact H.inMini
  · intro i e' he' hs
    obtain ⟨e, he, hse, a1, a2⟩ := stream i e' he' hs
    rw [a1, a2, hh]
    exact H.entry i e he hse
  · intro i hi
    refine H.other i fun e he hs => ?_
    obtain ⟨e', he', hs', _⟩ := streamBack i e he hs
    exact hi e' he' hs'
  · intro i p v hv
    obtain ⟨b1, e, a, he, hs, hp, ha⟩ := H.known i p v hv
    obtain ⟨e', he', hs', a1, a2⟩ := streamBack i e he hs
    refine ⟨b1, e', a, he', hs', ?_, hbytes i e p a v hp ha⟩
    rw [← hp]
    unfold place
    rw [hh, h4, h6, a2]

/-- Bytes of streams are not where tables and directory are. -/
theorem place_same {old : Snap} {w : Writer} {L : Layout} {c : Contents} {file : Bytes} (H : Holds w L c) (R : Ready old w L.big)
    (D : OnDisk w L.big file) {i p a : Nat} {e : DirEntry} {v : UInt8} (hp : place w L i e p = some a) (ha : w.io.file[a]? = some v) :
    file[a]? = some v := by
  obtain ⟨o, b, k, ho, hb, hk, rfl⟩ := place_sector R.big.blockSize hp
  refine D.same _ v (by omega) ha fun b' hb' => other_block hk ?_
  rintro rfl
  simp only [List.mem_append] at hb'
  rcases hb' with (hb' | hb') | hb'
  · exact R.big.apart _ hb' o hb
  · exact H.big.apart .miniFat o (by rcases ho with rfl | rfl <;> simp) _ hb' hb
  · exact H.big.apart .dir o (by rcases ho with rfl | rfl <;> simp) _ hb' hb

theorem again_holds {old : Snap} {w : Writer} {L : Layout} {c : Contents} {kids : Nat → List Nat} {file : Bytes} (H : Holds w L c) (hf : Fits w) (R : Ready old w L.big)
    (S : Shape Abi.windows w.io.dirtree kids) (hstart : w.io.header.dirent_start < 0xfffffffc) (D : OnDisk w L.big file)
    (hc : ∀ b ∈ fatSectors w ++ L.big .miniFat ++ L.big .dir, 512 * (b + 2) ≤ file.length)
    (hn : ∀ e ∈ w.io.dirtree, e.valid = true → ∀ x ∈ e.name, 0 < x ∧ x < 256)
    (hfree : ∀ i b, w.io.dirtree.length ≤ i → (L.big .dir)[i / 4]? = some b → file[512 * (b + 1) + (128 * (i % 4) + 0x42)]? = some 0) :
    ∃ io, openStorage Abi.windows (some file) = .ok (.opened io) ∧ Holds (reopened io) L c ∧ Loaded w.io.dirtree io.dirtree ∧
      io.header = w.io.header := by
  obtain ⟨hd, fat, minifat, dir, Q⟩ := readable_of H hf R hstart D hc
  obtain ⟨io, h1, h2, h3, h4, h5, h6, h7, h8, h9, h10, h11⟩ := C68_open Abi.windows (by decide) file hd fat minifat dir _ Q.image
  have hh : io.header = w.io.header := by have := h10.symm.trans D.header; injection this
  obtain ⟨r, hr1, hr2, hr3⟩ := S.root
  have hL : Loaded w.io.dirtree io.dirtree := loaded_of H hf R Q hn (fun i hi hlt => by
    have hb := List.getElem?_eq_getElem (l := L.big .dir) (i := i / 4) (by omega)
    have e : 128 * i + 0x42 = 512 * (i / 4) + (128 * (i % 4) + 0x42) := by omega
    rw [e, Q.dirBytes _ _ _ hb (by omega)]
    exact hfree i _ hi hb) ⟨r, hr1, hr2⟩ h9 h11
  rw [Q.shift.1] at h4
  rw [Q.shift.2] at h6
  have h4 : io.bbat.blockSize = w.io.bbat.blockSize := by rw [h4, R.big.blockSize]
  have h6 : io.sbat.blockSize = w.io.sbat.blockSize := by rw [h6, R.small.blockSize]
  rw [if_neg Q.minifatLength.1] at h7
  refine ⟨io, h1, ?_, hL, hh⟩
  refine holds_loaded (w' := reopened io) H S hL hh h4 h6 h8 ?_ ?_ fun i e p a v hp ha => ?_
  · show Owned io.bbat.data _
    rw [h5]
    exact owned_congr Q.image.hfatSize H.big Q.fat
  · show Owned io.sbat.data _
    rw [h7]
    exact owned_congr Q.minifatLength.2 H.small Q.small
  · show io.file[a]? = _
    rw [h2]
    exact place_same H R D hp ha

/-! ## The storage that was flushed -/

/-- What the file holds of the storage after a flush. -/
def snapOf (w : Writer) (own : Owner → List Nat) : Snap :=
  { file := w.io.file, header := some w.io.header, fat := fatSectors w,
    bbat := fun x => if x ∈ fatSectors w ∨ w.io.bbat.data[x]? = some Avail then none else w.io.bbat.data[x]?, mini := own .miniFat,
    sbat := fun x => if w.io.sbat.data[x]? = some Avail then none else w.io.sbat.data[x]?, dirs := own .dir,
    tree := fun i => w.io.dirtree[i]?, sb := some w.io.sb_blocks }

theorem tidied_same (e : DirEntry) : e.tidied.valid = e.valid ∧ e.tidied.name = e.name ∧ e.tidied.dir = e.dir ∧ e.tidied.prev = e.prev ∧
    e.tidied.next = e.next ∧ e.tidied.child = e.child ∧ (e.dir = false → e.tidied.start = e.start ∧ e.tidied.size = e.size) := by
  unfold DirEntry.tidied
  by_cases h : e.dir
  · rw [if_pos h]; exact ⟨rfl, rfl, rfl, rfl, rfl, rfl, fun h' => by rw [h] at h'; cases h'⟩
  · rw [if_neg h]; exact ⟨rfl, rfl, rfl, rfl, rfl, rfl, fun _ => ⟨rfl, rfl⟩⟩

/-- An entry behind the root is the same or tidied. -/
theorem Flushed.entry {w w' : Writer} {own : Owner → List Nat} (F : Flushed w w' own) :
    w'.io.dirtree.length = w.io.dirtree.length ∧ w'.io.dirtree[0]? = w.io.dirtree[0]? ∧
    ∀ i e, 0 < i → w.io.dirtree[i]? = some e → w'.io.dirtree[i]? = some e ∨ w'.io.dirtree[i]? = some e.tidied := by
  rcases F.dirtree with h | ⟨root, es, h1, h2⟩
  · rw [h]; exact ⟨rfl, rfl, fun i e _ he => Or.inl he⟩
  · rw [h1, h2]
    refine ⟨by simp, rfl, fun i e hi he => ?_⟩
    obtain ⟨j, rfl⟩ : ∃ j, i = j + 1 := ⟨i - 1, by omega⟩
    rw [List.getElem?_cons_succ] at he ⊢
    rw [List.getElem?_map, he]
    exact Or.inr rfl

theorem Flushed.back {w w' : Writer} {own : Owner → List Nat} (F : Flushed w w' own) {i : Nat} {e' : DirEntry} (h : w'.io.dirtree[i]? = some e') :
    ∃ e, w.io.dirtree[i]? = some e ∧ (e' = e ∨ e' = e.tidied) := by
  obtain ⟨h1, h2, h3⟩ := F.entry
  have hlt := (List.getElem?_eq_some_iff.1 h).1
  have he := List.getElem?_eq_getElem (l := w.io.dirtree) (i := i) (by omega)
  refine ⟨_, he, ?_⟩
  by_cases h0 : i = 0
  · subst h0
    rw [h2, he] at h
    injection h with h
    exact Or.inl h.symm
  · rcases h3 i _ (by omega) he with h4 | h4 <;>
    · rw [h] at h4
      injection h4 with h4
      simp [h4]

theorem Flushed.mem {w w' : Writer} {own : Owner → List Nat} (F : Flushed w w' own) {e' : DirEntry} (h : e' ∈ w'.io.dirtree) :
    ∃ e ∈ w.io.dirtree, e' = e ∨ e' = e.tidied := by
  obtain ⟨i, hi⟩ := List.mem_iff_getElem?.1 h
  obtain ⟨e, he, h1⟩ := F.back hi
  exact ⟨e, List.mem_of_getElem? he, h1⟩

theorem Flushed.loaded {w w' : Writer} {own : Owner → List Nat} (F : Flushed w w' own) {abi : Abi} {kids : Nat → List Nat}
    (S : Shape abi w.io.dirtree kids) (hlen : w.io.dirtree.length ≤ End) : Loaded w.io.dirtree w'.io.dirtree := by
  obtain ⟨h1, h2, h3⟩ := F.entry
  obtain ⟨r, hr1, hr2, hr3⟩ := S.root
  refine ⟨by omega, by omega, ⟨r, r, hr1, by rw [h2]; exact hr1, hr2, hr3, rfl, Or.inr rfl, Or.inr rfl⟩, fun i e hi he hv => ?_, fun i e' he' hv => ?_⟩
  · rcases h3 i e hi he with h4 | h4
    · exact ⟨e, h4, hv, rfl, rfl, rfl, rfl, rfl, fun _ => ⟨rfl, rfl⟩⟩
    · obtain ⟨t1, t2, t3, t4, t5, t6, t7⟩ := tidied_same e
      exact ⟨_, h4, t1.trans hv, t2, t3, t4, t5, t6, t7⟩
  · obtain ⟨e, he, h4⟩ := F.back he'
    refine ⟨e, he, ?_⟩
    rcases h4 with rfl | rfl
    · exact hv
    · rw [← (tidied_same e).1]; exact hv

theorem Flushed.sectors {w w' : Writer} {own : Owner → List Nat} (F : Flushed w w' own) : fatSectors w' = fatSectors w := by
  unfold fatSectors; rw [F.tables.1]

theorem used_of {data : List Nat} {x v : Nat} (h : data[x]? = some v) (hn : data[x]? ≠ some Avail) : Used data x := by
  refine ⟨v, h, ?_⟩
  rintro rfl
  exact hn h

theorem Flushed.snap {w w' : Writer} {own : Owner → List Nat} (F : Flushed w w' own) : Disk (snapOf w' own) := by
  have D := F.disk
  have hs := F.sectors
  obtain ⟨t1, t2, t3, t4, _⟩ := F.tables
  constructor
  · intro h hh
    injection hh with hh
    rw [← hh, t1]
    exact ⟨D.length, D.header⟩
  · intro x v hv
    have hv : (if x ∈ fatSectors w' ∨ w'.io.bbat.data[x]? = some Avail then none else w'.io.bbat.data[x]?) = some v := hv
    split at hv
    · cases hv
    · rename_i hn
      have hn := not_or.1 hn
      show ∃ b, (fatSectors w')[x / 128]? = some b ∧ Num w'.io.file _ 4 v
      rw [hs]
      rw [hs] at hn
      rw [t2] at hv hn
      exact D.fat x v (used_of hv hn.2) hn.1 hv
  · intro x v hv
    have hv : (if w'.io.sbat.data[x]? = some Avail then none else w'.io.sbat.data[x]?) = some v := hv
    split at hv
    · cases hv
    · rename_i hn
      rw [t3] at hv hn
      exact D.miniFat x v (used_of hv hn) hv
  · intro i e hi he
    obtain ⟨e0, h1, h2⟩ := F.back he
    have h3 := D.tree i e0 hi h1
    rcases h2 with rfl | rfl
    · exact h3
    · obtain ⟨b, hb, hk⟩ := h3
      exact ⟨b, hb, kept_tidied hk⟩
  · intro r sb hr hsb
    injection hsb with hsb
    have hr : w'.io.dirtree[0]? = some r := hr
    rw [F.entry.2.1] at hr
    rw [← hsb, t4]
    exact D.root r hr

theorem Flushed.ready {old : Snap} {w w' : Writer} {own : Owner → List Nat} (F : Flushed w w' own) (R : Ready old w own) : Ready (snapOf w' own) w' own := by
  have hs := F.sectors
  obtain ⟨t1, t2, t3, t4, t5, t6, t7⟩ := F.tables
  obtain ⟨G, SO, DO, _⟩ := R
  refine ⟨?_, ?_, ?_, fun a v _ h => h⟩
  · refine ⟨by rw [t1]; exact G.slots, by rw [t1]; exact G.few, by rw [t1]; exact G.some_bat, Or.inr rfl, by rw [hs]; exact G.nodup,
      by rw [hs, t2]; exact G.used, by rw [hs]; exact G.apart, fun x hx => (by cases hx), by rw [t1, t2]; exact G.cover, fun x hx => ?_, by rw [t2]; exact G.values,
      by rw [t2]; exact G.blockSize, by rw [t1, t5, t6]; exact G.fixed, by rw [t1]; exact G.slotValues, List.prefix_refl _⟩
    by_cases h : x ∈ fatSectors w'
    · exact Or.inl h
    · refine Or.inr (Or.inl (Or.inr ?_))
      show (if _ then none else _) = _
      obtain ⟨v, hv, hne⟩ := hx
      rw [if_neg (not_or.2 ⟨h, by rw [hv]; intro hc; injection hc with hc; exact hne hc⟩)]
  · refine ⟨by rw [t1]; exact SO.count, SO.some_sbat, by rw [t1, t3]; exact SO.cover, fun x hx => Or.inr ?_, by rw [t3]; exact SO.values,
      by rw [t3]; exact SO.blockSize, List.prefix_refl _⟩
    show (if _ then none else _) = _
    obtain ⟨v, hv, hne⟩ := hx
    rw [if_neg (by rw [hv]; intro hc; injection hc with hc; exact hne hc)]
  · refine ⟨by rw [F.entry.1]; exact DO.cover, by rw [F.entry.1]; exact DO.some_entry, fun i _ => Or.inr rfl, Or.inr rfl, ?_, ?_, List.prefix_refl _⟩
    · rw [F.clean.2.2.2]; exact fun d hd => (by cases hd)
    · intro e' he'
      obtain ⟨e, he, h1⟩ := F.mem he'
      obtain ⟨v1, v2, v3, v4⟩ := DO.values e he
      rcases h1 with rfl | rfl
      · exact ⟨v1, v2, v3, v4⟩
      · obtain ⟨_, _, _, u4, u5, u6, _⟩ := tidied_same e
        refine ⟨?_, by rw [u4]; exact v2, by rw [u5]; exact v3, by rw [u6]; exact v4⟩
        unfold DirEntry.tidied
        split
        · exact (by decide : (0xffffffff : Nat) < 2 ^ 32)
        · exact v1

/-- The storage is ready for a flush, after those it went through. -/
def Saveable (w : Writer) : Prop := ∃ old, Disk old ∧ Prepared old w

/-- A session opened on a flushed file, and the session that goes on after the flush. -/
theorem again_matches {S : Session} {v : PathView} (M : Session.MatchesPaths Abi.windows S v) (hf : Fits S.w) (hp : Saveable S.w)
    (hn : Storable S.w.io.dirtree)
    (hlen : S.w.io.dirtree.length < End) (junk : Nat → Nat → UInt8) :
    ∃ w', S.w.flush junk = .ok w' ∧ (Session.MatchesPaths Abi.windows ⟨w', S.streams⟩ v ∧ Saveable w' ∧ Fits w' ∧
      w'.io.dirtree.length = S.w.io.dirtree.length ∧ w'.io.header.num_bat = S.w.io.header.num_bat) ∧ ((∀ b ∈ fatSectors S.w, 512 * (b + 2) ≤ w'.io.file.length) →
      (∀ l, Chain S.w.io.bbat.data S.w.io.header.sbat_start l → ∀ b ∈ l, 512 * (b + 2) ≤ w'.io.file.length) →
      (∀ l, Chain S.w.io.bbat.data S.w.io.header.dirent_start l → (∀ b ∈ l, 512 * (b + 2) ≤ w'.io.file.length) ∧
        ∀ i b, S.w.io.dirtree.length ≤ i → l[i / 4]? = some b → w'.io.file[512 * (b + 1) + (128 * (i % 4) + 0x42)]? = some 0) →
      ∃ io, openStorage Abi.windows (some w'.io.file) = .ok (.opened io) ∧ Session.MatchesPaths Abi.windows ⟨reopened io, []⟩ v.closed) := by
  obtain ⟨⟨u, kids, hM, hS, hF, hpos, hnone, hsome⟩, hstart, hcount⟩ := M
  obtain ⟨L, H, hL⟩ := hM.holds
  obtain ⟨old, hold, hprep⟩ := hp
  have R := hprep L _ H
  obtain ⟨w', h1, FL⟩ := flush_spec H hf hold R hstart (fun e he => ⟨(hn e he).1, (hn e he).2.2⟩) hlen junk
  have D := FL.disk
  have hLo := FL.loaded hS (Nat.le_of_lt hlen)
  obtain ⟨t1, t2, t3, t4, t5, t6, t7⟩ := FL.tables
  have H' : Holds w' L u.contents := holds_loaded H hS hLo t1 (by rw [t2]) (by rw [t3]) (by rw [t4]; exact H.mini) (by rw [t2]; exact H.big)
    (by rw [t3]; exact H.small) fun i e p a v hp ha => place_same H R D hp ha
  have hf' : Fits w' := ⟨by rw [t2]; exact hf.1, by rw [t3]; exact hf.2⟩
  refine ⟨w', h1, ⟨⟨⟨u, kids, ⟨t7.trans hM.writeable, ⟨L, H', hL⟩, hM.stream, hM.pos, fun h s hs => ?_, hM.distinct⟩, loaded_shape hLo hS,
      loaded_shows hLo hS hF, hpos, hnone, fun h i hi => ?_⟩, by show w'.io.header.dirent_start < _; rw [t1]; exact hstart, hcount⟩,
    ⟨_, FL.snap, prepared_of H' hf' (FL.ready R)⟩, hf', FL.entry.1, by rw [t1]⟩, fun hc1 hc2 hc3 => ?_⟩
  · obtain ⟨e, he, hse⟩ := hM.entry h s hs
    have h0 : s.idx ≠ 0 := by
      intro h0
      obtain ⟨r, hr1, hr2, hr3⟩ := hS.root
      rw [h0, hr1] at he
      cases he
      rw [hse.2] at hr3
      cases hr3
    obtain ⟨e', g1, g2, _, g4, _⟩ := hLo.entry s.idx e (by omega) he hse.1
    exact ⟨e', g1, g2, g4.trans hse.2⟩
  · obtain ⟨p, hp1, hp2⟩ := hsome h i hi
    exact ⟨p, hp1, resolves_names (loaded_names hLo hS) hp2⟩
  have chain : ∀ {s : Nat} {o : Owner}, Begins s (L.big o) → L.big o ≠ [] → Chain S.w.io.bbat.data s (L.big o) := fun hb hne => by
    rcases chain_of hf.1 (fun h => H.big.linked _ h) hb with h | h
    · exact h
    · exact absurd h.2 hne
  have hdne : L.big .dir ≠ [] := by
    intro h
    have h1 := R.dir.cover
    have h2 := R.dir.some_entry
    rw [h, List.length_nil] at h1
    omega
  obtain ⟨hc4, hc5⟩ := hc3 _ (chain H.dir hdne)
  obtain ⟨io, g1, g2, g3, g4⟩ := again_holds H hf R hS hstart D (fun b hb => by
    simp only [List.mem_append] at hb
    rcases hb with (hb | hb) | hb
    · exact hc1 b hb
    · exact hc2 _ (chain H.miniFat (List.ne_nil_of_mem hb)) b hb
    · exact hc4 b hb) (fun e he => (hn e he).2.1) hc5
  refine ⟨io, g1, ⟨⟨⟨u.contents, fun _ => none, fun _ => 0⟩, kids, ?_, loaded_shape g3 hS, loaded_shows g3 hS hF, rfl, fun _ _ => rfl,
    fun h i hi => by cases hi⟩, by show io.header.dirent_start < _; rw [g4]; exact hstart, rfl⟩⟩
  exact ⟨rfl, ⟨L, g2, fun h s hs => (by cases hs)⟩, fun _ => rfl, fun h s hs => (by cases hs), fun h s hs => (by cases hs), fun h _ s _ hs => (by cases hs)⟩

end Fileid.Pole
