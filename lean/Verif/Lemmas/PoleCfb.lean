import Verif.Spec.CfbFile
import Verif.Lemmas.PoleAgain

/-!
# Lemmas about opening compound files that show a map
-/

namespace Fileid.Pole

open Spec Props

theorem bool_iff {a b : Bool} {p : Prop} (ha : a = true ↔ p) (hb : b = true ↔ p) : a = b := by
  cases a <;> cases b <;> simp_all

theorem bool_iff' {a b : Bool} {p : Prop} (ha : a = false ↔ p) (hb : b = false ↔ p) : a = b := by
  cases a <;> cases b <;> simp_all

/-- An entry that is stored is loaded. -/
theorem stored_same {dir : Bytes} {off : Nat} {e e' : DirEntry} (hs : EntryStored dir off e) (hl : loadEntry Abi.windows (dir.map some) off = .ok e')
    (ha : EntryAt dir off e') (hoff : off + 128 ≤ dir.length) :
    e'.valid = e.valid ∧ e'.dir = e.dir ∧ e'.prev = e.prev ∧ e'.next = e.next ∧ e'.child = e.child ∧ e'.start = e.start ∧ e'.size = e.size ∧
      (e.valid = true → e'.name = e.name) := by
  obtain ⟨f1, f2, f3, f4, f5, f6, f7⟩ := hs.fields
  refine ⟨bool_iff ha.valid f7, bool_iff' ha.isDir f6, num_unique ha.prev f3, num_unique ha.next f4, num_unique ha.child f5,
    num_unique ha.start f1, num_unique ha.size f2, fun hv => ?_⟩
  obtain ⟨n1, n2, n3, n4, n5⟩ := hs.name hv
  obtain ⟨x, h1, h2⟩ := C45_windows_partial dir off hoff e.name n1 n2 n3 n4 n5
  rw [hl] at h1
  cases h1
  exact h2

theorem loaded_same {t t' : DirTree} {abi : Abi} {kids : Nat → List Nat} (S : Shape abi t kids) (hl : t'.length = t.length)
    (h : ∀ (i : Nat) (e e' : DirEntry), t[i]? = some e → t'[i]? = some e' → e'.valid = e.valid ∧ e'.dir = e.dir ∧ e'.prev = e.prev ∧ e'.next = e.next ∧
      e'.child = e.child ∧ e'.start = e.start ∧ e'.size = e.size ∧ (e.valid = true → e'.name = e.name)) : Loaded t t' := by
  have both : ∀ (i : Nat) (e : DirEntry), t[i]? = some e → ∃ e', t'[i]? = some e' := fun i e he =>
    ⟨_, List.getElem?_eq_getElem (by have := (List.getElem?_eq_some_iff.1 he).1; omega)⟩
  obtain ⟨r, hr1, hr2, hr3⟩ := S.root
  refine ⟨by omega, by rw [hl]; exact S.short, ?_, fun i e hi he hv => ?_, fun i e' he' hv => ?_⟩
  · obtain ⟨r', hr'⟩ := both 0 r hr1
    obtain ⟨g1, g2, g3, g4, g5, g6, g7, g8⟩ := h 0 r r' hr1 hr'
    exact ⟨r, r', hr1, hr', by rw [g1]; exact hr2, by rw [g2]; exact hr3, g5, Or.inr g3, Or.inr g4⟩
  · obtain ⟨e', he'⟩ := both i e he
    obtain ⟨g1, g2, g3, g4, g5, g6, g7, g8⟩ := h i e e' he he'
    exact ⟨e', he', by rw [g1]; exact hv, g8 hv, g2, g3, g4, g5, fun _ => ⟨g6, g7⟩⟩
  · have he := List.getElem?_eq_getElem (l := t) (i := i) (by have := (List.getElem?_eq_some_iff.1 he').1; omega)
    refine ⟨_, he, ?_⟩
    rw [← (h i _ e' he he').1]
    exact hv

/-- What is loaded from a compound file. -/
structure Opened (file : Bytes) (P : CfbParts) (io : StorageIO) : Prop where
  opened : openStorage Abi.windows (some file) = .ok (.opened io)
  bytes : io.file = file
  bigSize : io.bbat.blockSize = 2 ^ P.hd.shift
  big : io.bbat.data = P.fat
  smallSize : io.sbat.blockSize = 2 ^ P.hd.miniShift
  small : io.sbat.data = if P.minifat = [] then List.replicate 128 0xffffffff else P.minifat
  mini : io.sb_blocks = P.layout.big .mini
  threshold : io.header.threshold = 4096
  dirStart : io.header.dirent_start = P.hd.dirStart
  miniFatStart : io.header.sbat_start = P.hd.miniFatStart
  header : Header.load ((file.take 512).map some) = .ok io.header
  loaded : Loaded P.entries io.dirtree
  length : io.dirtree.length = P.entries.length
  entries : ∀ i e', io.dirtree[i]? = some e' → loadEntry Abi.windows (P.dir.map some) (128 * i) = .ok e' ∧ EntryAt P.dir (128 * i) e'

theorem cfb_opened {file : Bytes} {P : CfbParts} {f : FileMap} (h : CfbFile file P f) : ∃ io, Opened file P io := by
  obtain ⟨io, h1, h2, h3, h4, h5, h6, h7, h8, h9, h10, h11⟩ := C68_open Abi.windows (by decide) file _ _ _ _ _ h.image
  obtain ⟨hh, l0, l1, l2, l3, l4, l5, l6, l7, l8, _⟩ := C38_layout file h.image.stored.length
  rw [l0] at h10
  cases h10
  have hl : io.dirtree.length = P.entries.length := by rw [h9, h.count]
  refine ⟨io, h1, h2, h4, h5, h6, h7, h8, h3, num_unique l6 h.image.stored.dirStart, num_unique l8 h.image.stored.miniFatStart, l0, ?_, hl, h11⟩
  refine loaded_same h.shape hl fun i e e' he he' => ?_
  obtain ⟨g1, g2⟩ := h11 i e' he'
  refine stored_same (h.entries i e he) g1 g2 ?_
  have := (List.getElem?_eq_some_iff.1 he).1
  have := h.count
  omega

/-- Stream `i` is a stream of the loaded directory exactly when it is one of the stored directory. -/
theorem Opened.stream {file : Bytes} {P : CfbParts} {f : FileMap} {io : StorageIO} (h : CfbFile file P f) (O : Opened file P io) {i : Nat} {e' : DirEntry}
    (he' : io.dirtree[i]? = some e') (hs : IsStream e') : ∃ e, P.entries[i]? = some e ∧ IsStream e ∧ e'.start = e.start ∧ e'.size = e.size := by
  obtain ⟨r, hr1, hr2, hr3⟩ := h.shape.root
  obtain ⟨e, he, hv, _, hdir⟩ := O.loaded.both h.shape he' hs.1
  have hdf : e.dir = false := by rw [← hdir]; exact hs.2
  have h0 : i ≠ 0 := by
    rintro rfl
    rw [hr1] at he
    cases he
    rw [hr3] at hdf
    cases hdf
  obtain ⟨e2, g1, g2, g3, g4, g5, g6, g7, g8⟩ := O.loaded.entry i e (by omega) he hv
  rw [he'] at g1
  cases g1
  exact ⟨e, he, ⟨hv, hdf⟩, (g8 hdf).1, (g8 hdf).2⟩

theorem Opened.streamBack {file : Bytes} {P : CfbParts} {f : FileMap} {io : StorageIO} (h : CfbFile file P f) (O : Opened file P io) {i : Nat} {e : DirEntry}
    (he : P.entries[i]? = some e) (hs : IsStream e) : ∃ e', io.dirtree[i]? = some e' ∧ IsStream e' ∧ e'.start = e.start ∧ e'.size = e.size := by
  obtain ⟨r, hr1, hr2, hr3⟩ := h.shape.root
  have h0 : i ≠ 0 := by
    rintro rfl
    rw [hr1] at he
    cases he
    rw [hs.2] at hr3
    cases hr3
  obtain ⟨e2, g1, g2, g3, g4, g5, g6, g7, g8⟩ := O.loaded.entry i e (by omega) he hs.1
  exact ⟨e2, g1, ⟨g2, by rw [g4]; exact hs.2⟩, (g8 hs.2).1, (g8 hs.2).2⟩

theorem cfb_holds {file : Bytes} {P : CfbParts} {f : FileMap} {io : StorageIO} (h : CfbFile file P f) (O : Opened file P io) :
    Holds (reopened io) P.layout P.contents := by
  have hpow : ∀ n, 0 < 2 ^ n := fun n => Nat.pow_pos (by decide)
  constructor
  · show 0 < io.sbat.blockSize
    rw [O.smallSize]; exact hpow _
  · show 0 < io.bbat.blockSize
    rw [O.bigSize]; exact hpow _
  · show io.sbat.blockSize ∣ io.bbat.blockSize
    rw [O.smallSize, O.bigSize]
    exact Nat.pow_dvd_pow 2 h.image.good.miniShift
  · show io.bbat.blockSize < _
    rw [O.bigSize]
    exact Nat.pow_lt_pow_right (by decide) (by have := h.image.good.shift; omega)
  · show Owned io.bbat.data _
    rw [O.big]; exact h.big
  · show Owned io.sbat.data _
    rw [O.small]
    split
    · rename_i hm
      have hnil : ∀ i, P.layout.small i = [] := fun i => by
        apply Decidable.byContradiction
        intro hne
        have hk := h.small.linked i hne
        rw [hm] at hk
        generalize P.layout.small i = l at hk
        cases hk <;> simp_all
      exact ⟨fun i hi => absurd (hnil i) hi, h.small.apart⟩
    · exact h.small
  · exact O.mini
  · show Begins io.header.sbat_start _
    rw [O.miniFatStart]; exact h.miniFat
  · show Begins io.header.dirent_start _
    rw [O.dirStart]; exact h.directory
  · show ∀ i, ∀ x ∈ P.layout.small i, x * io.sbat.blockSize / io.bbat.blockSize < _
    rw [O.smallSize, O.bigSize]; exact h.inMini
  · intro i e' he' hs
    obtain ⟨e, he, hse, a1, a2⟩ := O.stream h he' hs
    show _ ∧ if e'.size < io.header.threshold then _ else _
    rw [a1, a2, O.threshold]
    exact h.streams i e he hse
  · intro i hi
    refine h.others i fun e he hs => ?_
    obtain ⟨e', he', hs', _⟩ := O.streamBack h he hs
    exact hi e' he' hs'
  · intro i p v hv
    obtain ⟨b1, e, a, he, hs, hp, ha⟩ := h.bytes i p v hv
    obtain ⟨e', he', hs', a1, a2⟩ := O.streamBack h he hs
    refine ⟨b1, e', a, he', hs', ?_, by show io.file[a]? = _; rw [O.bytes]; exact ha⟩
    rw [← hp]
    show (if e'.size < io.header.threshold then smallPlace io.bbat.blockSize io.sbat.blockSize _ _ p else bigPlace io.bbat.blockSize _ p) = _
    rw [O.threshold, O.bigSize, O.smallSize, a2]
    rfl

theorem cfb_matches {file : Bytes} {P : CfbParts} {f : FileMap} {io : StorageIO} (h : CfbFile file P f) (O : Opened file P io) :
    Session.MatchesPaths Abi.windows ⟨reopened io, []⟩ (PathView.of f) := by
  refine ⟨⟨⟨P.contents, fun _ => none, fun _ => 0⟩, P.kids, ?_, loaded_shape O.loaded h.shape, loaded_shows O.loaded h.shape h.shows, rfl,
    fun _ _ => rfl, fun h i hi => by cases hi⟩, ?_, rfl⟩
  · exact ⟨rfl, ⟨P.layout, cfb_holds h O, fun h s hs => (by cases hs)⟩, fun _ => rfl, fun h s hs => (by cases hs), fun h s hs => (by cases hs),
      fun h _ s _ hs => (by cases hs)⟩
  · show io.header.dirent_start < _
    rw [O.dirStart]
    obtain ⟨ds, hds, _⟩ := h.image.hdir
    have hsz := h.image.hfatSize
    have : P.hd.dirStart < P.fat.length := by
      cases hds with
      | last h1 _ => exact (List.getElem?_eq_some_iff.1 h1).1
      | next h1 _ _ => exact (List.getElem?_eq_some_iff.1 h1).1
    omega

end Fileid.Pole
