import Verif.Lemmas.PoleEdit

/-!
# Lemmas about what a flush leaves: a compound file that shows the same map
-/

namespace Fileid.Pole

open Spec Props

theorem byte_mrd {bs : Bytes} {i : Nat} {b : UInt8} (h : mrd (bs.map some) i = .ok b) : bs[i]? = some b := by
  unfold mrd at h
  rw [List.getElem?_map] at h
  cases hb : bs[i]? with
  | none => rw [hb] at h; cases h
  | some x => rw [hb] at h; injection h with h; rw [h]

theorem num_of_two {c : Bytes} {off : Nat} {a : UInt8} (h1 : c[off]? = some a) (h2 : c[off + 1]? = some 0) : Num c off 2 a.toNat := by
  obtain ⟨l1, e1⟩ := List.getElem?_eq_some_iff.1 h1
  obtain ⟨l2, e2⟩ := List.getElem?_eq_some_iff.1 h2
  have := num_of_le (c := c) (off := off) (n := 2) (by omega)
  have h3 : (c.drop off).take 2 = [c[off], c[off + 1]] := by
    rw [List.drop_eq_getElem_cons (by omega), List.take_succ_cons, List.drop_eq_getElem_cons (by omega), List.take_succ_cons, List.take_zero]
  rw [h3, e1, e2] at this
  simpa [leVal] using this

/-- The name of an entry that is in the buffer. -/
theorem stored_units {dir : Bytes} {off : Nat} {e : DirEntry} {ty : UInt8} (h : Stored (dir.map some) off e ty)
    (hn : ∀ x ∈ e.name, 0 < x ∧ x < 256) (hs : e.name.length < 32) : (UnitsAt dir off e.name ∧ (∀ u ∈ e.name, u % 256 ≠ 0) ∧ e.name.length < 32 ∧
      Num dir (off + 2 * e.name.length) 2 0 ∧ Num dir (off + 0x40) 2 (2 * (e.name.length + 1))) ∧ (∀ u ∈ e.name, u < 256) ∧
      ∀ k, 2 * e.name.length ≤ k → k < 64 → dir[off + k]? = some 0 := by
  have high : ∀ j, j < 32 → dir[off + 2 * j + 1]? = some 0 := fun j hj => byte_mrd (h.high j hj)
  refine ⟨⟨fun k u hk => ?_, fun u hu => ?_, hs, ?_, ?_⟩, fun u hu => (hn u hu).2, fun k h1 h2 => ?_⟩
  · have hl := (List.getElem?_eq_some_iff.1 hk).1
    have := num_of_two (byte_mrd (h.low k u hk)) (high k (by omega))
    rw [UInt8.toNat_ofNat', Nat.mod_eq_of_lt (hn u (List.mem_of_getElem? hk)).2] at this
    exact this
  · have := hn u hu
    omega
  · exact num_of_two (byte_mrd (h.rest _ (Nat.le_refl _) hs)) (high _ hs)
  · have hl := (List.getElem?_eq_some_iff.1 (byte_mrd h.type)).1
    have h5 := num_of_le (c := dir) (off := off + 0x40) (n := 2) (by omega)
    have h6 := (readU16_num h5).symm.trans h.len
    injection h6 with h6
    rw [h6] at h5
    rw [show 2 * (e.name.length + 1) = e.name.length * 2 + 2 by omega]
    exact h5
  · have e2 := Nat.mod_two_eq_zero_or_one k
    rcases e2 with e2 | e2
    · have := byte_mrd (h.rest (k / 2) (by omega) (by omega))
      rwa [show 2 * (k / 2) = k by omega] at this
    · have := high (k / 2) (by omega)
      rwa [Nat.add_assoc, show 2 * (k / 2) + 1 = k by omega] at this

theorem again_cfb {old : Snap} {w : Writer} {L : Layout} {c : Contents} {kids : Nat → List Nat} {file : Bytes} {f : FileMap} (H : Holds w L c)
    (hf : Fits w) (R : Ready old w L.big) (S : Shape Abi.windows w.io.dirtree kids) (hF : Shows w.io.dirtree kids c f)
    (hstart : w.io.header.dirent_start < 0xfffffffc) (D : OnDisk w L.big file)
    (hc : ∀ b ∈ fatSectors w ++ L.big .miniFat ++ L.big .dir, 512 * (b + 2) ≤ file.length)
    (hn : ∀ e ∈ w.io.dirtree, e.valid = true → (∀ x ∈ e.name, 0 < x ∧ x < 256) ∧ e.name.length < 32)
    (hfree : ∀ i b, w.io.dirtree.length ≤ i → (L.big .dir)[i / 4]? = some b → file[512 * (b + 1) + (128 * (i % 4) + 0x42)]? = some 0) :
    ∃ P, CfbFile file P f ∧ (FatMarked w file → P.Editable file) := by
  obtain ⟨io, k1, k2, k3, k4⟩ := again_holds H hf R S hstart D hc (fun e he hv => (hn e he hv).1) hfree
  obtain ⟨hd, fat, minifat, dir, Q⟩ := readable_of H hf R hstart D hc
  obtain ⟨io', h1, h2, h3, h4, h5, h6, h7, h8, h9, h10, h11⟩ := C68_open Abi.windows (by decide) file hd fat minifat dir _ Q.image
  rw [k1] at h1
  cases h1
  have hhd := Q.header
  obtain ⟨e1, e2, e3, e4, e5, e6, e7, e8⟩ := R.big.fixed
  have hdl := Q.dirLength
  have hdir : dir.length = 128 * io.dirtree.length := by omega
  obtain ⟨root, es, t1, ⟨st, sz, hbeg, hst⟩, hent⟩ := Q.entries
  have h0lt : 0 < io.dirtree.length := by have := k3.length; have := R.dir.some_entry; omega
  have hrname : (∀ x ∈ (rootEntry root.child st sz).name, 0 < x ∧ x < 256) ∧ (rootEntry root.child st sz).name.length < 32 := by
    show (∀ x ∈ b!"Root Entry".map UInt8.toNat, 0 < x ∧ x < 256) ∧ (b!"Root Entry".map UInt8.toNat).length < 32
    exact ⟨by decide +kernel, by decide +kernel⟩
  have hroot : io.dirtree[0]? = some { rootEntry root.child st sz with valid := true, dir := true } := by
    have hx := List.getElem?_eq_getElem h0lt
    have := (h11 0 _ hx).1
    rw [stored_load hst hrname.1] at this
    injection this with this
    rw [hx, ← this]
    rfl
  -- the entries in use are stored
  have names : ∀ i e', io.dirtree[i]? = some e' → e'.valid = true → ∃ e ty, Stored (dir.map some) (128 * i) e ty ∧ e'.name = e.name ∧
      ((∀ x ∈ e.name, 0 < x ∧ x < 256) ∧ e.name.length < 32) ∧ (0 < i → ty ≠ 5) := fun i e' he' hv => by
    cases i with
    | zero =>
      rw [hroot] at he'
      cases he'
      exact ⟨_, 5, hst, rfl, hrname, fun h => absurd h (by decide)⟩
    | succ j =>
      obtain ⟨e, he, hev⟩ := k3.back (j + 1) e' he' hv
      obtain ⟨e2, g1, _, g3, _⟩ := k3.entry (j + 1) e (by omega) he hev
      rw [he'] at g1
      cases g1
      have he2 := he
      rw [t1, List.getElem?_cons_succ] at he2
      obtain ⟨st', sz', hst', _⟩ := (hent j e he2).2 hev
      rw [show 128 + 128 * j = 128 * (j + 1) by omega] at hst'
      refine ⟨_, _, hst', g3, hn e (List.mem_of_getElem? he) hev, fun _ => ?_⟩
      unfold typeOf
      rw [if_pos hev]
      cases e.dir <;> decide
  have stored : ∀ i e', io.dirtree[i]? = some e' → EntryStored dir (128 * i) e' := fun i e' he' => by
    refine ⟨(h11 i e' he').2, fun hv => ?_⟩
    obtain ⟨e, ty, g1, g2, g3, _⟩ := names i e' he' hv
    rw [g2]
    exact (stored_units g1 g3.1 g3.2).1
  let P : CfbParts := ⟨hd, fat, minifat, dir, io.dirtree, kids, L, c⟩
  have hbs : io.bbat.blockSize = 2 ^ hd.shift := h4
  have hss : io.sbat.blockSize = 2 ^ hd.miniShift := h6
  rw [if_neg Q.minifatLength.1] at h7
  refine ⟨P, ?_, fun hmark => ?_⟩
  · constructor
    · exact Q.image
    · exact Q.minifatLength.2
    · exact h9
    · exact stored
    · exact loaded_shape k3 S
    · exact loaded_shows k3 S hF
    · exact owned_congr Q.image.hfatSize H.big Q.fat
    · exact owned_congr Q.minifatLength.2 H.small Q.small
    · show Begins hd.miniFatStart _
      rw [hhd]; exact H.miniFat
    · show Begins hd.dirStart _
      rw [hhd]; exact H.dir
    · show ∀ i, ∀ x ∈ L.small i, x * 2 ^ hd.miniShift / 2 ^ hd.shift < _
      rw [← hbs, ← hss]
      exact k2.inMini
    · intro i e' he' hs
      have := k2.entry i e' he' hs
      have hth : (reopened io).io.header.threshold = 4096 := h3
      rw [hth] at this
      exact this
    · exact k2.other
    · intro i p v hv
      obtain ⟨b1, e, a, he, hs, hp, ha⟩ := k2.known i p v hv
      refine ⟨b1, e, a, he, hs, ?_, ?_⟩
      · rw [← hp]
        show (if e.size < 4096 then smallPlace (2 ^ hd.shift) (2 ^ hd.miniShift) _ _ p else bigPlace (2 ^ hd.shift) _ p) =
          (if e.size < io.header.threshold then smallPlace io.bbat.blockSize io.sbat.blockSize _ _ p else bigPlace io.bbat.blockSize _ p)
        rw [h3, hbs, hss]
      · rw [← ha, ← h2]
        rfl
  · obtain ⟨hst', hgood, ⟨fs, fb, hfs, hfl, hfc, hfw⟩, hsz, _⟩ := Q.image
    have hfs : fs = fatSectors w := by
      rcases hfs with ⟨_, h1⟩ | ⟨h1, _⟩
      · rw [h1, hhd]; rfl
      · rw [hhd] at h1; have := R.big.few; dsimp only at h1; omega
    subst hfs
    have hd512 : 2 ^ hd.shift = 512 := by rw [Q.shift.1]
    rw [hd512] at hfc
    have hflen : fat.length = 128 * (fatSectors w).length := by
      have := content_length hfc
      have := hfw.1
      omega
    have hfn : (fatSectors w).length = w.io.header.num_bat := by rw [hfl]; exact congrArg CfbHeader.fatCount hhd
    constructor
    · exact Q.shift
    · show hd.fatCount ≤ 109 ∧ hd.difatCount = 0
      rw [hhd]
      exact ⟨R.big.few, rfl⟩
    · show hd.difatStart = _
      rw [hhd]; exact e5
    · obtain ⟨hh, l0, l1, l2, l3, l4, l5, l6, l7, l8, l9, _⟩ := C38_layout file D.length
      rw [D.header] at l0
      cases l0
      rw [R.small.count] at l9
      exact l9
    · exact R.small.some_sbat
    · show (hd.difat.take hd.fatCount).Nodup
      rw [hhd]; exact R.big.nodup
    · show ∀ b ∈ hd.difat.take hd.fatCount, (∃ v, fat[b]? = some v ∧ v ≠ 0xffffffff) ∧ ∀ o, b ∉ L.big o
      rw [hhd]
      intro b hb
      refine ⟨?_, R.big.apart b hb⟩
      obtain ⟨v, hv, _⟩ := R.big.used b hb
      have hlt := (List.getElem?_eq_some_iff.1 hv).1
      have hcov := R.big.cover
      have hx := List.getElem?_eq_getElem (l := fat) (i := b) (by omega)
      refine ⟨_, hx, fun he => ?_⟩
      obtain ⟨s, hs, hnum⟩ := word_file hfc hfw hx
      rw [he] at hnum
      exact hmark b hb s hs hnum
    · intro i e' he' hv
      obtain ⟨e, ty, g1, g2, g3, _⟩ := names i e' he' hv
      rw [g2]
      exact (stored_units g1 g3.1 g3.2).2
    · refine ⟨_, hroot, rfl, rfl, rfl, byte_mrd hst.type, ?_⟩
      rw [← H.mini]
      exact hbeg
    · intro i e' hi he' hv h5
      obtain ⟨e, ty, g1, g2, g3, g4⟩ := names i e' he' hv
      have := byte_mrd g1.type
      rw [this] at h5
      exact g4 hi (Option.some.inj h5)
    · intro i e' he' hv
      have hlt := (List.getElem?_eq_some_iff.1 he').1
      by_cases hi : i < w.io.dirtree.length
      · cases i with
        | zero => rw [hroot] at he'; cases he'; cases hv
        | succ j =>
          have he := List.getElem?_eq_getElem hi
          have hev : (w.io.dirtree[j + 1]).valid = false := by
            cases hx : (w.io.dirtree[j + 1]).valid with
            | false => rfl
            | true =>
              obtain ⟨e2, g1, g2, _⟩ := k3.entry (j + 1) _ (by omega) he hx
              rw [he'] at g1
              cases g1
              rw [hv] at g2
              cases g2
          generalize w.io.dirtree[j + 1] = e at he hev
          have he2 := he
          rw [t1, List.getElem?_cons_succ] at he2
          have := byte_mrd (hent j e he2).1
          rw [show 128 + 128 * j + 0x42 = 128 * (j + 1) + 0x42 by omega] at this
          unfold typeOf at this
          rw [hev] at this
          exact this
      · have hlt : i < io.dirtree.length := hlt
        have hb := List.getElem?_eq_getElem (l := L.big .dir) (i := i / 4) (by omega)
        have e : 128 * i + 0x42 = 512 * (i / 4) + (128 * (i % 4) + 0x42) := by omega
        show dir[128 * i + 0x42]? = some 0
        rw [e, Q.dirBytes _ _ _ hb (by omega)]
        exact hfree i _ (by omega) hb

/-- What a flush leaves is a compound file that shows the same map. -/
theorem flush_cfb {S : Session} {v : PathView} (M : Session.MatchesPaths Abi.windows S v) (hf : Fits S.w) (hp : Saveable S.w)
    (hn : Storable S.w.io.dirtree) (hlen : S.w.io.dirtree.length < End) (junk : Nat → Nat → UInt8) (hshort : ShortNames S.w.io.dirtree) :
    ∃ w', S.w.flush junk = .ok w' ∧ (Reaches w' w'.io.file →
      ∃ P, CfbFile w'.io.file P v.file ∧ (FatMarked w' w'.io.file → P.Editable w'.io.file)) := by
  obtain ⟨⟨u, kids, hM, hS, hF, hpos, hnone, hsome⟩, hstart, hcount⟩ := M
  obtain ⟨L, H, hL⟩ := hM.holds
  obtain ⟨old, hold, hprep⟩ := hp
  have R := hprep L _ H
  obtain ⟨w', h1, FL⟩ := flush_spec H hf hold R hstart (fun e he => ⟨(hn e he).1, (hn e he).2.2⟩) hlen junk
  refine ⟨w', h1, fun hr => ?_⟩
  have hfl := flush_flat h1
  obtain ⟨hc1, hc2, hc3, hc5⟩ := reaches_flat hfl hr
  have chain : ∀ {s : Nat} {o : Owner}, Begins s (L.big o) → L.big o ≠ [] → Chain S.w.io.bbat.data s (L.big o) := fun hb hne => by
    rcases chain_of hf.1 (fun h => H.big.linked _ h) hb with h | h
    · exact h
    · exact absurd h.2 hne
  have hdne : L.big .dir ≠ [] := by
    intro h
    have h1 := R.dir.cover
    have h2 := R.dir.some_entry
    rw [h, List.length_nil] at h1
    omega
  have hdc := chain H.dir hdne
  obtain ⟨P, hP, hE⟩ := again_cfb H hf R hS hF hstart FL.disk (fun b hb => by
    simp only [List.mem_append] at hb
    rcases hb with (hb | hb) | hb
    · exact hc1 b hb
    · exact hc2 _ (chain H.miniFat (List.ne_nil_of_mem hb)) b hb
    · exact hc3 _ hdc b hb) (fun e he hv => ⟨(hn e he).2.1 hv, hshort e he hv⟩) (hc5 _ hdc)
  refine ⟨P, hP, fun hm => hE ?_⟩
  unfold FatMarked at hm ⊢
  rw [hfl.header] at hm
  exact hm

end Fileid.Pole
