import Verif.Lemmas.PoleAgain
import Verif.Props.PoleCut
import Verif.Spec.Flush

/-!
# A flush that leaves the file too short
-/

namespace Fileid.Pole

open Spec Props

theorem chain_unique {t : AllocTable} {s : Nat} {a b : List Nat} (h : t.data.length ≤ 0xfffffffc) (ha : Chain t.data s a) (hb : Chain t.data s b) : a = b := by
  have h1 := follow_chain h ha
  rw [follow_chain h hb] at h1
  injection h1 with h1
  exact h1.symm

theorem short_ub {S : Session} {v : PathView} (abi : Abi) (M : Session.MatchesPaths Abi.windows S v) (hf : Fits S.w) (hp : Saveable S.w)
    (hn : Storable S.w.io.dirtree) (hlen : S.w.io.dirtree.length < End) (junk : Nat → Nat → UInt8) {w' : Writer} (hw : S.w.flush junk = .ok w')
    (he : EndsEarly S.w w'.io.file) : ∃ u, openStorage abi (some w'.io.file) = .ub u := by
  obtain ⟨⟨u, kids, hM, hS, hF, hpos, hnone, hsome⟩, hstart, hcount⟩ := M
  obtain ⟨L, H, hL⟩ := hM.holds
  obtain ⟨old, hold, hprep⟩ := hp
  have R := hprep L _ H
  obtain ⟨w2, h1, FL⟩ := flush_spec H hf hold R hstart (fun e he => ⟨(hn e he).1, (hn e he).2.2⟩) hlen junk
  rw [hw] at h1
  cases h1
  have D := FL.disk
  generalize S.w = w at *
  generalize w'.io.file = file at *
  obtain ⟨G, SO, DO, _⟩ := R
  obtain ⟨e1, e2, e3, e4, e5, e6, e7, e8⟩ := G.fixed
  have hfl : (fatSectors w).length = w.io.header.num_bat := by
    unfold fatSectors; rw [List.length_take, G.slots]; have := G.few; omega
  obtain ⟨hh, g0, g1, g2, g3, g4, g5, g6, g7, g8, g9, g10, g11, g12, g13⟩ := C38_layout file D.length
  have ghh : hh = w.io.header := by have := g0.symm.trans D.header; injection this
  subst ghh
  let hd : CfbHeader := ⟨9, 6, w.io.header.num_bat, w.io.header.dirent_start, 4096, w.io.header.sbat_start, w.io.header.mbat_start, 0, w.io.header.bb_blocks⟩
  have hst : hd.Stored file := by
    refine ⟨?_, D.length, ?_, ?_, g5, g6, ?_, g8, g10, ?_, g12, g13⟩
    · rw [e6] at g1; exact g1
    · rw [e1] at g3; exact g3
    · rw [e2] at g4; exact g4
    · rw [e3] at g7; exact g7
    · rw [e4] at g11; exact g11
  have hgood : hd.Good := ⟨rfl, G.some_bat, fun _ => rfl, ⟨by show 6 < 9; decide, by show 9 < 31; decide⟩, by show 6 ≤ 9; decide⟩
  have hfs : FatSectors file hd (fatSectors w) := Or.inl ⟨G.few, rfl⟩
  by_cases hcut : ∃ b ∈ fatSectors w, file.length < 512 * (b + 2)
  · exact C69_fat_cut_false abi file hd (fatSectors w) hst hgood hfs hfl hcut
  have hin : ∀ b ∈ fatSectors w, 512 * (b + 2) ≤ file.length := fun b hb => Nat.le_of_not_lt fun h => hcut ⟨b, hb, h⟩
  obtain ⟨fc, fat, f3, f4, f5, f6⟩ := table_again (file := file) hin
  have small : ∀ o, ∀ x ∈ L.big o, x < w.io.bbat.data.length := fun o x hx => by
    obtain ⟨v, hv, _⟩ := linked_get (H.big.linked o (List.ne_nil_of_mem hx)) x hx
    exact (List.getElem?_eq_some_iff.1 hv).1
  have hfat : ∀ o, ∀ x ∈ L.big o, fat[x]? = w.io.bbat.data[x]? := fun o x hx => by
    have hv := List.getElem?_eq_getElem (small o x hx)
    rw [hv]
    obtain ⟨b, h1, h2⟩ := D.fat x _ (linked_used (H.big.linked o (List.ne_nil_of_mem hx)) hx) (fun h => G.apart x h o hx) hv
    exact f6 x _ b h1 h2
  have hsz : fat.length ≤ 0xfffffffc := by rw [f5, hfl]; have := G.few; omega
  have hlink : ∀ o, L.big o ≠ [] → Linked fat (L.big o) := fun o ho => chain_congr hsz (H.big.linked o ho) (hfat o)
  have hfatW : ∃ fs bytes, FatSectors file hd fs ∧ fs.length = hd.fatCount ∧ Content file (2 ^ hd.shift) fs bytes ∧ Words bytes fat :=
    ⟨fatSectors w, fc, hfs, hfl, f3, f4⟩
  have chain : ∀ {s : Nat} {o : Owner}, Begins s (L.big o) → L.big o ≠ [] → Chain w.io.bbat.data s (L.big o) ∧ Chain fat s (L.big o) := fun hb hne => by
    refine ⟨(chain_of hf.1 (fun h => H.big.linked _ h) hb).resolve_right fun h => hne h.2, (chain_of hsz (hlink _) hb).resolve_right fun h => hne h.2⟩
  have hmne : L.big .miniFat ≠ [] := SO.some_sbat
  have hdne : L.big .dir ≠ [] := by
    intro h
    have h1 := DO.cover
    have h2 := DO.some_entry
    rw [h, List.length_nil] at h1
    omega
  obtain ⟨m1, m2⟩ := chain H.miniFat hmne
  obtain ⟨d1, d2⟩ := chain H.dir hdne
  by_cases hcut2 : ∃ b ∈ L.big .miniFat, file.length < 512 * (b + 2)
  · exact C69_minifat_cut_false abi file hd fat _ hst hgood hfatW hsz m2 hcut2
  have hin2 : ∀ b ∈ L.big .miniFat, 512 * (b + 2) ≤ file.length := fun b hb => Nat.le_of_not_lt fun h => hcut2 ⟨b, hb, h⟩
  obtain ⟨mc, minifat, m3, m4, m5, m6⟩ := table_again (file := file) hin2
  rcases he with he | ⟨l, hl, he⟩ | ⟨l, hl, he⟩
  · exact absurd he hcut
  · rw [chain_unique hf.1 hl m1] at he
    exact absurd he hcut2
  · rw [chain_unique hf.1 hl d1] at he
    exact C69_directory_cut_false abi file hd fat minifat _ hst hgood hfatW hsz ⟨_, mc, Or.inl m2, m3, m4⟩ d2 he

end Fileid.Pole
