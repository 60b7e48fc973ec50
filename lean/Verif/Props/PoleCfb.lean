import Verif.Lemmas.PoleCfb
import Verif.Props.OlessSample

/-!
# Properties of existing compound files: C113 files by any program, opened and used
-/

namespace Fileid.Props

open Spec Pole

/-! ## C113 -/

/-- C113: a compound file, whoever wrote it, can be opened, and the storage is the map from paths to streams that the file shows.
Missing: Linux (see C45) and names in an order the library does not expect (C71). -/
theorem C113_open_partial (file : Bytes) (P : CfbParts) (f : FileMap) (h : CfbFile file P f) :
    ∃ io, openStorage .windows (some file) = .ok (.opened io) ∧ Session.MatchesPaths .windows ⟨reopened io, []⟩ (PathView.of f) := by
  obtain ⟨io, O⟩ := cfb_opened h
  exact ⟨io, O.opened, cfb_matches h O⟩

/-- C113: so all that is asked of it is answered rightly, whatever is written meanwhile: what exists at a path, what a storage lists, and
what the streams hold. Missing: as above, and what C106 leaves out. -/
theorem C113_history_partial (file : Bytes) (P : CfbParts) (f : FileMap) (h : CfbFile file P f) (io : StorageIO)
    (hio : openStorage .windows (some file) = .ok (.opened io)) (S : Session) (requests : List Request) (answers : List Answer)
    (hr : (⟨reopened io, []⟩ : Session).serve .windows requests = .ok (S, answers))
    (hs : (PathView.of f).AllSensible .windows requests answers) (hf : Spec.Fits S.w) (hlen : S.w.io.dirtree.length < 0xffffffff) :
    (PathView.of f).AllRight .windows requests answers ∧
      Session.MatchesPaths .windows S ((PathView.of f).finally requests answers) := by
  obtain ⟨io', h1, h2⟩ := C113_open_partial file P f h
  rw [hio] at h1
  cases h1
  exact serve_matches (Or.inr rfl) requests h2 hr hs hf hlen

/-! ### The hypotheses are met -/

namespace Sample

/-- What the file with the stream "a" shows. -/
def map : FileMap := fun q =>
  if q = [] then some .storage
  else if q = [[97]] then some (.stream 1 fun p => if p = 0 then some 65 else none)
  else none

def parts : CfbParts where
  hd := hd
  fat := fat
  minifat := minifat
  dir := dir
  entries := io.dirtree
  kids := fun i => if i = 0 then [1] else []
  layout := ⟨fun | .miniFat => [2] | .mini => [3] | .dir => [1] | .stream _ => [], fun i => if i = 1 then [0] else []⟩
  contents := ⟨fun i => if i = 1 then 1 else 0, fun i p => if i = 1 ∧ p = 0 then some 65 else none⟩

theorem tree_eq : io.dirtree = soleTree [97] false 0xffffffff 1 := by decide +kernel

theorem parts_shape : Shape Abi.windows io.dirtree parts.kids := by
  rw [tree_eq]
  have hw := sole_wellFormed Abi.windows [97] false 0xffffffff 1 (Or.inr (by decide)) (by decide)
  refine ⟨?_, ?_, ?_, ?_, by decide +kernel, ⟨_, rfl, rfl, rfl⟩⟩
  · have : (fun i => if i = 0 then [1] else if i = 1 ∧ (0xffffffff : Nat) = 1 then [1] else []) = parts.kids := by
      funext i
      show (if i = 0 then [1] else if i = 1 ∧ (0xffffffff : Nat) = 1 then [1] else []) = if i = 0 then [1] else []
      by_cases h : i = 0
      · rw [if_pos h, if_pos h]
      · rw [if_neg h, if_neg h, if_neg (fun h => absurd h.2 (by decide))]
    rw [← this]
    exact hw
  · intro i j hij x hx hx'
    have h1 : ∀ k, x ∈ parts.kids k → k = 0 := fun k hk => by
      apply Decidable.byContradiction
      intro h0
      rw [show parts.kids k = [] from if_neg h0] at hk
      cases hk
    exact hij ((h1 i hx).trans (h1 j hx').symm)
  · intro i hi
    refine if_neg fun h0 => ?_
    subst h0
    exact absurd (hi _ rfl) (by decide)
  · intro j e he hv
    match j, he with
    | 0, he => cases he; decide +kernel
    | 1, he => cases he; decide +kernel
    | 2, he => cases he; cases hv
    | 3, he => cases he; cases hv
    | j + 4, he => cases he

theorem parts_shows : Shows io.dirtree parts.kids parts.contents map := by
  have name : entryName io.dirtree 1 = [97] := by decide +kernel
  have leads : ∀ q k, Resolves parts.kids (entryName io.dirtree) 0 q k → (q = [] ∧ k = 0) ∨ (q = [[97]] ∧ k = 1) := by
    intro q k h
    cases h with
    | here => exact Or.inl ⟨rfl, rfl⟩
    | @down _ j _ names hj h =>
      have : j = 1 := by simpa [parts] using hj
      subst this
      rw [name]
      cases h with
      | here => exact Or.inr ⟨rfl, rfl⟩
      | down hj h => simp [parts] at hj
  constructor
  · intro q k h
    rcases leads q k h with ⟨rfl, rfl⟩ | ⟨rfl, rfl⟩
    · exact ⟨_, rfl, rfl⟩
    · refine ⟨_, rfl, ?_⟩
      show some (Node.stream 1 fun p => if p = 0 then some 65 else none) = some (Node.stream 1 fun p => if 1 = 1 ∧ p = 0 then some 65 else none)
      simp
  · intro q node h
    unfold map at h
    split at h
    · rename_i hq; subst hq; exact ⟨0, .here⟩
    · split at h
      · rename_i hq
        subst hq
        have := Resolves.down (kids := parts.kids) (name := entryName io.dirtree) (i := 0) (j := 1) (by decide +kernel) .here
        rw [name] at this
        exact ⟨1, this⟩
      · cases h

theorem one_entry {dir : Bytes} {off : Nat} {e : DirEntry} (h1 : loadEntry Abi.windows (dir.map some) off = .ok e)
    (h2 : EntryAt dir off e) (hn : e.valid = true → ((List.range e.name.length).all fun k => decide (off + 2 * k + 2 ≤ dir.length ∧
      some (leVal ((dir.drop (off + 2 * k)).take 2)) = e.name[k]?)) = true ∧ (∀ u ∈ e.name, u % 256 ≠ 0) ∧ e.name.length < 32 ∧
      (off + 2 * e.name.length + 2 ≤ dir.length ∧ leVal ((dir.drop (off + 2 * e.name.length)).take 2) = 0) ∧
      (off + 0x40 + 2 ≤ dir.length ∧ leVal ((dir.drop (off + 0x40)).take 2) = 2 * (e.name.length + 1))) : EntryStored dir off e := by
  refine ⟨h2, fun hv => ?_⟩
  obtain ⟨n1, n2, n3, n4, n5⟩ := hn hv
  refine ⟨fun k u hk => ?_, n2, n3, num_check n4, num_check n5⟩
  have := List.all_eq_true.1 n1 k (List.mem_range.2 (List.getElem?_eq_some_iff.1 hk).1)
  have := of_decide_eq_true this
  rw [hk] at this
  exact num_check ⟨this.1, Option.some.inj this.2⟩

theorem parts_names (i : Nat) (e : DirEntry) (he : io.dirtree[i]? = some e) :
    e.valid = true → ((List.range e.name.length).all fun k => decide (128 * i + 2 * k + 2 ≤ dir.length ∧
      some (leVal ((dir.drop (128 * i + 2 * k)).take 2)) = e.name[k]?)) = true ∧ (∀ u ∈ e.name, u % 256 ≠ 0) ∧ e.name.length < 32 ∧
      (128 * i + 2 * e.name.length + 2 ≤ dir.length ∧ leVal ((dir.drop (128 * i + 2 * e.name.length)).take 2) = 0) ∧
      (128 * i + 0x40 + 2 ≤ dir.length ∧ leVal ((dir.drop (128 * i + 0x40)).take 2) = 2 * (e.name.length + 1)) := by
  have four : i = 0 ∨ i = 1 ∨ i = 2 ∨ i = 3 := by
    have : i < 4 := (List.getElem?_eq_some_iff.1 he).1
    omega
  rcases four with rfl | rfl | rfl | rfl
  · have : e = io.dirtree[0]'(by decide) := (Option.some.inj he).symm
    subst this
    exact fun _ => by decide +kernel
  · have : e = io.dirtree[1]'(by decide) := (Option.some.inj he).symm
    subst this
    exact fun _ => by decide +kernel
  · have : e = io.dirtree[2]'(by decide) := (Option.some.inj he).symm
    subst this
    exact fun h => absurd h (by decide)
  · have : e = io.dirtree[3]'(by decide) := (Option.some.inj he).symm
    subst this
    exact fun h => absurd h (by decide)

theorem linked_end {fat : List Nat} {s : Nat} (h : fat[s]? = some 0xfffffffe) : Linked fat [s] := .last h (by decide) (by decide)

theorem parts_big : Owned fat parts.layout.big := by
  constructor
  · intro o ho
    cases o with
    | miniFat => exact linked_end (by decide +kernel)
    | mini => exact linked_end (by decide +kernel)
    | dir => exact linked_end (by decide +kernel)
    | stream i => exact absurd rfl ho
  · intro o o' hne x hx hx'
    cases o <;> cases o' <;> first
      | exact hne rfl
      | exact List.not_mem_nil hx
      | exact List.not_mem_nil hx'
      | exact absurd ((List.mem_singleton.1 hx).symm.trans (List.mem_singleton.1 hx')) (by decide)

theorem parts_small : Owned minifat parts.layout.small := by
  constructor
  · intro i hi
    by_cases h : i = 1
    · subst h; exact linked_end (by decide +kernel)
    · exact absurd (if_neg h) hi
  · intro i j hij x hx hx'
    have h1 : ∀ k, x ∈ parts.layout.small k → k = 1 := fun k hk => by
      apply Decidable.byContradiction
      intro h0
      rw [show parts.layout.small k = [] from if_neg h0] at hk
      cases hk
    exact hij ((h1 i hx).trans (h1 j hx').symm)

theorem parts_streams (i : Nat) (e : DirEntry) (he : io.dirtree[i]? = some e) (hs : IsStream e) : i = 1 ∧ e.size = 1 ∧ e.start = 0 := by
  match i, he with
  | 0, he => cases he; exact absurd hs.2 (by decide)
  | 1, he => cases he; exact ⟨rfl, rfl, rfl⟩
  | 2, he => cases he; exact absurd hs.1 (by decide)
  | 3, he => cases he; exact absurd hs.1 (by decide)
  | j + 4, he => cases he

/-- The file with the stream "a" shows its map. -/
theorem is_cfb : CfbFile image parts map := by
  obtain ⟨io', h1, _, _, _, _, _, _, _, _, _, h11⟩ := C68_open Abi.windows (by decide) image hd fat minifat dir [3] is_image
  rw [opens] at h1
  cases h1
  have ents : ∀ i e, io.dirtree[i]? = some e → EntryStored dir (128 * i) e := by
    intro i e he
    obtain ⟨g1, g2⟩ := h11 i e he
    exact one_entry g1 g2 (parts_names i e he)
  refine ⟨is_image, by decide +kernel, by decide +kernel, ents, parts_shape, parts_shows, parts_big, parts_small, Or.inr rfl, Or.inr rfl, ?_, ?_, ?_, ?_⟩
  · intro i x hx
    by_cases h : i = 1
    · subst h
      have : x = 0 := by simpa [parts] using hx
      subst this
      decide
    · rw [show parts.layout.small i = [] from if_neg h] at hx
      cases hx
  · intro i e he hs
    obtain ⟨rfl, hsz, hst⟩ := parts_streams i e he hs
    rw [hsz, hst]
    refine ⟨rfl, ?_⟩
    rw [if_pos (by decide)]
    exact ⟨Or.inr rfl, rfl⟩
  · intro i hi
    refine ⟨if_neg fun h => ?_, rfl⟩
    subst h
    exact hi _ rfl ⟨rfl, rfl⟩
  · intro i p v hv
    by_cases h : i = 1 ∧ p = 0
    · obtain ⟨rfl, rfl⟩ := h
      have : some 65 = some v := hv
      cases this
      exact ⟨by decide, _, 2048, rfl, ⟨rfl, rfl⟩, by decide +kernel, by decide +kernel⟩
    · rw [show parts.contents.byte i p = none from if_neg h] at hv
      cases hv

end Sample

/-- The stream is opened, read, overwritten, read again, and a second one is created beside it. -/
def cfbRequests : List Request :=
  [.list [], .openStream [[97]] false 0, .use (.read 0 1), .use (.seek 0 0), .use (.write 0 [66, 67]), .use (.seek 0 0), .use (.read 0 2),
    .openStream [[98]] true 0, .list []]

def cfbAnswers : List Answer :=
  [.names [[97]], .opened (some 0), .reply (.got [some 65]), .reply .done, .reply (.wrote 2), .reply .done, .reply (.got [some 66, some 67]),
    .opened (some 1), .names [[97], [98]]]

theorem cfb_sensible : (PathView.of Sample.map).AllSensible .windows cfbRequests cfbAnswers := by
  have ok : ∀ n ∈ ([[97], [98]] : List WStr), n ≠ [] ∧ 47 ∉ n ∧ ∀ x ∈ n, x < 2 ^ (8 * Abi.windows.wcharBytes) := by decide
  refine ⟨(by decide : ∀ n ∈ ([] : List WStr), n ≠ [] ∧ 47 ∉ n ∧ ∀ x ∈ n, x < 2 ^ (8 * Abi.windows.wcharBytes)),
    ⟨fun n hn => ok n (by simp_all), by decide, fun h hh => (by cases hh)⟩, ⟨(by decide : 0 + 1 < 2 ^ 64), fun _ _ _ _ _ => Nat.zero_le _⟩, (by decide : 0 < 2 ^ 64),
    (by decide : 0 + 2 < 2 ^ 64), (by decide : 0 < 2 ^ 64), ⟨(by decide : 0 + 2 < 2 ^ 64), fun _ _ _ _ _ => Nat.zero_le _⟩,
    ⟨fun n hn => ok n (by simp_all), by decide, fun h hh => ?_⟩, (by decide : ∀ n ∈ ([] : List WStr), n ≠ [] ∧ 47 ∉ n ∧ ∀ x ∈ n, x < 2 ^ (8 * Abi.windows.wcharBytes)), trivial⟩
  have hh : replaced (fun _ => none) 0 (some [[97]]) h = some [[98]] := hh
  unfold replaced at hh
  split at hh <;> cases hh

example : CfbFile Sample.image Sample.parts Sample.map ∧ openStorage .windows (some Sample.image) = .ok (.opened Sample.io) ∧
    ∃ S, (⟨reopened Sample.io, []⟩ : Session).serve .windows cfbRequests = .ok (S, cfbAnswers) ∧
      (PathView.of Sample.map).AllSensible .windows cfbRequests cfbAnswers ∧ Spec.Fits S.w ∧ S.w.io.dirtree.length < 0xffffffff :=
  ⟨Sample.is_cfb, Sample.opens, by
    have : (match (⟨reopened Sample.io, []⟩ : Session).serve .windows cfbRequests with
        | .ok (S, a) => decide (a = cfbAnswers ∧ (S.w.io.bbat.data.length ≤ 0xfffffffc ∧ S.w.io.sbat.data.length ≤ 0xfffffffc) ∧
            S.w.io.dirtree.length < 0xffffffff)
        | _ => false) = true := by
      decide +kernel
    split at this
    · rename_i S a h
      obtain ⟨h1, h2, h3⟩ := of_decide_eq_true this
      exact ⟨S, by rw [h, h1], cfb_sensible, h2, h3⟩
    · cases this⟩

end Fileid.Props
