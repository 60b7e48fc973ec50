import Verif.Lemmas.PoleServe

/-!
# Lemmas about histories that leave a storage ready for a flush
-/

namespace Fileid.Pole

open Spec Props

/-- Who uses which sector follows from the tables and the directory. -/
theorem layout_unique {w : Writer} {L L' : Layout} {c c' : Contents} (H : Holds w L c) (H' : Holds w L' c') (hf : Fits w) :
    L'.big = L.big := by
  have same : ∀ {s : Nat} {o : Owner}, Begins s (L.big o) → Begins s (L'.big o) → L'.big o = L.big o := fun h h' => by
    have h1 := follow_begins H.big hf.1 h
    rw [follow_begins H'.big hf.1 h'] at h1
    exact Res.ok.inj h1
  funext o
  cases o with
  | dir => exact same H.dir H'.dir
  | miniFat => exact same H.miniFat H'.miniFat
  | mini => exact H'.mini.symm.trans H.mini
  | stream i =>
    by_cases h : ∃ e, w.io.dirtree[i]? = some e ∧ IsStream e
    · obtain ⟨e, he, hs⟩ := h
      have h1 := (H.entry i e he hs).2
      have h2 := (H'.entry i e he hs).2
      split at h1
      · rename_i hc
        rw [if_pos hc] at h2
        rw [h1.2, h2.2]
      · rename_i hc
        rw [if_neg hc] at h2
        exact same h1.1 h2.1
    · have hno : ∀ e, w.io.dirtree[i]? = some e → ¬ IsStream e := fun e he hs => h ⟨e, he, hs⟩
      rw [(H.other i hno).2, (H'.other i hno).2]

/-- The storage is ready for a flush, whoever uses its sectors. -/
def Prepared (old : Snap) (w : Writer) : Prop := ∀ (L : Layout) (c : Contents), Holds w L c → Ready old w L.big

theorem prepared_of {old : Snap} {w : Writer} {L : Layout} {c : Contents} (H : Holds w L c) (hf : Fits w) (hR : Ready old w L.big) : Prepared old w :=
  fun _ _ H' => by rw [layout_unique H H' hf]; exact hR

/-- A step leaves the storage ready. -/
structure Prepares (w w' : Writer) : Prop where
  le : w.io.header.num_bat ≤ w'.io.header.num_bat
  ready : ∀ {old : Snap}, w'.io.header.num_bat ≤ 109 → Prepared old w → Prepared old w'

theorem Prepares.refl (w : Writer) : Prepares w w := ⟨Nat.le_refl _, fun _ h => h⟩

theorem Prepares.trans {a b c : Writer} (h : Prepares a b) (h' : Prepares b c) : Prepares a c :=
  ⟨Nat.le_trans h.le h'.le, fun hf hg => h'.ready hf (h.ready (Nat.le_trans h'.le hf) hg)⟩

theorem prepares_of {w w' : Writer} {L L' : Layout} {c c' : Contents} (H : Holds w L c) (H' : Holds w' L' c') (hf : Fits w')
    (hR : Readies w L.big w' L'.big) : Prepares w w' :=
  ⟨hR.le, fun hn hp => prepared_of H' hf (hR.ready hn (hp L c H))⟩

theorem step_prepares {S S' : Session} {v : View} {c : Call} {r : Reply} (M : Session.Matches S v) (hs : v.Sensible c)
    (h : S.step c = .ok (S', r)) (hf : Fits S'.w) : Prepares S.w S'.w := by
  obtain ⟨L, hL1, hL2⟩ := M.holds
  cases c with
  | seek k pos =>
    unfold Session.step at h
    dsimp only at h
    cases hk : S.streams[k]? with
    | none => rw [hk] at h; cases h; exact Prepares.refl _
    | some s => rw [hk] at h; cases h; exact Prepares.refl _
  | write k data =>
    unfold Session.step at h
    dsimp only at h
    cases hk : S.streams[k]? with
    | none => rw [hk] at h; cases h; exact Prepares.refl _
    | some s =>
      rw [hk] at h
      dsimp only at h
      obtain ⟨⟨w1, s1, n⟩, h1, h⟩ := bind_inv h
      cases h
      have hp := M.pos k s hk
      obtain ⟨e, he, hse⟩ := M.entry k s hk
      unfold WStream.write at h1
      by_cases h0 : data = []
      · subst h0
        unfold WStream.writeAt at h1
        rw [if_pos (by rfl)] at h1
        cases h1
        exact Prepares.refl _
      · have hlen : 0 < List.length data := List.length_pos_iff.2 h0
        have h64 : s.pos + List.length data < 2 ^ 64 := by rw [hp]; exact hs
        obtain ⟨L', g1, _, _, _, _, g6⟩ := writeAt_holds hL1 M.writeable he hse (hL2 k s hk) hlen h64 h1 hf
        exact prepares_of hL1 g1 hf g6
  | read k maxlen =>
    unfold Session.step at h
    dsimp only at h
    cases hk : S.streams[k]? with
    | none => rw [hk] at h; cases h; exact Prepares.refl _
    | some s =>
      rw [hk] at h
      dsimp only at h
      obtain ⟨⟨n, d, s1⟩, h1, h⟩ := bind_inv h
      cases h
      exact Prepares.refl _
  | setSize k n =>
    unfold Session.step at h
    dsimp only at h
    cases hk : S.streams[k]? with
    | none => rw [hk] at h; cases h; exact Prepares.refl _
    | some s =>
      rw [hk] at h
      dsimp only at h
      obtain ⟨⟨w1, s1⟩, h1, h⟩ := bind_inv h
      cases h
      obtain ⟨e, he, hse⟩ := M.entry k s hk
      rcases setSize_holds hL1 M.writeable he hse (hL2 k s hk) n with ⟨h2, _⟩ | ⟨w2, L', g1, g2, _, _, _, _, g7⟩
      · rw [h2] at h1; cases h1
      · rw [g1] at h1
        cases h1
        exact prepares_of hL1 g2 hf g7

theorem stream_prepares {abi : Abi} (habi : abi = Abi.linux ∨ abi = Abi.windows) {S S' : Session} {v : PathView} {path : List WStr}
    {create : Bool} {n : Nat} {a : Answer} (M : Session.MatchesPaths abi S v) (hs : v.Sensible abi (.openStream path create n))
    (h : S.request abi (.openStream path create n) = .ok (S', a)) (hf : Fits S'.w) (hlen : S'.w.io.dirtree.length < End) :
    Prepares S.w S'.w := by
  obtain ⟨⟨u, kids, hM, hS, hF, hpos, hnone, hsome⟩, hstart, hcount⟩ := M
  obtain ⟨hpath, hn, hnew⟩ := hs
  obtain ⟨L, H, hL⟩ := hM.holds
  unfold Session.request at h
  dsimp only at h
  have h3 := bind_inv h
  clear h
  obtain ⟨⟨w', s⟩, h1, h⟩ := h3
  dsimp only at h
  unfold Writer.stream at h1
  have h32 : u32 n = n := Nat.mod_eq_of_lt (by omega)
  rw [if_neg (pathText_length _)] at h1
  dsimp only at h1
  rw [h32, if_pos hn] at h1
  have h3 := bind_inv h1
  clear h1
  obtain ⟨⟨w1, i⟩, h2, h1⟩ := h3
  dsimp only at h1
  have hw : S'.w = w1 := by
    have e1 : S'.w = w' := by
      cases s <;> (dsimp only at h; injection h with h; injection h with h _; rw [← h])
    rw [e1]
    cases i with
    | none => injection h1 with h1; injection h1 with h1 _; exact h1.symm
    | some i =>
      dsimp only at h1
      obtain ⟨e, _, h1⟩ := bind_inv h1
      split at h1
      · injection h1 with h1; injection h1 with h1 _; exact h1.symm
      · obtain ⟨x, _, h1⟩ := bind_inv h1
        injection h1 with h1; injection h1 with h1 _; exact h1.symm
  rw [hw] at hf hlen ⊢
  rcases entryCreate_holds habi hpath h2 hf H hS hF hstart hM.writeable hlen with ⟨hi, hww, hc, hfile⟩ |
    ⟨k, L', c', kids', hi, H', hS', hF', hst', hw', hr', hold, hch, hstr, hR⟩
  · rw [hww]; exact Prepares.refl _
  · exact prepares_of H H' hf hR

theorem request_prepares {abi : Abi} (habi : abi = Abi.linux ∨ abi = Abi.windows) {S S' : Session} {v : PathView} {q : Request} {a : Answer}
    (M : Session.MatchesPaths abi S v) (hs : v.Sensible abi q) (h : S.request abi q = .ok (S', a)) (hf : Fits S'.w)
    (hlen : S'.w.io.dirtree.length < End) : Prepares S.w S'.w := by
  cases q with
  | openStream path create n => exact stream_prepares habi M hs h hf hlen
  | list path => obtain ⟨l, h1, h⟩ := bind_inv h; cases h; exact Prepares.refl _
  | ask path => obtain ⟨l, h1, h⟩ := bind_inv h; cases h; exact Prepares.refl _
  | askDir path => obtain ⟨l, h1, h⟩ := bind_inv h; cases h; exact Prepares.refl _
  | use c =>
    obtain ⟨⟨S1, r⟩, h1, h⟩ := bind_inv h
    cases h
    obtain ⟨⟨u, kids, hM, hS, hF, hpos, hnone, hsome⟩, hstart, hcount⟩ := M
    refine step_prepares hM ?_ h1 hf
    cases c with
    | seek k pos => exact hs
    | write k data => show u.pos k + _ < _; rw [hpos]; exact hs
    | read k n =>
      refine ⟨by rw [hpos]; exact hs.1, fun i hu => ?_⟩
      obtain ⟨p, hp, hr⟩ := hsome k i hu
      have hst := hM.stream k
      rw [hu] at hst
      cases hx : S.streams[k]? with
      | none => rw [hx] at hst; cases hst
      | some s =>
        rw [hx] at hst
        have hst : i = s.idx := by injection hst
        obtain ⟨e, he, hi⟩ := hM.entry k s hx
        rw [← hst] at he
        obtain ⟨x, hx', h1⟩ := hF.sound p i hr
        rw [he] at hx'
        cases hx'
        rw [hpos]
        exact hs.2 p _ _ hp (by rw [h1, hi.2]; rfl)
    | setSize k n => exact hs

theorem serve_prepares {abi : Abi} (habi : abi = Abi.linux ∨ abi = Abi.windows) (rs : List Request) :
    ∀ {S S' : Session} {v : PathView} {as : List Answer}, Session.MatchesPaths abi S v → S.serve abi rs = .ok (S', as) →
    v.AllSensible abi rs as → Fits S'.w → S'.w.io.dirtree.length < End → Prepares S.w S'.w := by
  induction rs with
  | nil => intro S S' v as M h _ _ _; cases h; exact Prepares.refl _
  | cons r rs ih =>
    intro S S' v as M h hs hf hlen
    obtain ⟨⟨S1, a⟩, h1, h⟩ := bind_inv h
    obtain ⟨⟨S2, as'⟩, h2, h⟩ := bind_inv h
    cases h
    obtain ⟨b1, b2⟩ := serve_mono rs h2
    obtain ⟨r1, M1⟩ := request_matches habi M hs.1 h1 (b1.fits hf) (Nat.lt_of_le_of_lt b2 hlen)
    exact (request_prepares habi M hs.1 h1 (b1.fits hf) (Nat.lt_of_le_of_lt b2 hlen)).trans (ih M1 h2 hs.2 hf hlen)

/-! ## A storage just created -/

theorem fresh_ready : Ready {} freshWriter freshLayout.big := by
  have used : ∀ x, Used freshFat x → x < 128 := fun x hx => by
    obtain ⟨v, hv, _⟩ := hx
    have := (List.getElem?_eq_some_iff.1 hv).1
    simpa [freshFat] using this
  refine ⟨⟨by decide +kernel, by decide +kernel, by decide +kernel, Or.inl rfl, by decide +kernel, ?_, ?_, by simp, by decide +kernel, ?_, by decide +kernel, rfl, by decide +kernel, by decide +kernel, List.nil_prefix⟩,
    ⟨rfl, by decide +kernel, by decide +kernel, ?_, by decide +kernel, rfl, List.nil_prefix⟩, ⟨by decide +kernel, by decide +kernel, ?_, Or.inl (by decide +kernel), by decide +kernel, by decide +kernel, List.nil_prefix⟩,
    fun a v _ h => by cases h⟩
  · intro b hb
    have : b = 0 := by simpa [fatSectors, freshWriter] using hb
    subst this
    exact ⟨Eof, rfl, by decide +kernel⟩
  · intro b hb o
    have : b = 0 := by simpa [fatSectors, freshWriter] using hb
    subst this
    cases o <;> simp [freshLayout]
  · intro x hx
    right; left; left
    have := used x hx
    show x / 128 ∈ [0]
    simp; omega
  · rintro x ⟨v, hv, hne⟩
    have hall : ∀ y ∈ freshWriter.io.sbat.data, y = Avail := by decide +kernel
    exact absurd (hall v (List.mem_of_getElem? hv)) hne
  · intro i hi
    have : i < 1 := hi
    left
    show i / 4 ∈ [0]
    simp; omega

theorem fresh_prepared : Prepared {} freshWriter := by
  obtain ⟨⟨u, kids, hM, _⟩, _⟩ := fresh_paths .windows
  have H : Holds freshWriter freshLayout nothing := fresh_holds newTree fun i e he hs => by
    match i, he with
    | 0, he => cases he; exact absurd hs.2 (by decide +kernel)
    | i + 1, he => cases he
  exact prepared_of H ⟨by decide +kernel, by decide +kernel⟩ fresh_ready

end Fileid.Pole
