import Verif.Lemmas.PoleReopen

/-!
# Lemmas about a directory that was written and loaded again
-/

namespace Fileid.Pole

open Spec Props

/-- `t'` is the directory `t`, loaded again: the entries in use are the same, more entries that are not in use may follow. -/
structure Loaded (t t' : DirTree) : Prop where
  length : t.length ≤ t'.length
  short : t'.length ≤ End
  root : ∃ r r' : DirEntry, t[0]? = some r ∧ t'[0]? = some r' ∧ r'.valid = true ∧ r'.dir = true ∧ r'.child = r.child ∧
    (r'.prev = End ∨ r'.prev = r.prev) ∧ (r'.next = End ∨ r'.next = r.next)
  entry : ∀ (i : Nat) (e : DirEntry), 0 < i → t[i]? = some e → e.valid = true → ∃ e' : DirEntry, t'[i]? = some e' ∧ e'.valid = true ∧
    e'.name = e.name ∧ e'.dir = e.dir ∧ e'.prev = e.prev ∧ e'.next = e.next ∧ e'.child = e.child ∧
    (e.dir = false → e'.start = e.start ∧ e'.size = e.size)
  back : ∀ (i : Nat) (e' : DirEntry), t'[i]? = some e' → e'.valid = true → ∃ e, t[i]? = some e ∧ e.valid = true

theorem Loaded.untouched {abi : Abi} {t t' : DirTree} {kids : Nat → List Nat} (h : Loaded t t') (S : Shape abi t kids) {l : List Nat}
    (hl : ∀ j ∈ l, ∃ e, 0 < j ∧ t[j]? = some e ∧ e.valid = true) : Untouched t t' l := by
  have hs := h.short
  refine ⟨fun j hj => ?_, fun j hj => ?_, fun j hj => ?_, fun j hj => ?_, fun j hj => ?_⟩ <;>
  · obtain ⟨e, h0, he, hv⟩ := hl j hj
    obtain ⟨e', g1, g2, g3, g4, g5, g6, g7, g8⟩ := h.entry j e h0 he hv
    obtain ⟨l1, l2, l3⟩ := S.links j e he hv
    simp [leftOf, rightOf, entryName, he, g1, g3, g5, g6]
    try omega

/-- The entry in use at `i` of the loaded directory, and what it was. -/
theorem Loaded.both {abi : Abi} {t t' : DirTree} {kids : Nat → List Nat} (h : Loaded t t') (S : Shape abi t kids) {i : Nat} {e' : DirEntry}
    (he' : t'[i]? = some e') (hv' : e'.valid = true) : ∃ e, t[i]? = some e ∧ e.valid = true ∧ e'.child = e.child ∧ e'.dir = e.dir := by
  obtain ⟨e, he, hv⟩ := h.back i e' he' hv'
  refine ⟨e, he, hv, ?_⟩
  by_cases h0 : i = 0
  · subst h0
    obtain ⟨r, r', h1, h2, h3, h4, h5, h6, h7⟩ := h.root
    obtain ⟨x, hx, hx1, hx2⟩ := S.root
    rw [h1] at he hx
    cases he
    cases hx
    rw [h2] at he'
    cases he'
    exact ⟨h5, by rw [h4, hx2]⟩
  · obtain ⟨e2, g1, g2, g3, g4, g5, g6, g7, g8⟩ := h.entry i e (by omega) he hv
    rw [he'] at g1
    cases g1
    exact ⟨g7, g4⟩

theorem loaded_shape {abi : Abi} {t t' : DirTree} {kids : Nat → List Nat} (h : Loaded t t') (S : Shape abi t kids) : Shape abi t' kids := by
  have hs := h.short
  have hlen := h.length
  constructor
  · intro i p hp hv
    obtain ⟨e, he, hve, hch, _⟩ := h.both S hp hv
    obtain ⟨T, hT, hk⟩ := S.tree i e he hve
    have hin : ∀ j ∈ T.inorder, ∃ e, 0 < j ∧ t[j]? = some e ∧ e.valid = true := fun j hj => by
      obtain ⟨h0, x, hx, hv, _⟩ := kids_valid S (i := i) (x := j) (by rw [← hk]; exact hj)
      exact ⟨x, by omega, hx, hv⟩
    have hU := h.untouched S hin
    refine ⟨T, ⟨?_, ordered_untouched hT.ordered hU.name, ?_⟩, hk⟩
    · rw [hch]
      refine below_untouched hlen hT.below hU ?_
      have := (S.links i e he hve).2.2
      omega
    · intro j hj
      refine ⟨(hT.entries j hj).1, fun x hx => ?_⟩
      obtain ⟨e1, h0, h1, h2⟩ := hin j hj
      obtain ⟨e2, g1, g2, g3, _⟩ := h.entry j e1 h0 h1 h2
      rw [hx] at g1
      cases g1
      exact ⟨g2, by rw [g3]; exact ((hT.entries j hj).2 e1 h1).2⟩
  · exact S.apart
  · intro i hi
    refine S.unused i fun e he => ?_
    cases hv : e.valid with
    | false => rfl
    | true =>
      by_cases h0 : i = 0
      · subst h0
        obtain ⟨r, r', h1, h2, h3, _⟩ := h.root
        rw [hi r' h2] at h3
        cases h3
      · obtain ⟨e2, g1, g2, _⟩ := h.entry i e (by omega) he hv
        rw [hi e2 g1] at g2
        cases g2
  · intro j e he hv
    obtain ⟨x, hx, hvx, hc, _⟩ := h.both S he hv
    obtain ⟨l1, l2, l3⟩ := S.links j x hx hvx
    by_cases h0 : j = 0
    · subst h0
      obtain ⟨r, r', h1, h2, h3, h4, h5, h6, h7⟩ := h.root
      rw [h2] at he
      cases he
      rw [hx] at h1
      cases h1
      rw [hc]
      omega
    · obtain ⟨e2, g1, g2, g3, g4, g5, g6, g7, g8⟩ := h.entry j x (by omega) hx hvx
      rw [he] at g1
      cases g1
      rw [g5, g6, g7]
      omega
  · exact hs
  · obtain ⟨r, r', h1, h2, h3, h4, _⟩ := h.root
    exact ⟨r', h2, h3, h4⟩

theorem resolves_names {kids : Nat → List Nat} {name name' : Nat → List Nat} (hn : ∀ i, ∀ j ∈ kids i, name' j = name j) {i k : Nat}
    {q : List (List Nat)} (h : Resolves kids name i q k) : Resolves kids name' i q k := by
  induction h with
  | here => exact .here
  | down hm _ ih => rw [← hn _ _ hm]; exact .down hm ih

theorem loaded_names {abi : Abi} {t t' : DirTree} {kids : Nat → List Nat} (h : Loaded t t') (S : Shape abi t kids) :
    ∀ i, ∀ j ∈ kids i, entryName t' j = entryName t j := fun i j hj => by
  obtain ⟨h0, x, hx, hv, _⟩ := kids_valid S hj
  obtain ⟨e2, g1, g2, g3, _⟩ := h.entry j x (by omega) hx hv
  simp [entryName, hx, g1, g3]

theorem loaded_shows {abi : Abi} {t t' : DirTree} {kids : Nat → List Nat} {c : Contents} {f : FileMap} (h : Loaded t t') (S : Shape abi t kids)
    (F : Shows t kids c f) : Shows t' kids c f := by
  have S' := loaded_shape h S
  constructor
  · intro q k hr
    obtain ⟨e', he', hv'⟩ := resolves_valid S' hr
    obtain ⟨e, he, hv, _, hd⟩ := h.both S he' hv'
    obtain ⟨x, hx, h1⟩ := F.sound q k (resolves_names (fun i j hj => (loaded_names h S i j hj).symm) hr)
    rw [he] at hx
    cases hx
    exact ⟨e', he', by rw [hd]; exact h1⟩
  · intro q node hq
    obtain ⟨k, hk⟩ := F.complete q node hq
    exact ⟨k, resolves_names (loaded_names h S) hk⟩

end Fileid.Pole
