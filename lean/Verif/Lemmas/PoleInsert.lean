import Verif.Model.PoleWrite
import Verif.Spec.Directory

/-!
# Lemmas about new entries of a directory
-/

namespace Fileid.Pole

open Spec Props

/-- The order of the entries of a directory by their names. -/
def before (abi : Abi) (t : DirTree) (i j : Nat) : Prop := NameBefore (wcharVal abi) (entryName t i) (entryName t j)

/-- Links and names of the entries of a tree are the same in another directory, and links to nothing lead to nothing. -/
structure Untouched (t t' : DirTree) (l : List Nat) : Prop where
  left : ∀ j ∈ l, leftOf t' j = leftOf t j
  right : ∀ j ∈ l, rightOf t' j = rightOf t j
  name : ∀ j ∈ l, entryName t' j = entryName t j
  noLeft : ∀ j ∈ l, leftOf t j < t.length ∨ t'.length ≤ leftOf t j
  noRight : ∀ j ∈ l, rightOf t j < t.length ∨ t'.length ≤ rightOf t j

theorem Untouched.mono {t t' : DirTree} {l m : List Nat} (h : Untouched t t' l) (hm : ∀ j ∈ m, j ∈ l) : Untouched t t' m :=
  ⟨fun j hj => h.left j (hm j hj), fun j hj => h.right j (hm j hj), fun j hj => h.name j (hm j hj),
   fun j hj => h.noLeft j (hm j hj), fun j hj => h.noRight j (hm j hj)⟩

theorem below_untouched {t t' : DirTree} (hlen : t.length ≤ t'.length) {link : Nat} {T : SibTree}
    (h : SibTree.Below t.length (leftOf t) (rightOf t) link T) : Untouched t t' T.inorder →
    (link < t.length ∨ t'.length ≤ link) → SibTree.Below t'.length (leftOf t') (rightOf t') link T := by
  induction h with
  | leaf hl => exact fun _ h => .leaf (by omega)
  | @node i l r hi hl hr ih1 ih2 =>
    intro hu _
    have mi : i ∈ (SibTree.node l i r).inorder := by simp [SibTree.inorder]
    refine .node (by omega) ?_ ?_
    · rw [hu.left i mi]
      exact ih1 (hu.mono fun j hj => by simp [SibTree.inorder, hj]) (hu.noLeft i mi)
    · rw [hu.right i mi]
      exact ih2 (hu.mono fun j hj => by simp [SibTree.inorder, hj]) (hu.noRight i mi)

theorem ordered_names {p q : Nat → Nat → Prop} {T : SibTree} (h : T.Ordered p) :
    (∀ i ∈ T.inorder, ∀ j ∈ T.inorder, p i j → q i j) → T.Ordered q := by
  induction h with
  | leaf => exact fun _ => .leaf
  | @node l r i h1 h2 h3 h4 ih1 ih2 =>
    intro hpq
    have mi : i ∈ (SibTree.node l i r).inorder := by simp [SibTree.inorder]
    have ml : ∀ j ∈ l.inorder, j ∈ (SibTree.node l i r).inorder := fun j hj => by simp [SibTree.inorder, hj]
    have mr : ∀ j ∈ r.inorder, j ∈ (SibTree.node l i r).inorder := fun j hj => by simp [SibTree.inorder, hj]
    exact .node (fun j hj => hpq j (ml j hj) i mi (h1 j hj)) (fun j hj => hpq i mi j (mr j hj) (h2 j hj))
      (ih1 fun a ha b hb => hpq a (ml a ha) b (ml b hb)) (ih2 fun a ha b hb => hpq a (mr a ha) b (mr b hb))

theorem ordered_untouched {abi : Abi} {t t' : DirTree} {T : SibTree} (h : T.Ordered (before abi t))
    (hn : ∀ j ∈ T.inorder, entryName t' j = entryName t j) : T.Ordered (before abi t') :=
  ordered_names h fun i hi j hj hij => by unfold before at *; rw [hn i hi, hn j hj]; exact hij

/-- The directory with entry `new` linked below entry `c`, on the side where its name belongs. -/
structure Inserted (abi : Abi) (t t' : DirTree) (name : WStr) (new c : Nat) (l : List Nat) : Prop where
  length : t.length ≤ t'.length
  newLt : new < t'.length
  newName : entryName t' new = name
  newLeft : t'.length ≤ leftOf t' new
  newRight : t'.length ≤ rightOf t' new
  left : ∀ j ∈ l, ¬ (j = c ∧ NameBefore (wcharVal abi) name (entryName t c)) → leftOf t' j = leftOf t j
  right : ∀ j ∈ l, ¬ (j = c ∧ NameBefore (wcharVal abi) (entryName t c) name) → rightOf t' j = rightOf t j
  atLeft : NameBefore (wcharVal abi) name (entryName t c) → leftOf t' c = new
  atRight : NameBefore (wcharVal abi) (entryName t c) name → rightOf t' c = new
  names : ∀ j ∈ l, entryName t' j = entryName t j
  noLeft : ∀ j ∈ l, leftOf t j < t.length ∨ t'.length ≤ leftOf t j
  noRight : ∀ j ∈ l, rightOf t j < t.length ∨ t'.length ≤ rightOf t j

theorem Inserted.mono {abi : Abi} {t t' : DirTree} {name : WStr} {new c : Nat} {l m : List Nat}
    (h : Inserted abi t t' name new c l) (hm : ∀ j ∈ m, j ∈ l) : Inserted abi t t' name new c m :=
  ⟨h.length, h.newLt, h.newName, h.newLeft, h.newRight, fun j hj => h.left j (hm j hj), fun j hj => h.right j (hm j hj),
   h.atLeft, h.atRight, fun j hj => h.names j (hm j hj), fun j hj => h.noLeft j (hm j hj), fun j hj => h.noRight j (hm j hj)⟩

theorem Inserted.untouched {abi : Abi} {t t' : DirTree} {name : WStr} {new c : Nat} {l : List Nat}
    (h : Inserted abi t t' name new c l) (hc : c ∉ l) : Untouched t t' l :=
  ⟨fun j hj => h.left j hj (fun hx => hc (hx.1 ▸ hj)), fun j hj => h.right j hj (fun hx => hc (hx.1 ▸ hj)), h.names, h.noLeft,
   h.noRight⟩

/-- Where a new name belongs in a search tree: below which entry, and between which of the entries. -/
theorem findClosest_below {abi : Abi} (habi : abi = Abi.linux ∨ abi = Abi.windows) {t : DirTree} {name : WStr}
    (hn : ∀ x ∈ name, x < 2 ^ (8 * abi.wcharBytes)) {link : Nat} {T : SibTree}
    (h : SibTree.Below t.length (leftOf t) (rightOf t) link T) :
    T.Ordered (before abi t) →
    (∀ j ∈ T.inorder, j ≠ 0 ∧ ∀ e, t[j]? = some e → e.valid = true ∧ ∀ x ∈ e.name, x < 2 ^ (8 * abi.wcharBytes)) →
    (∀ i ∈ T.inorder, entryName t i ≠ name) → link < t.length → ∀ f, T.height < f →
    ∃ c a b, findClosest abi t name f link = .ok c ∧ c ∈ T.inorder ∧ T.inorder = a ++ b ∧
      ((NameBefore (wcharVal abi) (entryName t c) name → t.length ≤ rightOf t c) ∧
        (NameBefore (wcharVal abi) name (entryName t c) → t.length ≤ leftOf t c)) ∧
      ∀ (t' : DirTree) (new : Nat), Inserted abi t t' name new c T.inorder →
        ∃ T', SibTree.Below t'.length (leftOf t') (rightOf t') link T' ∧ T'.Ordered (before abi t') ∧
          T'.inorder = a ++ new :: b := by
  induction h with
  | leaf hl => intro _ _ _ h; omega
  | @node i l r hi hl hr ih1 ih2 =>
    intro hord hall hno _ f hf
    obtain ⟨f, rfl⟩ : ∃ g, f = g + 1 := ⟨f - 1, by omega⟩
    simp only [SibTree.height] at hf
    have hL : leftOf t i = t[i].prev := by simp [leftOf, hi]
    have hR : rightOf t i = t[i].next := by simp [rightOf, hi]
    have hN : entryName t i = t[i].name := by simp [entryName, hi]
    have ml : ∀ j ∈ l.inorder, j ∈ (SibTree.node l i r).inorder := fun j hj => by simp [SibTree.inorder, hj]
    have mr : ∀ j ∈ r.inorder, j ∈ (SibTree.node l i r).inorder := fun j hj => by simp [SibTree.inorder, hj]
    have mi : i ∈ (SibTree.node l i r).inorder := by simp [SibTree.inorder]
    have hv := (hall i mi).2 _ (List.getElem?_eq_getElem hi)
    have rootOf : ∀ {link : Nat} {T : SibTree}, SibTree.Below t.length (leftOf t) (rightOf t) link T →
        (∀ j ∈ T.inorder, j ≠ 0) → ¬ (link > 0 ∧ link < t.length) → T = .leaf := by
      intro link T h h0 hne
      cases h with
      | leaf => rfl
      | node h =>
        have := h0 link (by simp [SibTree.inorder])
        omega
    cases hord with
    | node o1 o2 o3 o4 =>
      have notL : ∀ j ∈ l.inorder, j ∉ r.inorder ∧ j ≠ i := fun j hj =>
        ⟨fun hj' => nameBefore_asymm (o1 j hj) (by
          have h1 := o1 j hj
          have h2 := o2 j hj'
          exact absurd h2 (nameBefore_asymm h1)), fun he => by
          have h1 := o1 j hj
          rw [he] at h1
          exact nameBefore_irrefl h1⟩
      have notR : ∀ j ∈ r.inorder, j ∉ l.inorder ∧ j ≠ i := fun j hj =>
        ⟨fun hj' => (notL j hj').1 hj, fun he => by
          have h1 := o2 j hj
          rw [he] at h1
          exact nameBefore_irrefl h1⟩
      rw [findClosest, List.getElem?_eq_getElem hi]
      dsimp only
      rw [if_neg (by rw [hv.1]; simp)]
      rcases compare_spec abi habi t[i] name hv.2 hn with ⟨hc, he⟩ | ⟨hc, he⟩ | ⟨hc, he⟩
      · exact absurd (by rw [hN, he]) (hno i mi)
      · rw [if_neg (by omega), if_neg (by omega)]
        rw [← hN] at he
        by_cases hx : t[i].next > 0 ∧ t[i].next < t.length
        · rw [if_pos hx]
          obtain ⟨c, a, b, h1, h2, h3, h5, h4⟩ := ih2 o4 (fun j hj => hall j (mr j hj)) (fun j hj => hno j (mr j hj))
            (by rw [hR]; exact hx.2) f (by omega)
          rw [hR] at h1
          refine ⟨c, l.inorder ++ [i] ++ a, b, h1, mr c h2, by simp [SibTree.inorder, h3], h5, fun t' new hins => ?_⟩
          obtain ⟨T', k1, k2, k3⟩ := h4 t' new (hins.mono mr)
          have hul := (hins.mono ml).untouched (notR c h2).1
          have hci : ¬ i = c := fun hh => (notR c h2).2 hh.symm
          have hli := hins.left i mi (fun hh => hci hh.1)
          have hri := hins.right i mi (fun hh => hci hh.1)
          refine ⟨.node l i T', .node (by have := hins.length; omega) ?_ (by rw [hri]; exact k1), ?_, by simp [SibTree.inorder, k3]⟩
          · rw [hli]
            exact below_untouched hins.length hl hul (hins.noLeft i mi)
          · refine .node (fun j hj => ?_) (fun j hj => ?_) (ordered_untouched o3 hul.name) k2
            · unfold before
              rw [hul.name j hj, hins.names i mi]
              exact o1 j hj
            · rw [k3] at hj
              unfold before
              rw [hins.names i mi]
              rcases List.mem_append.1 hj with hj | hj
              · have hj' : j ∈ r.inorder := by rw [h3]; simp [hj]
                rw [hins.names j (mr j hj')]
                exact o2 j hj'
              · rcases List.mem_cons.1 hj with rfl | hj
                · rw [hins.newName]; exact he
                · have hj' : j ∈ r.inorder := by rw [h3]; simp [hj]
                  rw [hins.names j (mr j hj')]
                  exact o2 j hj'
        · rw [if_neg hx]
          have hleaf := rootOf hr (fun j hj => (hall j (mr j hj)).1) (by rw [hR]; exact hx)
          have habs : t.length ≤ rightOf t i := by
            rw [hleaf] at hr
            cases hr with
            | leaf h => exact h
          refine ⟨i, l.inorder ++ [i], [], rfl, mi, by simp [SibTree.inorder, hleaf],
            ⟨fun _ => habs, fun h => absurd h (nameBefore_asymm he)⟩, fun t' new hins => ?_⟩
          have hul := (hins.mono ml).untouched (fun hh => (notL i hh).2 rfl)
          have hli := hins.left i mi (fun hh => nameBefore_asymm he hh.2)
          refine ⟨.node l i (.node .leaf new .leaf), .node (by have := hins.length; omega) ?_ ?_, ?_, by simp [SibTree.inorder]⟩
          · rw [hli]
            exact below_untouched hins.length hl hul (hins.noLeft i mi)
          · rw [hins.atRight he]
            exact .node hins.newLt (.leaf hins.newLeft) (.leaf hins.newRight)
          · refine .node (fun j hj => ?_) (fun j hj => ?_) (ordered_untouched o3 hul.name)
              (.node (by simp [SibTree.inorder]) (by simp [SibTree.inorder]) .leaf .leaf)
            · unfold before
              rw [hul.name j hj, hins.names i mi]
              exact o1 j hj
            · simp only [SibTree.inorder, List.nil_append, List.append_nil, List.mem_singleton] at hj
              subst hj
              unfold before
              rw [hins.names i mi, hins.newName]
              exact he
      · rw [if_neg (by omega), if_pos hc]
        rw [← hN] at he
        by_cases hx : t[i].prev > 0 ∧ t[i].prev < t.length
        · rw [if_pos hx]
          obtain ⟨c, a, b, h1, h2, h3, h5, h4⟩ := ih1 o3 (fun j hj => hall j (ml j hj)) (fun j hj => hno j (ml j hj))
            (by rw [hL]; exact hx.2) f (by omega)
          rw [hL] at h1
          refine ⟨c, a, b ++ [i] ++ r.inorder, h1, ml c h2, by simp [SibTree.inorder, h3], h5, fun t' new hins => ?_⟩
          obtain ⟨T', k1, k2, k3⟩ := h4 t' new (hins.mono ml)
          have hur := (hins.mono mr).untouched (notL c h2).1
          have hci : ¬ i = c := fun hh => (notL c h2).2 hh.symm
          have hli := hins.left i mi (fun hh => hci hh.1)
          have hri := hins.right i mi (fun hh => hci hh.1)
          refine ⟨.node T' i r, .node (by have := hins.length; omega) (by rw [hli]; exact k1) ?_, ?_, by simp [SibTree.inorder, k3]⟩
          · rw [hri]
            exact below_untouched hins.length hr hur (hins.noRight i mi)
          · refine .node (fun j hj => ?_) (fun j hj => ?_) k2 (ordered_untouched o4 hur.name)
            · rw [k3] at hj
              unfold before
              rw [hins.names i mi]
              rcases List.mem_append.1 hj with hj | hj
              · have hj' : j ∈ l.inorder := by rw [h3]; simp [hj]
                rw [hins.names j (ml j hj')]
                exact o1 j hj'
              · rcases List.mem_cons.1 hj with rfl | hj
                · rw [hins.newName]; exact he
                · have hj' : j ∈ l.inorder := by rw [h3]; simp [hj]
                  rw [hins.names j (ml j hj')]
                  exact o1 j hj'
            · unfold before
              rw [hur.name j hj, hins.names i mi]
              exact o2 j hj
        · rw [if_neg hx]
          have hleaf := rootOf hl (fun j hj => (hall j (ml j hj)).1) (by rw [hL]; exact hx)
          have habs : t.length ≤ leftOf t i := by
            rw [hleaf] at hl
            cases hl with
            | leaf h => exact h
          refine ⟨i, [], [i] ++ r.inorder, rfl, mi, by simp [SibTree.inorder, hleaf],
            ⟨fun h => absurd h (nameBefore_asymm he), fun _ => habs⟩, fun t' new hins => ?_⟩
          have hur := (hins.mono mr).untouched (fun hh => (notR i hh).2 rfl)
          have hri := hins.right i mi (fun hh => nameBefore_asymm he hh.2)
          refine ⟨.node (.node .leaf new .leaf) i r, .node (by have := hins.length; omega) ?_ ?_, ?_, by simp [SibTree.inorder]⟩
          · rw [hins.atLeft he]
            exact .node hins.newLt (.leaf hins.newLeft) (.leaf hins.newRight)
          · rw [hri]
            exact below_untouched hins.length hr hur (hins.noRight i mi)
          · refine .node (fun j hj => ?_) (fun j hj => ?_)
              (.node (by simp [SibTree.inorder]) (by simp [SibTree.inorder]) .leaf .leaf) (ordered_untouched o4 hur.name)
            · simp only [SibTree.inorder, List.nil_append, List.append_nil, List.mem_singleton] at hj
              subst hj
              unfold before
              rw [hins.names i mi, hins.newName]
              exact he
            · unfold before
              rw [hur.name j hj, hins.names i mi]
              exact o2 j hj

end Fileid.Pole
