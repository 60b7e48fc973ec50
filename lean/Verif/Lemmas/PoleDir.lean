import Verif.Lemmas.Pole

/-!
# Lemmas about the directory of a compound file
-/

namespace Fileid

open Spec Pole

/-! ## Trees -/

namespace Spec.SibTree

def height : SibTree → Nat
  | .leaf => 0
  | .node l _ r => max l.height r.height + 1

variable {n : Nat} {left right : Nat → Nat}

theorem below_unique {link : Nat} {T T' : SibTree} (h : Below n left right link T) (h' : Below n left right link T') :
    T = T' := by
  induction h generalizing T' with
  | leaf hl =>
    cases h' with
    | leaf => rfl
    | node hi => omega
  | node hi _ _ ih1 ih2 =>
    cases h' with
    | leaf hl => omega
    | node _ h1 h2 => rw [ih1 h1, ih2 h2]

theorem below_lt {link : Nat} {T : SibTree} (h : Below n left right link T) : ∀ j ∈ T.inorder, j < n := by
  induction h with
  | leaf => intro j hj; simp [inorder] at hj
  | node hi _ _ ih1 ih2 =>
    intro j hj
    simp only [inorder, List.mem_append, List.mem_singleton] at hj
    rcases hj with (h | rfl) | h
    · exact ih1 j h
    · exact hi
    · exact ih2 j h

theorem below_path {link : Nat} {T : SibTree} (h : Below n left right link T) :
    ∃ l : List Nat, l.length = T.height ∧ (∀ x ∈ l, x < n) ∧ l.Nodup ∧
      ∀ x ∈ l, ∃ Tx, Below n left right x Tx ∧ Tx.height ≤ T.height := by
  induction h with
  | leaf => exact ⟨[], rfl, by simp, by simp, by simp⟩
  | @node i l r hi hl hr ih1 ih2 =>
    have key : ∃ p : List Nat, p.length = max l.height r.height ∧ (∀ x ∈ p, x < n) ∧ p.Nodup ∧
        ∀ x ∈ p, ∃ Tx, Below n left right x Tx ∧ Tx.height ≤ max l.height r.height := by
      obtain ⟨p1, a1, b1, c1, d1⟩ := ih1
      obtain ⟨p2, a2, b2, c2, d2⟩ := ih2
      by_cases hm : r.height ≤ l.height
      · refine ⟨p1, by omega, b1, c1, fun x hx => ?_⟩
        obtain ⟨Tx, h1, h2⟩ := d1 x hx
        exact ⟨Tx, h1, by omega⟩
      · refine ⟨p2, by omega, b2, c2, fun x hx => ?_⟩
        obtain ⟨Tx, h1, h2⟩ := d2 x hx
        exact ⟨Tx, h1, by omega⟩
    obtain ⟨p, a, b, c, d⟩ := key
    refine ⟨i :: p, by simp [height, a], ?_, ?_, ?_⟩
    · intro x hx
      rcases List.mem_cons.1 hx with rfl | hx
      · exact hi
      · exact b x hx
    · rw [List.nodup_cons]
      refine ⟨fun hm => ?_, c⟩
      obtain ⟨Tx, h1, h2⟩ := d i hm
      have := below_unique h1 (.node hi hl hr)
      rw [this] at h2
      simp [height] at h2
      omega
    · intro x hx
      rcases List.mem_cons.1 hx with rfl | hx
      · exact ⟨_, .node hi hl hr, Nat.le_refl _⟩
      · obtain ⟨Tx, h1, h2⟩ := d x hx
        exact ⟨Tx, h1, by simp only [height]; omega⟩

theorem below_height {link : Nat} {T : SibTree} (h : Below n left right link T) : T.height ≤ n := by
  obtain ⟨l, a, b, c, _⟩ := below_path h
  rw [← a]
  exact nodup_length_le _ _ c b

end Spec.SibTree

/-! ## Names -/

theorem wcompare_self (abi : Abi) (a : WStr) : wcompare abi a a = 0 := by
  induction a with
  | nil => rfl
  | cons x a ih => rw [wcompare, if_neg (by omega), if_neg (by omega), ih]

/-- What the comparison of two names of one length says. -/
theorem wcompare_spec (abi : Abi) (inj : ∀ x y, wcharVal abi x = wcharVal abi y → x < 2 ^ (8 * abi.wcharBytes) →
    y < 2 ^ (8 * abi.wcharBytes) → x = y) :
    ∀ (a b : WStr), a.length = b.length → (∀ x ∈ a, x < 2 ^ (8 * abi.wcharBytes)) →
      (∀ x ∈ b, x < 2 ^ (8 * abi.wcharBytes)) →
      (wcompare abi a b = 0 ∧ a = b) ∨
      (wcompare abi a b < 0 ∧ ∃ k x y, a.take k = b.take k ∧ a[k]? = some x ∧ b[k]? = some y ∧
        wcharVal abi x < wcharVal abi y) ∨
      (wcompare abi a b > 0 ∧ ∃ k x y, b.take k = a.take k ∧ b[k]? = some x ∧ a[k]? = some y ∧
        wcharVal abi x < wcharVal abi y) := by
  intro a
  induction a with
  | nil =>
    intro b hl _ _
    cases b with
    | nil => exact Or.inl ⟨rfl, rfl⟩
    | cons => simp at hl
  | cons x a ih =>
    intro b hl ha hb
    cases b with
    | nil => simp at hl
    | cons y b =>
      rw [wcompare]
      by_cases h1 : wcharVal abi x < wcharVal abi y
      · rw [if_pos h1]
        exact Or.inr (Or.inl ⟨by omega, 0, x, y, rfl, rfl, rfl, h1⟩)
      · by_cases h2 : wcharVal abi y < wcharVal abi x
        · rw [if_neg h1, if_pos h2]
          exact Or.inr (Or.inr ⟨by omega, 0, y, x, rfl, rfl, rfl, h2⟩)
        · rw [if_neg h1, if_neg h2]
          have hxy := inj x y (by omega) (ha x (by simp)) (hb y (by simp))
          subst hxy
          rcases ih b (by simpa using hl) (fun z hz => ha z (by simp [hz])) (fun z hz => hb z (by simp [hz])) with
            ⟨e, rfl⟩ | ⟨e, k, u, v, h3, h4, h5, h6⟩ | ⟨e, k, u, v, h3, h4, h5, h6⟩
          · exact Or.inl ⟨e, rfl⟩
          · exact Or.inr (Or.inl ⟨e, k + 1, u, v, by simp [h3], by simpa using h4, by simpa using h5, h6⟩)
          · exact Or.inr (Or.inr ⟨e, k + 1, u, v, by simp [h3], by simpa using h4, by simpa using h5, h6⟩)

theorem wcharVal_inj (abi : Abi) (h : abi = Abi.linux ∨ abi = Abi.windows) : ∀ x y, wcharVal abi x = wcharVal abi y →
    x < 2 ^ (8 * abi.wcharBytes) → y < 2 ^ (8 * abi.wcharBytes) → x = y := by
  intro x y hxy hx hy
  rcases h with rfl | rfl
  · simp only [wcharVal, Abi.linux, toSigned] at hxy hx hy
    simp only [↓reduceIte] at hxy
    split at hxy <;> split at hxy <;> omega
  · have e : ∀ x, wcharVal Abi.windows x = x := fun x => rfl
    rw [e, e] at hxy
    omega

/-- Two names cannot come before each other. -/
theorem nameBefore_asymm {value : Nat → Int} {a b : List Nat} (h : NameBefore value a b) : ¬ NameBefore value b a := by
  rintro (h' | ⟨h', k', x', y', e1', e2', e3', e4'⟩)
  · rcases h with h | ⟨h, _⟩ <;> omega
  · rcases h with h | ⟨_, k, x, y, e1, e2, e3, e4⟩
    · omega
    · rcases Nat.lt_trichotomy k k' with hk | rfl | hk
      · have h1 : (b.take k')[k]? = (a.take k')[k]? := by rw [e1']
        rw [List.getElem?_take, List.getElem?_take, if_pos hk, if_pos hk, e2, e3] at h1
        cases h1
        omega
      · rw [e2] at e3'
        rw [e3] at e2'
        cases e2'
        cases e3'
        omega
      · have h1 : (a.take k)[k']? = (b.take k)[k']? := by rw [e1]
        rw [List.getElem?_take, List.getElem?_take, if_pos hk, if_pos hk, e2', e3'] at h1
        cases h1
        omega

theorem nameBefore_irrefl {value : Nat → Int} {a : List Nat} : ¬ NameBefore value a a :=
  fun h => nameBefore_asymm h h

theorem compare_spec (abi : Abi) (habi : abi = Abi.linux ∨ abi = Abi.windows) (e : DirEntry) (name : WStr)
    (he : ∀ x ∈ e.name, x < 2 ^ (8 * abi.wcharBytes)) (hn : ∀ x ∈ name, x < 2 ^ (8 * abi.wcharBytes)) :
    (e.compare abi name = 0 ∧ e.name = name) ∨
    (e.compare abi name < 0 ∧ NameBefore (wcharVal abi) e.name name) ∨
    (e.compare abi name > 0 ∧ NameBefore (wcharVal abi) name e.name) := by
  unfold DirEntry.compare
  by_cases h1 : e.name.length < name.length
  · rw [if_pos h1]
    exact Or.inr (Or.inl ⟨by omega, Or.inl h1⟩)
  · by_cases h2 : e.name.length > name.length
    · rw [if_neg h1, if_pos h2]
      exact Or.inr (Or.inr ⟨by omega, Or.inl h2⟩)
    · rw [if_neg h1, if_neg h2]
      rcases wcompare_spec abi (wcharVal_inj abi habi) e.name name (by omega) he hn with h | ⟨h, h'⟩ | ⟨h, h'⟩
      · exact Or.inl h
      · exact Or.inr (Or.inl ⟨h, Or.inr ⟨by omega, h'⟩⟩)
      · exact Or.inr (Or.inr ⟨h, Or.inr ⟨by omega, h'⟩⟩)

/-! ## The walk and the search -/

theorem findSiblings_below {t : DirTree} (hend : t.length ≤ End) {link : Nat} {T : SibTree}
    (h : SibTree.Below t.length (leftOf t) (rightOf t) link T) :
    ∀ f acc, T.height < f → findSiblings t f link acc = .ok (acc ++ T.inorder) := by
  induction h with
  | leaf hl =>
    intro f acc hf
    obtain ⟨f, rfl⟩ : ∃ g, f = g + 1 := ⟨f - 1, by omega⟩
    rw [findSiblings, List.getElem?_eq_none hl]
    simp [SibTree.inorder]
  | @node i l r hi hl hr ih1 ih2 =>
    intro f acc hf
    obtain ⟨f, rfl⟩ : ∃ g, f = g + 1 := ⟨f - 1, by omega⟩
    simp only [SibTree.height] at hf
    have hL : leftOf t i = t[i].prev := by simp [leftOf, hi]
    have hR : rightOf t i = t[i].next := by simp [rightOf, hi]
    have leafOf : ∀ {link : Nat} {T : SibTree}, SibTree.Below t.length (leftOf t) (rightOf t) link T → link = End →
        T = .leaf := by
      intro link T h he
      cases h with
      | leaf => rfl
      | node h => omega
    have e1 : (if t[i].prev ≠ End then findSiblings t f t[i].prev acc else .ok acc) = .ok (acc ++ l.inorder) := by
      split
      · rw [← hL]; exact ih1 f acc (by omega)
      · rename_i hne
        rw [leafOf hl (by rw [hL]; omega)]
        simp [SibTree.inorder]
    have e2 : ∀ acc, (if t[i].next ≠ End then findSiblings t f t[i].next acc else .ok acc) = .ok (acc ++ r.inorder) := by
      intro acc
      split
      · rw [← hR]; exact ih2 f acc (by omega)
      · rename_i hne
        rw [leafOf hr (by rw [hR]; omega)]
        simp [SibTree.inorder]
    rw [findSiblings, List.getElem?_eq_getElem hi]
    dsimp only
    by_cases hp : t[i].prev ≠ End
    · rw [if_pos hp] at e1 ⊢
      rw [e1, Res.bind_ok, e2]
      simp [SibTree.inorder]
    · rw [if_neg hp] at e1 ⊢
      rw [e1, Res.bind_ok, e2]
      simp [SibTree.inorder]

theorem findSibling_below {abi : Abi} (habi : abi = Abi.linux ∨ abi = Abi.windows) {t : DirTree} {name : WStr}
    (hn : ∀ x ∈ name, x < 2 ^ (8 * abi.wcharBytes)) {link : Nat} {T : SibTree}
    (h : SibTree.Below t.length (leftOf t) (rightOf t) link T) :
    T.Ordered (fun i j => NameBefore (wcharVal abi) (entryName t i) (entryName t j)) →
    (∀ j ∈ T.inorder, j ≠ 0 ∧ ∀ e, t[j]? = some e → e.valid = true ∧ ∀ x ∈ e.name, x < 2 ^ (8 * abi.wcharBytes)) →
    ∀ f, T.height < f →
      (∃ i ∈ T.inorder, entryName t i = name ∧ findSibling abi t name f link = .ok i) ∨
      ((∀ i ∈ T.inorder, entryName t i ≠ name) ∧ findSibling abi t name f link = .ok 0) := by
  induction h with
  | leaf hl =>
    intro _ _ f hf
    obtain ⟨f, rfl⟩ : ∃ g, f = g + 1 := ⟨f - 1, by omega⟩
    right
    refine ⟨by simp [SibTree.inorder], ?_⟩
    rw [findSibling, List.getElem?_eq_none hl]
  | @node i l r hi hl hr ih1 ih2 =>
    intro hord hall f hf
    obtain ⟨f, rfl⟩ : ∃ g, f = g + 1 := ⟨f - 1, by omega⟩
    simp only [SibTree.height] at hf
    have hL : leftOf t i = t[i].prev := by simp [leftOf, hi]
    have hR : rightOf t i = t[i].next := by simp [rightOf, hi]
    have hN : entryName t i = t[i].name := by simp [entryName, hi]
    have ml : ∀ j ∈ l.inorder, j ∈ (SibTree.node l i r).inorder := fun j hj => by simp [SibTree.inorder, hj]
    have mr : ∀ j ∈ r.inorder, j ∈ (SibTree.node l i r).inorder := fun j hj => by simp [SibTree.inorder, hj]
    have mi : i ∈ (SibTree.node l i r).inorder := by simp [SibTree.inorder]
    have hv := (hall i mi).2 _ (List.getElem?_eq_getElem hi)
    have rootOf : ∀ {link : Nat} {T : SibTree}, SibTree.Below t.length (leftOf t) (rightOf t) link T →
        (∀ j ∈ T.inorder, j ≠ 0) → ¬ (link > 0 ∧ link < t.length) → T = .leaf := by
      intro link T h h0 hne
      cases h with
      | leaf => rfl
      | node h =>
        have := h0 link (by simp [SibTree.inorder])
        omega
    cases hord with
    | node o1 o2 o3 o4 =>
      rw [findSibling, List.getElem?_eq_getElem hi]
      dsimp only
      rw [if_neg (by rw [hv.1]; simp)]
      rcases compare_spec abi habi t[i] name hv.2 hn with ⟨hc, he⟩ | ⟨hc, he⟩ | ⟨hc, he⟩
      · rw [if_pos hc]
        exact Or.inl ⟨i, mi, by rw [hN, he], rfl⟩
      · rw [if_neg (by omega), if_neg (by omega)]
        have nol : ∀ j ∈ l.inorder, entryName t j ≠ name := by
          intro j hj hjn
          have := o1 j hj
          rw [hjn, hN] at this
          exact nameBefore_asymm he this
        have noi : entryName t i ≠ name := by
          intro hc'
          rw [← hN, hc'] at he
          exact nameBefore_irrefl he
        have hres : (if t[i].next > 0 ∧ t[i].next < t.length then findSibling abi t name f t[i].next else .ok 0) =
            findSibling abi t name f (rightOf t i) ∨ (r = .leaf ∧
            (if t[i].next > 0 ∧ t[i].next < t.length then findSibling abi t name f t[i].next else .ok 0) = .ok 0) := by
          by_cases hx : t[i].next > 0 ∧ t[i].next < t.length
          · left; rw [if_pos hx, hR]
          · right
            exact ⟨rootOf hr (fun j hj => (hall j (mr j hj)).1) (by rw [hR]; exact hx), if_neg hx⟩
        rcases hres with hres | ⟨hleaf, hres⟩
        · rw [hres]
          rcases ih2 o4 (fun j hj => hall j (mr j hj)) f (by omega) with ⟨j, hj, h1, h2⟩ | ⟨h1, h2⟩
          · exact Or.inl ⟨j, mr j hj, h1, h2⟩
          · refine Or.inr ⟨?_, h2⟩
            intro j hj
            simp only [SibTree.inorder, List.mem_append, List.mem_singleton] at hj
            rcases hj with (h | rfl) | h
            · exact nol j h
            · exact noi
            · exact h1 j h
        · rw [hres]
          refine Or.inr ⟨?_, rfl⟩
          intro j hj
          rw [hleaf] at hj
          simp only [SibTree.inorder, List.mem_append, List.mem_singleton, List.not_mem_nil, or_false] at hj
          rcases hj with h | rfl
          · exact nol j h
          · exact noi
      · rw [if_neg (by omega), if_pos hc]
        have nor : ∀ j ∈ r.inorder, entryName t j ≠ name := by
          intro j hj hjn
          have := o2 j hj
          rw [hjn, hN] at this
          exact nameBefore_asymm he this
        have noi : entryName t i ≠ name := by
          intro hc'
          rw [← hN, hc'] at he
          exact nameBefore_irrefl he
        have hres : (if t[i].prev > 0 ∧ t[i].prev < t.length then findSibling abi t name f t[i].prev else .ok 0) =
            findSibling abi t name f (leftOf t i) ∨ (l = .leaf ∧
            (if t[i].prev > 0 ∧ t[i].prev < t.length then findSibling abi t name f t[i].prev else .ok 0) = .ok 0) := by
          by_cases hx : t[i].prev > 0 ∧ t[i].prev < t.length
          · left; rw [if_pos hx, hL]
          · right
            exact ⟨rootOf hl (fun j hj => (hall j (ml j hj)).1) (by rw [hL]; exact hx), if_neg hx⟩
        rcases hres with hres | ⟨hleaf, hres⟩
        · rw [hres]
          rcases ih1 o3 (fun j hj => hall j (ml j hj)) f (by omega) with ⟨j, hj, h1, h2⟩ | ⟨h1, h2⟩
          · exact Or.inl ⟨j, ml j hj, h1, h2⟩
          · refine Or.inr ⟨?_, h2⟩
            intro j hj
            simp only [SibTree.inorder, List.mem_append, List.mem_singleton] at hj
            rcases hj with (h | rfl) | h
            · exact h1 j h
            · exact noi
            · exact nor j h
        · rw [hres]
          refine Or.inr ⟨?_, rfl⟩
          intro j hj
          rw [hleaf] at hj
          simp only [SibTree.inorder, List.mem_append, List.mem_singleton, List.not_mem_nil, false_or] at hj
          rcases hj with rfl | h
          · exact noi
          · exact nor j h

/-! ## Paths -/

theorem splitNames_name (n : WStr) (hn : 47 ∉ n) : ∀ cur pending,
    splitNames cur pending n = if n = [] then (if pending then [cur] else []) else [cur ++ n] := by
  induction n with
  | nil => intro cur p; simp [splitNames]
  | cons c cs ih =>
    intro cur p
    rw [splitNames, if_neg (fun h => hn (by simp [h])), ih (fun h => hn (by simp [h]))]
    cases cs <;> simp

theorem splitNames_cons (n : WStr) (hn : 47 ∉ n) (rest : WStr) : ∀ cur pending,
    splitNames cur pending (n ++ 47 :: rest) = (cur ++ n) :: splitNames [] false rest := by
  induction n with
  | nil => intro cur p; simp [splitNames]
  | cons c cs ih =>
    intro cur p
    rw [List.cons_append, splitNames, if_neg (fun h => hn (by simp [h])), ih (fun h => hn (by simp [h]))]
    simp

/-- The path made of names: "/first/second/...". -/
def pathOf (names : List WStr) : WStr := names.flatMap fun n => 47 :: n

theorem splitNames_path (n : WStr) (rest : List WStr) (hn : 47 ∉ n ∧ n ≠ []) (hr : ∀ m ∈ rest, 47 ∉ m ∧ m ≠ []) :
    splitNames [] false (n ++ pathOf rest) = n :: rest := by
  induction rest generalizing n with
  | nil =>
    rw [pathOf, List.flatMap_nil, List.append_nil, splitNames_name n hn.1, if_neg hn.2, List.nil_append]
  | cons m rest ih =>
    rw [pathOf, List.flatMap_cons, List.cons_append, splitNames_cons n hn.1, List.nil_append]
    have := ih m (hr m (by simp)) (fun x hx => hr x (by simp [hx]))
    rw [pathOf] at this
    rw [this]

theorem ordered_name_unique {value : Nat → Int} {name : Nat → List Nat} {T : SibTree}
    (h : T.Ordered fun i j => NameBefore value (name i) (name j)) :
    ∀ i ∈ T.inorder, ∀ j ∈ T.inorder, name i = name j → i = j := by
  induction h with
  | leaf => intro i hi; simp [SibTree.inorder] at hi
  | @node l r k hl hr _ _ ih1 ih2 =>
    intro i hi j hj e
    simp only [SibTree.inorder, List.mem_append, List.mem_singleton] at hi hj
    rcases hi with (hi | rfl) | hi <;> rcases hj with (hj | rfl) | hj
    · exact ih1 i hi j hj e
    · have := hl i hi; rw [e] at this; exact absurd this nameBefore_irrefl
    · have h1 := hl i hi; have h2 := hr j hj; rw [e] at h1; exact absurd h2 (nameBefore_asymm h1)
    · have := hl j hj; rw [e] at this; exact absurd this nameBefore_irrefl
    · rfl
    · have := hr j hj; rw [e] at this; exact absurd this nameBefore_irrefl
    · have h1 := hl j hj; have h2 := hr i hi; rw [← e] at h1; exact absurd h2 (nameBefore_asymm h1)
    · have := hr i hi; rw [e] at this; exact absurd this nameBefore_irrefl
    · exact ih2 i hi j hj e

theorem findSiblings_tree {t : DirTree} (hend : t.length ≤ End) :
    ∀ f link acc r, findSiblings t f link acc = .ok r → ∃ T, SibTree.Below t.length (leftOf t) (rightOf t) link T := by
  intro f
  induction f with
  | zero => intro link acc r h; cases h
  | succ f ih =>
    intro link acc r h
    by_cases hi : link < t.length
    · have hL : leftOf t link = t[link].prev := by simp [leftOf, hi]
      have hR : rightOf t link = t[link].next := by simp [rightOf, hi]
      rw [findSiblings, List.getElem?_eq_getElem hi] at h
      dsimp only at h
      have hl : (∃ T, SibTree.Below t.length (leftOf t) (rightOf t) (leftOf t link) T) ∧ ∃ acc',
          (if t[link].next ≠ End then findSiblings t f t[link].next acc' else .ok acc') = .ok r := by
        by_cases hp : t[link].prev ≠ End
        · rw [if_pos hp] at h
          cases hf : findSiblings t f t[link].prev acc with
          | ok a =>
            rw [hf, Res.bind_ok] at h
            exact ⟨by rw [hL]; exact ih _ _ _ hf, _, h⟩
          | throw _ => rw [hf] at h; cases h
          | ub _ => rw [hf] at h; cases h
          | fuel => rw [hf] at h; cases h
        · rw [if_neg hp, Res.bind_ok] at h
          exact ⟨⟨.leaf, .leaf (by rw [hL]; omega)⟩, _, h⟩
      obtain ⟨⟨l, hl⟩, acc', h'⟩ := hl
      have hr : ∃ T, SibTree.Below t.length (leftOf t) (rightOf t) (rightOf t link) T := by
        by_cases hp : t[link].next ≠ End
        · rw [if_pos hp] at h'
          rw [hR]
          exact ih _ _ _ h'
        · exact ⟨.leaf, .leaf (by rw [hR]; omega)⟩
      obtain ⟨r, hr⟩ := hr
      exact ⟨_, .node hi hl hr⟩
    · exact ⟨.leaf, .leaf (by omega)⟩

end Fileid
