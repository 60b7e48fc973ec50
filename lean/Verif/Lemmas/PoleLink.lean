import Verif.Lemmas.PoleInsert
import Verif.Lemmas.PoleWrite

/-!
# Lemmas about new entries of a directory: the directory afterwards
-/

namespace Fileid.Pole

open Spec Props

/-- An entry with other links. -/
structure Relinked (e e' : DirEntry) : Prop where
  valid : e'.valid = e.valid
  name : e'.name = e.name
  dir : e'.dir = e.dir
  size : e'.size = e.size
  start : e'.start = e.start

theorem Relinked.refl (e : DirEntry) : Relinked e e := by constructor <;> rfl

theorem unusedEntry_spec (t : DirTree) : (∀ j, j ≠ (unusedEntry t).1 → (unusedEntry t).2[j]? = t[j]?) ∧
    (unusedEntry t).1 < (unusedEntry t).2.length ∧ t.length ≤ (unusedEntry t).2.length ∧
    (unusedEntry t).2.length ≤ t.length + 1 ∧ ((unusedEntry t).2.length = t.length + 1 → (unusedEntry t).1 = t.length) ∧
    (∀ e, t[(unusedEntry t).1]? = some e → e.valid = false) := by
  unfold unusedEntry
  cases h : t.findIdx? (fun e => !e.valid) with
  | some i =>
    obtain ⟨h1, h2, _⟩ := List.findIdx?_eq_some_iff_getElem.1 h
    refine ⟨fun j _ => rfl, h1, Nat.le_refl _, Nat.le_succ _, fun hh => absurd (show t.length = t.length + 1 from hh) (by omega), fun e he => ?_⟩
    dsimp only at he
    rw [List.getElem?_eq_getElem h1] at he
    cases he
    simpa using h2
  | none =>
    refine ⟨fun j hj => ?_, by simp, by simp, by simp, fun _ => rfl, fun e he => ?_⟩
    · dsimp only at hj ⊢
      rcases Nat.lt_or_ge j t.length with hl | hl
      · rw [List.getElem?_append_left hl]
      · rw [List.getElem?_eq_none (by simp; omega), List.getElem?_eq_none hl]
    · dsimp only at he
      have := (List.getElem?_eq_some_iff.1 he).1
      omega

theorem get_new (t1 : DirTree) {index q : Nat} (e' : DirEntry) (f : DirEntry → DirEntry) (hq : q ≠ index)
    (hi : index < t1.length) (j : Nat) : ((t1.set index e').modify q f)[j]? =
      if j = index then some e' else if j = q then (t1[j]?).map f else t1[j]? := by
  rw [List.getElem?_modify]
  by_cases h1 : j = index
  · subst h1
    rw [if_pos rfl, List.getElem?_set_self (by simpa using hi)]
    show some (if q = j then f e' else e') = some e'
    rw [if_neg hq]
  · rw [if_neg h1, List.getElem?_set_ne (fun h => h1 h.symm)]
    by_cases h2 : j = q
    · subst h2
      rw [if_pos rfl]
      cases t1[j]? with
      | none => rfl
      | some x => show some (if j = j then f x else x) = some (f x); rw [if_pos rfl]
    · rw [if_neg h2]
      cases t1[j]? with
      | none => rfl
      | some x => show some (if q = j then f x else x) = some x; rw [if_neg (fun h => h2 h.symm)]

/-- A new entry is linked into a directory. -/
structure Added (abi : Abi) (t : DirTree) (kids : Nat → List Nat) (p : Nat) (name : WStr) (dir : Bool) (size : Nat) (index : Nat)
    (t' : DirTree) (kids' : Nat → List Nat) : Prop where
  shape : Shape abi t' kids'
  place : ∃ a b, kids p = a ++ b ∧ kids' = replaced kids p (a ++ index :: b)
  fresh : ∀ e, t[index]? = some e → e.valid = false
  entry : ∃ e, t'[index]? = some e ∧ e.valid = true ∧ e.name = name ∧ e.dir = dir ∧ e.size = size ∧ e.start = Eof
  old : ∀ (j : Nat) (e : DirEntry), j ≠ index → t[j]? = some e → ∃ e', t'[j]? = some e' ∧ Relinked e e'
  noNew : ∀ (j : Nat) (e' : DirEntry), j ≠ index → t'[j]? = some e' → ∃ e, t[j]? = some e
  length : t.length ≤ t'.length ∧ t'.length ≤ t.length + 1

theorem kids_valid {abi : Abi} {t : DirTree} {kids : Nat → List Nat} (S : Shape abi t kids) {i x : Nat} (hx : x ∈ kids i) :
    x ≠ 0 ∧ ∃ e, t[x]? = some e ∧ e.valid = true ∧ ∀ u ∈ e.name, u < 2 ^ (8 * abi.wcharBytes) := by
  by_cases hv : ∃ e, t[i]? = some e ∧ e.valid = true
  · obtain ⟨e, he, hv⟩ := hv
    obtain ⟨T, hT, hk⟩ := S.tree i e he hv
    rw [← hk] at hx
    have hlt := SibTree.below_lt hT.below x hx
    obtain ⟨h0, h1⟩ := hT.entries x hx
    exact ⟨h0, t[x], List.getElem?_eq_getElem hlt, h1 _ (List.getElem?_eq_getElem hlt)⟩
  · have := S.unused i (fun e he => by
      cases h : e.valid with
      | false => rfl
      | true => exact absurd ⟨e, he, h⟩ hv)
    rw [this] at hx
    simp at hx

theorem link_added {abi : Abi} (habi : abi = Abi.linux ∨ abi = Abi.windows) {t : DirTree} {kids : Nat → List Nat}
    (S : Shape abi t kids) {p : Nat} {pe : DirEntry} (hp : t[p]? = some pe) (hpv : pe.valid = true) {name : WStr}
    (hn : ∀ x ∈ name, x < 2 ^ (8 * abi.wcharBytes)) (hno : ∀ i ∈ kids p, entryName t i ≠ name) (dir : Bool) (size : Nat)
    (hshort : t.length < End) {e : DirEntry}
    (he : e = { valid := true, name, dir, size, start := Eof, child := End }) :
    ∃ closest t' changed kids', closestChild abi t p name = .ok closest ∧
      linkEntry abi (unusedEntry t).2 (unusedEntry t).1 p closest e = .ok (t', changed) ∧
      Added abi t kids p name dir size (unusedEntry t).1 t' kids' := by
  obtain ⟨u1, u2, u3, u4, u5, u6⟩ := unusedEntry_spec t
  generalize hidx : (unusedEntry t).1 = index at *
  generalize ht1 : (unusedEntry t).2 = t1 at *
  obtain ⟨T, hT, hk⟩ := S.tree p pe hp hpv
  have hpi : p ≠ index := fun h => by rw [h] at hp; rw [u6 _ hp] at hpv; cases hpv
  have hnotin : ∀ i, index ∉ kids i := fun i hx => by
    obtain ⟨_, e, h1, h2, _⟩ := kids_valid S hx
    rw [u6 _ h1] at h2
    cases h2
  have hplt : p < t.length := (List.getElem?_eq_some_iff.1 hp).1
  obtain ⟨r, hr, hrv, hrd⟩ := S.root
  have h0 : 0 ≠ index := fun h => by rw [h] at hr; rw [u6 _ hr] at hrv; cases hrv
  -- what is common to the two ways of linking
  have common : ∀ (q : Nat) (f : DirEntry → DirEntry) (e' : DirEntry) (a b : List Nat), q ≠ index → (∀ x, Relinked x (f x)) →
      Relinked e e' → e'.child = End → t1.length ≤ e'.prev → t1.length ≤ e'.next → (End ≤ e'.prev ∧ End ≤ e'.next) →
      kids p = a ++ b →
      (∀ x, ((f x).prev = x.prev ∨ (f x).prev = index) ∧ ((f x).next = x.next ∨ (f x).next = index) ∧
        ((f x).child = x.child ∨ (f x).child = index)) →
      (∀ i pi, i ≠ p → i ≠ index → t[i]? = some pi → pi.valid = true → i = q → (f pi).child = pi.child) →
      (∀ i, i ≠ p → q ∈ kids i → ∀ x, (f x).prev = x.prev ∧ (f x).next = x.next) →
      (∀ t', t' = (t1.set index e').modify q f → ∃ T', SibTree.Below t'.length (leftOf t') (rightOf t')
          (if p = q then (f pe).child else pe.child) T' ∧ T'.Ordered (before abi t') ∧ T'.inorder = a ++ index :: b) →
      Added abi t kids p name dir size index ((t1.set index e').modify q f) (replaced kids p (a ++ index :: b)) := by
    intro q f e' a b hq hf hee hch hpl hnl hend hab hlinks hchild hsame htree
    obtain ⟨T', b1, b2, b3⟩ := htree _ rfl
    have hlen : ((t1.set index e').modify q f).length = t1.length := by simp
    have hget : ∀ j, ((t1.set index e').modify q f)[j]? =
        if j = index then some e' else if j = q then (t[j]?).map f else t[j]? := by
      intro j
      rw [get_new t1 e' f hq u2 j]
      by_cases hj : j = index
      · rw [if_pos hj, if_pos hj]
      · rw [if_neg hj, if_neg hj, u1 j hj]
    generalize (t1.set index e').modify q f = t' at *
    have hold : ∀ (j : Nat) (x : DirEntry), j ≠ index → t[j]? = some x → ∃ x', t'[j]? = some x' ∧ Relinked x x' ∧
        (j ≠ q → x' = x) ∧ (j = q → x' = f x) := by
      intro j x hj hx
      rw [hget, if_neg hj, hx]
      by_cases hjq : j = q
      · rw [if_pos hjq]; exact ⟨f x, rfl, hf x, fun h => absurd hjq h, fun _ => rfl⟩
      · rw [if_neg hjq]; exact ⟨x, rfl, Relinked.refl x, fun _ => rfl, fun h => absurd h hjq⟩
    have hback : ∀ (j : Nat) (x' : DirEntry), j ≠ index → t'[j]? = some x' → ∃ x, t[j]? = some x := by
      intro j x' hj hx
      rw [hget, if_neg hj] at hx
      cases ht : t[j]? with
      | some x => exact ⟨x, rfl⟩
      | none => rw [ht] at hx; split at hx <;> cases hx
    have hnew : t'[index]? = some e' := by rw [hget, if_pos rfl]
    have hname : ∀ (j : Nat) (x : DirEntry), j ≠ index → t[j]? = some x → entryName t' j = entryName t j := by
      intro j x hj hx
      obtain ⟨x', h1, h2, _⟩ := hold j x hj hx
      simp [entryName, hx, h1, h2.name]
    -- a member of another tree
    have hunt : ∀ i, i ≠ p → ∀ T0 : SibTree, T0.inorder = kids i → Untouched t t' T0.inorder := by
      intro i hip T0 hT0
      have key : ∀ j ∈ T0.inorder, ∃ x x', t[j]? = some x ∧ t'[j]? = some x' ∧ x.valid = true ∧ x'.prev = x.prev ∧
          x'.next = x.next ∧ x'.name = x.name := by
        intro j hj
        rw [hT0] at hj
        obtain ⟨_, x, hx, hv, _⟩ := kids_valid S hj
        have hji : j ≠ index := fun h => hnotin i (h ▸ hj)
        obtain ⟨x', h1, h2, h3, h4⟩ := hold j x hji hx
        by_cases hjq : j = q
        · have := hsame i hip (hjq ▸ hj) x
          exact ⟨x, x', hx, h1, hv, by rw [h4 hjq]; exact this.1, by rw [h4 hjq]; exact this.2, h2.name⟩
        · exact ⟨x, x', hx, h1, hv, by rw [h3 hjq], by rw [h3 hjq], h2.name⟩
      refine ⟨fun j hj => ?_, fun j hj => ?_, fun j hj => ?_, fun j hj => ?_, fun j hj => ?_⟩ <;>
        obtain ⟨x, x', k1, k2, k3, k4, k5, k6⟩ := key j hj
      · simp [leftOf, k1, k2, k4]
      · simp [rightOf, k1, k2, k5]
      · simp [entryName, k1, k2, k6]
      · have := (S.links j x k1 k3).1
        simp only [leftOf, k1, Option.map_some, Option.getD_some]
        omega
      · have := (S.links j x k1 k3).2.1
        simp only [rightOf, k1, Option.map_some, Option.getD_some]
        omega
    have hsib : ∀ (T0 : SibTree), (∀ j ∈ T0.inorder, j = index ∨ ∃ i, j ∈ kids i) → ∀ j ∈ T0.inorder, j ≠ 0 ∧
        ∀ x, t'[j]? = some x → x.valid = true ∧ ∀ u ∈ x.name, u < 2 ^ (8 * abi.wcharBytes) := by
      intro T0 hT0 j hj
      rcases hT0 j hj with rfl | ⟨i, hi⟩
      · refine ⟨fun h => h0 h.symm, fun x hx => ?_⟩
        rw [hnew] at hx
        cases hx
        rw [hee.valid, hee.name, he]
        exact ⟨rfl, hn⟩
      · obtain ⟨j0, x, hx, hv, hu⟩ := kids_valid S hi
        refine ⟨j0, fun x' hx' => ?_⟩
        obtain ⟨x2, h1, h2, _⟩ := hold j x (fun h => hnotin i (h ▸ hi)) hx
        rw [h1] at hx'
        cases hx'
        rw [h2.valid, h2.name]
        exact ⟨hv, hu⟩
    refine ⟨⟨?_, ?_, ?_, ?_, ?_, ?_⟩, ⟨a, b, hab, rfl⟩, u6, ⟨e', hnew, ?_⟩, fun j x hj hx => ?_, hback, ?_⟩
    · intro i pi hpi' hpv'
      by_cases hii : i = index
      · subst hii
        rw [hnew] at hpi'
        cases hpi'
        refine ⟨.leaf, ⟨.leaf (by rw [hch]; omega), .leaf, by simp [SibTree.inorder]⟩, ?_⟩
        rw [replaced_ne _ _ (fun h => hpi h.symm)]
        exact (S.unused i u6).symm
      · obtain ⟨x, hx⟩ := hback i pi hii hpi'
        obtain ⟨x', h1, h2, h3, h4⟩ := hold i x hii hx
        rw [hpi'] at h1
        cases h1
        by_cases hip : i = p
        · subst hip
          rw [hp] at hx
          cases hx
          refine ⟨T', ⟨?_, b2, hsib T' fun j hj => ?_⟩, by rw [replaced_self, b3]⟩
          · by_cases hiq : i = q
            · rw [h4 hiq]; rw [if_pos hiq] at b1; exact b1
            · rw [h3 hiq]; rw [if_neg hiq] at b1; exact b1
          · rw [b3] at hj
            rcases List.mem_append.1 hj with hj | hj
            · exact Or.inr ⟨i, by rw [hab]; simp [hj]⟩
            · rcases List.mem_cons.1 hj with rfl | hj
              · exact Or.inl rfl
              · exact Or.inr ⟨i, by rw [hab]; simp [hj]⟩
        · rw [h2.valid] at hpv'
          obtain ⟨T0, hT0, hk0⟩ := S.tree i x hx hpv'
          have hu := hunt i hip T0 hk0
          have hc : pi.child = x.child := by
            by_cases hiq : i = q
            · rw [h4 hiq]; exact hchild i x hip hii hx hpv' hiq
            · rw [h3 hiq]
          refine ⟨T0, ⟨?_, ordered_untouched hT0.ordered hu.name, hsib T0 fun j hj => Or.inr ⟨i, by rw [← hk0]; exact hj⟩⟩, ?_⟩
          · rw [hc]
            have := (S.links i x hx hpv').2.2
            exact below_untouched (by omega) hT0.below hu (by omega)
          · rw [replaced_ne _ _ hip, hk0]
    · intro i j hij x hx
      have hm : ∀ {i x}, x ∈ replaced kids p (a ++ index :: b) i → x ∈ kids i ∨ (i = p ∧ x = index) := by
        intro i x hx
        by_cases hip : i = p
        · subst hip
          rw [replaced_self] at hx
          rcases List.mem_append.1 hx with hx | hx
          · exact Or.inl (by rw [hab]; simp [hx])
          · rcases List.mem_cons.1 hx with rfl | hx
            · exact Or.inr ⟨rfl, rfl⟩
            · exact Or.inl (by rw [hab]; simp [hx])
        · rw [replaced_ne _ _ hip] at hx
          exact Or.inl hx
      intro hy
      rcases hm hx with hx' | ⟨hx1, hx2⟩ <;> rcases hm hy with hy' | ⟨hy1, hy2⟩
      · exact S.apart i j hij x hx' hy'
      · exact hnotin i (hy2 ▸ hx')
      · exact hnotin j (hx2 ▸ hy')
      · exact hij (hx1.trans hy1.symm)
    · intro i hi
      have hip : i ≠ p := fun h => by
        subst h
        obtain ⟨x', h1, h2, _⟩ := hold i pe hpi hp
        rw [← h2.valid, hi x' h1] at hpv
        cases hpv
      rw [replaced_ne _ _ hip]
      refine S.unused i fun x hx => ?_
      by_cases hii : i = index
      · exact u6 x (hii ▸ hx)
      · obtain ⟨x', h1, h2, _⟩ := hold i x hii hx
        rw [← h2.valid]
        exact hi x' h1
    · intro j x' hx' hv'
      by_cases hji : j = index
      · subst hji
        rw [hnew] at hx'
        cases hx'
        rw [hch]
        exact ⟨Or.inr hend.1, Or.inr hend.2, Or.inr (Nat.le_refl _)⟩
      · obtain ⟨x, hx⟩ := hback j x' hji hx'
        obtain ⟨x2, h1, h2, h3, h4⟩ := hold j x hji hx
        rw [hx'] at h1
        cases h1
        rw [h2.valid] at hv'
        have hl := S.links j x hx hv'
        have hil : index < t'.length := by omega
        by_cases hjq : j = q
        · rw [h4 hjq]
          obtain ⟨k1, k2, k3⟩ := hlinks x
          omega
        · rw [h3 hjq]
          omega
    · omega
    · obtain ⟨x', h1, h2, _⟩ := hold 0 r h0 hr
      exact ⟨x', h1, by rw [h2.valid, hrv], by rw [h2.dir, hrd]⟩
    · rw [hee.valid, hee.name, hee.dir, hee.size, hee.start, he]
      exact ⟨rfl, rfl, rfl, rfl, rfl⟩
    · obtain ⟨x', h1, h2, _⟩ := hold j x hj hx
      exact ⟨x', h1, h2⟩
    · omega
  have hne : ∀ {x : DirEntry}, Relinked e x → x.name = name := fun h => by rw [h.name, he]
  have hplink := (S.links p pe hp hpv).2.2
  by_cases hc : pe.child < t.length
  · -- there are children
    obtain ⟨c, a, b, k1, k2, k3, k4, k5⟩ := findClosest_below habi hn hT.below hT.ordered hT.entries
      (fun i hi => hno i (by rw [← hk]; exact hi)) hc (t.length + 1) (by have := SibTree.below_height hT.below; omega)
    have hcl := SibTree.below_lt hT.below c k2
    have hck : c ∈ kids p := by rw [← hk]; exact k2
    obtain ⟨_, ce, hce, hcv, hcu⟩ := kids_valid S hck
    have hci : c ≠ index := fun h => hnotin p (h ▸ hck)
    have hce1 : t1[c]? = some ce := by rw [u1 c hci]; exact hce
    have hcn : entryName t c = ce.name := by simp [entryName, hce]
    have hcL : leftOf t c = ce.prev := by simp [leftOf, hce]
    have hcR : rightOf t c = ce.next := by simp [rightOf, hce]
    have hclinks := S.links c ce hce hcv
    have hclosest : closestChild abi t p name = .ok c := by
      unfold closestChild
      rw [hp]
      dsimp only
      rw [if_pos ⟨hpv, hc⟩, k1]
    have hcEnd : c ≠ End := by have := S.short; omega
    have hab : kids p = a ++ b := by rw [← hk, k3]
    -- the tree with the new entry
    have grow : ∀ (f : DirEntry → DirEntry) (e' : DirEntry), (∀ x, Relinked x (f x)) → Relinked e e' →
        t1.length ≤ e'.prev → t1.length ≤ e'.next →
        (NameBefore (wcharVal abi) name ce.name → ∀ x, (f x).prev = index ∧ (f x).next = x.next) →
        (NameBefore (wcharVal abi) ce.name name → ∀ x, (f x).next = index ∧ (f x).prev = x.prev) →
        (∀ x, (f x).child = x.child) →
        ∀ t', t' = (t1.set index e').modify c f → ∃ T', SibTree.Below t'.length (leftOf t') (rightOf t')
          (if p = c then (f pe).child else pe.child) T' ∧ T'.Ordered (before abi t') ∧ T'.inorder = a ++ index :: b := by
      intro f e' hf hee hpl hnl hleft hright hchild t' ht'
      rw [show (if p = c then (f pe).child else pe.child) = pe.child by rw [hchild]; split <;> rfl]
      have hget : ∀ j, t'[j]? = if j = index then some e' else if j = c then (t[j]?).map f else t[j]? := by
        intro j
        rw [ht', get_new t1 e' f hci u2 j]
        by_cases hj : j = index
        · rw [if_pos hj, if_pos hj]
        · rw [if_neg hj, if_neg hj, u1 j hj]
      have hlen : t'.length = t1.length := by rw [ht']; simp
      have hnew : t'[index]? = some e' := by rw [hget, if_pos rfl]
      have hc' : t'[c]? = some (f ce) := by rw [hget, if_neg hci, if_pos rfl, hce]; rfl
      have hother : ∀ j, j ≠ index → j ≠ c → t'[j]? = t[j]? := fun j h1 h2 => by rw [hget, if_neg h1, if_neg h2]
      have hin : ∀ j ∈ T.inorder, j ≠ index := fun j hj h => hnotin p (by rw [← hk]; exact h ▸ hj)
      have hlk : ∀ j ∈ T.inorder, (leftOf t j < t.length ∨ t'.length ≤ leftOf t j) ∧
          (rightOf t j < t.length ∨ t'.length ≤ rightOf t j) := by
        intro j hj
        obtain ⟨_, x, hx, hv, _⟩ := kids_valid S (hk ▸ hj : j ∈ kids p)
        have := S.links j x hx hv
        simp only [leftOf, rightOf, hx, Option.map_some, Option.getD_some]
        omega
      refine k5 t' index ⟨by omega, by omega, ?_, ?_, ?_, fun j hj hx => ?_, fun j hj hx => ?_, fun hb => ?_, fun hb => ?_,
        fun j hj => ?_, fun j hj => (hlk j hj).1, fun j hj => (hlk j hj).2⟩
      · simp [entryName, hnew, hne hee]
      · simp only [leftOf, hnew, Option.map_some, Option.getD_some]; omega
      · simp only [rightOf, hnew, Option.map_some, Option.getD_some]; omega
      · by_cases hjc : j = c
        · subst hjc
          have hnb : NameBefore (wcharVal abi) ce.name name := by
            rcases compare_spec abi habi ce name hcu hn with ⟨_, h⟩ | ⟨_, h⟩ | ⟨_, h⟩
            · exact absurd (by rw [hcn, h]) (hno j hck)
            · exact h
            · exact absurd ⟨rfl, by rw [hcn]; exact h⟩ hx
          simp [leftOf, hc', hce, (hright hnb ce).2]
        · unfold leftOf; rw [hother j (hin j hj) hjc]
      · by_cases hjc : j = c
        · subst hjc
          have hnb : NameBefore (wcharVal abi) name ce.name := by
            rcases compare_spec abi habi ce name hcu hn with ⟨_, h⟩ | ⟨_, h⟩ | ⟨_, h⟩
            · exact absurd (by rw [hcn, h]) (hno j hck)
            · exact absurd ⟨rfl, by rw [hcn]; exact h⟩ hx
            · exact h
          simp [rightOf, hc', hce, (hleft hnb ce).2]
        · unfold rightOf; rw [hother j (hin j hj) hjc]
      · rw [hcn] at hb
        simp [leftOf, hc', (hleft hb ce).1]
      · rw [hcn] at hb
        simp [rightOf, hc', (hright hb ce).1]
      · by_cases hjc : j = c
        · subst hjc; simp [entryName, hc', hce, (hf ce).name]
        · unfold entryName; rw [hother j (hin j hj) hjc]
    have hname : e.name = name := by rw [he]
    unfold linkEntry
    rcases compare_spec abi habi ce name hcu hn with ⟨_, h⟩ | ⟨hcmp, h⟩ | ⟨hcmp, h⟩
    · exact absurd (by rw [hcn, h]) (hno c hck)
    · have habs := k4.1 (by rw [hcn]; exact h)
      rw [hcR] at habs
      refine ⟨c, (t1.set index { e with prev := ce.next, next := End }).modify c fun x => { x with next := index }, c, _, hclosest, ?_,
        common c (fun x => { x with next := index }) { e with prev := ce.next, next := End } a b hci (fun x => by constructor <;> rfl)
          (by constructor <;> rfl) (by rw [he]) ?_ ?_ ?_ hab ?_ (fun _ _ _ _ _ _ _ => rfl) ?_ ?_⟩
      · rw [if_neg hcEnd, hce1]
        dsimp only
        rw [if_pos (by rw [hname]; exact hcmp)]
      · show t1.length ≤ ce.next; omega
      · show t1.length ≤ End; omega
      · exact ⟨show End ≤ ce.next by omega, Nat.le_refl _⟩
      · exact fun x => ⟨Or.inl rfl, Or.inr rfl, Or.inl rfl⟩
      · exact fun i hip hq => absurd hq (S.apart p i (fun hh => hip hh.symm) c hck)
      · refine grow _ _ (fun x => by constructor <;> rfl) (by constructor <;> rfl) (show t1.length ≤ ce.next by omega)
          (show t1.length ≤ End by omega) (fun hb => absurd hb (nameBefore_asymm h)) (fun _ x => ⟨rfl, rfl⟩) (fun x => rfl)
    · have habs := k4.2 (by rw [hcn]; exact h)
      rw [hcL] at habs
      refine ⟨c, (t1.set index { e with next := ce.prev, prev := End }).modify c fun x => { x with prev := index }, c, _, hclosest, ?_,
        common c (fun x => { x with prev := index }) { e with next := ce.prev, prev := End } a b hci (fun x => by constructor <;> rfl)
          (by constructor <;> rfl) (by rw [he]) ?_ ?_ ?_ hab ?_ (fun _ _ _ _ _ _ _ => rfl) ?_ ?_⟩
      · rw [if_neg hcEnd, hce1]
        dsimp only
        rw [if_neg (by rw [hname]; omega)]
      · show t1.length ≤ End; omega
      · show t1.length ≤ ce.prev; omega
      · exact ⟨Nat.le_refl _, show End ≤ ce.prev by omega⟩
      · exact fun x => ⟨Or.inr rfl, Or.inl rfl, Or.inl rfl⟩
      · exact fun i hip hq => absurd hq (S.apart p i (fun hh => hip hh.symm) c hck)
      · refine grow _ _ (fun x => by constructor <;> rfl) (by constructor <;> rfl) (show t1.length ≤ End by omega)
          (show t1.length ≤ ce.prev by omega) (fun _ x => ⟨rfl, rfl⟩) (fun hb => absurd hb (nameBefore_asymm h)) (fun x => rfl)
  · -- the first child
    have hleaf : T = .leaf := by
      cases hT.below with
      | leaf => rfl
      | node h => exact absurd h hc
    have hab : kids p = [] ++ [] := by rw [← hk, hleaf]; rfl
    have hclosest : closestChild abi t p name = .ok End := by
      unfold closestChild
      rw [hp]
      dsimp only
      rw [if_neg (fun h => hc h.2)]
    refine ⟨End, (t1.set index { e with prev := End, next := pe.child }).modify p fun x => { x with child := index }, p, _, hclosest, ?_,
      common p (fun x => { x with child := index }) { e with prev := End, next := pe.child } [] [] hpi (fun x => by constructor <;> rfl)
        (by constructor <;> rfl) (by rw [he]) ?_ ?_ ?_ hab ?_ ?_ ?_ ?_⟩
    · unfold linkEntry
      rw [if_pos rfl, u1 p hpi, hp]
    · show t1.length ≤ End; omega
    · show t1.length ≤ pe.child; omega
    · exact ⟨Nat.le_refl _, show End ≤ pe.child by omega⟩
    · exact fun x => ⟨Or.inl rfl, Or.inl rfl, Or.inr rfl⟩
    · exact fun i pi hip _ _ _ hiq => absurd hiq hip
    · exact fun i hip _ x => ⟨rfl, rfl⟩
    · intro t' ht'
      have hlen : t'.length = t1.length := by rw [ht']; simp
      have hnew : t'[index]? = some { e with prev := End, next := pe.child } := by
        rw [ht', get_new _ _ _ hpi u2, if_pos rfl]
      rw [if_pos rfl]
      refine ⟨.node .leaf index .leaf, .node (show index < t'.length by omega) (.leaf ?_) (.leaf ?_),
        .node (by simp [SibTree.inorder]) (by simp [SibTree.inorder]) .leaf .leaf, by simp [SibTree.inorder]⟩
      · simp only [leftOf, hnew, Option.map_some, Option.getD_some]; omega
      · simp only [rightOf, hnew, Option.map_some, Option.getD_some]; omega

end Fileid.Pole
