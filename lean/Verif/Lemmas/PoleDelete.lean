import Verif.Model.PoleDelete
import Verif.Lemmas.PoleServe

/-!
# Lemmas about deleting an entry of a directory
-/

namespace Fileid.Pole

open Spec Props

theorem below_congr {n : Nat} {L R L' R' : Nat → Nat} {link : Nat} {T : SibTree} (h : SibTree.Below n L R link T) :
    (∀ j ∈ T.inorder, L' j = L j ∧ R' j = R j) → SibTree.Below n L' R' link T := by
  induction h with
  | leaf h => exact fun _ => .leaf h
  | @node i l r hi _ _ ih1 ih2 =>
    intro hj
    obtain ⟨h1, h2⟩ := hj i (by simp [SibTree.inorder])
    refine .node hi ?_ ?_
    · rw [h1]; exact ih1 fun j hm => hj j (by simp [SibTree.inorder, hm])
    · rw [h2]; exact ih2 fun j hm => hj j (by simp [SibTree.inorder, hm])

/-- A tree below a link that is no entry is empty, also when the link is zero: the root is in no tree. -/
theorem below_none {n : Nat} {L R : Nat → Nat} {link : Nat} {T : SibTree} (h : SibTree.Below n L R link T) (h0 : 0 ∉ T.inorder)
    (hl : link = 0 ∨ n < link) : T = .leaf := by
  cases h with
  | leaf => rfl
  | @node i l r hi =>
    rcases hl with rfl | hl
    · exact absurd (by simp [SibTree.inorder]) h0
    · omega

theorem below_node {n : Nat} {L R : Nat → Nat} {link : Nat} {T : SibTree} (h : SibTree.Below n L R link T) (hl : link < n) :
    ∃ l r, T = .node l link r ∧ SibTree.Below n L R (L link) l ∧ SibTree.Below n L R (R link) r := by
  cases h with
  | leaf h => omega
  | @node i l r _ h1 h2 => exact ⟨l, r, rfl, h1, h2⟩

/-- Links lead to entries or are the mark for none. -/
def LinksOk (t : DirTree) (l : List Nat) : Prop :=
  ∀ j ∈ l, (leftOf t j < t.length ∨ End ≤ leftOf t j) ∧ (rightOf t j < t.length ∨ End ≤ rightOf t j)

theorem leftmost_below {t : DirTree} (hshort : t.length < End) {link : Nat} {T : SibTree}
    (h : SibTree.Below t.length (leftOf t) (rightOf t) link T) : link < t.length → leftOf t link < t.length →
    0 ∉ T.inorder → T.inorder.Nodup → LinksOk t T.inorder → ∀ f, T.height < f →
    ∃ s m rest, leftmost t f link = .ok (s, m) ∧ T.inorder = m :: rest ∧ s ∈ rest ∧
      ∀ L' R' : Nat → Nat, (∀ j ∈ rest, j ≠ s → L' j = leftOf t j) → L' s = rightOf t m → (∀ j ∈ rest, R' j = rightOf t j) →
        ∃ T', SibTree.Below t.length L' R' link T' ∧ T'.inorder = rest := by
  induction h with
  | leaf h => intro h'; omega
  | @node i l r hi hl hr ih1 _ =>
    intro _ hlt h0 hnd hlinks f hf
    obtain ⟨f, rfl⟩ : ∃ g, f = g + 1 := ⟨f - 1, by omega⟩
    obtain ⟨ll, lr, rfl, hll, hlr⟩ := below_node hl hlt
    simp only [SibTree.height] at hf
    generalize hx : leftOf t i = x at *
    have hX : t[x]? = some t[x] := List.getElem?_eq_getElem hlt
    have hXp : leftOf t x = t[x].prev := by simp [leftOf, hlt]
    have mx : x ∈ (SibTree.node (.node ll x lr) i r).inorder := by simp [SibTree.inorder]
    rw [leftmost, hx, hX]
    dsimp only
    by_cases hc : t[x].prev = 0 ∨ t[x].prev > t.length
    · rw [if_pos hc]
      have hleaf := below_none hll (fun hm => h0 (by simp [SibTree.inorder, hm])) (by rw [hXp]; omega)
      subst hleaf
      refine ⟨i, x, lr.inorder ++ i :: r.inorder, rfl, by simp [SibTree.inorder], by simp, fun L' R' hL hs hR => ?_⟩
      simp only [SibTree.inorder, List.nil_append, List.append_assoc, List.cons_append, List.nodup_cons, List.nodup_append] at hnd
      have hil : i ∉ lr.inorder := fun hm => hnd.2.2.2 i hm i (by simp) rfl
      have hir : i ∉ r.inorder := hnd.2.2.1.1
      refine ⟨.node lr i r, .node hi ?_ ?_, by simp [SibTree.inorder]⟩
      · rw [hs]
        exact below_congr hlr fun j hj => ⟨hL j (by simp [hj]) (fun h => hil (h ▸ hj)), hR j (by simp [hj])⟩
      · rw [hR i (by simp)]
        exact below_congr hr fun j hj => ⟨hL j (by simp [hj]) (fun h => hir (h ▸ hj)), hR j (by simp [hj])⟩
    · rw [if_neg hc]
      have hxl : leftOf t x < t.length := by
        rcases (hlinks x mx).1 with h | h
        · exact h
        · rw [hXp] at h; omega
      have ml : ∀ j ∈ (SibTree.node ll x lr).inorder, j ∈ (SibTree.node (.node ll x lr) i r).inorder := fun j hj => by
        rw [SibTree.inorder]; simp [hj]
      have hnd' := hnd
      rw [SibTree.inorder, List.append_assoc, List.nodup_append] at hnd'
      obtain ⟨s, m, rest, h1, h2, h3, h4⟩ := ih1 hlt hxl (fun hm => h0 (ml 0 hm)) hnd'.1 (fun j hj => hlinks j (ml j hj)) f
        (by simp only [SibTree.height]; omega)
      refine ⟨s, m, rest ++ i :: r.inorder, h1, by rw [SibTree.inorder, h2]; simp, by simp [h3], fun L' R' hL hs hR => ?_⟩
      obtain ⟨T', k1, k2⟩ := h4 L' R' (fun j hj hne => hL j (by simp [hj]) hne) hs (fun j hj => hR j (by simp [hj]))
      have hsin : s ∈ (SibTree.node ll x lr).inorder := by rw [h2]; simp [h3]
      have his : i ≠ s := fun h => hnd'.2.2 s hsin i (by simp) h.symm
      refine ⟨.node T' i r, .node hi ?_ ?_, by rw [SibTree.inorder, k2]; simp⟩
      · rw [hL i (by simp) his, hx]; exact k1
      · rw [hR i (by simp)]
        refine below_congr hr fun j hj => ⟨hL j (by simp [hj]) (fun h => ?_), hR j (by simp [hj])⟩
        exact hnd'.2.2 s hsin j (by simp [hj]) h.symm

/-- A link leads to an entry or is the mark for none. -/
def LinkOk (t : DirTree) (link : Nat) : Prop := link < t.length ∨ End ≤ link

theorem get_modify (t : DirTree) (i : Nat) (f : DirEntry → DirEntry) (j : Nat) :
    (t.modify i f)[j]? = if j = i then (t[j]?).map f else t[j]? := by
  rw [List.getElem?_modify]
  by_cases h : j = i
  · rw [if_pos h, h]
    cases t[i]? with
    | none => rfl
    | some x => show some (if i = i then f x else x) = _; rw [if_pos rfl]; rfl
  · rw [if_neg h]
    cases t[j]? with
    | none => rfl
    | some x => show some (if i = j then f x else x) = _; rw [if_neg (fun hc => h hc.symm)]

/-- Entries differ in their links among siblings only. -/
structure Resibbed (e e' : DirEntry) : Prop where
  relinked : Relinked e e'
  child : e'.child = e.child

theorem Resibbed.refl (e : DirEntry) : Resibbed e e := ⟨Relinked.refl e, rfl⟩

theorem takeOut_below {t : DirTree} (hshort : t.length < End) {i : Nat} {d : DirEntry} (hd : t[i]? = some d) {l r : SibTree}
    (hl : SibTree.Below t.length (leftOf t) (rightOf t) d.prev l) (hr : SibTree.Below t.length (leftOf t) (rightOf t) d.next r)
    (h0 : 0 ∉ l.inorder ++ i :: r.inorder) (hnd : (l.inorder ++ i :: r.inorder).Nodup)
    (hlinks : LinksOk t (l.inorder ++ i :: r.inorder)) :
    ∃ t1 repl marked, takeOut t d = .ok (t1, repl, marked) ∧ t1.length = t.length ∧ (∀ j, j ∉ r.inorder → t1[j]? = t[j]?) ∧
      (∀ (j : Nat) (e : DirEntry), t[j]? = some e → ∃ e', t1[j]? = some e' ∧ Resibbed e e') ∧
      (∀ j, (leftOf t1 j = leftOf t j ∨ LinkOk t (leftOf t1 j)) ∧ (rightOf t1 j = rightOf t j ∨ LinkOk t (rightOf t1 j))) ∧
      LinkOk t repl ∧ ∃ T', SibTree.Below t.length (leftOf t1) (rightOf t1) repl T' ∧ T'.inorder = l.inorder ++ r.inorder := by
  have hdl : leftOf t i = d.prev := by simp [leftOf, hd]
  have hdr : rightOf t i = d.next := by simp [rightOf, hd]
  have hpok : LinkOk t d.prev := by rw [← hdl]; exact (hlinks i (by simp)).1
  have hnok : LinkOk t d.next := by rw [← hdr]; exact (hlinks i (by simp)).2
  have h0r : 0 ∉ r.inorder := fun h => h0 (by simp [h])
  have hndr : r.inorder.Nodup := by
    rw [List.nodup_append, List.nodup_cons] at hnd
    exact hnd.2.1.2
  have hlr : ∀ j ∈ l.inorder, j ∉ r.inorder := fun j hj hj' => by
    rw [List.nodup_append] at hnd
    exact hnd.2.2 j hj j (by simp [hj']) rfl
  have mr : ∀ j ∈ r.inorder, j ∈ l.inorder ++ i :: r.inorder := fun j hj => by simp [hj]
  unfold takeOut
  by_cases hc : d.next = 0 ∨ d.next > t.length
  · rw [if_pos hc]
    have := below_none hr h0r (by omega)
    subst this
    exact ⟨t, d.prev, [], rfl, rfl, fun _ _ => rfl, fun j e he => ⟨e, he, Resibbed.refl e⟩, fun j => ⟨Or.inl rfl, Or.inl rfl⟩, hpok,
      l, hl, by simp [SibTree.inorder]⟩
  · rw [if_neg hc]
    have hn : d.next < t.length := by
      rcases hnok with h | h
      · exact h
      · omega
    obtain ⟨rl, rr, rfl, hrl, hrr⟩ := below_node hr hn
    generalize hx : d.next = x at *
    have mx : x ∈ (SibTree.node rl x rr).inorder := by simp [SibTree.inorder]
    have hX : t[x]? = some t[x] := List.getElem?_eq_getElem hn
    have hXp : leftOf t x = t[x].prev := by simp [leftOf, hn]
    rw [hX]
    dsimp only
    by_cases hc2 : t[x].prev = 0 ∨ t[x].prev > t.length
    · rw [if_pos hc2]
      have := below_none hrl (fun hm => h0r (by simp [SibTree.inorder, hm])) (by rw [hXp]; omega)
      subst this
      generalize ht1 : t.modify x (fun n => { n with prev := d.prev }) = t1
      have hget : ∀ j, t1[j]? = if j = x then (t[j]?).map (fun n => { n with prev := d.prev }) else t[j]? := fun j => by
        rw [← ht1]; exact get_modify _ _ _ _
      have hL : ∀ j, leftOf t1 j = if j = x then d.prev else leftOf t j := fun j => by
        unfold leftOf
        rw [hget]
        by_cases hj : j = x
        · rw [if_pos hj, if_pos hj, hj, hX]; rfl
        · rw [if_neg hj, if_neg hj]
      have hR : ∀ j, rightOf t1 j = rightOf t j := fun j => by
        unfold rightOf
        rw [hget]
        by_cases hj : j = x
        · rw [if_pos hj, hj, hX]; rfl
        · rw [if_neg hj]
      have hxr : x ∉ rr.inorder := by
        simp only [SibTree.inorder, List.nil_append, List.cons_append, List.nodup_cons] at hndr
        exact hndr.1
      refine ⟨t1, x, [x], rfl, by rw [← ht1]; simp, fun j hj => ?_, fun j e he => ?_, fun j => ⟨?_, Or.inl (hR j)⟩, Or.inl hn,
        .node l x rr, .node hn ?_ ?_, by simp [SibTree.inorder]⟩
      · rw [hget, if_neg (fun (h : j = x) => hj (h ▸ mx))]
      · rw [hget, he]
        by_cases hj : j = x
        · rw [if_pos hj]; exact ⟨_, rfl, ⟨by constructor <;> rfl, rfl⟩⟩
        · rw [if_neg hj]; exact ⟨e, rfl, Resibbed.refl e⟩
      · rw [hL]
        split
        · exact Or.inr hpok
        · exact Or.inl rfl
      · rw [hL, if_pos rfl]
        exact below_congr hl fun j hj => ⟨by rw [hL, if_neg (fun (h : j = x) => hlr j hj (h ▸ mx))], hR j⟩
      · rw [hR]
        exact below_congr hrr fun j hj => ⟨by rw [hL, if_neg (fun (h : j = x) => hxr (h ▸ hj))], hR j⟩
    · rw [if_neg hc2]
      have hxl : leftOf t x < t.length := by
        rcases (hlinks x (mr x mx)).1 with h | h
        · exact h
        · rw [hXp] at h; omega
      obtain ⟨s, m, rest, h1, h2, h3, h4⟩ := leftmost_below hshort hr hn hxl h0r hndr (fun j hj => hlinks j (mr j hj)) (t.length + 1)
        (by have := SibTree.below_height hr; omega)
      rw [h1, Res.bind_ok]
      dsimp only
      have hmr : m ∈ (SibTree.node rl x rr).inorder := by rw [h2]; simp
      have hsr : s ∈ (SibTree.node rl x rr).inorder := by rw [h2]; simp [h3]
      have hmlt : m < t.length := SibTree.below_lt hr m hmr
      have hslt : s < t.length := SibTree.below_lt hr s hsr
      have hmrest : m ∉ rest := by rw [h2] at hndr; exact (List.nodup_cons.1 hndr).1
      have hsm : s ≠ m := fun h => hmrest (h ▸ h3)
      generalize ht1 : (t.modify s fun e => { e with prev := rightOf t m }).modify m (fun e => { e with prev := d.prev, next := x }) = t1
      have hget : ∀ j, t1[j]? = if j = m then (t[j]?).map (fun e => { e with prev := d.prev, next := x }) else
          if j = s then (t[j]?).map (fun e => { e with prev := rightOf t m }) else t[j]? := fun j => by
        rw [← ht1, get_modify, get_modify]
        by_cases hj : j = m
        · rw [if_pos hj, if_pos hj, if_neg (fun h => hsm (h.symm.trans hj))]
        · rw [if_neg hj, if_neg hj]
      have hM : t[m]? = some t[m] := List.getElem?_eq_getElem hmlt
      have hS : t[s]? = some t[s] := List.getElem?_eq_getElem hslt
      have hL : ∀ j, leftOf t1 j = if j = m then d.prev else if j = s then rightOf t m else leftOf t j := fun j => by
        conv => lhs; unfold leftOf
        rw [hget]
        by_cases hj : j = m
        · rw [if_pos hj, if_pos hj, hj, hM]; rfl
        · rw [if_neg hj, if_neg hj]
          by_cases hj2 : j = s
          · rw [if_pos hj2, if_pos hj2, hj2, hS]; rfl
          · rw [if_neg hj2, if_neg hj2]; rfl
      have hR : ∀ j, rightOf t1 j = if j = m then x else rightOf t j := fun j => by
        conv => lhs; unfold rightOf
        rw [hget]
        by_cases hj : j = m
        · rw [if_pos hj, if_pos hj, hj, hM]; rfl
        · rw [if_neg hj, if_neg hj]
          by_cases hj2 : j = s
          · rw [if_pos hj2, hj2, hS]; simp [rightOf, hslt]
          · rw [if_neg hj2]; rfl
      obtain ⟨T', k1, k2⟩ := h4 (leftOf t1) (rightOf t1)
        (fun j hj hne => by rw [hL, if_neg (fun (h : j = m) => hmrest (h ▸ hj)), if_neg hne])
        (by rw [hL, if_neg hsm, if_pos rfl]) (fun j hj => by rw [hR, if_neg (fun (h : j = m) => hmrest (h ▸ hj))])
      refine ⟨t1, m, [s, m], rfl, by rw [← ht1]; simp, fun j hj => ?_, fun j e he => ?_, fun j => ⟨?_, ?_⟩, Or.inl hmlt,
        .node l m T', .node hmlt ?_ ?_, by rw [SibTree.inorder, k2, h2]; simp⟩
      · rw [hget, if_neg (fun (h : j = m) => hj (h ▸ hmr)), if_neg (fun (h : j = s) => hj (h ▸ hsr))]
      · rw [hget, he]
        by_cases hj : j = m
        · rw [if_pos hj]; exact ⟨_, rfl, ⟨by constructor <;> rfl, rfl⟩⟩
        · rw [if_neg hj]
          by_cases hj2 : j = s
          · rw [if_pos hj2]; exact ⟨_, rfl, ⟨by constructor <;> rfl, rfl⟩⟩
          · rw [if_neg hj2]; exact ⟨e, rfl, Resibbed.refl e⟩
      · rw [hL]
        split
        · exact Or.inr hpok
        · split
          · exact Or.inr (hlinks m (mr m hmr)).2
          · exact Or.inl rfl
      · rw [hR]
        split
        · exact Or.inr (Or.inl hn)
        · exact Or.inl rfl
      · rw [hL, if_pos rfl]
        refine below_congr hl fun j hj => ?_
        have hjm : j ≠ m := fun h => hlr j hj (h ▸ hmr)
        have hjs : j ≠ s := fun h => hlr j hj (h ▸ hsr)
        exact ⟨by rw [hL, if_neg hjm, if_neg hjs], by rw [hR, if_neg hjm]⟩
      · rw [hR, if_pos rfl]; exact k1

/-- The trees below the links of entry `i` are `l` and `r`; with the link to `i`, which is that of entry `s` (or `link` itself),
changed to `repl`, the tree is put together again. -/
structure Around (n : Nat) (L R : Nat → Nat) (link i : Nat) (T : SibTree) (s : Option Nat) (l r : SibTree) (a b : List Nat) : Prop where
  left : SibTree.Below n L R (L i) l
  right : SibTree.Below n L R (R i) r
  inorder : T.inorder = a ++ (l.inorder ++ i :: r.inorder) ++ b
  sib : ∀ x, s = some x → x ∈ a ++ b ∧ (R x = i ∨ L x = i)
  top : s = none → link = i
  again : ∀ (L' R' : Nat → Nat) (repl : Nat) (T2 : SibTree), SibTree.Below n L' R' repl T2 → T2.inorder = l.inorder ++ r.inorder →
    (∀ j ∈ a ++ b, some j ≠ s → L' j = L j ∧ R' j = R j) →
    (∀ x, s = some x → if R x = i then L' x = L x ∧ R' x = repl else L' x = repl ∧ R' x = R x) →
    ∃ T', SibTree.Below n L' R' (if s = none then repl else link) T' ∧ T'.inorder = a ++ (l.inorder ++ r.inorder) ++ b

theorem findSib_below {abi : Abi} (habi : abi = Abi.linux ∨ abi = Abi.windows) {t : DirTree} {i : Nat} {d : DirEntry}
    (hd : t[i]? = some d) (hdn : ∀ x ∈ d.name, x < 2 ^ (8 * abi.wcharBytes)) {link : Nat} {T : SibTree}
    (h : SibTree.Below t.length (leftOf t) (rightOf t) link T) : link ≠ i → T.Ordered (before abi t) →
    (∀ j ∈ T.inorder, j ≠ 0 ∧ ∀ e, t[j]? = some e → e.valid = true ∧ ∀ x ∈ e.name, x < 2 ^ (8 * abi.wcharBytes)) →
    i ∈ T.inorder → T.inorder.Nodup → ∀ f, T.height < f →
    ∃ s l r a b, findSib abi t i f link = .ok s ∧ s ≠ 0 ∧
      Around t.length (leftOf t) (rightOf t) link i T (some s) l r a b := by
  have hilt : i < t.length := (List.getElem?_eq_some_iff.1 hd).1
  induction h with
  | leaf h => intro _ _ _ hi; simp [SibTree.inorder] at hi
  | @node c l0 r0 hc hl hr ih1 ih2 =>
    intro hne hord hall hi hnd f hf
    obtain ⟨f, rfl⟩ : ∃ g, f = g + 1 := ⟨f - 1, by omega⟩
    simp only [SibTree.height] at hf
    have hC : t[c]? = some t[c] := List.getElem?_eq_getElem hc
    have hCl : leftOf t c = t[c].prev := by simp [leftOf, hc]
    have hCr : rightOf t c = t[c].next := by simp [rightOf, hc]
    have hCn : entryName t c = t[c].name := by simp [entryName, hc]
    have hdname : entryName t i = d.name := by simp [entryName, hd]
    have mc : c ∈ (SibTree.node l0 c r0).inorder := by simp [SibTree.inorder]
    have ml : ∀ j ∈ l0.inorder, j ∈ (SibTree.node l0 c r0).inorder := fun j hj => by simp [SibTree.inorder, hj]
    have mr : ∀ j ∈ r0.inorder, j ∈ (SibTree.node l0 c r0).inorder := fun j hj => by simp [SibTree.inorder, hj]
    have hcv := (hall c mc).2 _ hC
    have hnd' := hnd
    rw [SibTree.inorder, List.append_assoc, List.nodup_append] at hnd'
    obtain ⟨ndl, ndcr, ndx⟩ := hnd'
    rw [List.singleton_append, List.nodup_cons] at ndcr
    have hcl : c ∉ l0.inorder := fun h => ndx c h c (by simp) rfl
    have hcr : c ∉ r0.inorder := ndcr.1
    have hlr : ∀ j ∈ l0.inorder, j ∉ r0.inorder := fun j hj hj' => ndx j hj j (by simp [hj']) rfl
    rw [findSib, hC]
    dsimp only
    rw [if_neg (by rw [hcv.1]; simp)]
    by_cases hlink : t[c].next = i ∨ t[c].prev = i
    · rw [if_pos hlink]
      by_cases hR : rightOf t c = i
      · rw [hR] at hr
        obtain ⟨l, r, rfl, h1, h2⟩ := below_node hr hilt
        refine ⟨c, l, r, l0.inorder ++ [c], [], rfl, (hall c mc).1, h1, h2, by simp [SibTree.inorder], fun x hx => ?_, by simp,
          fun L' R' repl T2 hT2 hin hsame hs => ?_⟩
        · cases hx; exact ⟨by simp, Or.inl hR⟩
        · obtain ⟨k1, k2⟩ := by have := hs c rfl; rw [if_pos hR] at this; exact this
          rw [if_neg (by simp)]
          refine ⟨.node l0 c T2, .node hc ?_ (by rw [k2]; exact hT2), by simp [SibTree.inorder, hin]⟩
          rw [k1]
          exact below_congr hl fun j hj => hsame j (by simp [hj]) (fun h => by cases h; exact hcl hj)
      · have hL : leftOf t c = i := by
          rcases hlink with h | h
          · exact absurd (hCr.trans h) hR
          · rw [hCl]; exact h
        rw [hL] at hl
        obtain ⟨l, r, rfl, h1, h2⟩ := below_node hl hilt
        refine ⟨c, l, r, [], c :: r0.inorder, rfl, (hall c mc).1, h1, h2, by simp [SibTree.inorder], fun x hx => ?_, by simp,
          fun L' R' repl T2 hT2 hin hsame hs => ?_⟩
        · cases hx; exact ⟨by simp, Or.inr hL⟩
        · obtain ⟨k1, k2⟩ := by have := hs c rfl; rw [if_neg hR] at this; exact this
          rw [if_neg (by simp)]
          refine ⟨.node T2 c r0, .node hc (by rw [k1]; exact hT2) ?_, by simp [SibTree.inorder, hin]⟩
          rw [k2]
          exact below_congr hr fun j hj => hsame j (by simp [hj]) (fun h => by cases h; exact hcr hj)
    · rw [if_neg hlink, hd]
      dsimp only
      cases hord with
      | node o1 o2 o3 o4 =>
        have hic : i ≠ c := fun h => hne h.symm
        rcases compare_spec abi habi t[c] d.name hcv.2 hdn with ⟨_, he⟩ | ⟨hcmp, he⟩ | ⟨hcmp, he⟩
        · exfalso
          rw [SibTree.inorder] at hi
          rcases List.mem_append.1 hi with hi | hi
          · rcases List.mem_append.1 hi with hi | hi
            · have := o1 i hi; unfold before at this; rw [hdname, hCn, he] at this; exact nameBefore_irrefl this
            · simp at hi; exact hic hi
          · have := o2 i hi; unfold before at this; rw [hdname, hCn, he] at this; exact nameBefore_irrefl this
        · rw [if_neg (by omega)]
          rw [← hCn, ← hdname] at he
          have hir : i ∈ r0.inorder := by
            rw [SibTree.inorder] at hi
            rcases List.mem_append.1 hi with hi | hi
            · rcases List.mem_append.1 hi with hi | hi
              · exact absurd (o1 i hi) (nameBefore_asymm he)
              · simp at hi; exact absurd hi hic
            · exact hi
          obtain ⟨s, l, r, a, b, k1, k0, A⟩ := ih2 (fun h => hlink (Or.inl (hCr ▸ h))) o4 (fun j hj => hall j (mr j hj)) hir ndcr.2 f (by omega)
          rw [hCr] at k1
          obtain ⟨hsab, hsl⟩ := A.sib s rfl
          have hsr : s ∈ r0.inorder := by rw [A.inorder]; rcases List.mem_append.1 hsab with h | h <;> simp [h]
          refine ⟨s, l, r, l0.inorder ++ c :: a, b, k1, k0, A.left, A.right, by rw [SibTree.inorder, A.inorder]; simp, fun x hx => ?_, by simp,
            fun L' R' repl T2 hT2 hin hsame hs => ?_⟩
          · cases hx
            refine ⟨?_, hsl⟩
            rcases List.mem_append.1 hsab with h | h <;> simp [h]
          · obtain ⟨T', q1, q2⟩ := A.again L' R' repl T2 hT2 hin (fun j hj => hsame j (by
              rcases List.mem_append.1 hj with h | h <;> simp [h])) hs
            rw [if_neg (by simp)] at q1 ⊢
            obtain ⟨z1, z2⟩ := hsame c (by simp) (fun h => by cases h; exact hcr hsr)
            refine ⟨.node l0 c T', .node hc ?_ (by rw [z2]; exact q1), by rw [SibTree.inorder, q2]; simp⟩
            rw [z1]
            exact below_congr hl fun j hj => hsame j (by simp [hj]) (fun h => by cases h; exact hlr _ hj hsr)
        · rw [if_pos hcmp]
          rw [← hCn, ← hdname] at he
          have hil : i ∈ l0.inorder := by
            rw [SibTree.inorder] at hi
            rcases List.mem_append.1 hi with hi | hi
            · rcases List.mem_append.1 hi with hi | hi
              · exact hi
              · simp at hi; exact absurd hi hic
            · exact absurd (o2 i hi) (nameBefore_asymm he)
          obtain ⟨s, l, r, a, b, k1, k0, A⟩ := ih1 (fun h => hlink (Or.inr (hCl ▸ h))) o3 (fun j hj => hall j (ml j hj)) hil ndl f (by omega)
          rw [hCl] at k1
          obtain ⟨hsab, hsl⟩ := A.sib s rfl
          have hsl0 : s ∈ l0.inorder := by rw [A.inorder]; rcases List.mem_append.1 hsab with h | h <;> simp [h]
          refine ⟨s, l, r, a, b ++ c :: r0.inorder, k1, k0, A.left, A.right, by rw [SibTree.inorder, A.inorder]; simp, fun x hx => ?_, by simp,
            fun L' R' repl T2 hT2 hin hsame hs => ?_⟩
          · cases hx
            refine ⟨?_, hsl⟩
            rcases List.mem_append.1 hsab with h | h <;> simp [h]
          · obtain ⟨T', q1, q2⟩ := A.again L' R' repl T2 hT2 hin (fun j hj => hsame j (by
              rcases List.mem_append.1 hj with h | h <;> simp [h])) hs
            rw [if_neg (by simp)] at q1 ⊢
            obtain ⟨z1, z2⟩ := hsame c (by simp) (fun h => by cases h; exact hcl hsl0)
            refine ⟨.node T' c r0, .node hc (by rw [z1]; exact q1) ?_, by rw [SibTree.inorder, q2]; simp⟩
            rw [z2]
            exact below_congr hr fun j hj => hsame j (by simp [hj]) (fun h => by cases h; exact hlr _ hsl0 hj)

/-! ## The directory without an entry -/

/-- An entry without entries below it is taken out of a directory. -/
structure Removed (abi : Abi) (t : DirTree) (kids : Nat → List Nat) (p i : Nat) (t' : DirTree) (kids' : Nat → List Nat) : Prop where
  shape : Shape abi t' kids'
  place : ∃ a b, kids p = a ++ i :: b ∧ i ∉ a ++ b ∧ kids' = replaced kids p (a ++ b)
  gone : ∃ e, t'[i]? = some e ∧ e.valid = false
  old : ∀ (j : Nat) (e : DirEntry), j ≠ i → t[j]? = some e → ∃ e', t'[j]? = some e' ∧ Relinked e e'
  length : t'.length = t.length

/-- What is known of the directory after the change. -/
structure Cut (t : DirTree) (kids : Nat → List Nat) (p i : Nat) (t' : DirTree) (list : List Nat) : Prop where
  length : t'.length = t.length
  gone : ∃ e, t'[i]? = some e ∧ e.valid = false
  old : ∀ (j : Nat) (e : DirEntry), j ≠ i → t[j]? = some e → ∃ e', t'[j]? = some e' ∧ Relinked e e' ∧ (j ≠ p → e'.child = e.child) ∧
    (j ∉ kids p → e'.prev = e.prev ∧ e'.next = e.next) ∧ (e'.prev = e.prev ∨ LinkOk t e'.prev) ∧ (e'.next = e.next ∨ LinkOk t e'.next) ∧
    (e'.child = e.child ∨ LinkOk t e'.child)
  tree : ∃ e' T', t'[p]? = some e' ∧ SibTree.Below t.length (leftOf t') (rightOf t') e'.child T' ∧ T'.inorder = list

theorem before_pairwise {abi : Abi} {t : DirTree} {T : SibTree} (h : T.Ordered (before abi t)) : T.inorder.Pairwise (before abi t) :=
  ordered_pairwise (before := before abi t) (fun _ _ _ h1 h2 => by unfold before at *; exact nameBefore_trans h1 h2) h

theorem before_nodup {abi : Abi} {t : DirTree} {T : SibTree} (h : T.Ordered (before abi t)) : T.inorder.Nodup :=
  (before_pairwise h).imp fun {a b} hab hc => by subst hc; exact nameBefore_irrefl hab

theorem pairwise_ordered {q : Nat → Nat → Prop} (T : SibTree) : T.inorder.Pairwise q → T.Ordered q := by
  induction T with
  | leaf => exact fun _ => .leaf
  | node l i r ih1 ih2 =>
    intro h
    rw [SibTree.inorder, List.append_assoc, List.pairwise_append, List.singleton_append, List.pairwise_cons] at h
    exact .node (fun j hj => h.2.2 j hj i (by simp)) h.2.1.1 (ih1 h.1) (ih2 h.2.1.2)

theorem cut_removed {abi : Abi} {t t' : DirTree} {kids : Nat → List Nat} (S : Shape abi t kids) {p i : Nat} {a b : List Nat}
    (hk : kids p = a ++ i :: b) (hnd : (kids p).Nodup) (hpi : p ≠ i) (hpk : p ∉ kids p) (hleaf : kids i = []) (C : Cut t kids p i t' (a ++ b)) :
    Removed abi t kids p i t' (replaced kids p (a ++ b)) := by
  have hik : i ∈ kids p := by rw [hk]; simp
  have hsub : ∀ x ∈ a ++ b, x ∈ kids p := fun x hx => by
    rw [hk]
    rcases List.mem_append.1 hx with h | h <;> simp [h]
  have hin : i ∉ a ++ b := by
    rw [hk, List.nodup_append, List.nodup_cons] at hnd
    intro h
    rcases List.mem_append.1 h with h | h
    · exact hnd.2.2 i h i (by simp) rfl
    · exact hnd.2.1.1 h
  obtain ⟨g, hg, hgv⟩ := C.gone
  have hi0 : i ≠ 0 := (kids_valid S hik).1
  have hname : ∀ j, j ≠ i → entryName t' j = entryName t j := fun j hj => by
    unfold entryName
    cases he : t[j]? with
    | none =>
      have : t'[j]? = none := by
        rw [List.getElem?_eq_none_iff] at he ⊢
        rw [C.length]
        exact he
      rw [this]
    | some e =>
      obtain ⟨e', h1, h2, _⟩ := C.old j e hj he
      rw [h1]
      show e'.name = e.name
      exact h2.name
  have hkin : ∀ j x, j ≠ p → x ∈ kids j → x ≠ i ∧ x ∉ kids p := fun j x hj hx =>
    ⟨fun h => S.apart j p hj x hx (h ▸ hik), S.apart j p hj x hx⟩
  have hback : ∀ (j : Nat) (e' : DirEntry), j ≠ i → t'[j]? = some e' → ∃ e, t[j]? = some e := fun j e' _ h => by
    have := (List.getElem?_eq_some_iff.1 h).1
    rw [C.length] at this
    exact ⟨_, List.getElem?_eq_getElem this⟩
  have hentries : ∀ j x, x ∈ kids j → x ≠ i → x ≠ 0 ∧ ∀ e, t'[x]? = some e → e.valid = true ∧
      ∀ u ∈ e.name, u < 2 ^ (8 * abi.wcharBytes) := fun j x hx hxi => by
    obtain ⟨h1, e, h2, h3, h4⟩ := kids_valid S hx
    refine ⟨h1, fun e' he' => ?_⟩
    obtain ⟨e'', h5, h6, _⟩ := C.old x e hxi h2
    rw [h5] at he'
    cases he'
    exact ⟨by rw [h6.valid]; exact h3, by rw [h6.name]; exact h4⟩
  refine ⟨⟨?_, ?_, ?_, ?_, ?_, ?_⟩, ⟨a, b, hk, hin, rfl⟩, ⟨g, hg, hgv⟩, fun j e hj he => ?_, C.length⟩
  · intro j e' he' hv'
    have hji : j ≠ i := fun h => by rw [h, hg] at he'; cases he'; rw [hgv] at hv'; cases hv'
    obtain ⟨e, he⟩ := hback j e' hji he'
    obtain ⟨e'', h1, h2, h3, _⟩ := C.old j e hji he
    rw [h1] at he'
    cases he'
    obtain ⟨T, hT, hTk⟩ := S.tree j e he (by rw [← h2.valid]; exact hv')
    by_cases hjp : j = p
    · subst hjp
      obtain ⟨pe, T', q1, q2, q3⟩ := C.tree
      rw [h1] at q1
      cases q1
      refine ⟨T', ⟨by rw [C.length]; exact q2, ?_, fun x hx => ?_⟩, by rw [replaced_self]; exact q3⟩
      · refine pairwise_ordered T' ?_
        rw [q3]
        have hp := before_pairwise hT.ordered
        rw [hTk, hk] at hp
        have hp' : (a ++ b).Pairwise (before abi t) := hp.sublist (by simp)
        exact hp'.imp_of_mem fun {x y} hx hy hxy => by
          unfold before at hxy
          rw [hname x (fun h => hin (h ▸ hx)), hname y (fun h => hin (h ▸ hy))]
          exact hxy
      · rw [q3] at hx
        exact hentries j x (hsub x hx) (fun h => hin (h ▸ hx))
    · refine ⟨T, ⟨?_, ?_, fun x hx => ?_⟩, by rw [replaced_ne _ _ hjp]; exact hTk⟩
      · rw [C.length, h3 hjp]
        refine below_congr hT.below fun x hx => ?_
        rw [hTk] at hx
        obtain ⟨_, ex, hex, _⟩ := kids_valid S hx
        obtain ⟨ex', r1, _, _, r2, _⟩ := C.old x ex (hkin j x hjp hx).1 hex
        obtain ⟨r3, r4⟩ := r2 (hkin j x hjp hx).2
        simp [leftOf, rightOf, r1, hex, r3, r4]
      · refine ordered_names hT.ordered fun x hx y hy hxy => ?_
        rw [hTk] at hx hy
        rw [hname x (hkin j x hjp hx).1, hname y (hkin j y hjp hy).1]
        exact hxy
      · rw [hTk] at hx
        exact hentries j x hx (hkin j x hjp hx).1
  · intro x y hxy z hz
    by_cases hx : x = p
    · subst hx
      rw [replaced_self] at hz
      rw [replaced_ne _ _ (fun h => hxy h.symm)]
      exact S.apart x y hxy z (hsub z hz)
    · rw [replaced_ne _ _ hx] at hz
      by_cases hy : y = p
      · subst hy
        rw [replaced_self]
        exact fun hm => S.apart x y hxy z hz (hsub z hm)
      · rw [replaced_ne _ _ hy]
        exact S.apart x y hxy z hz
  · intro j hj
    by_cases hjp : j = p
    · subst hjp
      exfalso
      by_cases hv : ∃ e, t[j]? = some e ∧ e.valid = true
      · obtain ⟨e, he, hv⟩ := hv
        obtain ⟨e', h1, h2, _⟩ := C.old j e hpi he
        have := hj e' h1
        rw [h2.valid, hv] at this
        cases this
      · have := S.unused j (fun e he => by
          cases hx : e.valid with
          | false => rfl
          | true => exact absurd ⟨e, he, hx⟩ hv)
        rw [this] at hik
        simp at hik
    · rw [replaced_ne _ _ hjp]
      by_cases hji : j = i
      · rw [hji]; exact hleaf
      · refine S.unused j fun e he => ?_
        obtain ⟨e', h1, h2, _⟩ := C.old j e hji he
        rw [← h2.valid]
        exact hj e' h1
  · intro j e' he' hv'
    have hji : j ≠ i := fun h => by rw [h, hg] at he'; cases he'; rw [hgv] at hv'; cases hv'
    obtain ⟨e, he⟩ := hback j e' hji he'
    obtain ⟨e'', h1, h2, _, _, h4, h5, h6⟩ := C.old j e hji he
    rw [h1] at he'
    cases he'
    obtain ⟨l1, l2, l3⟩ := S.links j e he (by rw [← h2.valid]; exact hv')
    rw [C.length]
    refine ⟨?_, ?_, ?_⟩
    · rcases h4 with h | h
      · rw [h]; exact l1
      · exact h
    · rcases h5 with h | h
      · rw [h]; exact l2
      · exact h
    · rcases h6 with h | h
      · rw [h]; exact l3
      · exact h
  · rw [C.length]; exact S.short
  · obtain ⟨r, h1, h2, h3⟩ := S.root
    obtain ⟨r', q1, q2, _⟩ := C.old 0 r (fun h => hi0 h.symm) h1
    exact ⟨r', q1, by rw [q2.valid]; exact h2, by rw [q2.dir]; exact h3⟩
  · obtain ⟨e', h1, h2, _⟩ := C.old j e hj he
    exact ⟨e', h1, h2⟩

theorem parentName_path {q : List WStr} {n : WStr} (hn : 47 ∉ n ∧ n ≠ []) : parentName (pathText (q ++ [n])) = pathText q := by
  have hpt : pathText (q ++ [n]) = (q.flatMap fun n => 47 :: n) ++ 47 :: n := by
    unfold pathText
    rw [if_neg (by simp)]
    simp
  have hhead : (pathText (q ++ [n])).head? = some 47 := by
    rw [hpt]
    cases q with
    | nil => rfl
    | cons m q => rw [List.flatMap_cons]; rfl
  obtain ⟨last, hlast⟩ : ∃ x, n.getLast? = some x := by
    cases h : n.getLast? with
    | none => exact absurd (List.getLast?_eq_none_iff.1 h) hn.2
    | some x => exact ⟨x, rfl⟩
  have hlast47 : last ≠ 47 := fun h => hn.1 (h ▸ List.mem_of_getLast? hlast)
  have hgl : (pathText (q ++ [n])).getLast? = some last := by
    rw [hpt, List.getLast?_append, List.getLast?_cons, hlast]
    rfl
  unfold parentName
  dsimp only
  have hnot : ¬ (pathText (q ++ [n])).getLast? = some 47 := by rw [hgl]; simpa using hlast47
  rw [if_pos hhead, if_neg hnot, hpt]
  have hrev : ((((q.flatMap fun n => 47 :: n) ++ 47 :: n).reverse.dropWhile (fun x => decide (x ≠ 47))).drop 1).reverse =
      q.flatMap fun n => 47 :: n := by
    rw [List.reverse_append, List.reverse_cons, List.append_assoc, List.singleton_append, List.dropWhile_append_of_pos]
    · simp
    · intro x hx
      rw [List.mem_reverse] at hx
      simp only [ne_eq, decide_not, Bool.not_eq_eq_eq_not, Bool.not_true, decide_eq_false_iff_not]
      exact fun h => hn.1 (h ▸ hx)
  rw [hrev]
  unfold pathText
  cases q with
  | nil => rfl
  | cons m q => rw [if_neg (by simp [List.flatMap_cons]), if_neg (by simp)]

theorem findParent_around {abi : Abi} (habi : abi = Abi.linux ∨ abi = Abi.windows) {t : DirTree} {kids : Nat → List Nat}
    (S : Shape abi t kids) {q : List WStr} {p i : Nat} {pe : DirEntry} (hq : PathOk abi q) (hp : Resolves kids (entryName t) 0 q p)
    (hpe : t[p]? = some pe) (hi : i ∈ kids p) (hn : 47 ∉ entryName t i ∧ entryName t i ≠ []) {T : SibTree}
    (hT : Siblings abi t pe.child T) (hk : T.inorder = kids p) :
    ∃ s l r a b, findParentAndSib abi t i (pathText (q ++ [entryName t i])) = .ok (p, s.getD 0) ∧ (∀ x, s = some x → x ≠ 0) ∧
      Around t.length (leftOf t) (rightOf t) pe.child i T s l r a b := by
  obtain ⟨hi0, d, hd, hdv, hdn⟩ := kids_valid S hi
  have hilt : i < t.length := (List.getElem?_eq_some_iff.1 hd).1
  have hlook : entryIdx abi t (pathText q) = .ok (some p) := by
    rcases lookup habi S hq with ⟨k, h1, h2⟩ | ⟨h1, _⟩
    · rw [h2, resolves_entry S h1 hp]
    · exact absurd hp (h1 p)
  have hlen : 2 ≤ (pathText (q ++ [entryName t i])).length := by
    unfold pathText
    rw [if_neg (by simp)]
    simp only [List.flatMap_append, List.flatMap_cons, List.flatMap_nil, List.append_nil, List.length_append, List.length_cons]
    have := List.length_pos_iff.2 hn.2
    omega
  unfold findParentAndSib
  rw [if_neg, parentName_path hn, hlook, Res.bind_ok]
  · dsimp only
    rw [hpe]
    dsimp only
    by_cases hc : pe.child = i
    · rw [if_pos hc]
      have hb := hT.below
      rw [hc] at hb
      obtain ⟨l, r, rfl, h1, h2⟩ := below_node hb hilt
      refine ⟨none, l, r, [], [], rfl, by simp, h1, h2, by simp [SibTree.inorder], by simp, fun _ => hc,
        fun L' R' repl T2 hT2 hin _ _ => ⟨T2, by rw [if_pos rfl]; exact hT2, by simp [hin]⟩⟩
    · rw [if_neg hc]
      obtain ⟨s, l, r, a, b, h1, h2, h3⟩ := findSib_below habi hd hdn hT.below hc hT.ordered hT.entries (by rw [hk]; exact hi)
        (before_nodup hT.ordered) (t.length + 1) (by have := SibTree.below_height hT.below; omega)
      rw [h1, Res.bind_ok]
      exact ⟨some s, l, r, a, b, rfl, fun x hx => by cases hx; exact h2, h3⟩
  · rintro (h | h | h | h)
    · exact hi0 h
    · omega
    · rw [h] at hlen; simp at hlen
    · rw [h] at hlen; simp at hlen

/-- Deleting an entry without entries below it takes it out of the directory. -/
theorem deleteEntry_removed {abi : Abi} (habi : abi = Abi.linux ∨ abi = Abi.windows) {t : DirTree} {kids : Nat → List Nat}
    (S : Shape abi t kids) (hshort : t.length < End) {q : List WStr} {p i : Nat} (hq : PathOk abi q)
    (hp : Resolves kids (entryName t) 0 q p) (hi : i ∈ kids p) (hn : 47 ∉ entryName t i ∧ entryName t i ≠ []) (hleaf : kids i = []) :
    ∃ t' marked kids', deleteEntry abi t i (pathText (q ++ [entryName t i])) = .ok (t', marked) ∧ Removed abi t kids p i t' kids' := by
  obtain ⟨pe, hpe, hpv⟩ := resolves_valid S hp
  obtain ⟨T, hT, hk⟩ := S.tree p pe hpe hpv
  obtain ⟨hi0, d, hd, hdv, hdn⟩ := kids_valid S hi
  have hilt : i < t.length := (List.getElem?_eq_some_iff.1 hd).1
  have hplt : p < t.length := (List.getElem?_eq_some_iff.1 hpe).1
  have hpath := resolves_snoc hp hi
  have hpi : p ≠ i := fun h => by
    subst h
    have := congrArg List.length (resolves_path S _ rfl hp hpath)
    simp at this
  have hpk : p ∉ kids p := fun h => by
    have := congrArg List.length (resolves_path S _ rfl hp (resolves_snoc hp h))
    simp at this
  have hnd : (kids p).Nodup := by rw [← hk]; exact before_nodup hT.ordered
  obtain ⟨s, l, r, a, b, h1, h2, A⟩ := findParent_around habi S hq hp hpe hi hn hT hk
  have hTin := A.inorder
  rw [hk] at hTin
  have hmid : ∀ j ∈ l.inorder ++ i :: r.inorder, j ∈ kids p := fun j hj => by
    rw [hTin, List.append_assoc]
    exact List.mem_append_right _ (List.mem_append_left _ hj)
  have hout : ∀ j ∈ a ++ b, j ∈ kids p := fun j hj => by
    rw [hTin]
    rcases List.mem_append.1 hj with h | h <;> simp [h]
  have hndm : (l.inorder ++ i :: r.inorder).Nodup := by
    rw [hTin, List.append_assoc, List.nodup_append] at hnd
    exact (List.nodup_append.1 hnd.2.1).1
  have hsep : ∀ j ∈ a ++ b, j ∉ l.inorder ++ i :: r.inorder := fun j hj hm => by
    rw [hTin, List.append_assoc, List.nodup_append] at hnd
    rcases List.mem_append.1 hj with h | h
    · exact hnd.2.2 j h j (List.mem_append_left _ hm) rfl
    · exact (List.nodup_append.1 hnd.2.1).2.2 j hm j h rfl
  have hlinks : ∀ j ∈ kids p, LinkOk t (leftOf t j) ∧ LinkOk t (rightOf t j) := fun j hj => by
    obtain ⟨_, e, he, hv, _⟩ := kids_valid S hj
    obtain ⟨l1, l2, _⟩ := S.links j e he hv
    simp only [leftOf, rightOf, he, Option.map_some, Option.getD_some]
    exact ⟨l1, l2⟩
  have hdl : leftOf t i = d.prev := by simp [leftOf, hd]
  have hdr : rightOf t i = d.next := by simp [rightOf, hd]
  obtain ⟨t1, repl, marked, k1, k2, k3, k4, k5, k6, T2, k7, k8⟩ := takeOut_below hshort hd (by rw [← hdl]; exact A.left)
    (by rw [← hdr]; exact A.right) (fun h => (kids_valid S (hmid 0 h)).1 rfl) hndm (fun j hj => hlinks j (hmid j hj))
  unfold deleteEntry
  rw [h1, Res.bind_ok]
  dsimp only
  rw [hd]
  dsimp only
  rw [k1, Res.bind_ok]
  dsimp only
  generalize ht2 : putIn t1 i p (s.getD 0) repl = t2
  generalize ht3 : t2.1.modify i (fun e => { e with valid := false }) = t'
  refine ⟨t', marked ++ [t2.2, i], replaced kids p (a ++ l.inorder ++ (r.inorder ++ b)), rfl, cut_removed S (by rw [hTin]; simp) hnd hpi hpk hleaf ?_⟩
  have hir : i ∉ r.inorder := fun h => by
    rw [List.nodup_append, List.nodup_cons] at hndm
    exact hndm.2.1.1 h
  have hprr : p ∉ r.inorder := fun h => hpk (hmid p (by simp [h]))
  -- the links, whichever entry pointed to the one that goes
  have key : ∀ (x : Nat) (g : DirEntry → DirEntry), t2.1 = t1.modify x g → (∀ e, Relinked e (g e)) → x ≠ i →
      (x ≠ p → ∀ e, (g e).child = e.child) → (x ∉ kids p → ∀ e, (g e).prev = e.prev ∧ (g e).next = e.next) →
      (∀ e, ((g e).prev = e.prev ∨ (g e).prev = repl) ∧ ((g e).next = e.next ∨ (g e).next = repl) ∧
        ((g e).child = e.child ∨ (g e).child = repl)) →
      (∃ e' T', t'[p]? = some e' ∧ SibTree.Below t.length (leftOf t') (rightOf t') e'.child T' ∧
        T'.inorder = a ++ (l.inorder ++ r.inorder) ++ b) →
      Cut t kids p i t' (a ++ l.inorder ++ (r.inorder ++ b)) := by
    intro x g hg hgr hxi hgc hgs hgl htree
    have hlen : t'.length = t.length := by rw [← ht3, List.length_modify, hg, List.length_modify, k2]
    refine ⟨hlen, ?_, fun j e hj he => ?_, ?_⟩
    · obtain ⟨d', hd', _⟩ := k4 i d hd
      refine ⟨{ d' with valid := false }, ?_, rfl⟩
      rw [← ht3, get_modify, if_pos rfl, hg, get_modify, if_neg (fun h => hxi h.symm), hd']
      rfl
    · obtain ⟨e1, he1, hr1⟩ := k4 j e he
      have hleft : e1.prev = leftOf t1 j ∧ e1.next = rightOf t1 j := by simp [leftOf, rightOf, he1]
      have hleft0 : e.prev = leftOf t j ∧ e.next = rightOf t j := by simp [leftOf, rightOf, he]
      have hsame : j ∉ kids p → e1.prev = e.prev ∧ e1.next = e.next := fun hjk => by
        have := k3 j (fun h => hjk (hmid j (by simp [h])))
        rw [he1, he] at this
        cases this
        exact ⟨rfl, rfl⟩
      obtain ⟨w1, w2⟩ := k5 j
      rw [← hleft.1, ← hleft0.1] at w1
      rw [← hleft.2, ← hleft0.2] at w2
      have hget : t'[j]? = if j = x then some (g e1) else some e1 := by
        rw [← ht3, get_modify, if_neg hj, hg, get_modify, he1]
        rfl
      by_cases hjx : j = x
      · rw [if_pos hjx] at hget
        obtain ⟨v1, v2, v3⟩ := hgl e1
        have hrel := hgr e1
        refine ⟨g e1, hget, ⟨hrel.valid.trans hr1.relinked.valid, hrel.name.trans hr1.relinked.name, hrel.dir.trans hr1.relinked.dir,
          hrel.size.trans hr1.relinked.size, hrel.start.trans hr1.relinked.start⟩, fun hjp => by rw [hgc (hjx ▸ hjp), hr1.child],
          fun hjk => ?_, ?_, ?_, ?_⟩
        · obtain ⟨z1, z2⟩ := hgs (hjx ▸ hjk) e1
          rw [z1, z2]
          exact hsame hjk
        · rcases v1 with v | v
          · rw [v]; exact w1
          · rw [v]; exact Or.inr k6
        · rcases v2 with v | v
          · rw [v]; exact w2
          · rw [v]; exact Or.inr k6
        · rcases v3 with v | v
          · rw [v, hr1.child]; exact Or.inl rfl
          · rw [v]; exact Or.inr k6
      · rw [if_neg hjx] at hget
        exact ⟨e1, hget, hr1.relinked, fun _ => hr1.child, hsame, w1, w2, Or.inl hr1.child⟩
    · obtain ⟨e', T', z1, z2, z3⟩ := htree
      exact ⟨e', T', z1, z2, by rw [z3]; simp⟩
  have hlast : ∀ j, j ≠ i → t'[j]? = t2.1[j]? := fun j hj => by rw [← ht3, get_modify, if_neg hj]
  have hT2in : ∀ j ∈ T2.inorder, j ≠ i ∧ j ∈ l.inorder ++ i :: r.inorder := fun j hj => by
    rw [k8] at hj
    rw [List.nodup_append, List.nodup_cons] at hndm
    rcases List.mem_append.1 hj with h | h
    · exact ⟨fun hc => hndm.2.2 j h i (by simp) hc, by simp [h]⟩
    · exact ⟨fun hc => hndm.2.1.1 (hc ▸ h), by simp [h]⟩
  cases s with
  | none =>
    unfold putIn at ht2
    rw [Option.getD_none, if_neg (by simp)] at ht2
    have ht2' : t2.1 = t1.modify p (fun p => { p with child := repl }) := by rw [← ht2]
    have hg : ∀ j, j ≠ i → t'[j]? = if j = p then (t1[j]?).map (fun p => { p with child := repl }) else t1[j]? := fun j hj => by
      rw [hlast j hj, ht2', get_modify]
    have hlr : ∀ j, j ≠ i → leftOf t' j = leftOf t1 j ∧ rightOf t' j = rightOf t1 j := fun j hj => by
      unfold leftOf rightOf
      rw [hg j hj]
      split
      · cases t1[j]? <;> exact ⟨rfl, rfl⟩
      · exact ⟨rfl, rfl⟩
    refine key p _ ht2' (fun e => by constructor <;> rfl) hpi (fun h => absurd rfl h) (fun _ e => ⟨rfl, rfl⟩)
      (fun e => ⟨Or.inl rfl, Or.inl rfl, Or.inr rfl⟩) ?_
    obtain ⟨pe1, hpe1, _⟩ := k4 p pe hpe
    have hag : ∀ j ∈ a ++ b, leftOf t' j = leftOf t j ∧ rightOf t' j = rightOf t j := fun j hj => by
      have hji : j ≠ i := fun h => hsep j hj (by simp [h])
      obtain ⟨y1, y2⟩ := hlr j hji
      have := k3 j (fun h => hsep j hj (by simp [h]))
      rw [y1, y2]
      unfold leftOf rightOf
      rw [this]
      exact ⟨rfl, rfl⟩
    obtain ⟨T', z1, z2⟩ := A.again (leftOf t') (rightOf t') repl T2
      (below_congr k7 fun j hj => hlr j (hT2in j hj).1) k8 (fun j hj _ => hag j hj) (by simp)
    rw [if_pos rfl] at z1
    exact ⟨{ pe1 with child := repl }, T', by rw [hg p hpi, if_pos rfl, hpe1]; rfl, z1, z2⟩
  | some x =>
    obtain ⟨hx, hxl⟩ := A.sib x rfl
    have hx0 := h2 x rfl
    unfold putIn at ht2
    rw [Option.getD_some, if_pos hx0] at ht2
    generalize hgf : (fun s : DirEntry => if s.next = i then { s with next := repl } else { s with prev := repl }) = g at ht2
    have ht2' : t2.1 = t1.modify x g := by rw [← ht2]
    have hxi : x ≠ i := fun h => hsep x hx (by simp [h])
    have hxp : x ≠ p := fun h => hpk (h ▸ hout x hx)
    have hg : ∀ j, j ≠ i → t'[j]? = if j = x then (t1[j]?).map g else t1[j]? := fun j hj => by
      rw [hlast j hj, ht2', get_modify]
    have hlr : ∀ j, j ≠ i → j ≠ x → leftOf t' j = leftOf t1 j ∧ rightOf t' j = rightOf t1 j := fun j hj hjx => by
      unfold leftOf rightOf
      rw [hg j hj, if_neg hjx]
      exact ⟨rfl, rfl⟩
    have hgc : ∀ e, (g e).child = e.child := fun e => by rw [← hgf]; dsimp only; split <;> rfl
    refine key x g ht2' (fun e => by rw [← hgf]; dsimp only; split <;> constructor <;> rfl) hxi (fun _ => hgc)
      (fun h => absurd (hout x hx) h) (fun e => ?_) ?_
    · rw [← hgf]
      dsimp only
      split
      · exact ⟨Or.inl rfl, Or.inr rfl, Or.inl rfl⟩
      · exact ⟨Or.inr rfl, Or.inl rfl, Or.inl rfl⟩
    · obtain ⟨pe1, hpe1, hpr⟩ := k4 p pe hpe
      obtain ⟨_, xe, hxe, _⟩ := kids_valid S (hout x hx)
      have hx1 : t1[x]? = some xe := by rw [k3 x (fun h => hsep x hx (by simp [h]))]; exact hxe
      have hx' : t'[x]? = some (g xe) := by rw [hg x hxi, if_pos rfl, hx1]; rfl
      have hag : ∀ j ∈ a ++ b, some j ≠ some x → leftOf t' j = leftOf t j ∧ rightOf t' j = rightOf t j := fun j hj hjs => by
        have hji : j ≠ i := fun h => hsep j hj (by simp [h])
        obtain ⟨y1, y2⟩ := hlr j hji (fun h => hjs (by rw [h]))
        have := k3 j (fun h => hsep j hj (by simp [h]))
        rw [y1, y2]
        unfold leftOf rightOf
        rw [this]
        exact ⟨rfl, rfl⟩
      have hax : if rightOf t x = i then leftOf t' x = leftOf t x ∧ rightOf t' x = repl else leftOf t' x = repl ∧ rightOf t' x = rightOf t x := by
        have e1 : rightOf t x = xe.next := by simp [rightOf, hxe]
        have e2 : leftOf t x = xe.prev := by simp [leftOf, hxe]
        have e3 : rightOf t' x = (g xe).next := by simp [rightOf, hx']
        have e4 : leftOf t' x = (g xe).prev := by simp [leftOf, hx']
        rw [e1, e2, e3, e4, ← hgf]
        by_cases hc : xe.next = i
        · dsimp only
          rw [if_pos hc, if_pos hc]
          exact ⟨rfl, rfl⟩
        · dsimp only
          rw [if_neg hc, if_neg hc]
          exact ⟨rfl, rfl⟩
      obtain ⟨T', z1, z2⟩ := A.again (leftOf t') (rightOf t') repl T2
        (below_congr k7 fun j hj => hlr j (hT2in j hj).1 (fun h => hsep x hx (h ▸ (hT2in j hj).2))) k8 hag
        (fun y hy => by cases hy; exact hax)
      rw [if_neg (by simp)] at z1
      exact ⟨pe1, T', by rw [hg p hpi, if_neg (fun h => hxp h.symm)]; exact hpe1, by rw [hpr.child]; exact z1, z2⟩

end Fileid.Pole
