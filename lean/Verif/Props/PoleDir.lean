import Verif.Lemmas.PoleDir

/-!
# Properties of the directory of a compound file: C42 listing, C43 lookup, C70 termination, C71 MS-CFB order
-/

namespace Fileid.Props

open Spec Pole

/-! ## C42 -/

/-- C42: the children of a valid storage whose sibling links form a tree are listed in order. -/
theorem C42_children (t : DirTree) (hend : t.length ≤ 0xffffffff) (i : Nat) (e : DirEntry) (he : t[i]? = some e)
    (hv : e.valid = true) (T : SibTree)
    (hT : SibTree.Below t.length (leftOf t) (rightOf t)
      e.child T) :
    children t i = .ok T.inorder := by
  unfold children
  rw [he]
  dsimp only
  by_cases hc : e.child < t.length
  · rw [if_pos ⟨hv, hc⟩, findSiblings_below hend hT _ _ (by have := SibTree.below_height hT; omega)]
    rfl
  · rw [if_neg (fun h => hc h.2)]
    cases hT with
    | leaf => rfl
    | node h => exact absurd h hc

/-- C42: so the names of the entries of the root are those of the tree, in order. -/
theorem C42_entries (abi : Abi) (io : StorageIO) (hend : io.dirtree.length ≤ 0xffffffff) (e : DirEntry)
    (he : io.dirtree[0]? = some e) (hv : e.valid = true) (hd : e.dir = true) (T : SibTree)
    (hT : SibTree.Below io.dirtree.length (leftOf io.dirtree)
      (rightOf io.dirtree) e.child T) :
    io.entries abi [47] = .ok (T.inorder.map (entryName io.dirtree)) ∧
    ∀ j ∈ T.inorder, j < io.dirtree.length := by
  refine ⟨?_, SibTree.below_lt hT⟩
  have h0 : 0 < io.dirtree.length := (List.getElem?_eq_some_iff.1 he).1
  unfold StorageIO.entries entryIdx
  rw [if_neg (by decide), if_pos rfl, if_pos h0, Res.bind_ok]
  unfold entriesAt
  dsimp only
  rw [he]
  dsimp only
  unfold entriesOf
  rw [if_pos hd, C42_children _ hend 0 e he hv T hT, Res.bind_ok]
  rfl

/-- The directory of the examples: a root with three streams "a", "b", "cc"; "b" is the root of their tree. -/
def sampleDir : DirTree :=
  [{ valid := true, name := [82], dir := true, child := 2, prev := End, next := End },
   { valid := true, name := [97], prev := End, next := End, child := End },
   { valid := true, name := [98], prev := 1, next := 3, child := End },
   { valid := true, name := [99, 99], prev := End, next := End, child := End }]

/-- The tree of the streams. -/
def sampleTree : SibTree := .node (.node .leaf 1 .leaf) 2 (.node .leaf 3 .leaf)

theorem sampleDir_below : SibTree.Below sampleDir.length (leftOf sampleDir)
    (rightOf sampleDir) 2 sampleTree :=
  .node (by decide) (.node (by decide) (.leaf (by decide)) (.leaf (by decide)))
    (.node (by decide) (.leaf (by decide)) (.leaf (by decide)))

example : children sampleDir 0 = .ok [1, 2, 3] := by decide

/-! ## C43 -/

/-- The tree of siblings below a link: a search tree for the comparison of names, without the root entry, of valid
entries. -/
structure Siblings (abi : Abi) (t : DirTree) (link : Nat) (T : SibTree) : Prop where
  below : SibTree.Below t.length (leftOf t) (rightOf t)
    link T
  ordered : T.Ordered fun i j => NameBefore (wcharVal abi) (entryName t i)
    (entryName t j)
  entries : ∀ j ∈ T.inorder, j ≠ 0 ∧
    ∀ e, t[j]? = some e → e.valid = true ∧ ∀ x ∈ e.name, x < 2 ^ (8 * abi.wcharBytes)

/-- C43: looking up a name below a storage gives the entry of that name among the children, and 0 (the number that
means absence) if there is none. -/
theorem C43_find_child (abi : Abi) (habi : abi = Abi.linux ∨ abi = Abi.windows) (t : DirTree) (i : Nat) (p : DirEntry)
    (hp : t[i]? = some p) (hv : p.valid = true) (T : SibTree) (hT : Siblings abi t p.child T) (name : WStr)
    (hn : ∀ x ∈ name, x < 2 ^ (8 * abi.wcharBytes)) :
    (∃ j e, j ∈ T.inorder ∧ t[j]? = some e ∧ e.name = name ∧ find_child abi t i name = .ok j) ∨
    ((∀ j ∈ T.inorder, ∀ e, t[j]? = some e → e.name ≠ name) ∧ find_child abi t i name = .ok 0) := by
  have hb := SibTree.below_height hT.below
  have hlt := SibTree.below_lt hT.below
  unfold find_child
  rw [hp]
  dsimp only
  by_cases hc : p.child < t.length
  · rw [if_pos ⟨hv, hc⟩]
    rcases findSibling_below habi hn hT.below hT.ordered hT.entries (t.length + 1) (by omega) with
      ⟨j, hj, h1, h2⟩ | ⟨h1, h2⟩
    · refine Or.inl ⟨j, t[j]'(hlt j hj), hj, List.getElem?_eq_getElem _, ?_, h2⟩
      rw [← h1]
      simp [entryName, hlt j hj]
    · refine Or.inr ⟨fun j hj e he hne => h1 j hj ?_, h2⟩
      simp [entryName, he, hne]
  · rw [if_neg (fun h => hc h.2)]
    right
    refine ⟨?_, rfl⟩
    cases hT.below with
    | leaf => intro j hj; simp [SibTree.inorder] at hj
    | node h => exact absurd h hc

/-- A directory in which the children of every valid entry form such a tree. -/
def WellFormed (abi : Abi) (t : DirTree) (kids : Nat → List Nat) : Prop :=
  ∀ i p, t[i]? = some p → p.valid = true → ∃ T, Siblings abi t p.child T ∧ T.inorder = kids i

/-- C43: looking up a path "/first/second/..." gives the entry the names lead to, and nothing when they lead
nowhere. -/
theorem C43_path (abi : Abi) (habi : abi = Abi.linux ∨ abi = Abi.windows) (t : DirTree) (kids : Nat → List Nat)
    (hwf : WellFormed abi t kids) (root : DirEntry) (hroot : t[0]? = some root) (hrv : root.valid = true)
    (names : List WStr) (hne : names ≠ []) (hnames : ∀ n ∈ names, 47 ∉ n ∧ n ≠ [])
    (hunits : ∀ n ∈ names, ∀ x ∈ n, x < 2 ^ (8 * abi.wcharBytes)) :
    (∃ k, Resolves kids (entryName t) 0 names k ∧
      entryIdx abi t (names.flatMap fun n => 47 :: n) = .ok (some k)) ∨
    ((∀ k, ¬ Resolves kids (entryName t) 0 names k) ∧
      entryIdx abi t (names.flatMap fun n => 47 :: n) = .ok none) := by
  have walk : ∀ (names : List WStr) (i : Nat) (p : DirEntry), t[i]? = some p → p.valid = true →
      (∀ n ∈ names, ∀ x ∈ n, x < 2 ^ (8 * abi.wcharBytes)) →
      (∃ k, Resolves kids (entryName t) i names k ∧
        descend abi t i names = .ok (some k)) ∨
      ((∀ k, ¬ Resolves kids (entryName t) i names k) ∧
        descend abi t i names = .ok none) := by
    intro names
    induction names with
    | nil =>
      intro i p hp _ _
      have := (List.getElem?_eq_some_iff.1 hp).1
      exact Or.inl ⟨i, .here, by rw [descend, if_pos this]⟩
    | cons n ns ih =>
      intro i p hp hv hu
      obtain ⟨T, hT, hk⟩ := hwf i p hp hv
      rw [descend]
      rcases C43_find_child abi habi t i p hp hv T hT n (hu n (by simp)) with ⟨j, e, hj, he, hname, hf⟩ | ⟨hno, hf⟩
      · have hj0 := hT.entries j hj
        rw [hf, Res.bind_ok, if_pos (by omega)]
        have hnj : entryName t j = n := by simp [entryName, he, hname]
        rcases ih j e he (hj0.2 e he).1 (fun m hm => hu m (by simp [hm])) with ⟨k, hk1, hk2⟩ | ⟨hk1, hk2⟩
        · refine Or.inl ⟨k, ?_, hk2⟩
          have := Resolves.down (kids := kids) (name := entryName t) (i := i)
            (by rw [← hk]; exact hj) hk1
          rw [hnj] at this
          exact this
        · refine Or.inr ⟨fun k hr => ?_, hk2⟩
          generalize hN : n :: ns = N at hr
          cases hr with
          | here => cases hN
          | @down _ j' _ _ hj' hr' =>
            injection hN with h1 h2
            subst h2
            have : j' = j := by
              apply ordered_name_unique hT.ordered j' (by rw [hk]; exact hj') j hj
              rw [hnj, h1]
            subst this
            exact hk1 k hr'
      · rw [hf, Res.bind_ok, if_neg (by omega)]
        refine Or.inr ⟨fun k hr => ?_, rfl⟩
        generalize hN : n :: ns = N at hr
        cases hr with
        | here => cases hN
        | @down _ j' _ _ hj' hr' =>
          injection hN with h1 h2
          have hjT : j' ∈ T.inorder := by rw [hk]; exact hj'
          have hlt := SibTree.below_lt hT.below j' hjT
          apply hno j' hjT _ (List.getElem?_eq_getElem hlt)
          rw [h1]
          simp [entryName, hlt]
  have hsplit : entryIdx abi t (names.flatMap fun n => 47 :: n) = descend abi t 0 names := by
    cases names with
    | nil => exact absurd rfl hne
    | cons n ns =>
      have hn := hnames n (by simp)
      unfold entryIdx
      rw [List.flatMap_cons, if_neg (by simp), if_neg]
      · have := splitNames_path n ns hn (fun m hm => hnames m (by simp [hm]))
        rw [pathOf] at this
        simp [this]
      · intro hc
        have := congrArg List.length hc
        have h0 : 0 < n.length := List.length_pos_iff.2 hn.2
        simp at this
        exact hn.2 this.1
  rw [hsplit]
  exact walk names 0 root hroot hrv hunits

/-- C43: a path "/name" exists exactly when the name is among the listed entries of the root. -/
theorem C43_exists_iff_listed (abi : Abi) (habi : abi = Abi.linux ∨ abi = Abi.windows) (io : StorageIO)
    (hend : io.dirtree.length ≤ 0xffffffff) (kids : Nat → List Nat) (hwf : WellFormed abi io.dirtree kids)
    (root : DirEntry) (hroot : io.dirtree[0]? = some root) (hrv : root.valid = true) (hrd : root.dir = true)
    (name : WStr) (hname : 47 ∉ name ∧ name ≠ []) (hunits : ∀ x ∈ name, x < 2 ^ (8 * abi.wcharBytes)) :
    ∃ listed, io.entries abi [47] = .ok listed ∧ io.exists abi (47 :: name) = .ok (decide (name ∈ listed)) := by
  obtain ⟨T, hT, hk⟩ := hwf 0 root hroot hrv
  refine ⟨_, (C42_entries abi io hend root hroot hrv hrd T hT.below).1, ?_⟩
  have h := C43_path abi habi io.dirtree kids hwf root hroot hrv [name] (by simp) (by simpa using hname)
    (by simpa using hunits)
  simp only [List.flatMap_cons, List.flatMap_nil, List.append_nil] at h
  have hiff : (∃ k, Resolves kids (entryName io.dirtree) 0 [name] k) ↔
      name ∈ T.inorder.map (entryName io.dirtree) := by
    constructor
    · rintro ⟨k, hr⟩
      generalize hN : [name] = N at hr
      cases hr with
      | here => cases hN
      | @down _ j' _ _ hj' hr' =>
        injection hN with h1 h2
        rw [h1]
        exact List.mem_map_of_mem (hk ▸ hj')
    · intro hm
      obtain ⟨j, hj, hjn⟩ := List.mem_map.1 hm
      refine ⟨j, ?_⟩
      rw [← hjn]
      exact Resolves.down (hk ▸ hj) .here
  unfold StorageIO.exists
  rcases h with ⟨k, h1, h2⟩ | ⟨h1, h2⟩
  · rw [h2, Res.bind_ok, decide_eq_true (hiff.1 ⟨k, h1⟩)]
    rfl
  · rw [h2, Res.bind_ok, decide_eq_false (fun hm => by obtain ⟨k, hk⟩ := hiff.2 hm; exact h1 k hk)]
    rfl

theorem sampleDir_siblings : Siblings Abi.linux sampleDir 2 sampleTree := by
  refine ⟨sampleDir_below, ?_, ?_⟩
  · refine .node ?_ ?_ (.node (by simp [SibTree.inorder]) (by simp [SibTree.inorder]) .leaf .leaf)
      (.node (by simp [SibTree.inorder]) (by simp [SibTree.inorder]) .leaf .leaf)
    · intro j hj
      simp only [SibTree.inorder, List.mem_append, List.mem_singleton, List.not_mem_nil, or_false, false_or] at hj
      subst hj
      exact Or.inr ⟨rfl, 0, 97, 98, rfl, rfl, rfl, by decide⟩
    · intro j hj
      simp only [SibTree.inorder, List.mem_append, List.mem_singleton, List.not_mem_nil, or_false, false_or] at hj
      subst hj
      exact Or.inl (by decide)
  · have : ∀ j ∈ [1, 2, 3], j ≠ 0 ∧ ∀ e, sampleDir[j]? = some e →
        e.valid = true ∧ ∀ x ∈ e.name, x < 2 ^ (8 * Abi.linux.wcharBytes) := by
      intro j hj
      simp only [List.mem_cons, List.not_mem_nil, or_false] at hj
      rcases hj with rfl | rfl | rfl <;> refine ⟨by decide, fun e he => ?_⟩ <;>
        (simp [sampleDir] at he; subst he; decide)
    exact this

example : WellFormed Abi.linux sampleDir (fun i => if i = 0 then [1, 2, 3] else []) := by
  intro i p hp hv
  have hi : i < 4 := (List.getElem?_eq_some_iff.1 hp).1
  have hleaf : ∀ link, 4 ≤ link → Siblings Abi.linux sampleDir link .leaf := fun link h =>
    ⟨.leaf h, .leaf, by simp [SibTree.inorder]⟩
  have : i = 0 ∨ i = 1 ∨ i = 2 ∨ i = 3 := by omega
  rcases this with rfl | rfl | rfl | rfl <;> simp [sampleDir] at hp <;> subst hp
  · exact ⟨sampleTree, sampleDir_siblings, rfl⟩
  · exact ⟨.leaf, hleaf _ (by decide), rfl⟩
  · exact ⟨.leaf, hleaf _ (by decide), rfl⟩
  · exact ⟨.leaf, hleaf _ (by decide), rfl⟩

example : entryIdx Abi.linux sampleDir [47, 99, 99] = .ok (some 3) := by decide

/-! ## C70 -/

/-- A root with a stream "b" whose left link leads to itself. -/
def loopDir : DirTree :=
  [{ valid := true, name := [82], dir := true, child := 1, prev := End, next := End },
   { valid := true, name := [98], prev := 1, next := End, child := End }]

/-- C70 is false: listing the children of the root of this directory never ends, and neither does looking up the
name "a". -/
theorem C70_false : (∀ budget acc, findSiblings loopDir budget 1 acc = .fuel) ∧
    ∀ budget, findSibling Abi.linux loopDir [97] budget 1 = .fuel := by
  constructor
  · intro budget
    induction budget with
    | zero => intro acc; rfl
    | succ f ih =>
      intro acc
      have : findSiblings loopDir (f + 1) 1 acc = (findSiblings loopDir f 1 acc >>= fun result => .ok (result ++ [1])) := rfl
      rw [this, ih]
      rfl
  · intro budget
    induction budget with
    | zero => rfl
    | succ f ih =>
      have : findSibling Abi.linux loopDir [97] (f + 1) 1 = findSibling Abi.linux loopDir [97] f 1 := rfl
      rw [this, ih]

/-- C70: listing ends exactly when the links below the storage form a finite tree. Missing for the full property:
links with a cycle, for which it is false. -/
theorem C70_listing_partial (t : DirTree) (hend : t.length ≤ 0xffffffff) (link : Nat) :
    (∃ budget r, findSiblings t budget link [] = .ok r) ↔
      ∃ T, SibTree.Below t.length (leftOf t)
        (rightOf t) link T := by
  constructor
  · rintro ⟨b, r, h⟩
    exact findSiblings_tree hend b link [] r h
  · rintro ⟨T, h⟩
    exact ⟨_, _, findSiblings_below hend h (T.height + 1) [] (by omega)⟩

/-! ## C71 -/

/-- The directory MS-CFB prescribes for the streams "a" and "B": in upper case "A" comes before "B". -/
def cfbDir : DirTree :=
  [{ valid := true, name := [82], dir := true, child := 2, prev := End, next := End },
   { valid := true, name := [97], prev := End, next := End, child := End },
   { valid := true, name := [66], prev := 1, next := End, child := End }]

/-- C71 is false: the tree is ordered as MS-CFB says, the stream "a" is listed, but its path does not exist. -/
theorem C71_false :
    SibTree.Below cfbDir.length (leftOf cfbDir)
      (rightOf cfbDir) 2 (.node (.node .leaf 1 .leaf) 2 .leaf) ∧
    (SibTree.node (.node .leaf 1 .leaf) 2 .leaf).Ordered (fun i j =>
      NameBefore asciiUpper (entryName cfbDir i) (entryName cfbDir j)) ∧
    ∀ io : StorageIO, io.dirtree = cfbDir → ∀ abi, abi = Abi.linux ∨ abi = Abi.windows →
      io.entries abi [47] = .ok [[97], [66]] ∧ io.exists abi [47, 97] = .ok false := by
  refine ⟨.node (by decide) (.node (by decide) (.leaf (by decide)) (.leaf (by decide))) (.leaf (by decide)), ?_, ?_⟩
  · refine .node ?_ (by simp [SibTree.inorder])
      (.node (by simp [SibTree.inorder]) (by simp [SibTree.inorder]) .leaf .leaf) .leaf
    intro j hj
    simp only [SibTree.inorder, List.mem_append, List.mem_singleton, List.not_mem_nil, or_false, false_or] at hj
    subst hj
    exact Or.inr ⟨rfl, 0, 97, 66, rfl, rfl, rfl, by decide⟩
  · intro io hio abi habi
    unfold StorageIO.entries StorageIO.exists
    rw [hio]
    rcases habi with rfl | rfl <;> exact ⟨by decide, by decide⟩

/-- C71: with names without ASCII lower-case letters the two orders agree, and then every listed name of a
well-formed directory can be looked up (`C43_exists_iff_listed`). Missing for the full property: names with
lower-case letters, for which it is false. -/
theorem C71_upper_case_partial (t : DirTree) (T : SibTree)
    (hcase : ∀ j ∈ T.inorder, ∀ e, t[j]? = some e → ∀ u ∈ e.name, ¬ (97 ≤ u ∧ u ≤ 122))
    (hlt : ∀ j ∈ T.inorder, j < t.length)
    (h : T.Ordered fun i j => NameBefore asciiUpper (entryName t i)
      (entryName t j)) :
    T.Ordered fun i j => NameBefore (wcharVal Abi.windows) (entryName t i)
      (entryName t j) := by
  have conv : ∀ i ∈ T.inorder, ∀ j ∈ T.inorder,
      NameBefore asciiUpper (entryName t i) (entryName t j) →
      NameBefore (wcharVal Abi.windows) (entryName t i) (entryName t j) := by
    intro i hi j hj hb
    have hci := hcase i hi _ (List.getElem?_eq_getElem (hlt i hi))
    have hcj := hcase j hj _ (List.getElem?_eq_getElem (hlt j hj))
    simp only [entryName, List.getElem?_eq_getElem (hlt i hi), List.getElem?_eq_getElem (hlt j hj), Option.map_some,
      Option.getD_some] at hb ⊢
    rcases hb with h | ⟨h, k, x, y, h1, h2, h3, h4⟩
    · exact Or.inl h
    · refine Or.inr ⟨h, k, x, y, h1, h2, h3, ?_⟩
      have hx := hci x (List.mem_of_getElem? h2)
      have hy := hcj y (List.mem_of_getElem? h3)
      have e : ∀ x, wcharVal Abi.windows x = x := fun x => rfl
      rw [e, e]
      unfold asciiUpper at h4
      rw [if_neg hx, if_neg hy] at h4
      exact h4
  clear hcase hlt
  induction h with
  | leaf => exact .leaf
  | @node l r k hl hr _ _ ih1 ih2 =>
    have ml : ∀ j ∈ l.inorder, j ∈ (SibTree.node l k r).inorder := fun j hj => by simp [SibTree.inorder, hj]
    have mr : ∀ j ∈ r.inorder, j ∈ (SibTree.node l k r).inorder := fun j hj => by simp [SibTree.inorder, hj]
    have mk : k ∈ (SibTree.node l k r).inorder := by simp [SibTree.inorder]
    exact .node (fun j hj => conv j (ml j hj) k mk (hl j hj)) (fun j hj => conv k mk j (mr j hj) (hr j hj))
      (ih1 fun i hi j hj => conv i (ml i hi) j (ml j hj)) (ih2 fun i hi j hj => conv i (mr i hi) j (mr j hj))

example : ∃ u : Nat, ¬ (97 ≤ u ∧ u ≤ 122) := ⟨65, by decide⟩

end Fileid.Props
