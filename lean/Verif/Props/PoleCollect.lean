import Verif.Model.PoleCollect
import Verif.Spec.Listing
import Verif.Spec.Directory
import Verif.Lemmas.Oless

/-!
# C119: the list of all streams
-/

namespace Fileid.Props

open Pole Spec Fileid.Oless

/-- The entry on top of a tree, if there is one. -/
private def top : SibTree → List Nat
  | .leaf => []
  | .node _ i _ => [i]

private def weight : SibTree → Nat
  | .leaf => 1
  | .node l _ r => weight l + weight r + 1

private theorem pushed_top {t : DirTree} {link : Nat} {T : SibTree}
    (h : SibTree.Below t.length (leftOf t) (rightOf t) link T) : pushed t link = top T := by
  cases h with
  | leaf h => simp [pushed, top]; omega
  | node h _ _ => simp [pushed, top, h]

/-- What the walk adds for entry `j` found under `path`. -/
private def Adds (t : DirTree) (kids : Nat → List Nat) (path : WStr) (j : Nat) (s : WStr) : Prop :=
  (isDirOf t j = false ∧ s = path ++ entryName t j) ∨
  (isDirOf t j = true ∧ ∃ names, Inside kids (entryName t) (isDirOf t) j names ∧
    s = path ++ entryName t j ++ [47] ++ slashed names)

/-- The walk below the child of `j` ends and adds the streams inside `j`. -/
private def Ends (t : DirTree) (kids : Nat → List Nat) (j : Nat) : Prop :=
  ∀ e, t[j]? = some e → ∀ path r, ∃ N r', (∀ f, N ≤ f → collect t f (pushed t e.child) path r = .ok r') ∧
    ∀ s, s ∈ r' ↔ s ∈ r ∨ ∃ names, Inside kids (entryName t) (isDirOf t) j names ∧ s = path ++ slashed names

private theorem forest (t : DirTree) (kids : Nat → List Nat) : ∀ (n : Nat) (F : List SibTree),
    (F.map weight).sum ≤ n →
    (∀ T ∈ F, ∃ link, SibTree.Below t.length (leftOf t) (rightOf t) link T) →
    (∀ T ∈ F, ∀ j ∈ T.inorder, isDirOf t j = true → Ends t kids j) →
    ∀ path r, ∃ N r', (∀ f, N ≤ f → collect t f (F.flatMap top) path r = .ok r') ∧
      ∀ s, s ∈ r' ↔ s ∈ r ∨ ∃ T ∈ F, ∃ j ∈ T.inorder, Adds t kids path j s := by
  intro n
  induction n with
  | zero =>
    intro F hn _ _ path r
    cases F with
    | nil =>
      refine ⟨1, r, fun f hf => ?_, by simp⟩
      obtain ⟨f, rfl⟩ : ∃ g, f = g + 1 := ⟨f - 1, by omega⟩
      simp [collect]
    | cons T F => cases T <;> simp [weight] at hn
  | succ n ih =>
    intro F hn hb hd path r
    cases F with
    | nil =>
      refine ⟨1, r, fun f hf => ?_, by simp⟩
      obtain ⟨f, rfl⟩ : ∃ g, f = g + 1 := ⟨f - 1, by omega⟩
      simp [collect]
    | cons T F =>
      cases T with
      | leaf =>
        obtain ⟨N, r', h1, h2⟩ := ih F (by simp [weight] at hn; omega)
          (fun T hT => hb T (List.mem_cons_of_mem _ hT)) (fun T hT => hd T (List.mem_cons_of_mem _ hT)) path r
        refine ⟨N, r', fun f hf => by simpa [top] using h1 f hf, fun s => ?_⟩
        rw [h2]
        simp [SibTree.inorder]
      | node l i rt =>
        obtain ⟨link, hB⟩ := hb _ (List.mem_cons_self ..)
        cases hB with
        | node hi hl hr =>
        have hti : t[i]? = some t[i] := List.getElem?_eq_getElem hi
        have hname : entryName t i = t[i].name := by simp [entryName, hti]
        have hdir : isDirOf t i = t[i].dir := by simp [isDirOf, hti]
        have hprev : pushed t t[i].prev = top l := by
          rw [← pushed_top hl]; simp [leftOf, hti]
        have hnext : pushed t t[i].next = top rt := by
          rw [← pushed_top hr]; simp [rightOf, hti]
        -- the entry itself
        have hself : ∃ N r1, (∀ f, N ≤ f → (if t[i].dir then
              collect t f (pushed t t[i].child) (path ++ t[i].name ++ [47]) r
              else .ok (r ++ [path ++ t[i].name])) = .ok r1) ∧
            ∀ s, s ∈ r1 ↔ s ∈ r ∨ Adds t kids path i s := by
          by_cases hdd : t[i].dir = true
          · obtain ⟨N, r1, h1, h2⟩ := hd _ (List.mem_cons_self ..) i (by simp [SibTree.inorder])
              (by rw [hdir]; exact hdd) _ hti (path ++ t[i].name ++ [47]) r
            refine ⟨N, r1, fun f hf => by rw [if_pos hdd]; exact h1 f hf, fun s => ?_⟩
            rw [h2]
            simp [Adds, hdir, hdd, hname]
          · refine ⟨0, _, fun f _ => by rw [if_neg hdd], fun s => ?_⟩
            simp [Adds, hdir, hdd, hname]
        obtain ⟨N1, r1, h11, h12⟩ := hself
        obtain ⟨N2, r2, h21, h22⟩ := ih (F ++ [l, rt])
          (by simp [weight] at hn ⊢; omega)
          (by
            intro T hT
            simp only [List.mem_append, List.mem_cons, List.not_mem_nil, or_false] at hT
            rcases hT with hT | rfl | rfl
            · exact hb T (List.mem_cons_of_mem _ hT)
            · exact ⟨_, hl⟩
            · exact ⟨_, hr⟩)
          (by
            intro T hT
            simp only [List.mem_append, List.mem_cons, List.not_mem_nil, or_false] at hT
            rcases hT with hT | rfl | rfl
            · exact hd T (List.mem_cons_of_mem _ hT)
            · exact fun j hj => hd _ (List.mem_cons_self ..) j (by simp [SibTree.inorder, hj])
            · exact fun j hj => hd _ (List.mem_cons_self ..) j (by simp [SibTree.inorder, hj]))
          path r1
        refine ⟨N1 + N2 + 1, r2, fun f hf => ?_, fun s => ?_⟩
        · obtain ⟨f, rfl⟩ : ∃ g, f = g + 1 := ⟨f - 1, by omega⟩
          have e1 := h11 f (by omega)
          have e2 := h21 f (by omega)
          rw [List.flatMap_cons, show top (.node l i rt) = [i] from rfl, List.cons_append, List.nil_append]
          simp only [collect, hti, hprev, hnext]
          rw [e1]
          simpa [List.flatMap_append] using e2
        · rw [h22, h12]
          simp only [List.mem_append, List.mem_cons, List.not_mem_nil, or_false, SibTree.inorder]
          constructor
          · rintro ((h | h) | ⟨T, hT | rfl | rfl, j, hj, h⟩)
            · exact .inl h
            · exact .inr ⟨_, .inl rfl, i, by simp [SibTree.inorder], h⟩
            · exact .inr ⟨T, .inr hT, j, hj, h⟩
            · exact .inr ⟨_, .inl rfl, j, by simp [SibTree.inorder, hj], h⟩
            · exact .inr ⟨_, .inl rfl, j, by simp [SibTree.inorder, hj], h⟩
          · rintro (h | ⟨T, rfl | hT, j, hj, h⟩)
            · exact .inl (.inl h)
            · simp only [SibTree.inorder, List.mem_append, List.mem_cons, List.not_mem_nil, or_false] at hj
              rcases hj with (hj | rfl) | hj
              · exact .inr ⟨l, .inr (.inl rfl), j, hj, h⟩
              · exact .inl (.inr h)
              · exact .inr ⟨rt, .inr (.inr rfl), j, hj, h⟩
            · exact .inr ⟨T, .inl hT, j, hj, h⟩

private theorem ends (abi : Abi) (t : DirTree) (kids : Nat → List Nat) (hwf : WellFormed abi t kids)
    (depth : Nat → Nat) (hdepth : ∀ i, ∀ j ∈ kids i, depth j < depth i) :
    ∀ (n i : Nat), depth i < n → (∀ e, t[i]? = some e → e.valid = true) → Ends t kids i := by
  intro n
  induction n with
  | zero => intro i h; omega
  | succ n ih =>
    intro i hi hv e he path r
    obtain ⟨T, hT, hk⟩ := hwf i e he (hv e he)
    obtain ⟨N, r', h1, h2⟩ := forest t kids _ [T] (Nat.le_refl _) (by simpa using ⟨_, hT.below⟩)
      (by
        intro T' hT' j hj _
        simp only [List.mem_cons, List.not_mem_nil, or_false] at hT'
        subst hT'
        have := hdepth i j (hk ▸ hj)
        exact ih j (by omega) fun e' he' => ((hT.entries j hj).2 e' he').1) path r
    refine ⟨N, r', fun f hf => ?_, fun s => ?_⟩
    · rw [pushed_top hT.below]
      simpa using h1 f hf
    · rw [h2]
      simp only [List.mem_cons, List.not_mem_nil, or_false, exists_eq_left, hk]
      refine or_congr Iff.rfl ?_
      constructor
      · rintro ⟨j, hj, ⟨hd, rfl⟩ | ⟨hd, names, hin, rfl⟩⟩
        · exact ⟨_, .stream hj hd, by simp [slashed]⟩
        · refine ⟨_, .storage hj hd hin, ?_⟩
          cases hin <;> simp [slashed]
      · rintro ⟨names, hin, rfl⟩
        cases hin with
        | stream hj hd => exact ⟨_, hj, .inl ⟨hd, by simp [slashed]⟩⟩
        | storage hj hd hin =>
          refine ⟨_, hj, .inr ⟨hd, _, hin, ?_⟩⟩
          cases hin <;> simp [slashed]

/-- C119: in a well-formed directory in which no storage is inside itself, `GetAllStreams` ends, and what it lists is
the name it was given followed by the way to each stream in that storage or in one inside it: none is left out and
nothing else is listed. -/
theorem C119_all_partial (abi : Abi) (t : DirTree) (kids : Nat → List Nat) (hwf : WellFormed abi t kids)
    (depth : Nat → Nat) (hdepth : ∀ i, ∀ j ∈ kids i, depth j < depth i)
    (path : WStr) (i : Nat) (e : DirEntry) (hpath : entryIdx abi t path = .ok (some i)) (he : t[i]? = some e)
    (hv : e.valid = true) (hd : e.dir = true) :
    ∃ steps listed, (∀ fuel, steps ≤ fuel → getAllStreams abi t fuel path = .ok listed) ∧
      ∀ s, s ∈ listed ↔ ∃ names, Inside kids (entryName t) (isDirOf t) i names ∧ s = path ++ slashed names := by
  obtain ⟨N, r, h1, h2⟩ := ends abi t kids hwf depth hdepth _ i (Nat.lt_succ_self _)
    (fun e' he' => by rw [he] at he'; cases he'; exact hv) e he path []
  refine ⟨N, r, fun f hf => ?_, fun s => by rw [h2]; simp⟩
  have := h1 f hf
  simp only [getAllStreams, hpath]
  show (match t[i]? with | none => _ | some e => _) = _
  rw [he]
  simpa [hd] using this

/-- C119: the streams of the whole file, by their full paths. -/
theorem C119_root_partial (abi : Abi) (t : DirTree) (kids : Nat → List Nat) (hwf : WellFormed abi t kids)
    (depth : Nat → Nat) (hdepth : ∀ i, ∀ j ∈ kids i, depth j < depth i)
    (root : DirEntry) (hroot : t[0]? = some root) (hv : root.valid = true) (hd : root.dir = true) :
    ∃ steps listed, (∀ fuel, steps ≤ fuel → getAllStreams abi t fuel [47] = .ok listed) ∧
      ∀ s, s ∈ listed ↔ ∃ names, Inside kids (entryName t) (isDirOf t) 0 names ∧ s = 47 :: slashed names := by
  have h0 : 0 < t.length := (List.getElem?_eq_some_iff.1 hroot).1
  simpa using C119_all_partial abi t kids hwf depth hdepth [47] 0 root (by simp [entryIdx, h0]) hroot hv hd

private theorem inside_resolves {kids : Nat → List Nat} {name : Nat → WStr} {isDir : Nat → Bool} {i : Nat}
    {names : List WStr} (h : Inside kids name isDir i names) :
    ∃ k, Resolves kids name i names k ∧ isDir k = false ∧ 47 :: slashed names = pathOf names := by
  induction h with
  | @stream i j hj hd => exact ⟨j, .down hj .here, hd, by simp [slashed, pathOf]⟩
  | @storage i j names hj _ hin ih =>
    obtain ⟨k, hr, hd, he⟩ := ih
    refine ⟨k, .down hj hr, hd, ?_⟩
    have : slashed (name j :: names) = name j ++ 47 :: slashed names := by cases hin <;> rfl
    rw [this, he]
    simp [pathOf]

private theorem resolves_trans {kids : Nat → List Nat} {name : Nat → WStr} {i j k : Nat} {a b : List WStr}
    (h : Resolves kids name i a j) (h' : Resolves kids name j b k) : Resolves kids name i (a ++ b) k := by
  induction h with
  | here => exact h'
  | down hj _ ih => exact .down hj (ih h')

private theorem resolves_names {kids : Nat → List Nat} {name : Nat → WStr} {P : WStr → Prop}
    (hP : ∀ i, ∀ j ∈ kids i, P (name j)) {i k : Nat} {names : List WStr} (h : Resolves kids name i names k) :
    ∀ n ∈ names, P n := by
  induction h with
  | here => simp
  | down hj _ ih =>
    intro n hn
    rcases List.mem_cons.1 hn with rfl | hn
    · exact hP _ _ hj
    · exact ih n hn

/-- C119: `GetAllStreams("/a/b/")` lists the full paths of the streams in the storage the names a, b lead to, and looking
up what it lists gives a stream. For no names at all it is `GetAllStreams("/")`. -/
theorem C119_storage_partial (abi : Abi) (habi : abi = Abi.linux ∨ abi = Abi.windows) (t : DirTree)
    (kids : Nat → List Nat) (hwf : WellFormed abi t kids)
    (depth : Nat → Nat) (hdepth : ∀ i, ∀ j ∈ kids i, depth j < depth i)
    (hnames : ∀ i, ∀ j ∈ kids i, 47 ∉ entryName t j ∧ entryName t j ≠ [])
    (root : DirEntry) (hroot : t[0]? = some root) (hv : root.valid = true)
    (names : List WStr) (i : Nat) (hi : Resolves kids (entryName t) 0 names i) (hd : isDirOf t i = true) :
    ∃ steps listed, (∀ fuel, steps ≤ fuel →
        getAllStreams abi t fuel ((names.flatMap fun n => 47 :: n) ++ [47]) = .ok listed) ∧
      (∀ s, s ∈ listed ↔ ∃ inner, Inside kids (entryName t) (isDirOf t) i inner ∧
        s = (names ++ inner).flatMap fun n => 47 :: n) ∧
      ∀ s ∈ listed, ∃ k, entryIdx abi t s = .ok (some k) ∧ isDirOf t k = false := by
  have h0 : 0 < t.length := (List.getElem?_eq_some_iff.1 hroot).1
  obtain ⟨hdesc, e, he, hev⟩ := Oless.descend_of_resolves habi hwf hi root hroot hv
  have hed : e.dir = true := by simpa [isDirOf, he] using hd
  have hidx := (entryIdx_dir (abi := abi) h0 names (resolves_names hnames hi)).trans hdesc
  obtain ⟨N, r, h1, h2⟩ := C119_all_partial abi t kids hwf depth hdepth _ i e hidx he hev hed
  have h3 : ∀ s, s ∈ r ↔ ∃ inner, Inside kids (entryName t) (isDirOf t) i inner ∧
      s = (names ++ inner).flatMap fun n => 47 :: n := by
    intro s
    rw [h2]
    refine exists_congr fun inner => and_congr_right fun hin => ?_
    obtain ⟨_, _, _, hs⟩ := inside_resolves hin
    have : pathOf names ++ [47] ++ slashed inner = pathOf (names ++ inner) := by
      rw [List.append_assoc, List.singleton_append, hs]
      simp [pathOf]
    rw [this]
    rfl
  refine ⟨N, r, h1, h3, fun s hs => ?_⟩
  obtain ⟨inner, hin, rfl⟩ := (h3 s).1 hs
  obtain ⟨k, hr, hk, _⟩ := inside_resolves hin
  have hall := resolves_trans hi hr
  have hne : names ++ inner ≠ [] := by cases hin <;> simp
  have hok := resolves_names (P := fun n => 47 ∉ n ∧ n ≠ []) hnames hall
  refine ⟨k, ?_, hk⟩
  have hsn : names ++ inner = (names ++ inner).dropLast ++ [(names ++ inner).getLast hne] :=
    (List.dropLast_concat_getLast hne).symm
  have := entryIdx_object (abi := abi) (t := t) (names ++ inner).dropLast ((names ++ inner).getLast hne)
    (fun n hn => hok n (List.dropLast_subset _ hn)) (hok _ (List.getLast_mem hne))
  rw [← hsn, (Oless.descend_of_resolves habi hwf hall root hroot hv).1] at this
  rw [← this]
  congr 1
  have e : ∀ (a : List WStr) (b : WStr), pathOf a ++ [47] ++ b = pathOf (a ++ [b]) := by intro a b; simp [pathOf]
  rw [e, ← hsn]
  rfl

/-- Once an entry that is its own left neighbour is in the queue, the walk does not end. -/
private theorem never (t : DirTree) (c : Nat) (e : DirEntry) (he : t[c]? = some e) (hself : e.prev = c) :
    ∀ (f : Nat) (queue : List Nat) (path : WStr) (r : List WStr), c ∈ queue → ∀ r', collect t f queue path r ≠ .ok r' := by
  have hc : c < t.length := (List.getElem?_eq_some_iff.1 he).1
  intro f
  induction f with
  | zero => intro queue path r _ r'; simp [collect]
  | succ f ih =>
    intro queue path r hq r' h
    cases queue with
    | nil => simp at hq
    | cons x q =>
      rw [collect] at h
      cases hx : t[x]? with
      | none => simp [hx] at h
      | some d =>
        simp only [hx] at h
        cases h1 : (if d.dir then collect t f (pushed t d.child) (path ++ d.name ++ [47]) r
          else .ok (r ++ [path ++ d.name]) : Res (List WStr)) with
        | ok r1 =>
          rw [h1] at h
          refine ih _ path r1 ?_ r' h
          simp only [List.mem_cons] at hq
          rcases hq with rfl | hq
          · rw [he] at hx
            cases hx
            simp [hself, pushed, hc]
          · simp [hq]
        | throw => rw [h1] at h; cases h
        | ub => rw [h1] at h; cases h
        | fuel => rw [h1] at h; cases h

/-- C119 is false of directories with a cycle: if the first entry below the root is its own left neighbour,
`GetAllStreams` does not return, however many steps it is given. -/
theorem C119_cycle_wrong (abi : Abi) (t : DirTree) (root e : DirEntry) (hroot : t[0]? = some root)
    (hd : root.dir = true) (he : t[root.child]? = some e) (hself : e.prev = root.child) (fuel : Nat) :
    ∀ listed, getAllStreams abi t fuel [47] ≠ .ok listed := by
  have h0 : 0 < t.length := (List.getElem?_eq_some_iff.1 hroot).1
  have hc : root.child < t.length := (List.getElem?_eq_some_iff.1 he).1
  intro listed h
  have hi : entryIdx abi t [47] = .ok (some 0) := by simp [entryIdx, h0]
  simp only [getAllStreams, hi] at h
  change (match t[0]? with | none => _ | some e => _) = _ at h
  rw [hroot] at h
  simp only [hd, if_true] at h
  exact never t _ e he hself fuel _ _ _ (by simp [pushed, hc]) listed h

/-- A directory with storage "d" that holds stream "s". -/
def nestedDir : DirTree :=
  [{ valid := true, name := [82], dir := true, child := 1, prev := End, next := End },
   { valid := true, name := [100], dir := true, prev := End, next := End, child := 2 },
   { valid := true, name := [115], prev := End, next := End, child := End }]

/-- C119 is false of names that do not end with a slash: asked for the streams of "/d", `GetAllStreams` lists "/ds",
which is the path of nothing; the stream is "/d/s". -/
theorem C119_no_slash_wrong : getAllStreams Abi.linux nestedDir 10 [47, 100] = .ok [[47, 100, 115]] ∧
    entryIdx Abi.linux nestedDir [47, 100, 115] = .ok none ∧
    entryIdx Abi.linux nestedDir [47, 100, 47, 115] = .ok (some 2) := by
  decide

example : getAllStreams Abi.linux nestedDir 10 [47] = .ok [[47, 100, 47, 115]] ∧
    getAllStreams Abi.linux nestedDir 10 [47, 100, 47] = .ok [[47, 100, 47, 115]] := by decide

example : getAllStreams Abi.linux sampleDir 10 [47] = .ok [[47, 98], [47, 97], [47, 99, 99]] := by decide

/-- The hypotheses of `C119_all_partial` on a directory with a storage in the root. -/
example : ∃ (kids : Nat → List Nat) (depth : Nat → Nat), WellFormed Abi.linux nestedDir kids ∧ (∀ i, ∀ j ∈ kids i, depth j < depth i) ∧
    Inside kids (entryName nestedDir) (isDirOf nestedDir) 0 [[100], [115]] ∧
    entryIdx Abi.linux nestedDir [47, 100, 47] = .ok (some 1) := by
  refine ⟨fun i => if i = 0 then [1] else if i = 1 then [2] else [], fun i => 3 - i, ?_, ?_, ?_, by decide⟩
  · intro i p hp hv
    have hi : i < 3 := (List.getElem?_eq_some_iff.1 hp).1
    have hleaf : ∀ link, 3 ≤ link → SibTree.Below nestedDir.length (leftOf nestedDir) (rightOf nestedDir) link .leaf :=
      fun link h => .leaf h
    have : i = 0 ∨ i = 1 ∨ i = 2 := by omega
    rcases this with rfl | rfl | rfl <;> cases hp
    · refine ⟨.node .leaf 1 .leaf, ⟨.node (by decide) (hleaf _ (by decide)) (hleaf _ (by decide)),
        .node (by simp [SibTree.inorder]) (by simp [SibTree.inorder]) .leaf .leaf, ?_⟩, by simp [SibTree.inorder]⟩
      intro j hj
      simp [SibTree.inorder] at hj
      subst hj
      simp [nestedDir, Abi.linux]
    · refine ⟨.node .leaf 2 .leaf, ⟨.node (by decide) (hleaf _ (by decide)) (hleaf _ (by decide)),
        .node (by simp [SibTree.inorder]) (by simp [SibTree.inorder]) .leaf .leaf, ?_⟩, by simp [SibTree.inorder]⟩
      intro j hj
      simp [SibTree.inorder] at hj
      subst hj
      simp [nestedDir, Abi.linux]
    · exact ⟨.leaf, ⟨hleaf _ (by decide), .leaf, by simp [SibTree.inorder]⟩, by simp [SibTree.inorder]⟩
  · intro i j hj
    by_cases h0 : i = 0
    · simp [h0] at hj; subst hj h0; decide
    · by_cases h1 : i = 1
      · simp [h1] at hj; subst hj h1; decide
      · simp [h0, h1] at hj
  · exact .storage (j := 1) (by simp) (by decide) (.stream (j := 2) (by simp) (by decide))

end Fileid.Props
