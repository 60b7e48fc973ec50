import Verif.Props.PoleOpen
import Verif.Props.PoleDir
import Verif.Spec.Oless
import Verif.Model.Oless

/-!
# Lemmas about the walk through a compound file
-/

namespace Fileid.Oless

open Spec Spec.Ole Pole Props

/-! ## Loops -/

theorem foldRes_append {α σ : Type} (f : σ → α → Res σ) (as bs : List α) :
    ∀ s, foldRes f s (as ++ bs) = (foldRes f s as >>= fun s => foldRes f s bs) := by
  induction as with
  | nil => intro s; rfl
  | cons a as ih =>
    intro s
    rw [List.cons_append, foldRes, foldRes]
    cases f s a with
    | ok s' => rw [Res.bind_ok, Res.bind_ok, ih]
    | throw => rfl
    | ub => rfl
    | fuel => rfl

/-! ## Paths -/

/-- Whether an entry is a storage. -/
def isDirOf (t : DirTree) (i : Nat) : Bool := ((t[i]?).map (·.dir)).getD false

section
variable {abi : Abi} {t : DirTree} {kids : Nat → List Nat}

theorem descend_of_resolves (habi : abi = Abi.linux ∨ abi = Abi.windows) (hwf : WellFormed abi t kids) {i k : Nat}
    {names : List WStr} (h : Resolves kids (entryName t) i names k) : ∀ p, t[i]? = some p → p.valid = true →
    descend abi t i names = .ok (some k) ∧ ∃ e, t[k]? = some e ∧ e.valid = true := by
  induction h with
  | @here i =>
    intro p hp hv
    exact ⟨by rw [descend, if_pos (List.getElem?_eq_some_iff.1 hp).1], p, hp, hv⟩
  | @down i j k names hj _ ih =>
    intro p hp hv
    obtain ⟨T, hT, hk⟩ := hwf i p hp hv
    have hjT : j ∈ T.inorder := by rw [hk]; exact hj
    have hlt := SibTree.below_lt hT.below j hjT
    have hje := (hT.entries j hjT).2 _ (List.getElem?_eq_getElem hlt)
    have hn : entryName t j = (t[j]'hlt).name := by simp [entryName, hlt]
    rw [descend]
    rcases C43_find_child abi habi t i p hp hv T hT (entryName t j) (by rw [hn]; exact hje.2) with
      ⟨j', e, hj', he, hname, hf⟩ | ⟨hno, _⟩
    · have : j' = j := ordered_name_unique hT.ordered j' hj' j hjT (by
        rw [← hname]; simp [entryName, he])
      subst this
      rw [hf, Res.bind_ok, if_pos (by have := (hT.entries j' hjT).1; omega)]
      exact ih _ (List.getElem?_eq_getElem hlt) hje.1
    · exact absurd hn.symm (hno j hjT _ (List.getElem?_eq_getElem hlt))

theorem splitNames_dir (n : WStr) (rest : List WStr) (hn : 47 ∉ n) (hr : ∀ m ∈ rest, 47 ∉ m) :
    splitNames [] false (n ++ (pathOf rest ++ [47])) = n :: rest := by
  induction rest generalizing n with
  | nil =>
    have := splitNames_cons n hn [] [] false
    simpa [pathOf, splitNames] using this
  | cons m rest ih =>
    have e : pathOf (m :: rest) ++ [47] = 47 :: (m ++ (pathOf rest ++ [47])) := by simp [pathOf]
    rw [e, splitNames_cons n hn, ih m (hr m (by simp)) (fun x hx => hr x (by simp [hx]))]
    rfl

theorem entryIdx_dir (h0 : 0 < t.length) (names : List WStr) (hn : ∀ n ∈ names, 47 ∉ n ∧ n ≠ []) :
    entryIdx abi t (pathOf names ++ [47]) = descend abi t 0 names := by
  unfold entryIdx
  cases names with
  | nil => simp [pathOf, descend, h0]
  | cons n rest =>
    have h1 := hn n (by simp)
    have e : pathOf (n :: rest) ++ [47] = 47 :: (n ++ (pathOf rest ++ [47])) := by simp [pathOf]
    rw [e, if_neg (by simp), if_neg (by simp)]
    simp only [List.head?_cons, ↓reduceIte, List.drop_one, List.tail_cons]
    rw [splitNames_dir n rest h1.1 (fun m hm => (hn m (by simp [hm])).1)]

theorem entryIdx_object (names : List WStr) (name : WStr) (hn : ∀ n ∈ names, 47 ∉ n ∧ n ≠ [])
    (hm : 47 ∉ name ∧ name ≠ []) :
    entryIdx abi t (pathOf names ++ [47] ++ name) = descend abi t 0 (names ++ [name]) := by
  have e : pathOf names ++ [47] ++ name = pathOf (names ++ [name]) := by simp [pathOf]
  have hall : ∀ n ∈ names ++ [name], 47 ∉ n ∧ n ≠ [] := by
    intro n h
    rcases List.mem_append.1 h with h | h
    · exact hn n h
    · rw [List.mem_singleton.1 h]; exact hm
  rw [e]
  generalize hN : names ++ [name] = N at hall
  cases N with
  | nil => simp at hN
  | cons n rest =>
    have h1 := hall n (by simp)
    unfold entryIdx
    have e2 : pathOf (n :: rest) = 47 :: (n ++ pathOf rest) := by simp [pathOf]
    rw [e2, if_neg (by simp), if_neg (by simp [h1.2])]
    simp only [List.head?_cons, ↓reduceIte, List.drop_one, List.tail_cons]
    rw [splitNames_path n rest h1 (fun m hm => hall m (by simp [hm]))]

theorem resolves_snoc {name : Nat → WStr} {i k j : Nat} {names : List WStr} (h : Resolves kids name i names k)
    (hj : j ∈ kids k) : Resolves kids name i (names ++ [name j]) j := by
  induction h with
  | here => exact .down hj .here
  | down hj' _ ih => exact .down hj' (ih hj)

end

/-- The directory holds the objects: its links form search trees as the reader expects them, its root is a storage
with the objects inside, and names are no parts of paths. -/
structure Describes (abi : Abi) (t : DirTree) (objs : Objects) : Prop where
  size : t.length ≤ 0xffffffff
  root : ∃ root, t[0]? = some root ∧ root.valid = true ∧ root.dir = true
  tree : ∃ kids, WellFormed abi t kids ∧ Holds (isDirOf t) (entryName t) kids (kids 0) objs ∧
    ∀ i j, j ∈ kids i → 47 ∉ entryName t j ∧ entryName t j ≠ []

section
variable {abi : Abi} {io : StorageIO} {kids : Nat → List Nat}

/-- What the storage says about an entry that the names lead to. -/
theorem object_spec (habi : abi = Abi.linux ∨ abi = Abi.windows) (hwf : WellFormed abi io.dirtree kids)
    {root : DirEntry} (hroot : io.dirtree[0]? = some root) (hrv : root.valid = true)
    {names : List WStr} (hn : ∀ n ∈ names, 47 ∉ n ∧ n ≠ []) {i j : Nat}
    (hr : Resolves kids (entryName io.dirtree) 0 names i) (hj : j ∈ kids i)
    (hg : 47 ∉ entryName io.dirtree j ∧ entryName io.dirtree j ≠ []) :
    entryIdx abi io.dirtree (pathOf names ++ [47] ++ entryName io.dirtree j) = .ok (some j) ∧
    io.isDirectory abi (pathOf names ++ [47] ++ entryName io.dirtree j) = .ok (isDirOf io.dirtree j) := by
  have h := (descend_of_resolves habi hwf (resolves_snoc hr hj) root hroot hrv).1
  have h2 := entryIdx_object (abi := abi) (t := io.dirtree) names _ hn hg
  rw [h] at h2
  refine ⟨h2, ?_⟩
  unfold StorageIO.isDirectory
  rw [h2]
  rfl

theorem entries_spec (habi : abi = Abi.linux ∨ abi = Abi.windows) (hend : io.dirtree.length ≤ 0xffffffff)
    (hwf : WellFormed abi io.dirtree kids)
    {root : DirEntry} (hroot : io.dirtree[0]? = some root) (hrv : root.valid = true)
    {names : List WStr} (hn : ∀ n ∈ names, 47 ∉ n ∧ n ≠ []) {i : Nat}
    (hr : Resolves kids (entryName io.dirtree) 0 names i) (hd : isDirOf io.dirtree i = true) :
    io.entries abi (pathOf names ++ [47]) = .ok ((kids i).map (entryName io.dirtree)) := by
  obtain ⟨h1, e, he, hv⟩ := descend_of_resolves habi hwf hr root hroot hrv
  obtain ⟨T, hT, hk⟩ := hwf i e he hv
  unfold StorageIO.entries
  rw [entryIdx_dir (List.getElem?_eq_some_iff.1 hroot).1 names hn, h1, Res.bind_ok]
  unfold entriesAt
  dsimp only
  rw [he]
  dsimp only
  unfold entriesOf
  have hde : e.dir = true := by simpa [isDirOf, he] using hd
  rw [if_pos hde, C42_children _ hend i e he hv T hT.below, Res.bind_ok, hk]
  rfl

/-- One step of the walk for a visited object. -/
def visitStep {σ : Type} (push : σ → WStr → σ) (callback : σ → WStr → WStr → Res σ) (st : σ) (v : Visit) : Res σ := do
  let st ← callback st v.name v.path
  .ok (push st v.listed)

theorem fold_spec {σ : Type} (habi : abi = Abi.linux ∨ abi = Abi.windows) (hend : io.dirtree.length ≤ 0xffffffff)
    (hwf : WellFormed abi io.dirtree kids)
    {root : DirEntry} (hroot : io.dirtree[0]? = some root) (hrv : root.valid = true)
    (hg : ∀ i j, j ∈ kids i → 47 ∉ entryName io.dirtree j ∧ entryName io.dirtree j ≠ [])
    (push : σ → WStr → σ) (callback : σ → WStr → WStr → Res σ) {js : List Nat} {objs : Objects}
    (h : Holds (isDirOf io.dirtree) (entryName io.dirtree) kids js objs) :
    ∀ (depth : Nat) (names : List WStr) (i : Nat) (st : σ), objs.depth ≤ depth → (∀ n ∈ names, 47 ∉ n ∧ n ≠ []) →
      Resolves kids (entryName io.dirtree) 0 names i → (∀ j ∈ js, j ∈ kids i) →
      foldRes (fun st name => do
        let st ← callback st name (pathOf names ++ [47] ++ name)
        let d ← io.isDirectory abi (pathOf names ++ [47] ++ name)
        if d then recurse abi io push callback depth (pathOf names ++ [47] ++ name ++ [47]) st
        else .ok (push st (pathOf names ++ [47] ++ name))) st (js.map (entryName io.dirtree)) =
      foldRes (visitStep push callback) st (objs.visits (pathOf names ++ [47])) := by
  induction h with
  | nil => intro depth names i st _ _ _ _; rfl
  | @stream j js rest hd _ ih =>
    intro depth names i st hdep hn hr hjs
    have ho := (object_spec habi hwf hroot hrv hn hr (hjs j (by simp)) (hg i j (hjs j (by simp)))).2
    rw [List.map_cons, foldRes, Objects.visits, foldRes, visitStep]
    dsimp only
    cases callback st (entryName io.dirtree j) (pathOf names ++ [47] ++ entryName io.dirtree j) with
    | ok s =>
      rw [Res.bind_ok, Res.bind_ok, ho, Res.bind_ok, hd, if_neg (by simp), Res.bind_ok, Res.bind_ok]
      exact ih depth names i _ (by simpa [Objects.depth] using hdep) hn hr (fun x hx => hjs x (by simp [hx]))
    | throw => rfl
    | ub => rfl
    | fuel => rfl
  | @storage j js inside rest hd hin _ ih1 ih2 =>
    intro depth names i st hdep hn hr hjs
    have hjk := hjs j (by simp)
    have ho := (object_spec habi hwf hroot hrv hn hr hjk (hg i j hjk)).2
    have hdep' : inside.depth + 1 ≤ depth ∧ rest.depth ≤ depth := by
      simp only [Objects.depth] at hdep
      omega
    rw [List.map_cons, foldRes, Objects.visits, foldRes, visitStep]
    dsimp only
    cases callback st (entryName io.dirtree j) (pathOf names ++ [47] ++ entryName io.dirtree j) with
    | ok s =>
      rw [Res.bind_ok, Res.bind_ok, ho, Res.bind_ok, hd, if_pos rfl, Res.bind_ok, foldRes_append]
      obtain ⟨d, rfl⟩ : ∃ d, depth = d + 1 := ⟨depth - 1, by omega⟩
      have e : pathOf names ++ [47] ++ entryName io.dirtree j ++ [47] =
          pathOf (names ++ [entryName io.dirtree j]) ++ [47] := by simp [pathOf]
      have hn' : ∀ n ∈ names ++ [entryName io.dirtree j], 47 ∉ n ∧ n ≠ [] := by
        intro n h
        rcases List.mem_append.1 h with h | h
        · exact hn n h
        · rw [List.mem_singleton.1 h]; exact hg i j hjk
      have hr' := resolves_snoc hr hjk
      have hl : (Visit.mk (entryName io.dirtree j) (pathOf names ++ [47] ++ entryName io.dirtree j) true).listed =
          pathOf (names ++ [entryName io.dirtree j]) ++ [47] := by
        rw [← e]; rfl
      rw [hl, show text b!"/" = [47] from rfl, e, recurse, entries_spec habi hend hwf hroot hrv hn' hr' hd, Res.bind_ok]
      rw [ih1 d _ j _ (by omega) hn' hr' (fun x hx => hx)]
      cases foldRes (visitStep push callback) (push s (pathOf (names ++ [entryName io.dirtree j]) ++ [47]))
          (inside.visits (pathOf (names ++ [entryName io.dirtree j]) ++ [47])) with
      | ok s' =>
        rw [Res.bind_ok, Res.bind_ok]
        exact ih2 (d + 1) names i s' hdep'.2 hn hr (fun x hx => hjs x (by simp [hx]))
      | throw => rfl
      | ub => rfl
      | fuel => rfl
    | throw => rfl
    | ub => rfl
    | fuel => rfl

/-- The walk visits the objects of the directory in order. -/
theorem recurse_spec {σ : Type} (habi : abi = Abi.linux ∨ abi = Abi.windows) {objs : Objects}
    (h : Describes abi io.dirtree objs) (push : σ → WStr → σ) (callback : σ → WStr → WStr → Res σ) (depth : Nat)
    (hdep : objs.depth < depth) (st : σ) :
    recurse abi io push callback depth [47] st =
      foldRes (visitStep push callback) (push st [47]) (objs.visits [47]) := by
  obtain ⟨hend, ⟨root, hroot, hrv, hrd⟩, kids, hwf, hh, hg⟩ := h
  obtain ⟨d, rfl⟩ : ∃ d, depth = d + 1 := ⟨depth - 1, by omega⟩
  have hd0 : isDirOf io.dirtree 0 = true := by simp [isDirOf, hroot, hrd]
  have he := entries_spec (names := []) habi hend hwf hroot hrv (by simp) .here hd0
  have hf := fold_spec habi hend hwf hroot hrv hg push callback hh d [] 0 (push st [47]) (by omega) (by simp) .here
    (fun j hj => hj)
  simp only [pathOf, List.flatMap_nil, List.nil_append] at he hf
  rw [recurse, he, Res.bind_ok]
  exact hf

end

end Fileid.Oless
