import Verif.Props.OlessReport
import Verif.Props.PoleSample

/-!
# Compound files as witnesses for the theorems about documents
-/

namespace Fileid.Props

open Spec Spec.Ole Pole Oless Vba Common

/-! ### Sample files -/

namespace Sample

/-- A file with the given directory of four entries. -/
def imageOf (dir : Bytes) : Bytes :=
  header ++ fat.flatMap (leBytes 4) ++ dir ++ minifat.flatMap (leBytes 4) ++ [65] ++ List.replicate 511 0

/-- What opening such a file gives. -/
def ioOf (dir : Bytes) (t : DirTree) : StorageIO := { io with file := imageOf dir, dirtree := t }

/-- A directory with the stream "Binder" and the storage "Sub" with the stream "a". -/
def binderDir : Bytes :=
  entry (b!"Root Entry".map UInt8.toNat) 5 0xffffffff 0xffffffff 1 3 64 ++
    entry (text b!"Binder") 2 2 0xffffffff 0xffffffff 0 1 ++
    entry (text b!"Sub") 1 0xffffffff 0xffffffff 3 0 0 ++
    entry (text b!"a") 2 0xffffffff 0xffffffff 0xffffffff 0 1

/-- An entry of the directories here. -/
def dirEntry (name : List Nat) (dir : Bool) (size start prev child : Nat) : DirEntry :=
  { valid := true, name, dir, size, start, prev, next := 0xffffffff, child }

def rootEntry (child : Nat) : DirEntry := dirEntry (text b!"Root Entry") true 64 3 0xffffffff child

def binderTree : DirTree :=
  [rootEntry 1, dirEntry (text b!"Binder") false 1 0 2 0xffffffff, dirEntry (text b!"Sub") true 0 0 0xffffffff 3,
    dirEntry (text b!"a") false 1 0 0xffffffff 0xffffffff]

theorem binder_opens : openStorage Abi.windows (some (imageOf binderDir)) = .ok (.opened (ioOf binderDir binderTree)) := by
  rw [openStorage_quick]; decide +kernel

def binderObjects : Objects := .storage (text b!"Sub") (.stream (text b!"a") .nil) (.stream (text b!"Binder") .nil)

theorem no_siblings {abi : Abi} {t : DirTree} {link : Nat} (h : t.length ≤ link) : Siblings abi t link .leaf :=
  ⟨.leaf h, .leaf, by simp [SibTree.inorder]⟩

theorem before_of_length {abi : Abi} {a b : List Nat} (h : a.length < b.length) : NameBefore (wcharVal abi) a b :=
  Or.inl h

theorem binder_describes : Describes Abi.windows binderTree binderObjects := by
  refine ⟨by decide, ⟨_, rfl, rfl, rfl⟩, fun i => if i = 0 then [2, 1] else if i = 2 then [3] else [], ?_, ?_, ?_⟩
  · intro i p hp hv
    have hi : i < 4 := (List.getElem?_eq_some_iff.1 hp).1
    have hcase : i = 0 ∨ i = 1 ∨ i = 2 ∨ i = 3 := by omega
    rcases hcase with rfl | rfl | rfl | rfl <;> simp [binderTree] at hp <;> subst hp
    · refine ⟨.node (.node .leaf 2 .leaf) 1 .leaf, ⟨?_, ?_, ?_⟩, rfl⟩
      · exact .node (by decide) (.node (by decide) (.leaf (by decide)) (.leaf (by decide))) (.leaf (by decide))
      · refine .node ?_ (by simp [SibTree.inorder]) (.node (by simp [SibTree.inorder]) (by simp [SibTree.inorder]) .leaf .leaf)
          .leaf
        intro j hj
        simp only [SibTree.inorder, List.mem_append, List.mem_singleton, List.not_mem_nil, or_false, false_or] at hj
        subst hj
        exact Or.inl (by decide)
      · intro j hj
        simp only [SibTree.inorder, List.mem_append, List.mem_singleton, List.not_mem_nil, or_false, false_or] at hj
        rcases hj with rfl | rfl <;> refine ⟨by decide, fun e he => ?_⟩ <;> simp [binderTree] at he <;> subst he <;>
          exact ⟨by decide, by decide⟩
    · exact ⟨.leaf, no_siblings (by decide), rfl⟩
    · refine ⟨.node .leaf 3 .leaf, ⟨.node (by decide) (.leaf (by decide)) (.leaf (by decide)),
        .node (by simp [SibTree.inorder]) (by simp [SibTree.inorder]) .leaf .leaf, ?_⟩, rfl⟩
      intro j hj
      simp only [SibTree.inorder, List.mem_append, List.mem_singleton, List.not_mem_nil, or_false, false_or] at hj
      subst hj
      refine ⟨by decide, fun e he => ?_⟩
      simp [binderTree] at he
      subst he
      exact ⟨by decide, by decide⟩
    · exact ⟨.leaf, no_siblings (by decide), rfl⟩
  · refine Holds.storage (j := 2) (by decide) (Holds.stream (j := 3) (by decide) .nil) (Holds.stream (j := 1) (by decide) .nil)
  · intro i j hj
    dsimp only at hj
    split at hj
    · rcases List.mem_cons.1 hj with rfl | hj
      · decide
      · rw [List.mem_singleton] at hj
        subst hj
        decide
    · split at hj
      · rw [List.mem_singleton] at hj
        subst hj
        decide
      · cases hj

theorem binder_visits : binderObjects.visits (text b!"/") =
    [⟨text b!"Sub", text b!"/Sub", true⟩, ⟨text b!"a", text b!"/Sub/a", false⟩, ⟨text b!"Binder", text b!"/Binder", false⟩] := by
  decide

theorem plain_of_small {v : Visit} (h : ∀ u ∈ v.path, u < 256) : v.Plain := by
  intro m _ _ hs
  have : v.path.map (· % 256) = v.path := by
    have h2 : v.path.map (· % 256) = v.path.map id := List.map_congr_left fun u hu => Nat.mod_eq_of_lt (h u hu)
    rw [h2, List.map_id]
  rwa [this] at hs

/-- The hypotheses of `C46_kinds_partial` and `C46_made_partial` hold of a file with the stream "Binder", and it is
reported as a binder. -/
theorem binder_kind (env : Env) : ∃ rs, Guess Abi.windows env table 2 (some (imageOf binderDir)) = .ok rs ∧
    rs.map (·.base.Extension) = [b!"obd"] := by
  have hp : ∀ v ∈ binderObjects.visits (text b!"/"), v.Plain := by
    intro v hv
    refine plain_of_small fun u hu => ?_
    rw [binder_visits] at hv
    have : ∀ v ∈ [Visit.mk (text b!"Sub") (text b!"/Sub") true, ⟨text b!"a", text b!"/Sub/a", false⟩,
      ⟨text b!"Binder", text b!"/Binder", false⟩], ∀ u ∈ v.path, u < 256 := by decide
    exact this v hv u hu
  obtain ⟨rs, hr⟩ := C46_made_partial Abi.windows (Or.inr rfl) env table (fun i hi => hi) 2 _ (ioOf binderDir binderTree) binder_opens binderObjects
    binder_describes (by decide) (fun v hv => ⟨hp v hv, by
      rw [binder_visits] at hv
      revert v
      decide +kernel⟩)
  refine ⟨rs, hr, ?_⟩
  have := C46_kinds_partial Abi.windows (Or.inr rfl) env table (fun i => Iff.rfl) 2 _ (ioOf binderDir binderTree) binder_opens binderObjects
    binder_describes (by decide) hp rs hr
  rw [show told (binderObjects.visits (text b!"/")) = [[b!"obd"]] by decide +kernel] at this
  generalize rs.map (·.base.Extension) = es at this
  cases this with
  | cons h1 h2 =>
    cases h2
    rw [List.mem_singleton] at h1
    rw [h1]

/-- A directory with one stream. -/
def oneDir (name : List Nat) : Bytes :=
  entry (text b!"Root Entry") 5 0xffffffff 0xffffffff 1 3 64 ++
    entry name 2 0xffffffff 0xffffffff 0xffffffff 0 1 ++ List.replicate 256 0

def oneTree (root name : List Nat) : DirTree :=
  [dirEntry root true 64 3 0xffffffff 1, dirEntry name false 1 0 0xffffffff 0xffffffff, { dir := true }, { dir := true }]

theorem one_describes (abi : Abi) (root name : List Nat) (h : 47 ∉ name ∧ name ≠ [])
    (hu : ∀ x ∈ name, x < 2 ^ (8 * abi.wcharBytes)) : Describes abi (oneTree root name) (.stream name .nil) := by
  refine ⟨by simp [oneTree], ⟨_, rfl, rfl, rfl⟩, fun i => if i = 0 then [1] else [], ?_, ?_, ?_⟩
  · intro i p hp hv
    have hi : i < 4 := (List.getElem?_eq_some_iff.1 hp).1
    have hcase : i = 0 ∨ i = 1 ∨ i = 2 ∨ i = 3 := by omega
    rcases hcase with rfl | rfl | rfl | rfl <;> simp [oneTree] at hp <;> subst hp
    · refine ⟨.node .leaf 1 .leaf, ⟨?_, .node (by simp [SibTree.inorder]) (by simp [SibTree.inorder]) .leaf .leaf, ?_⟩, rfl⟩
      · exact .node (by simp [oneTree, dirEntry]) (.leaf (by simp [oneTree, leftOf, dirEntry]))
          (.leaf (by simp [oneTree, rightOf, dirEntry]))
      · intro j hj
        simp only [SibTree.inorder, List.mem_append, List.mem_singleton, List.not_mem_nil, or_false, false_or] at hj
        subst hj
        refine ⟨by decide, fun e he => ?_⟩
        simp [oneTree] at he
        subst he
        exact ⟨rfl, hu⟩
    · exact ⟨.leaf, no_siblings (by simp [oneTree, dirEntry]), rfl⟩
    · simp at hv
    · simp at hv
  · have := Holds.stream (isStorage := isDirOf (oneTree root name)) (name := entryName (oneTree root name))
      (kids := fun i => if i = 0 then [1] else []) (j := 1) rfl .nil
    exact this
  · intro i j hj
    dsimp only at hj
    split at hj
    · rw [List.mem_singleton] at hj
      subst hj
      exact h
    · cases hj

end Sample

/-- C46 is false: this file with a stream "\u0145quation Native" holds no equation, but is reported as one, because
only the low bytes of the names are compared when the case of letters is ignored. -/
theorem C46_case_false : ∃ (file : Bytes) (io : StorageIO) (objs : Objects),
    openStorage Abi.windows (some file) = .ok (.opened io) ∧ Describes Abi.windows io.dirtree objs ∧
    told (objs.visits (text b!"/")) = [[b!"oless"]] ∧
    ∀ env depth, ∃ r, Guess Abi.windows env table (depth + 1) (some file) = .ok [r] ∧ r.base.Extension = b!"ole_eq" := by
  have hopen : openStorage Abi.windows (some (Sample.imageOf (Sample.oneDir (0x145 :: text b!"quation Native")))) =
      .ok (.opened (Sample.ioOf (Sample.oneDir (0x145 :: text b!"quation Native"))
        (Sample.oneTree (text b!"Root Entry") (0x145 :: text b!"quation Native")))) := by rw [openStorage_quick]; decide +kernel
  have hdes := Sample.one_describes Abi.windows (text b!"Root Entry") (0x145 :: text b!"quation Native") (by decide)
    (by decide)
  refine ⟨_, _, _, hopen, hdes, by decide +kernel, fun env depth => ?_⟩
  unfold Guess
  rw [hopen, Res.bind_ok]
  dsimp only
  rw [recurse_spec (Or.inr rfl) hdes _ _ (depth + 1) (by simp [Objects.depth])]
  exact ⟨_, rfl, rfl⟩

/-! ### A storage that contains itself -/

namespace Sample

/-- A directory with one object of the given kind, first child and size. -/
def soleDir (name : List Nat) (kind child size : Nat) : Bytes :=
  entry (text b!"Root Entry") 5 0xffffffff 0xffffffff 1 3 64 ++
    entry name kind 0xffffffff 0xffffffff child 0 size ++ List.replicate 256 0

def soleTree (name : List Nat) (dir : Bool) (child size : Nat) : DirTree :=
  [rootEntry 1, dirEntry name dir size 0 0xffffffff child, { dir := true }, { dir := true }]

theorem sole_wellFormed (abi : Abi) (name : List Nat) (dir : Bool) (child size : Nat) (hc : child = 1 ∨ 4 ≤ child)
    (hu : ∀ x ∈ name, x < 2 ^ (8 * abi.wcharBytes)) :
    WellFormed abi (soleTree name dir child size)
      (fun i => if i = 0 then [1] else if i = 1 ∧ child = 1 then [1] else []) := by
  have hone : Siblings abi (soleTree name dir child size) 1 (.node .leaf 1 .leaf) := by
    refine ⟨?_, .node (by simp [SibTree.inorder]) (by simp [SibTree.inorder]) .leaf .leaf, ?_⟩
    · exact .node (by simp [soleTree]) (.leaf (by simp [soleTree, leftOf, dirEntry]))
        (.leaf (by simp [soleTree, rightOf, dirEntry]))
    · intro j hj
      simp only [SibTree.inorder, List.mem_append, List.mem_singleton, List.not_mem_nil, or_false, false_or] at hj
      subst hj
      refine ⟨by decide, fun e he => ?_⟩
      simp [soleTree] at he
      subst he
      exact ⟨rfl, hu⟩
  intro i p hp hv
  have hi : i < 4 := (List.getElem?_eq_some_iff.1 hp).1
  have hcase : i = 0 ∨ i = 1 ∨ i = 2 ∨ i = 3 := by omega
  rcases hcase with rfl | rfl | rfl | rfl <;> simp [soleTree] at hp <;> subst hp
  · exact ⟨_, hone, rfl⟩
  · rcases hc with rfl | hc
    · exact ⟨_, hone, rfl⟩
    · refine ⟨.leaf, no_siblings (by simp [soleTree, dirEntry]; omega), ?_⟩
      have : child ≠ 1 := by omega
      simp [SibTree.inorder, this]
  · simp at hv
  · simp at hv

theorem sole_describes (abi : Abi) (name : List Nat) (dir : Bool) (child size : Nat) (hc : 4 ≤ child)
    (h : 47 ∉ name ∧ name ≠ []) (hu : ∀ x ∈ name, x < 2 ^ (8 * abi.wcharBytes)) :
    Describes abi (soleTree name dir child size) (if dir then .storage name .nil .nil else .stream name .nil) := by
  have hch : child ≠ 1 := by omega
  refine ⟨by simp [soleTree], ⟨_, rfl, rfl, rfl⟩, _, sole_wellFormed abi name dir child size (Or.inr hc) hu, ?_, ?_⟩
  · rw [if_pos rfl]
    cases dir with
    | true =>
      exact Holds.storage (isStorage := isDirOf (soleTree name true child size)) (name := entryName (soleTree name true child size))
        (j := 1) rfl (by simp [hch]; exact .nil) .nil
    | false =>
      exact Holds.stream (isStorage := isDirOf (soleTree name false child size)) (name := entryName (soleTree name false child size))
        (j := 1) rfl .nil
  · intro i j hj
    split at hj
    · rw [List.mem_singleton] at hj
      subst hj
      exact h
    · rw [if_neg (by simp [hch])] at hj
      cases hj

/-- The container with the storage "S" that has itself inside. -/
def loopIo : StorageIO := ioOf (soleDir [83] 1 1 0) (soleTree [83] true 1 0)

theorem loop_opens : openStorage Abi.windows (some (imageOf (soleDir [83] 1 1 0))) = .ok (.opened loopIo) := by
  rw [openStorage_quick]; decide +kernel

theorem loop_path (n : Nat) :
    loopIo.entries Abi.windows (pathOf (List.replicate n [83]) ++ [47]) = .ok [[83]] ∧
    loopIo.isDirectory Abi.windows (pathOf (List.replicate n [83]) ++ [47] ++ [83]) = .ok true := by
  have hwf := sole_wellFormed Abi.windows [83] true 1 0 (Or.inl rfl) (by decide)
  have hr : ∀ n, Resolves (fun i => if i = 0 then [1] else if i = 1 ∧ 1 = 1 then [1] else [])
      (entryName (soleTree [83] true 1 0)) 0 (List.replicate n [83]) (if n = 0 then 0 else 1) := by
    have h1 : ∀ n, Resolves (fun i => if i = 0 then [1] else if i = 1 ∧ 1 = 1 then [1] else [])
        (entryName (soleTree [83] true 1 0)) 1 (List.replicate n [83]) 1 := by
      intro n
      induction n with
      | zero => exact .here
      | succ n ih => exact Resolves.down (j := 1) (by simp) ih
    intro n
    cases n with
    | zero => exact .here
    | succ n => rw [if_neg (by omega)]; exact Resolves.down (j := 1) (by simp) (h1 n)
  have hn : ∀ m ∈ List.replicate n [83], 47 ∉ m ∧ m ≠ [] := by
    intro m hm
    rw [(List.mem_replicate.1 hm).2]
    decide
  have e1 := entries_spec (io := loopIo) (Or.inr rfl) (by decide) hwf rfl rfl hn (hr n) (by split <;> rfl)
  have e2 := (object_spec (io := loopIo) (Or.inr rfl) hwf rfl rfl hn (hr n) (j := 1) (by split <;> simp) (by decide)).2
  refine ⟨?_, e2⟩
  rw [e1]
  split <;> rfl

theorem loop_walk {σ : Type} (push : σ → WStr → σ) (callback : σ → WStr → WStr → Res σ)
    (hc : ∀ n st, ∃ st', callback st [83] (pathOf (List.replicate n [83]) ++ [47] ++ [83]) = .ok st') :
    ∀ depth n st, recurse Abi.windows loopIo push callback depth (pathOf (List.replicate n [83]) ++ [47]) st = .fuel := by
  intro depth
  induction depth with
  | zero => intro n st; rfl
  | succ d ih =>
    intro n st
    obtain ⟨h1, h2⟩ := loop_path n
    rw [recurse, h1, Res.bind_ok, foldRes]
    obtain ⟨st', hst⟩ := hc n (push st (pathOf (List.replicate n [83]) ++ [47]))
    rw [hst, Res.bind_ok, h2, Res.bind_ok, if_pos rfl]
    have e : pathOf (List.replicate n [83]) ++ [47] ++ [83] ++ [47] = pathOf (List.replicate (n + 1) [83]) ++ [47] := by
      rw [List.replicate_succ', pathOf, pathOf, List.flatMap_append]
      simp
    rw [e, ih]
    rfl

end Sample

/-- C74 is false: neither identification nor listing of this file of 2560 bytes ends, whatever the depth of recursion
the machine allows. -/
theorem C74_false : ∃ file : Bytes, file.length = 2560 ∧
    (∀ env depth, Guess Abi.windows env table depth (some file) = .fuel) ∧
    ∀ depth, List_ Abi.windows depth (some file) = .fuel := by
  refine ⟨Sample.imageOf (Sample.soleDir [83] 1 1 0), by decide +kernel, fun env depth => ?_, fun depth => ?_⟩
  · unfold Guess
    rw [Sample.loop_opens, Res.bind_ok]
    dsimp only
    have := Sample.loop_walk St.pushPath (guessStreamInfo Abi.windows env table Sample.loopIo) (fun n st => ?_) depth 0 {}
    · rw [show pathOf (List.replicate 0 [83]) ++ [47] = [47] from rfl] at this
      rw [this]
      rfl
    · refine ⟨st, ?_⟩
      unfold guessStreamInfo
      rw [(Sample.loop_path n).2, Res.bind_ok, if_pos rfl, if_neg]
      have : ∃ rest, pathOf (List.replicate n [83]) ++ [47] ++ [83] = 47 :: 83 :: rest := by
        cases n with
        | zero => exact ⟨[], rfl⟩
        | succ n => exact ⟨pathOf (List.replicate n [83]) ++ [47] ++ [83], by simp [List.replicate_succ, pathOf]⟩
      obtain ⟨rest, h⟩ := this
      rw [h]
      simp [isVbaStorage, wide]
  · unfold List_
    rw [Sample.loop_opens, Res.bind_ok]
    dsimp only
    have := Sample.loop_walk (fun st _ => st) (printStreamInfo Abi.windows Sample.loopIo) (fun n st => ?_) depth 0 []
    · rw [show pathOf (List.replicate 0 [83]) ++ [47] = [47] from rfl] at this
      rw [this]
    · refine ⟨st, ?_⟩
      unfold printStreamInfo
      rw [(Sample.loop_path n).2, Res.bind_ok, if_pos rfl]

end Fileid.Props
