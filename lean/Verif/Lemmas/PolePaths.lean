import Verif.Lemmas.PoleCreate
import Verif.Spec.Paths

/-!
# Lemmas about paths in a directory that is changed
-/

namespace Fileid.Pole

open Spec Props

section
variable {kids : Nat → List Nat} {name : Nat → List Nat}

theorem resolves_append {i j k : Nat} {a b : List (List Nat)} (h : Resolves kids name i a j) (h' : Resolves kids name j b k) :
    Resolves kids name i (a ++ b) k := by
  induction h with
  | here => exact h'
  | down hm _ ih => exact .down hm (ih h')

theorem resolves_split {i k : Nat} (a : List (List Nat)) : ∀ {i : Nat} {b : List (List Nat)}, Resolves kids name i (a ++ b) k →
    ∃ j, Resolves kids name i a j ∧ Resolves kids name j b k := by
  induction a with
  | nil => exact fun h => ⟨_, .here, h⟩
  | cons n a ih =>
    intro i b h
    generalize hN : n :: a ++ b = N at h
    cases h with
    | here => cases hN
    | down hm h =>
      injection hN with h1 h2
      subst h2
      obtain ⟨j, h3, h4⟩ := ih h
      exact ⟨j, by rw [h1]; exact .down hm h3, h4⟩

theorem resolves_snoc {i j k : Nat} {a : List (List Nat)} (h : Resolves kids name i a j) (hk : k ∈ kids j) :
    Resolves kids name i (a ++ [name k]) k := resolves_append h (.down hk .here)

theorem resolves_snoc_inv {i k : Nat} {q : List (List Nat)} (h : Resolves kids name i q k) :
    (q = [] ∧ k = i) ∨ ∃ q' j, q = q' ++ [name k] ∧ Resolves kids name i q' j ∧ k ∈ kids j := by
  induction h with
  | here => exact Or.inl ⟨rfl, rfl⟩
  | @down i j k names hm hr ih =>
    right
    rcases ih with ⟨rfl, rfl⟩ | ⟨q', j', h1, h2, h3⟩
    · exact ⟨[], i, rfl, .here, hm⟩
    · exact ⟨name j :: q', j', by rw [h1]; rfl, .down hm h2, h3⟩
end

/-- Entries a path leads to are in use. -/
theorem resolves_valid {abi : Abi} {t : DirTree} {kids : Nat → List Nat} (S : Shape abi t kids) {q : List WStr} {k : Nat}
    (h : Resolves kids (entryName t) 0 q k) : ∃ e, t[k]? = some e ∧ e.valid = true := by
  rcases resolves_snoc_inv h with ⟨_, rfl⟩ | ⟨_, j, _, _, hk⟩
  · obtain ⟨e, h1, h2, _⟩ := S.root
    exact ⟨e, h1, h2⟩
  · obtain ⟨_, e, h1, h2, _⟩ := kids_valid S hk
    exact ⟨e, h1, h2⟩

/-- There is one path to an entry. -/
theorem resolves_path {abi : Abi} {t : DirTree} {kids : Nat → List Nat} (S : Shape abi t kids) : ∀ (n : Nat) {q q' : List WStr} {k : Nat},
    q.length = n → Resolves kids (entryName t) 0 q k → Resolves kids (entryName t) 0 q' k → q = q' := by
  intro n
  induction n with
  | zero =>
    intro q q' k hn h h'
    rw [List.length_eq_zero_iff.1 hn] at h ⊢
    rcases resolves_snoc_inv h with ⟨_, rfl⟩ | ⟨x, _, h1, _⟩
    · rcases resolves_snoc_inv h' with ⟨h2, _⟩ | ⟨_, j, _, _, hk⟩
      · exact h2.symm
      · exact absurd rfl (kids_valid S hk).1
    · have := congrArg List.length h1; simp at this
  | succ n ih =>
    intro q q' k hn h h'
    rcases resolves_snoc_inv h with ⟨h1, _⟩ | ⟨x, j, h1, h2, h3⟩
    · rw [h1] at hn; simp at hn
    · rcases resolves_snoc_inv h' with ⟨_, rfl⟩ | ⟨x', j', h1', h2', h3'⟩
      · exact absurd rfl (kids_valid S h3).1
      · have hj : j = j' := Classical.byContradiction fun hc => S.apart j j' hc k h3 h3'
        subst hj
        have hx : x.length = n := by rw [h1] at hn; simpa using hn
        rw [h1, h1', ih hx h2 h2']

/-- A path leads to one entry. -/
theorem resolves_entry {abi : Abi} {t : DirTree} {kids : Nat → List Nat} (S : Shape abi t kids) {q : List WStr} :
    ∀ {i k k' : Nat}, Resolves kids (entryName t) i q k → Resolves kids (entryName t) i q k' → k = k' := by
  induction q with
  | nil =>
    intro i k k' h h'
    cases h
    cases h'
    rfl
  | cons n q ih =>
    intro i k k' h h'
    generalize hN : n :: q = N at h
    cases h with
    | here => cases hN
    | @down _ j _ _ hj hr =>
      generalize hM : n :: q = M at h'
      cases h' with
      | here => cases hM
      | @down _ j' _ _ hj' hr' =>
        injection hN with h1 h2
        injection hM with h1' h2'
        subst h2
        subst h2'
        have hji : j = j' := by
          by_cases hv : ∃ e, t[i]? = some e ∧ e.valid = true
          · obtain ⟨e, he, hv⟩ := hv
            obtain ⟨T, hT, hk⟩ := S.tree i e he hv
            rw [← hk] at hj hj'
            exact ordered_name_unique hT.ordered j hj j' hj' (by rw [← h1, ← h1'])
          · rw [S.unused i (fun e he => by
              cases hx : e.valid with
              | false => rfl
              | true => exact absurd ⟨e, he, hx⟩ hv)] at hj
            simp at hj
        subst hji
        exact ih hr hr'

/-! ## Paths and a new entry -/

theorem added_name {abi : Abi} {t t' : DirTree} {kids kids' : Nat → List Nat} {p index size : Nat} {name : WStr} {dir : Bool}
    (A : Added abi t kids p name dir size index t' kids') {j : Nat} {e : DirEntry} (hj : j ≠ index) (he : t[j]? = some e) :
    entryName t' j = entryName t j := by
  obtain ⟨e', h1, h2⟩ := A.old j e hj he
  simp [entryName, he, h1, h2.name]

theorem added_paths {abi : Abi} {t t' : DirTree} {kids kids' : Nat → List Nat} {p index size : Nat} {name : WStr} {dir : Bool}
    (S : Shape abi t kids) (A : Added abi t kids p name dir size index t' kids') {i k : Nat} {q : List WStr}
    (h : Resolves kids (entryName t) i q k) : Resolves kids' (entryName t') i q k := by
  induction h with
  | here => exact .here
  | @down i j k names hm _ ih =>
    obtain ⟨_, e, he, hv, _⟩ := kids_valid S hm
    have hj : j ≠ index := fun hc => by rw [A.fresh e (hc ▸ he)] at hv; cases hv
    rw [← added_name A hj he]
    refine .down ?_ ih
    obtain ⟨a, b, h1, h2⟩ := A.place
    rw [h2]
    unfold replaced
    split
    · rename_i hip
      rw [hip, h1] at hm
      rcases List.mem_append.1 hm with hm | hm
      · exact List.mem_append_left _ hm
      · exact List.mem_append_right _ (List.mem_cons_of_mem _ hm)
    · exact hm

theorem added_new {abi : Abi} {t t' : DirTree} {kids kids' : Nat → List Nat} {p index size : Nat} {name : WStr} {dir : Bool}
    (S : Shape abi t kids) (A : Added abi t kids p name dir size index t' kids') (hpi : p ≠ index) {i k : Nat} {q : List WStr}
    (h : Resolves kids' (entryName t') i q k) : i ≠ index →
    Resolves kids (entryName t) i q k ∨ ∃ q', q = q' ++ [name] ∧ k = index ∧ Resolves kids (entryName t) i q' p := by
  obtain ⟨a, b, h1, h2⟩ := A.place
  obtain ⟨ne, hne, _, hnn, _⟩ := A.entry
  have hnil : kids' index = [] := by
    rw [h2, replaced_ne _ _ (fun h => hpi h.symm)]
    exact S.unused index A.fresh
  induction h with
  | here => exact fun _ => Or.inl .here
  | @down i j k names hm hr ih =>
    intro hi
    by_cases hj : j = index
    · right
      subst hj
      have hip : i = p := by
        refine Classical.byContradiction fun hc => ?_
        rw [h2, replaced_ne _ _ hc] at hm
        obtain ⟨_, e, he, hv, _⟩ := kids_valid S hm
        rw [A.fresh e he] at hv
        cases hv
      subst hip
      cases hr with
      | here =>
        refine ⟨[], ?_, rfl, .here⟩
        simp [entryName, hne, hnn]
      | down hm' _ => rw [hnil] at hm'; simp at hm'
    · have hm0 : j ∈ kids i := by
        rw [h2] at hm
        unfold replaced at hm
        split at hm
        · rename_i hip
          rw [hip, h1]
          rcases List.mem_append.1 hm with hm | hm
          · exact List.mem_append_left _ hm
          · rcases List.mem_cons.1 hm with hm | hm
            · exact absurd hm hj
            · exact List.mem_append_right _ hm
        · exact hm
      obtain ⟨_, e, he, _⟩ := kids_valid S hm0
      rw [added_name A hj he]
      rcases ih hj with h | ⟨q', h3, h4, h5⟩
      · exact Or.inl (.down hm0 h)
      · exact Or.inr ⟨entryName t j :: q', by rw [h3]; rfl, h4, .down hm0 h5⟩

/-- A map with something at one more path. -/
def FileMap.put (f : FileMap) (path : List WStr) (node : Node) : FileMap := fun q => if q = path then some node else f q

theorem added_shows {abi : Abi} {t t' : DirTree} {kids kids' : Nat → List Nat} {p index size : Nat} {name : WStr} {dir : Bool}
    (S : Shape abi t kids) (A : Added abi t kids p name dir size index t' kids') {c : Contents} {f : FileMap} (F : Shows t kids c f)
    (hno : ∀ i ∈ kids p, entryName t i ≠ name) {pre : List WStr} (hp : Resolves kids (entryName t) 0 pre p)
    (hun : dir = false → ∀ x, c.byte index x = none) :
    Shows t' kids' (Contents.create c index size) (FileMap.put f (pre ++ [name])
      (if dir then .storage else .stream size fun _ => none)) := by
  obtain ⟨pe, hpe, hpv⟩ := resolves_valid S hp
  have hpi : p ≠ index := fun hc => by rw [A.fresh pe (hc ▸ hpe)] at hpv; cases hpv
  have h0 : 0 ≠ index := fun hc => by
    obtain ⟨r, hr, hrv, _⟩ := S.root
    rw [A.fresh r (hc ▸ hr)] at hrv
    cases hrv
  obtain ⟨a, b, h1, h2⟩ := A.place
  obtain ⟨ne, hne, hnv, hnn, hnd, hns, _⟩ := A.entry
  have hix : index ∈ kids' p := by rw [h2, replaced_self]; simp
  have hnew : Resolves kids' (entryName t') 0 (pre ++ [name]) index := by
    have := resolves_snoc (added_paths S A hp) hix
    rwa [show entryName t' index = name by simp [entryName, hne, hnn]] at this
  have hnone : ∀ k, ¬ Resolves kids (entryName t) 0 (pre ++ [name]) k := by
    intro k hk
    obtain ⟨j, h3, h4⟩ := resolves_split (i := 0) pre hk
    have := resolves_entry S h3 hp
    subst this
    generalize hN : [name] = N at h4
    cases h4 with
    | here => cases hN
    | down hm _ =>
      injection hN with h5 _
      exact hno _ hm h5.symm
  constructor
  · intro q k h
    rcases added_new S A hpi h h0 with h' | ⟨q', rfl, rfl, h'⟩
    · obtain ⟨e, he, hf⟩ := F.sound q k h'
      have hk : k ≠ index := fun hc => by
        obtain ⟨e', he', hv'⟩ := resolves_valid S h'
        rw [A.fresh e' (hc ▸ he')] at hv'
        cases hv'
      obtain ⟨e', he', hre⟩ := A.old k e hk he
      refine ⟨e', he', ?_⟩
      unfold FileMap.put
      rw [if_neg (fun (hc : q = pre ++ [name]) => hnone k (hc ▸ h')), hf, hre.dir]
      show _ = some (if e.dir then Node.storage else Node.stream (replaced c.size index size k) (c.byte k))
      rw [replaced_ne _ _ hk]
    · refine ⟨ne, hne, ?_⟩
      have := resolves_path S _ rfl h' hp
      subst this
      unfold FileMap.put
      rw [if_pos rfl, hnd]
      cases dir with
      | true => rfl
      | false =>
        show some (Node.stream size _) = some (.stream (replaced c.size k size k) (c.byte k))
        rw [replaced_self]
        congr 2
        funext x
        exact (hun rfl x).symm
  · intro q node h
    unfold FileMap.put at h
    split at h
    · rename_i hq
      rw [hq]
      exact ⟨index, hnew⟩
    · obtain ⟨k, hk⟩ := F.complete q node h
      exact ⟨k, added_paths S A hk⟩

/-! ## Making what is missing on a path -/

theorem newEntry_longer {abi : Abi} {w w' : Writer} {p closest idx size : Nat} {name : WStr} {dir : Bool}
    (h : w.newEntry abi p closest name dir size = .ok (w', idx)) : Longer w w' := by
  unfold Writer.newEntry at h
  dsimp only at h
  obtain ⟨⟨t', changed⟩, _, h⟩ := bind_inv h
  dsimp only at h
  obtain ⟨blocks, _, h⟩ := bind_inv h
  injection h with h
  injection h with h _
  rw [← h]
  refine ⟨Nat.le_trans ?_ (growDir_mono _ _ _), ?_⟩
  · exact Nat.le_refl _
  rw [(growDir_aside _ _ _).sbat]
  exact Nat.le_refl _

theorem descendCreate_longer {abi : Abi} {create : Bool} {size : Nat} (names : List WStr) : ∀ {w w' : Writer} {i : Nat} {r : Option Nat},
    w.descendCreate abi create size i names = .ok (w', r) → Longer w w' := by
  induction names with
  | nil => intro w w' i r h; cases h; exact Longer.refl _
  | cons n ns ih =>
    intro w w' i r h
    unfold Writer.descendCreate at h
    obtain ⟨child, _, h⟩ := bind_inv h
    split at h
    · exact ih h
    · split at h
      · obtain ⟨closest, _, h⟩ := bind_inv h
        obtain ⟨⟨w1, idx⟩, h1, h⟩ := bind_inv h
        exact (newEntry_longer h1).trans (ih h)
      · cases h; exact Longer.refl _

theorem linkEntry_length {abi : Abi} {t t' : DirTree} {index p closest changed : Nat} {e : DirEntry}
    (h1 : linkEntry abi t index p closest e = .ok (t', changed)) : t'.length = t.length := by
  unfold linkEntry at h1
  split at h1
  · split at h1
    · cases h1
    · cases h1; simp
  · split at h1
    · cases h1
    · split at h1 <;> (cases h1; simp)

theorem newEntry_dir {abi : Abi} {w w' : Writer} {p closest idx size : Nat} {name : WStr} {dir : Bool}
    (h : w.newEntry abi p closest name dir size = .ok (w', idx)) : w.io.dirtree.length ≤ w'.io.dirtree.length := by
  unfold Writer.newEntry at h
  dsimp only at h
  obtain ⟨⟨t', changed⟩, h1, h⟩ := bind_inv h
  dsimp only at h
  obtain ⟨blocks, _, h⟩ := bind_inv h
  injection h with h
  injection h with h _
  rw [← h, (growDir_aside _ _ _).dirtree]
  show _ ≤ t'.length
  rw [linkEntry_length h1]
  exact (unusedEntry_spec w.io.dirtree).2.2.1


theorem descendCreate_dir {abi : Abi} {create : Bool} {size : Nat} (names : List WStr) : ∀ {w w' : Writer} {i : Nat} {r : Option Nat},
    w.descendCreate abi create size i names = .ok (w', r) → w.io.dirtree.length ≤ w'.io.dirtree.length := by
  induction names with
  | nil => intro w w' i r h; cases h; exact Nat.le_refl _
  | cons n ns ih =>
    intro w w' i r h
    unfold Writer.descendCreate at h
    obtain ⟨child, _, h⟩ := bind_inv h
    split at h
    · exact ih h
    · split at h
      · obtain ⟨closest, _, h⟩ := bind_inv h
        obtain ⟨⟨w1, idx⟩, h1, h⟩ := bind_inv h
        exact Nat.le_trans (newEntry_dir h1) (ih h)
      · cases h; exact Nat.le_refl _

theorem create_resolved {abi : Abi} {t : DirTree} {kids : Nat → List Nat} {c : Contents} {f : FileMap} (S : Shape abi t kids)
    (F : Shows t kids c f) {path : List WStr} {k : Nat} (h : Resolves kids (entryName t) 0 path k) (n : Nat) :
    f.create path n = f := by
  funext q
  unfold FileMap.create
  cases hq : f q with
  | some node => rfl
  | none =>
    have key : ¬ q <+: path := by
      rintro ⟨r, rfl⟩
      obtain ⟨j, h1, _⟩ := resolves_split (i := 0) q h
      obtain ⟨e, _, h2⟩ := F.sound q j h1
      rw [hq] at h2
      cases h2
    rw [if_neg (fun (hc : q = path) => key (hc ▸ List.prefix_refl _)), if_neg key]

theorem create_put {f : FileMap} {pre ns : List WStr} {name : WStr} {n m : Nat} (hf : f (pre ++ [name]) = none) (hns : ns ≠ []) :
    (FileMap.put f (pre ++ [name]) .storage).create (pre ++ name :: ns) n = f.create (pre ++ name :: ns) n := by
  funext q
  unfold FileMap.create FileMap.put
  by_cases hq : q = pre ++ [name]
  · subst hq
    rw [if_pos rfl, hf]
    dsimp only
    rw [if_neg (by simpa using fun h => hns h), if_pos ⟨ns, by simp⟩]
  · rw [if_neg hq]

theorem put_create {abi : Abi} {t : DirTree} {kids : Nat → List Nat} {c : Contents} {f : FileMap} (S : Shape abi t kids)
    (F : Shows t kids c f) {pre : List WStr} {k : Nat} (h : Resolves kids (entryName t) 0 pre k) {name : WStr} {n : Nat}
    (hf : f (pre ++ [name]) = none) :
    FileMap.put f (pre ++ [name]) (.stream n fun _ => none) = f.create (pre ++ [name]) n := by
  funext q
  unfold FileMap.create FileMap.put
  by_cases hq : q = pre ++ [name]
  · subst hq
    rw [if_pos rfl, hf]
    simp
  · rw [if_neg hq]
    cases hfq : f q with
    | some node => rfl
    | none =>
      dsimp only
      rw [if_neg hq, if_neg]
      rintro hp
      rcases List.prefix_concat_iff.1 hp with h1 | h1
      · exact hq h1
      · obtain ⟨r, rfl⟩ := h1
        obtain ⟨j, h2, _⟩ := resolves_split (i := 0) q h
        obtain ⟨e, _, h3⟩ := F.sound q j h2
        rw [hfq] at h3
        cases h3

/-- Making a path. -/
theorem descendCreate_holds {abi : Abi} (habi : abi = Abi.linux ∨ abi = Abi.windows) {size : Nat} (names : List WStr) :
    ∀ {w w' : Writer} {L : Layout} {c : Contents} {kids : Nat → List Nat} {f : FileMap} {i : Nat} {pre : List WStr} {r : Option Nat},
    w.descendCreate abi true size i names = .ok (w', r) → Fits w' → Holds w L c → Shape abi w.io.dirtree kids →
    Shows w.io.dirtree kids c f → w.io.header.dirent_start < 0xfffffffc → w.writeable = true →
    Resolves kids (entryName w.io.dirtree) 0 pre i → (∀ n ∈ names, ∀ x ∈ n, x < 2 ^ (8 * abi.wcharBytes)) →
    w'.io.dirtree.length < End →
    ∃ k L' c' kids', r = some k ∧ Holds w' L' c' ∧ Shape abi w'.io.dirtree kids' ∧
      Shows w'.io.dirtree kids' c' (f.create (pre ++ names) size) ∧ w'.io.header.dirent_start = w.io.header.dirent_start ∧
      w'.writeable = true ∧ Resolves kids' (entryName w'.io.dirtree) 0 (pre ++ names) k ∧
      (∀ q j, Resolves kids (entryName w.io.dirtree) 0 q j → Resolves kids' (entryName w'.io.dirtree) 0 q j) ∧
      (∀ j, L'.chain j = L.chain j) ∧
      (∀ (j : Nat) (e : DirEntry), w.io.dirtree[j]? = some e → IsStream e → c'.size j = c.size j ∧ ∃ e', w'.io.dirtree[j]? = some e' ∧ IsStream e') ∧
      c'.byte = c.byte ∧ Readies w L.big w' L'.big := by
  induction names with
  | nil =>
    intro w w' L c kids f i pre r h hf H S F hd hw hp _ _
    cases h
    obtain ⟨e, he, _⟩ := resolves_valid S hp
    rw [if_pos (List.getElem?_eq_some_iff.1 he).1, List.append_nil]
    exact ⟨i, L, c, kids, rfl, H, S, by rw [create_resolved S F hp]; exact F, rfl, hw, hp, fun _ _ h => h, fun _ => rfl,
      fun j e he hs => ⟨rfl, e, he, hs⟩, rfl, Readies.refl w _⟩
  | cons n ns ih =>
    intro w w' L c kids f i pre r h hf H S F hd hw hp hu hlen
    have hfw := (descendCreate_longer _ h).fits hf
    have hdl := descendCreate_dir _ h
    unfold Writer.descendCreate at h
    obtain ⟨child, hch, h⟩ := bind_inv h
    obtain ⟨pe, hpe, hpv⟩ := resolves_valid S hp
    obtain ⟨T, hT, hk⟩ := S.tree i pe hpe hpv
    have hass : pre ++ n :: ns = (pre ++ [n]) ++ ns := by simp
    rcases C43_find_child abi habi w.io.dirtree i pe hpe hpv T hT n (hu n (by simp)) with ⟨j, e, hj, he, hname, hfc⟩ | ⟨hno, hfc⟩
    · rw [hfc] at hch
      have hch : j = child := by injection hch
      subst hch
      have hj0 := (hT.entries j hj).1
      rw [if_pos (by omega)] at h
      have hpj : Resolves kids (entryName w.io.dirtree) 0 (pre ++ [n]) j := by
        have := resolves_snoc hp (hk ▸ hj)
        rwa [show entryName w.io.dirtree j = n by simp [entryName, he, hname]] at this
      rw [hass]
      exact ih h hf H S F hd hw hpj (fun m hm => hu m (by simp [hm])) hlen
    · rw [hfc] at hch
      cases hch
      rw [if_neg (by omega), hw, if_pos (by rfl)] at h
      obtain ⟨closest, hcl, h⟩ := bind_inv h
      obtain ⟨⟨w1, idx⟩, hne, h⟩ := bind_inv h
      dsimp only at h
      have hno' : ∀ x ∈ kids i, entryName w.io.dirtree x ≠ n := by
        intro x hx hc
        obtain ⟨_, e, he, _⟩ := kids_valid S hx
        exact hno x (hk ▸ hx) e he (by rw [← hc]; simp [entryName, he])
      obtain ⟨closest', w2, kids', g1, g2, A, g3, g4, g5, g6, g7, g8⟩ := newEntry_holds habi H hfw S hd hpe hpv
        (hu n (by simp)) hno' (decide (ns.length > 0)) size (Nat.lt_of_le_of_lt hdl hlen)
      rw [hcl] at g1
      cases g1
      rw [hne] at g2
      injection g2 with g2
      injection g2 with g2 g2'
      subst g2
      subst g2'
      obtain ⟨extra, H1, hR1⟩ := g8 ((descendCreate_longer _ h).fits hf)
      have hun : ∀ x, c.byte (unusedEntry w.io.dirtree).1 x = none := by
        intro x
        cases hb : c.byte (unusedEntry w.io.dirtree).1 x with
        | none => rfl
        | some v =>
          obtain ⟨_, e, _, he, hs, _⟩ := H.known _ _ _ hb
          have := A.fresh e he
          rw [hs.1] at this
          cases this
      have F1 := added_shows S A F hno' hp (fun _ => hun)
      have hnone : f (pre ++ [n]) = none := by
        cases hx : f (pre ++ [n]) with
        | none => rfl
        | some node =>
          obtain ⟨k, hk'⟩ := F.complete _ _ hx
          obtain ⟨j, h3, h4⟩ := resolves_split (i := 0) pre hk'
          have := resolves_entry S h3 hp
          subst this
          generalize hN : [n] = N at h4
          cases h4 with
          | here => cases hN
          | down hm _ =>
            injection hN with h5 _
            exact absurd h5.symm (hno' _ hm)
      have hp1 : Resolves kids' (entryName w1.io.dirtree) 0 (pre ++ [n]) (unusedEntry w.io.dirtree).1 := by
        obtain ⟨a, b, _, h2⟩ := A.place
        obtain ⟨ne, hne, _, hnn, _⟩ := A.entry
        have := resolves_snoc (added_paths S A hp) (k := (unusedEntry w.io.dirtree).1) (by rw [h2, replaced_self]; simp)
        rwa [show entryName w1.io.dirtree (unusedEntry w.io.dirtree).1 = n by simp [entryName, hne, hnn]] at this
      obtain ⟨k, L', c', kids'', x1, x2, x3, x4, x5, x6, x7, x8, x9, x10, x11, x12⟩ := ih h hf H1 A.shape F1 (by rw [g7]; exact hd) (by rw [g3]; exact hw) hp1
        (fun m hm => hu m (by simp [hm])) hlen
      refine ⟨k, L', c', kids'', x1, x2, x3, ?_, by rw [x5, g7], x6, by rw [hass]; exact x7, fun q j hq => x8 q j (added_paths S A hq),
        fun j => (x9 j).trans ?_, fun j e he hs => ?_, by rw [x11]; rfl, hR1.trans x12⟩
      · by_cases hns : ns = []
        · subst hns
          rw [List.append_nil] at x4
          have hx := x4
          rw [create_resolved A.shape F1 hp1] at hx
          rw [← put_create S F hp hnone]
          exact hx
        · have hpos : decide (ns.length > 0) = true := by simpa using List.length_pos_iff.2 hns
          rw [hpos] at x4
          rw [← create_put (m := 0) hnone hns, hass]
          exact x4
      · unfold Layout.chain
        show L.small j ++ replaced L.big .dir (L.big .dir ++ extra) (.stream j) = _
        rw [replaced_ne _ _ (by simp)]
      · have hj : j ≠ (unusedEntry w.io.dirtree).1 := fun hc => by
          have := A.fresh e (hc ▸ he); rw [hs.1] at this; cases this
        obtain ⟨e1, he1, hre⟩ := A.old j e hj he
        obtain ⟨y1, y2⟩ := x10 j e1 he1 ((relinked_stream hre).2 hs)
        refine ⟨y1.trans ?_, y2⟩
        exact replaced_ne _ _ hj

end Fileid.Pole
