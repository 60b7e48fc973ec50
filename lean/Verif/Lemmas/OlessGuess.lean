import Verif.Lemmas.OlessStream
import Verif.Lemmas.Read

/-!
# Lemmas about what is decided for the objects of a compound file
-/

namespace Fileid.Oless

open Spec Spec.Ole Pole Props Vba Common

/-! ## The visited objects -/

section
variable {abi : Abi} {io : StorageIO} {kids : Nat → List Nat}

theorem visits_spec (habi : abi = Abi.linux ∨ abi = Abi.windows) (hwf : WellFormed abi io.dirtree kids)
    {root : DirEntry} (hroot : io.dirtree[0]? = some root) (hrv : root.valid = true)
    (hg : ∀ i j, j ∈ kids i → 47 ∉ entryName io.dirtree j ∧ entryName io.dirtree j ≠ []) {js : List Nat} {objs : Objects}
    (h : Holds (isDirOf io.dirtree) (entryName io.dirtree) kids js objs) :
    ∀ (names : List WStr) (i : Nat), (∀ n ∈ names, 47 ∉ n ∧ n ≠ []) →
      Resolves kids (entryName io.dirtree) 0 names i → (∀ j ∈ js, j ∈ kids i) →
      ∀ v ∈ objs.visits (pathOf names ++ [47]), ∃ ns j, v.path = pathOf ns ∧ ns.getLast? = some v.name ∧
        Resolves kids (entryName io.dirtree) 0 ns j ∧
        entryIdx abi io.dirtree v.path = .ok (some j) ∧ v.isStorage = isDirOf io.dirtree j ∧
        v.name = entryName io.dirtree j ∧ j < io.dirtree.length := by
  induction h with
  | nil => intro names i _ _ _ v hv; simp [Objects.visits] at hv
  | @stream j js rest hd _ ih =>
    intro names i hn hr hjs v hv
    have hjk := hjs j (by simp)
    rw [Objects.visits, List.mem_cons] at hv
    rcases hv with rfl | hv
    · obtain ⟨_, e, he, _⟩ := descend_of_resolves habi hwf (resolves_snoc hr hjk) root hroot hrv
      exact ⟨names ++ [entryName io.dirtree j], j, by simp [pathOf], by simp, resolves_snoc hr hjk,
        (object_spec habi hwf hroot hrv hn hr hjk (hg i j hjk)).1, hd.symm, rfl, (List.getElem?_eq_some_iff.1 he).1⟩
    · exact ih names i hn hr (fun x hx => hjs x (by simp [hx])) v hv
  | @storage j js inside rest hd hin _ ih1 ih2 =>
    intro names i hn hr hjs v hv
    have hjk := hjs j (by simp)
    have e : pathOf names ++ [47] ++ entryName io.dirtree j ++ [47] =
        pathOf (names ++ [entryName io.dirtree j]) ++ [47] := by simp [pathOf]
    rw [Objects.visits, List.mem_cons, List.mem_append, show text b!"/" = [47] from rfl, e] at hv
    rcases hv with rfl | hv | hv
    · obtain ⟨_, e, he, _⟩ := descend_of_resolves habi hwf (resolves_snoc hr hjk) root hroot hrv
      exact ⟨names ++ [entryName io.dirtree j], j, by simp [pathOf], by simp, resolves_snoc hr hjk,
        (object_spec habi hwf hroot hrv hn hr hjk (hg i j hjk)).1, hd.symm, rfl, (List.getElem?_eq_some_iff.1 he).1⟩
    · refine ih1 _ j ?_ (resolves_snoc hr hjk) (fun x hx => hx) v hv
      intro n h
      rcases List.mem_append.1 h with h | h
      · exact hn n h
      · rw [List.mem_singleton.1 h]; exact hg i j hjk
    · exact ih2 names i hn hr (fun x hx => hjs x (by simp [hx])) v hv

/-- Every object below an entry is visited. -/
theorem visits_complete {name : Nat → WStr} {isDir : Nat → Bool} (hleaf : ∀ i, isDir i = false → kids i = [])
    {js : List Nat} {objs : Objects} (h : Holds isDir name kids js objs) :
    ∀ (dir : WStr) (j : Nat) (ns : List WStr) (k : Nat), j ∈ js → Resolves kids name j ns k →
      ∃ v ∈ objs.visits dir, v.path = dir ++ name j ++ pathOf ns ∧ v.isStorage = isDir k := by
  induction h with
  | nil => intro dir j ns k hj; simp at hj
  | @stream j' js rest hd _ ih =>
    intro dir j ns k hj hr
    rw [Objects.visits]
    rcases List.mem_cons.1 hj with rfl | hj
    · cases hr with
      | here => exact ⟨_, List.mem_cons_self, by simp [pathOf], by rw [hd]⟩
      | down h => rw [hleaf _ hd] at h; cases h
    · obtain ⟨v, hv, h⟩ := ih dir j ns k hj hr
      exact ⟨v, List.mem_cons_of_mem _ hv, h⟩
  | @storage j' js inside rest hd hin _ ih1 ih2 =>
    intro dir j ns k hj hr
    rw [Objects.visits]
    rcases List.mem_cons.1 hj with rfl | hj
    · cases hr with
      | here => exact ⟨_, List.mem_cons_self, by simp [pathOf], by rw [hd]⟩
      | @down _ j'' _ ns' h hr' =>
        obtain ⟨v, hv, h1, h2⟩ := ih1 (dir ++ name j ++ text b!"/") j'' ns' k h hr'
        refine ⟨v, List.mem_cons_of_mem _ (List.mem_append_left _ hv), ?_, h2⟩
        rw [h1]
        simp [pathOf, text]
    · obtain ⟨v, hv, h⟩ := ih2 dir j ns k hj hr
      exact ⟨v, List.mem_cons_of_mem _ (List.mem_append_right _ hv), h⟩

end

/-! ## The table -/

theorem tolower_lower (a : Nat) : (tolower (UInt8.ofNat a)).toNat = lower (a % 256) := by
  have h : ∀ x : Fin 256, (tolower (UInt8.ofNat x.val)).toNat = lower x.val := by decide +kernel
  have e : UInt8.ofNat a = UInt8.ofNat (a % 256) := by
    apply UInt8.toNat_inj.1
    simp
  rw [e, h ⟨a % 256, Nat.mod_lt _ (by decide)⟩]

theorem iequalsW_iff (a b : List Nat) (hb : ∀ u ∈ b, u < 256) :
    iequalsW a b = true ↔ SameLetters (a.map (· % 256)) b := by
  unfold SameLetters
  induction a generalizing b with
  | nil => cases b <;> simp [iequalsW]
  | cons x a ih =>
    cases b with
    | nil => simp [iequalsW]
    | cons y b =>
      have hy : y % 256 = y := Nat.mod_eq_of_lt (hb y (by simp))
      rw [iequalsW, Bool.and_eq_true, ih b (fun u hu => hb u (by simp [hu])), beq_iff_eq, ← UInt8.toNat_inj,
        tolower_lower, tolower_lower, hy]
      simp

theorem sameLetters_small {a b : List Nat} (hb : ∀ u ∈ b, u < 256) (h : SameLetters a b) :
    SameLetters (a.map (· % 256)) b := by
  unfold SameLetters at *
  induction a generalizing b with
  | nil => exact h
  | cons x a ih =>
    cases b with
    | nil => simp at h
    | cons y b =>
      simp only [List.map_cons, List.cons.injEq] at h ⊢
      have hy := hb y (by simp)
      have h1 := h.1
      have hx : x < 256 := by
        unfold lower at h1
        split at h1 <;> split at h1 <;> omega
      rw [Nat.mod_eq_of_lt hx]
      exact ⟨h.1, ih (fun u hu => hb u (by simp [hu])) h.2⟩

/-- The extensions a table entry may lead to. -/
def possible (i : OlessInfo) : List Bytes :=
  match i.extraFunc with
  | .msi => [i.Extension, b!"msm", b!"msp"]
  | .excel => [b!"xls"]
  | .wp => [b!"wp"]
  | _ => [i.Extension]

/-- The table entry stands for the marker. -/
def Stands (i : OlessInfo) (m : Marker) : Prop :=
  i.matcher = m.path ∧ i.ignoreCase = m.anyCase ∧ (m.anyCase = true → ∀ u ∈ m.path, u < 256) ∧
    (∀ x ∈ possible i, x ∈ m.extensions) ∧ (m.looksInside = false → i.extraFunc = .none)

instance (i : OlessInfo) (m : Marker) : Decidable (Stands i m) := by unfold Stands; infer_instance

theorem table_stands : ∀ i ∈ table, ∃ m ∈ markers, Stands i m := by decide +kernel

theorem stands_table : ∀ m ∈ markers, ∃ i ∈ table, Stands i m := by decide +kernel

theorem match_tells {i : OlessInfo} {m : Marker} (h : Stands i m) (hm : m ∈ markers) (v : Visit) (hp : v.Plain) :
    i.isMatch v.path = true ↔ m.Tells v.path := by
  obtain ⟨h1, h2, h3, _, _⟩ := h
  unfold OlessInfo.isMatch Marker.Tells
  rw [h1, h2]
  cases hc : m.anyCase with
  | false => simp
  | true =>
    rw [Bool.true_and, Bool.or_eq_true, iequalsW_iff _ _ (h3 hc), if_pos rfl]
    constructor
    · rintro (h | h)
      · exact hp m hm hc h
      · rw [beq_iff_eq] at h
        rw [h]
        rfl
    · intro h
      exact Or.inl (sameLetters_small (h3 hc) h)

theorem markers_exclusive : markers.Pairwise fun m m' =>
    if m.anyCase || m'.anyCase then m.path.map lower ≠ m'.path.map lower else m.path ≠ m'.path := by
  decide +kernel

theorem find_tells {ms : List Marker} (hms : ms.Pairwise fun m m' =>
    if m.anyCase || m'.anyCase then m.path.map lower ≠ m'.path.map lower else m.path ≠ m'.path) {m : Marker} (hm : m ∈ ms)
    {p : List Nat} (h : m.Tells p) : ms.find? (fun m => decide (m.Tells p)) = some m := by
  induction ms with
  | nil => simp at hm
  | cons m' ms ih =>
    rw [List.pairwise_cons] at hms
    rw [List.find?_cons]
    rcases List.mem_cons.1 hm with rfl | hm'
    · rw [decide_eq_true h]
    · by_cases h' : m'.Tells p
      · exfalso
        have hx := hms.1 m hm'
        unfold Marker.Tells SameLetters at h h'
        cases c1 : m.anyCase <;> cases c2 : m'.anyCase <;> simp only [c1, c2, Bool.false_eq_true, if_false, if_true,
          Bool.or_self, Bool.or_true, Bool.or_false] at h h' hx
        · exact hx (h'.symm.trans h)
        · exact hx (by rw [← h', ← h])
        · exact hx (by rw [← h', ← h])
        · exact hx (h'.symm.trans h)
      · rw [decide_eq_false h']
        exact ih hms.2 hm'

theorem entryResult_ext {abi : Abi} {env : Env} {io : StorageIO} {full : WStr} {i : OlessInfo} {r : Result}
    (h : entryResult abi env io full i = .ok r) : r.base.Extension ∈ possible i := by
  unfold entryResult at h
  dsimp only at h
  by_cases hf : i.extraFunc = .none
  · rw [if_pos hf] at h
    cases h
    simp [Result.base, possible, hf]
  · rw [if_neg hf] at h
    obtain ⟨c, _, h⟩ := bind_eq_ok h
    unfold detail at h
    cases hfn : i.extraFunc with
    | none => exact absurd hfn hf
    | word =>
      rw [hfn] at h
      obtain ⟨e, he, h⟩ := bind_eq_ok h
      cases h
      unfold Office.wordDetailer at he
      obtain ⟨_, _, he⟩ := bind_eq_ok he
      cases he
      simp [Result.base, possible, hfn]
    | pub =>
      rw [hfn] at h
      obtain ⟨e, he, h⟩ := bind_eq_ok h
      cases h
      unfold Office.pubDetailer at he
      obtain ⟨_, _, he⟩ := bind_eq_ok he
      cases he
      simp [Result.base, possible, hfn]
    | visio =>
      rw [hfn] at h
      obtain ⟨e, he, h⟩ := bind_eq_ok h
      cases h
      unfold Office.visioDetailer at he
      obtain ⟨_, _, he⟩ := bind_eq_ok he
      cases he
      simp [Result.base, possible, hfn]
    | ppt =>
      rw [hfn] at h
      obtain ⟨u, _, h⟩ := bind_eq_ok h
      obtain ⟨e, he, h⟩ := bind_eq_ok h
      cases h
      unfold Office.pptDetailer at he
      obtain ⟨_, _, he⟩ := bind_eq_ok he
      cases he
      simp [Result.base, possible, hfn]
    | msi =>
      rw [hfn] at h
      cases h
      unfold Office.msiDetailer
      simp only [Result.base, possible, hfn]
      split
      · simp
      · split
        · simp
        · split <;> simp
    | excel =>
      rw [hfn] at h
      obtain ⟨e, he, h⟩ := bind_eq_ok h
      cases h
      unfold Excel.Detailer at he
      dsimp only at he
      obtain ⟨_, _, he⟩ := bind_eq_ok he
      split at he
      · cases he
      · cases he
        simp [Result.base, possible, hfn]
    | wp =>
      rw [hfn] at h
      cases h
      simp [Result.base, possible, hfn]

theorem tableLoop_spec {abi : Abi} {env : Env} {io : StorageIO} {v : Visit} (hp : v.Plain) (list : List OlessInfo)
    (hl : ∀ i ∈ list, i ∈ table) : ∀ (ei ei' : Option Result), tableLoop abi env io v.path list ei = .ok ei' →
      ((∀ i ∈ list, i.isMatch v.path = false) ∧ ei' = ei) ∨
      ∃ m ∈ markers, m.Tells v.path ∧ ∃ r, ei' = some r ∧ r.base.Extension ∈ m.extensions := by
  induction list with
  | nil => intro ei ei' h; cases h; exact Or.inl ⟨by simp, rfl⟩
  | cons i list ih =>
    intro ei ei' h
    have ih := ih fun i hi => hl i (by simp [hi])
    rw [tableLoop] at h
    by_cases hi : i.isMatch v.path = true
    · rw [if_pos hi] at h
      obtain ⟨r, hr, h⟩ := bind_eq_ok h
      obtain ⟨m, hm, hs⟩ := table_stands i (hl i (by simp))
      have hx : r.base.Extension ∈ m.extensions := hs.2.2.2.1 _ (entryResult_ext hr)
      rcases ih _ _ h with ⟨_, he⟩ | hh
      · exact Or.inr ⟨m, hm, (match_tells hs hm v hp).1 hi, r, he, hx⟩
      · exact Or.inr hh
    · rw [if_neg hi] at h
      rcases ih _ _ h with ⟨hn, he⟩ | hh
      · refine Or.inl ⟨fun j hj => ?_, he⟩
        rcases List.mem_cons.1 hj with rfl | hj
        · simpa using hi
        · exact hn j hj
      · exact Or.inr hh

theorem analyze_ext {abi : Abi} {io : StorageIO} {p : WStr} {v : VbaInfo} (h : Analyze abi io p = .ok v) :
    v.base.Extension = b!"vba" := by
  unfold Analyze at h
  obtain ⟨_, _, h⟩ := bind_eq_ok h
  obtain ⟨_, _, h⟩ := bind_eq_ok h
  obtain ⟨_, _, h⟩ := bind_eq_ok h
  obtain ⟨_, _, h⟩ := bind_eq_ok h
  dsimp only at h
  unfold parseDir at h
  obtain ⟨p, hp, h⟩ := bind_eq_ok h
  obtain ⟨_, _, h⟩ := bind_eq_ok h
  obtain ⟨_, _, h⟩ := bind_eq_ok h
  cases h
  unfold projectRecords at hp
  obtain ⟨_, _, hp⟩ := bind_eq_ok hp
  obtain ⟨_, _, hp⟩ := bind_eq_ok hp
  obtain ⟨_, _, hp⟩ := bind_eq_ok hp
  obtain ⟨_, _, hp⟩ := bind_eq_ok hp
  obtain ⟨_, _, hp⟩ := bind_eq_ok hp
  dsimp only at hp
  obtain ⟨_, _, hp⟩ := bind_eq_ok hp
  obtain ⟨_, _, hp⟩ := bind_eq_ok hp
  obtain ⟨_, _, hp⟩ := bind_eq_ok hp
  obtain ⟨_, _, hp⟩ := bind_eq_ok hp
  cases hp
  rfl

theorem vbaResult_ext {env : Env} {abi : Abi} {io : StorageIO} {p : WStr} {r : Result}
    (h : vbaResult env (Analyze abi io p) = .ok r) : r.base.Extension = b!"vba" := by
  cases ha : Analyze abi io p with
  | ok v => rw [ha] at h; cases h; exact analyze_ext ha
  | throw x => rw [ha] at h; cases h; rfl
  | ub u => rw [ha] at h; cases h
  | fuel => rw [ha] at h; cases h

theorem isVba_iff (v : Visit) (h : v.isStorage = true) : isVbaStorage v.name v.path = v.isVba := by
  unfold isVbaStorage Visit.isVba
  rw [h, Bool.true_and, Bool.eq_iff_iff]
  simp only [Bool.or_eq_true, beq_iff_eq, decide_eq_true_eq, List.mem_cons, List.not_mem_nil, or_false, wide, text,
    or_assoc]

theorem isPropertyStream_iff (n : WStr) : isPropertyStream n = true ↔ n ∈ propertyNames := by
  unfold isPropertyStream propertyNames
  simp only [Bool.or_eq_true, beq_iff_eq, List.mem_cons, List.not_mem_nil, or_false, wide, text, or_assoc]

/-- What the walk does with one object. -/
theorem step_spec {abi : Abi} {env : Env} {io : StorageIO} {list : List OlessInfo} (hl : ∀ i, i ∈ list ↔ i ∈ table)
    {v : Visit} (hd : io.isDirectory abi v.path = .ok v.isStorage) (hp : v.Plain) {st st' : St}
    (h : visitStep St.pushPath (guessStreamInfo abi env list io) st v = .ok st') :
    st'.paths = st.paths ++ [v.listed] ∧
      ((v.tells = none ∧ st'.results = st.results) ∨
        ∃ exts r, v.tells = some exts ∧ st'.results = st.results ++ [r] ∧ r.base.Extension ∈ exts) := by
  unfold visitStep at h
  obtain ⟨s, hs, h⟩ := bind_eq_ok h
  cases h
  unfold guessStreamInfo at hs
  rw [hd, Res.bind_ok] at hs
  unfold Visit.tells
  cases hst : v.isStorage with
  | true =>
    rw [hst, if_pos rfl, isVba_iff v hst] at hs
    rw [if_pos rfl]
    by_cases hv : v.isVba = true
    · rw [if_pos hv] at hs
      obtain ⟨r, hr, hs⟩ := bind_eq_ok hs
      cases hs
      exact ⟨rfl, Or.inr ⟨_, r, if_pos hv, rfl, by simp [vbaResult_ext hr]⟩⟩
    · rw [if_neg hv] at hs
      cases hs
      exact ⟨rfl, Or.inl ⟨if_neg hv, rfl⟩⟩
  | false =>
    rw [hst, if_neg (by simp)] at hs
    rw [if_neg (by simp)]
    by_cases hpn : v.name ∈ propertyNames
    · rw [if_pos ((isPropertyStream_iff _).2 hpn)] at hs
      rw [if_pos hpn]
      unfold addProperties at hs
      split at hs
      · cases hs; exact ⟨rfl, Or.inl ⟨rfl, rfl⟩⟩
      · cases hs; exact ⟨rfl, Or.inl ⟨rfl, rfl⟩⟩
      · cases hs
      · cases hs
      · cases hs
    · rw [if_neg (fun h => hpn ((isPropertyStream_iff _).1 h))] at hs
      rw [if_neg hpn]
      obtain ⟨ei, hei, hs⟩ := bind_eq_ok hs
      cases hs
      rcases tableLoop_spec hp list (fun i hi => (hl i).1 hi) _ _ hei with ⟨hn, rfl⟩ | ⟨m, hm, ht, r, rfl, hr⟩
      · refine ⟨rfl, Or.inl ⟨?_, rfl⟩⟩
        rw [List.find?_eq_none.2]
        · rfl
        · intro m hm
          obtain ⟨i, hi, hs⟩ := stands_table m hm
          have := hn i ((hl i).2 hi)
          rw [decide_eq_true_eq, ← match_tells hs hm v hp, this]
          simp
      · refine ⟨rfl, Or.inr ⟨m.extensions, r, ?_, rfl, hr⟩⟩
        rw [find_tells markers_exclusive hm ht]
        rfl

theorem walk_spec {abi : Abi} {env : Env} {io : StorageIO} {list : List OlessInfo} (hl : ∀ i, i ∈ list ↔ i ∈ table) :
    ∀ (vs : List Visit), (∀ v ∈ vs, io.isDirectory abi v.path = .ok v.isStorage ∧ v.Plain) → ∀ st st' : St,
      foldRes (visitStep St.pushPath (guessStreamInfo abi env list io)) st vs = .ok st' →
      st'.paths = st.paths ++ vs.map Visit.listed ∧
      ∃ rs, st'.results = st.results ++ rs ∧ Agrees (rs.map (·.base.Extension)) (vs.filterMap Visit.tells) := by
  intro vs
  induction vs with
  | nil => intro _ st st' h; cases h; exact ⟨by simp, [], by simp, .nil⟩
  | cons v vs ih =>
    intro hv st st' h
    rw [foldRes] at h
    obtain ⟨s, hs, h⟩ := bind_eq_ok h
    obtain ⟨h1, h2⟩ := step_spec hl (hv v (by simp)).1 (hv v (by simp)).2 hs
    obtain ⟨h3, rs, h4, h5⟩ := ih (fun v h => hv v (by simp [h])) s st' h
    refine ⟨by rw [h3, h1]; simp, ?_⟩
    rcases h2 with ⟨ht, hr⟩ | ⟨exts, r, ht, hr, hx⟩
    · refine ⟨rs, by rw [h4, hr], ?_⟩
      rw [List.filterMap_cons, ht]
      exact h5
    · refine ⟨r :: rs, by rw [h4, hr]; simp, ?_⟩
      rw [List.filterMap_cons, ht]
      exact .cons hx h5

theorem giveExtra_base (x : Extra) (rs : List Result) :
    (giveExtra x rs).map (·.base.Extension) = rs.map (·.base.Extension) := by
  induction rs with
  | nil => rfl
  | cons r rs ih => cases r <;> simp_all [giveExtra, Result.base]

theorem agrees_length {es : List Bytes} {told : List (List Bytes)} (h : Agrees es told) : es.length = told.length := by
  induction h with
  | nil => rfl
  | cons _ _ ih => simp [ih]

/-- Streams whose content is not looked at, and storages without macros, are decided on without failure. -/
theorem step_ok {abi : Abi} {env : Env} {io : StorageIO} {list : List OlessInfo} (hl : ∀ i, i ∈ list → i ∈ table)
    {v : Visit} (hd : io.isDirectory abi v.path = .ok v.isStorage) (hp : v.Plain) (hs : v.isVba = false)
    (hn : v.isStorage = false → v.name ∉ propertyNames ∧ ∀ m ∈ markers, m.Tells v.path → m.looksInside = false)
    (st : St) : ∃ st', visitStep St.pushPath (guessStreamInfo abi env list io) st v = .ok st' ∧
      st'.properties = st.properties ∧ ∃ new, st'.results = st.results ++ new ∧ ∀ r ∈ new, ∃ e, r = .ole e {} := by
  unfold visitStep guessStreamInfo
  rw [hd, Res.bind_ok]
  cases hst : v.isStorage with
  | true =>
    rw [if_pos rfl, isVba_iff v hst, if_neg (by simp [hs])]
    exact ⟨_, rfl, rfl, [], by simp [St.pushPath], by simp⟩
  | false =>
    obtain ⟨h1, h2⟩ := hn hst
    rw [if_neg (by simp), if_neg (fun h => h1 ((isPropertyStream_iff _).1 h))]
    have : ∀ list : List OlessInfo, (∀ i, i ∈ list → i ∈ table) → ∀ ei, (∀ r, ei = some r → ∃ e, r = .ole e {}) → ∃ ei',
        tableLoop abi env io v.path list ei = .ok ei' ∧ ∀ r, ei' = some r → ∃ e, r = .ole e {} := by
      intro list
      induction list with
      | nil => intro _ ei he; exact ⟨ei, rfl, he⟩
      | cons i list ih =>
        intro hl ei he
        have ih := ih fun i hi => hl i (by simp [hi])
        rw [tableLoop]
        by_cases hi : i.isMatch v.path = true
        · rw [if_pos hi]
          obtain ⟨m, hm, hst⟩ := table_stands i (hl i (by simp))
          have hf := hst.2.2.2.2 (h2 m hm ((match_tells hst hm v hp).1 hi))
          unfold entryResult
          dsimp only
          rw [if_pos hf, Res.bind_ok]
          exact ih _ fun r hr => by cases hr; exact ⟨_, rfl⟩
        · rw [if_neg hi]
          exact ih ei he
    obtain ⟨ei, he, hr⟩ := this list hl none (by simp)
    rw [he]
    cases ei with
    | none => exact ⟨_, rfl, rfl, [], by simp [St.pushPath, pushResult], by simp⟩
    | some r =>
      obtain ⟨e, he⟩ := hr r rfl
      exact ⟨_, rfl, rfl, [r], rfl, by simp [he]⟩

theorem walk_ok {abi : Abi} {env : Env} {io : StorageIO} {list : List OlessInfo} (hl : ∀ i, i ∈ list → i ∈ table) :
    ∀ (vs : List Visit), (∀ v ∈ vs, io.isDirectory abi v.path = .ok v.isStorage ∧ v.Plain ∧ v.isVba = false ∧
        (v.isStorage = false → v.name ∉ propertyNames ∧ ∀ m ∈ markers, m.Tells v.path → m.looksInside = false)) →
      ∀ st : St, ∃ st', foldRes (visitStep St.pushPath (guessStreamInfo abi env list io)) st vs = .ok st' ∧
        st'.properties = st.properties ∧ ∃ new, st'.results = st.results ++ new ∧ ∀ r ∈ new, ∃ e, r = .ole e {} := by
  intro vs
  induction vs with
  | nil => intro _ st; exact ⟨st, rfl, rfl, [], by simp, by simp⟩
  | cons v vs ih =>
    intro hv st
    obtain ⟨h1, h2, h3, h4⟩ := hv v (by simp)
    obtain ⟨s, hs, hs2, new, hs3, hs4⟩ := step_ok (env := env) hl h1 h2 h3 h4 st
    rw [foldRes, hs, Res.bind_ok]
    obtain ⟨s', h1, h2, new', h3, h4⟩ := ih (fun v h => hv v (by simp [h])) s
    refine ⟨s', h1, by rw [h2, hs2], new ++ new', by rw [h3, hs3]; simp, fun r hr => ?_⟩
    rcases List.mem_append.1 hr with h | h
    · exact hs4 r h
    · exact h4 r h

/-- The objects of a described directory, as the storage sees them. -/
theorem describes_visits {abi : Abi} (habi : abi = Abi.linux ∨ abi = Abi.windows) {io : StorageIO} {objs : Objects}
    (h : Describes abi io.dirtree objs) : ∀ v ∈ objs.visits [47], ∃ j, entryIdx abi io.dirtree v.path = .ok (some j) ∧
      v.isStorage = isDirOf io.dirtree j ∧ v.name = entryName io.dirtree j ∧ j < io.dirtree.length ∧
      io.isDirectory abi v.path = .ok v.isStorage ∧ v.path ≠ [] ∧ ∀ u ∈ v.name, u ∈ v.path := by
  obtain ⟨_, ⟨root, hroot, hrv, _⟩, kids, hwf, hh, hg⟩ := h
  intro v hv
  obtain ⟨ns, j, h1, h2, _, h3, h4, h5, h6⟩ := visits_spec habi hwf hroot hrv hg hh [] 0 (by simp) .here (fun j hj => hj) v
    (by simpa [pathOf] using hv)
  refine ⟨j, h3, h4, h5, h6, ?_, ?_, ?_⟩
  · unfold StorageIO.isDirectory
    rw [h3, h4]
    rfl
  · rw [h1]
    cases ns with
    | nil => simp at h2
    | cons => simp [pathOf]
  · intro u hu
    rw [h1, pathOf, List.mem_flatMap]
    exact ⟨v.name, List.mem_of_getLast? h2, List.mem_cons_of_mem _ hu⟩

end Fileid.Oless
