import Verif.Lemmas.OlessGuess
import Verif.Props.Office
import Verif.Props.OlessReport
import Verif.Spec.Documents

/-!
# Lemmas about the results for documents in compound files
-/

namespace Fileid.Oless

open Spec Spec.Ole Pole Props Vba Common

/-! ## The table -/

/-- The function an entry of the table refers to. -/
def funcOf : Inspection → Func
  | .nothing => .none
  | .word => .word
  | .workbook => .excel
  | .presentation => .ppt
  | .publication => .pub
  | .drawing => .visio
  | .wordPerfect => .wp
  | .installer => .msi

/-- The entry of the table for a document type. -/
def infoOf (t : DocumentType) : OlessInfo :=
  { Extension := t.extension, Name := t.name, Version := t.version, SubType := [], ignoreCase := t.anyCase,
    matcher := t.path, extraFunc := funcOf t.inspection }

theorem table_types : table = documentTypes.map infoOf := by decide +kernel

theorem types_markers : documentTypes.map (fun t => (t.path, t.anyCase)) = markers.map fun m => (m.path, m.anyCase) := by
  decide +kernel

theorem types_small : ∀ t ∈ documentTypes, t.anyCase = true → ∀ u ∈ t.path, u < 256 := by decide +kernel

theorem types_exclusive : documentTypes.Pairwise fun m m' =>
    if m.anyCase || m'.anyCase then m.path.map lower ≠ m'.path.map lower else m.path ≠ m'.path := by
  decide +kernel

theorem match_known {t : DocumentType} (ht : t ∈ documentTypes) (v : Visit) (hp : v.Plain) :
    (infoOf t).isMatch v.path = true ↔ t.Known v.path := by
  unfold OlessInfo.isMatch DocumentType.Known
  show (t.anyCase && iequalsW v.path t.path || v.path == t.path) = true ↔ _
  cases hc : t.anyCase with
  | false => simp
  | true =>
    have h3 := types_small t ht hc
    rw [Bool.true_and, Bool.or_eq_true, iequalsW_iff _ _ h3, if_pos rfl]
    constructor
    · rintro (h | h)
      · have : (t.path, t.anyCase) ∈ documentTypes.map (fun t => (t.path, t.anyCase)) := List.mem_map_of_mem ht
        rw [types_markers] at this
        obtain ⟨m, hm, he⟩ := List.mem_map.1 this
        injection he with h1 h2
        have := hp m hm (by rw [h2, hc])
        rw [h1] at this
        exact this h
      · rw [beq_iff_eq] at h
        rw [h]
        rfl
    · intro h
      exact Or.inl (sameLetters_small h3 h)

theorem find_known {ts : List DocumentType} (hts : ts.Pairwise fun m m' =>
    if m.anyCase || m'.anyCase then m.path.map lower ≠ m'.path.map lower else m.path ≠ m'.path) {t : DocumentType}
    (ht : t ∈ ts) {p : List Nat} (h : t.Known p) : ts.find? (fun t => decide (t.Known p)) = some t := by
  induction ts with
  | nil => simp at ht
  | cons m' ms ih =>
    rw [List.pairwise_cons] at hts
    rw [List.find?_cons]
    rcases List.mem_cons.1 ht with rfl | hm'
    · rw [decide_eq_true h]
    · by_cases h' : m'.Known p
      · exfalso
        have hx := hts.1 t hm'
        unfold DocumentType.Known SameLetters at h h'
        cases c1 : t.anyCase <;> cases c2 : m'.anyCase <;> simp only [c1, c2, Bool.false_eq_true, if_false, if_true,
          Bool.or_self, Bool.or_true, Bool.or_false] at h h' hx
        · exact hx (h'.symm.trans h)
        · exact hx (by rw [← h', ← h])
        · exact hx (by rw [← h', ← h])
        · exact hx (h'.symm.trans h)
      · rw [decide_eq_false h']
        exact ih hts.2 hm'

/-! ## One object -/

/-- What one object adds to the results and to the properties. -/
def look (abi : Abi) (env : Env) (io : StorageIO) (v : Visit) : Res (List Result × List (WStr × List Propset.Property)) :=
  if v.isStorage then
    if v.isVba then do
      let r ← vbaResult env (Analyze abi io v.path)
      .ok ([r], [])
    else .ok ([], [])
  else if v.name ∈ propertyNames then
    match parseProperties abi io v.path with
    | .ok ps => .ok ([], [(v.path, ps)])
    | .throw .rangeError => .ok ([], [])
    | .throw x => .throw x
    | .ub u => .ub u
    | .fuel => .fuel
  else
    match documentTypes.find? fun t => decide (t.Known v.path) with
    | none => .ok ([], [])
    | some t => do
      let r ← entryResult abi env io v.path (infoOf t)
      .ok ([r], [])

theorem tableLoop_none {abi : Abi} {env : Env} {io : StorageIO} {full : WStr} (list : List OlessInfo)
    (h : ∀ i ∈ list, i.isMatch full = false) (ei : Option Result) : tableLoop abi env io full list ei = .ok ei := by
  induction list with
  | nil => rfl
  | cons i list ih =>
    rw [tableLoop, if_neg (by rw [h i (by simp)]; simp)]
    exact ih fun i hi => h i (by simp [hi])

theorem tableLoop_one {abi : Abi} {env : Env} {io : StorageIO} {full : WStr} {i0 : OlessInfo} (list : List OlessInfo)
    (h : ∀ i ∈ list, i.isMatch full = true → i = i0) :
    (∀ r, entryResult abi env io full i0 = .ok r → tableLoop abi env io full list (some r) = .ok (some r)) ∧
    (∀ ei, (∃ i ∈ list, i.isMatch full = true) →
      tableLoop abi env io full list ei = (entryResult abi env io full i0).bind fun r => .ok (some r)) := by
  induction list with
  | nil => exact ⟨fun r _ => rfl, by simp⟩
  | cons i list ih =>
    obtain ⟨h1, h2⟩ := ih fun i hi => h i (by simp [hi])
    by_cases hi : i.isMatch full = true
    · have := h i (by simp) hi
      subst this
      constructor
      · intro r hr
        rw [tableLoop, if_pos hi, hr, Res.bind_ok]
        exact h1 r hr
      · intro ei _
        rw [tableLoop, if_pos hi]
        cases hr : entryResult abi env io full i with
        | ok r => rw [Res.bind_ok, h1 r hr]; rfl
        | throw x => rfl
        | ub u => rfl
        | fuel => rfl
    · constructor
      · intro r hr
        rw [tableLoop, if_neg hi]
        exact h1 r hr
      · rintro ei ⟨j, hj, hm⟩
        rw [tableLoop, if_neg hi]
        refine h2 ei ⟨j, ?_, hm⟩
        rcases List.mem_cons.1 hj with rfl | hj
        · exact absurd hm hi
        · exact hj

/-- What the state is after an object. -/
def St.after (abi : Abi) (st : St) (x : List Result × List (WStr × List Propset.Property)) (p : WStr) : St :=
  { paths := st.paths ++ [p], results := st.results ++ x.1,
    properties := x.2.foldl (fun m g => mapInsert abi g.1 g.2 m) st.properties }

theorem step_look {abi : Abi} {env : Env} {io : StorageIO} {list : List OlessInfo} (hl : ∀ i, i ∈ list ↔ i ∈ table)
    {v : Visit} (hd : io.isDirectory abi v.path = .ok v.isStorage) (hp : v.Plain) (st : St) :
    visitStep St.pushPath (guessStreamInfo abi env list io) st v =
      (look abi env io v).bind fun x => .ok (st.after abi x v.listed) := by
  unfold visitStep guessStreamInfo look
  rw [hd, Res.bind_ok]
  cases hst : v.isStorage with
  | true =>
    simp only [if_true]
    rw [isVba_iff v hst]
    by_cases hv : v.isVba = true
    · rw [if_pos hv, if_pos hv]
      cases vbaResult env (Analyze abi io v.path) <;> rfl
    · rw [if_neg hv, if_neg hv]
      simp [Res.bind, St.after, St.pushPath]
  | false =>
    simp only [Bool.false_eq_true, if_false]
    by_cases hn : v.name ∈ propertyNames
    · rw [if_pos ((isPropertyStream_iff _).2 hn), if_pos hn]
      cases hps : parseProperties abi io v.path with
      | ok ps => simp [addProperties, Res.bind, St.after, St.pushPath]
      | throw x => cases x <;> simp [addProperties, Res.bind, St.after, St.pushPath]
      | ub u => rfl
      | fuel => rfl
    · rw [if_neg (fun h => hn ((isPropertyStream_iff _).1 h)), if_neg hn]
      cases hf : documentTypes.find? fun t => decide (t.Known v.path) with
      | none =>
        rw [List.find?_eq_none] at hf
        rw [tableLoop_none list (fun i hi => by
          have := (hl i).1 hi
          rw [table_types] at this
          obtain ⟨t, ht, rfl⟩ := List.mem_map.1 this
          have := hf t ht
          rw [decide_eq_true_eq, ← match_known ht v hp] at this
          simpa using this)]
        simp [Res.bind, St.after, St.pushPath, pushResult]
      | some t =>
        have ht := List.mem_of_find?_eq_some hf
        have hk : t.Known v.path := by simpa using List.find?_some hf
        obtain ⟨_, h2⟩ := tableLoop_one (abi := abi) (env := env) (io := io) (full := v.path) (i0 := infoOf t) list
          (fun i hi hm => by
            have := (hl i).1 hi
            rw [table_types] at this
            obtain ⟨t', ht', rfl⟩ := List.mem_map.1 this
            have := find_known types_exclusive ht' ((match_known ht' v hp).1 hm)
            rw [hf] at this
            injection this with this
            rw [this])
        rw [h2 none ⟨infoOf t, (hl _).2 (by rw [table_types]; exact List.mem_map_of_mem ht), (match_known ht v hp).2 hk⟩]
        dsimp only
        cases entryResult abi env io v.path (infoOf t) <;> rfl

/-- What the state is after some objects. -/
def St.afterAll (abi : Abi) (st : St) : List (List Result × List (WStr × List Propset.Property)) → List Visit → St
  | x :: xs, v :: vs => (st.after abi x v.listed).afterAll abi xs vs
  | _, _ => st

theorem walk_look {abi : Abi} {env : Env} {io : StorageIO} {list : List OlessInfo} (hl : ∀ i, i ∈ list ↔ i ∈ table) :
    ∀ (vs : List Visit), (∀ v ∈ vs, io.isDirectory abi v.path = .ok v.isStorage ∧ v.Plain) → ∀ st : St,
      foldRes (visitStep St.pushPath (guessStreamInfo abi env list io)) st vs =
        (mapRes (look abi env io) vs).bind fun xs => .ok (st.afterAll abi xs vs) := by
  intro vs
  induction vs with
  | nil => intro _ st; rfl
  | cons v vs ih =>
    intro hv st
    rw [foldRes, step_look hl (hv v (by simp)).1 (hv v (by simp)).2, mapRes]
    cases look abi env io v with
    | ok x =>
      simp only [Res.bind_ok, Res.bind]
      show foldRes _ (st.after abi x v.listed) vs = _
      rw [ih (fun v h => hv v (by simp [h]))]
      cases mapRes (look abi env io) vs <;> rfl
    | throw x => rfl
    | ub u => rfl
    | fuel => rfl

theorem afterAll_paths (abi : Abi) : ∀ (vs : List Visit) xs (st : St), xs.length = vs.length →
    (st.afterAll abi xs vs).paths = st.paths ++ vs.map Visit.listed ∧
    (st.afterAll abi xs vs).results = st.results ++ (xs.map (·.1)).flatten := by
  intro vs
  induction vs with
  | nil =>
    intro xs st h
    have : xs = [] := List.length_eq_zero_iff.1 (by simpa using h)
    subst this
    simp [St.afterAll]
  | cons v vs ih =>
    intro xs st h
    cases xs with
    | nil => simp at h
    | cons x xs =>
      obtain ⟨h1, h2⟩ := ih xs (st.after abi x v.listed) (by simpa using h)
      rw [St.afterAll, h1, h2]
      simp [St.after]

theorem mapRes_pointwise {α β : Type} {f : α → Res β} : ∀ {l : List α} {bs : List β}, mapRes f l = .ok bs →
    Pointwise (fun a b => f a = .ok b) l bs := by
  intro l
  induction l with
  | nil => intro bs h; cases h; exact .nil
  | cons c l ih =>
    intro bs h
    rw [mapRes] at h
    obtain ⟨b, hb, h⟩ := bind_eq_ok h
    obtain ⟨bs', hbs, h⟩ := bind_eq_ok h
    cases h
    exact .cons hb (ih hbs)

theorem pointwise_length {α β : Type} {R : α → β → Prop} {l : List α} {m : List β} (h : Pointwise R l m) :
    m.length = l.length := by
  induction h with
  | nil => rfl
  | cons _ _ ih => simp [ih]

end Fileid.Oless
