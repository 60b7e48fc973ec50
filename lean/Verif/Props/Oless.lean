import Verif.Lemmas.OlessGuess

/-!
# Documents in compound files: C46 (kind), C74 (the walk ends), C75 (paths), C76 (contents), C77 (reports)
-/

namespace Fileid.Props

open Spec Spec.Ole Pole Oless Vba Common

/-! ## C46 -/

/-- C46: when the results for a compound file whose directory holds the objects `objs` are made, they report, in the
order of the walk, what its storages and streams tell, and that it is a compound file when they tell nothing. The
table may hold its entries more than once (`C46_table`). Missing for the full property: files for which no results
are made (`C46_empty_workbook_false`, `C46_no_project_false`), and paths that only look like a marker when their units lose
their high bytes, for which it is false (`C46_case_false`). -/
theorem C46_kinds_partial (abi : Abi) (habi : abi = Abi.linux ∨ abi = Abi.windows) (env : Env) (list : List OlessInfo)
    (hl : ∀ i, i ∈ list ↔ i ∈ table) (depth : Nat) (file : File) (io : StorageIO)
    (ho : openStorage abi file = .ok (.opened io)) (objs : Objects) (h : Describes abi io.dirtree objs)
    (hd : objs.depth < depth) (hp : ∀ v ∈ objs.visits (text b!"/"), v.Plain) (rs : List Result)
    (hg : Guess abi env list depth file = .ok rs) :
    Agrees (rs.map (·.base.Extension)) (told (objs.visits (text b!"/"))) := by
  rw [show text b!"/" = [47] from rfl] at *
  unfold Guess at hg
  rw [ho, Res.bind_ok] at hg
  dsimp only at hg
  rw [recurse_spec habi h _ _ depth hd] at hg
  obtain ⟨st, hst, hg⟩ := bind_eq_ok hg
  cases hg
  obtain ⟨_, rs, hr, ha⟩ := walk_spec hl _ (fun v hv => by
    obtain ⟨_, _, _, _, _, h5, _, _⟩ := describes_visits habi h v hv
    exact ⟨h5, hp v hv⟩) _ _ hst
  have hr : st.results = rs := by rw [hr]; rfl
  rw [← hr] at ha
  have hlen := agrees_length ha
  rw [List.length_map] at hlen
  unfold finish told
  dsimp only
  by_cases h0 : st.results.length = 0
  · rw [if_pos h0, if_pos (List.length_eq_zero_iff.1 (by omega))]
    exact .cons (List.mem_singleton.2 rfl) .nil
  · rw [if_neg h0, if_neg (fun hn => h0 (by rw [hn] at hlen; exact hlen)), giveExtra_base]
    exact ha

/-- C46: a document that tells nothing gets one answer, that of a compound file, with all paths. -/
theorem C46_generic_partial (abi : Abi) (habi : abi = Abi.linux ∨ abi = Abi.windows) (env : Env) (list : List OlessInfo)
    (hl : ∀ i, i ∈ list ↔ i ∈ table) (depth : Nat) (file : File) (io : StorageIO)
    (ho : openStorage abi file = .ok (.opened io)) (objs : Objects) (h : Describes abi io.dirtree objs)
    (hd : objs.depth < depth) (hp : ∀ v ∈ objs.visits (text b!"/"), v.Plain ∧ v.tells = none) (rs : List Result)
    (hg : Guess abi env list depth file = .ok rs) :
    ∃ x, rs = [.ole { Extension := b!"oless", VersionName := b!"OLE Structured Storage" } x] ∧
      x.paths = text b!"/" :: (objs.visits (text b!"/")).map Visit.listed := by
  rw [show text b!"/" = [47] from rfl] at *
  unfold Guess at hg
  rw [ho, Res.bind_ok] at hg
  dsimp only at hg
  rw [recurse_spec habi h _ _ depth hd] at hg
  obtain ⟨st, hst, hg⟩ := bind_eq_ok hg
  cases hg
  obtain ⟨h1, rs, hr, ha⟩ := walk_spec hl _ (fun v hv => by
    obtain ⟨_, _, _, _, _, h5, _, _⟩ := describes_visits habi h v hv
    exact ⟨h5, (hp v hv).1⟩) _ _ hst
  rw [List.filterMap_eq_nil_iff.2 (fun v hv => (hp v hv).2)] at ha
  have hlen := agrees_length ha
  have hr : st.results.length = 0 := by rw [hr]; simpa [St.pushPath] using hlen
  unfold finish
  dsimp only
  rw [if_pos hr]
  exact ⟨⟨st.paths, st.properties⟩, rfl, by rw [h1]; rfl⟩

/-- C46: the table after any number of earlier compound files. -/
theorem C46_table (abi : Abi) (env : Env) (depth : Nat) (files : List File) :
    let list := files.foldl (fun list file => (Detailer abi env list depth file).1) []
    ∀ (file : File), ∃ list', Detailer abi env list depth file = (list', Guess abi env list' depth file) ∧
      ∀ i, i ∈ list' ↔ i ∈ table := by
  intro list file
  refine ⟨list ++ table, rfl, fun i => ?_⟩
  have : ∀ (files : List File) (l : List OlessInfo), (∀ i ∈ l, i ∈ table) →
      ∀ i ∈ files.foldl (fun list file => (Detailer abi env list depth file).1) l, i ∈ table := by
    intro files
    induction files with
    | nil => intro l hl i hi; exact hl i hi
    | cons f fs ih =>
      intro l hl i hi
      refine ih (l ++ table) (fun i hi => ?_) i hi
      rcases List.mem_append.1 hi with h | h
      · exact hl i h
      · exact h
  rw [List.mem_append]
  exact ⟨fun h => h.elim (this files [] (by simp) i) id, Or.inr⟩

/-- C46: results are made for every compound file whose markers need no look at the content, without macros and
property sets. -/
theorem C46_made_partial (abi : Abi) (habi : abi = Abi.linux ∨ abi = Abi.windows) (env : Env) (list : List OlessInfo)
    (hl : ∀ i, i ∈ list → i ∈ table) (depth : Nat) (file : File) (io : StorageIO)
    (ho : openStorage abi file = .ok (.opened io)) (objs : Objects) (h : Describes abi io.dirtree objs)
    (hd : objs.depth < depth) (hp : ∀ v ∈ objs.visits (text b!"/"), v.Plain ∧ v.isVba = false ∧
      (v.isStorage = false → v.name ∉ propertyNames ∧ ∀ m ∈ markers, m.Tells v.path → m.looksInside = false)) :
    ∃ rs, Guess abi env list depth file = .ok rs := by
  rw [show text b!"/" = [47] from rfl] at *
  unfold Guess
  rw [ho, Res.bind_ok]
  dsimp only
  rw [recurse_spec habi h _ _ depth hd]
  obtain ⟨st, hst, _⟩ := walk_ok (env := env) hl _ (fun v hv => by
    obtain ⟨_, _, _, _, _, h5, _, _⟩ := describes_visits habi h v hv
    exact ⟨h5, hp v hv⟩) (St.pushPath {} [47])
  rw [hst]
  exact ⟨_, rfl⟩

theorem path_wide_not_marker {p : List Nat} (h : ∃ u ∈ p, 65536 ≤ u) : ∀ m ∈ markers, ¬ m.Tells p := by
  obtain ⟨u, hu, h1⟩ := h
  have hm : ∀ m ∈ markers, ∀ u ∈ m.path, lower u < 65536 ∧ u < 65536 := by decide +kernel
  intro m hmm ht
  unfold Marker.Tells SameLetters at ht
  split at ht
  · have : lower u ∈ m.path.map lower := by rw [← ht]; exact List.mem_map_of_mem hu
    obtain ⟨w, hw, he⟩ := List.mem_map.1 this
    have := (hm m hmm w hw).1
    have hl : lower u = u := by unfold lower; rw [if_neg (by omega)]
    omega
  · rw [ht] at hu
    have := (hm m hmm u hu).2
    omega

theorem wide_not_vba {v : Visit} (h : ∃ u ∈ v.name, 65536 ≤ u) (hp : ∀ u ∈ v.name, u ∈ v.path) : v.isVba = false := by
  obtain ⟨u, hu, h1⟩ := h
  have h2 : ∀ n ∈ [text b!"Macros", text b!"_VBA_PROJECT_CUR", text b!"/VBA", text b!"/VBA_Project"], ∀ u ∈ n, u < 65536 := by
    decide
  have a : v.name ∉ [text b!"Macros", text b!"_VBA_PROJECT_CUR"] := fun hm => by
    have := h2 v.name (by
      simp only [List.mem_cons, List.not_mem_nil, or_false] at hm ⊢
      rcases hm with h | h <;> simp [h]) u hu
    omega
  have b : v.path ∉ [text b!"/VBA", text b!"/VBA_Project"] := fun hm => by
    have := h2 v.path (by
      simp only [List.mem_cons, List.not_mem_nil, or_false] at hm ⊢
      rcases hm with h | h <;> simp [h]) u (hp u hu)
    omega
  simp [Visit.isVba, a, b]

/-- C46 is false on Linux: a directory whose names have two units or more (then the first unit read is made of two,
`C45_linux_false`) is never recognised as anything but a compound file, whatever is in it. -/
theorem C46_linux_false (env : Env) (list : List OlessInfo) (hl : ∀ i, i ∈ list ↔ i ∈ table) (depth : Nat) (file : File)
    (io : StorageIO) (ho : openStorage Abi.linux file = .ok (.opened io)) (objs : Objects)
    (h : Describes Abi.linux io.dirtree objs) (hd : objs.depth < depth)
    (hw : ∀ v ∈ objs.visits (text b!"/"), v.Plain ∧ ∃ u ∈ v.name, 65536 ≤ u) :
    ∃ x, Guess Abi.linux env list depth file =
        .ok [.ole { Extension := b!"oless", VersionName := b!"OLE Structured Storage" } x] ∧
      x.paths = text b!"/" :: (objs.visits (text b!"/")).map Visit.listed := by
  have hvis := describes_visits (Or.inl rfl) h
  have hpath : ∀ v ∈ objs.visits (text b!"/"), ∃ u ∈ v.path, 65536 ≤ u := fun v hv => by
    obtain ⟨_, _, _, _, _, _, _, h7⟩ := hvis v hv
    obtain ⟨u, hu, h1⟩ := (hw v hv).2
    exact ⟨u, h7 u hu, h1⟩
  have hvba : ∀ v ∈ objs.visits (text b!"/"), v.isVba = false := fun v hv => by
    obtain ⟨_, _, _, _, _, _, _, h7⟩ := hvis v hv
    exact wide_not_vba (hw v hv).2 h7
  have hprop : ∀ v ∈ objs.visits (text b!"/"), v.name ∉ propertyNames := fun v hv hm => by
    obtain ⟨u, hu, h1⟩ := (hw v hv).2
    have h2 : ∀ n ∈ propertyNames, ∀ u ∈ n, u < 65536 := by decide
    have := h2 _ hm u hu
    omega
  obtain ⟨rs, hr⟩ := C46_made_partial Abi.linux (Or.inl rfl) env list (fun i hi => (hl i).1 hi) depth file io ho objs h hd
    (fun v hv => ⟨(hw v hv).1, hvba v hv, fun _ => ⟨hprop v hv, fun m hm ht =>
      absurd ht (path_wide_not_marker (hpath v hv) m hm)⟩⟩)
  obtain ⟨x, rfl, hx⟩ := C46_generic_partial Abi.linux (Or.inl rfl) env list hl depth file io ho objs h hd
    (fun v hv => ⟨(hw v hv).1, by
      unfold Visit.tells
      rw [hvba v hv, if_neg (hprop v hv), List.find?_eq_none.2 (fun m hm => by
        simpa using path_wide_not_marker (hpath v hv) m hm)]
      simp⟩) rs hr
  exact ⟨x, hr, hx⟩

theorem entryResult_subtype {abi : Abi} {env : Env} {io : StorageIO} {full : WStr} {i : OlessInfo} {e : ExtInfo} {x : Extra}
    (h : entryResult abi env io full i = .ok (.ole e x)) : e.SubType = i.SubType := by
  unfold entryResult at h
  dsimp only at h
  by_cases hf : i.extraFunc = .none
  · rw [if_pos hf] at h
    cases h
    rfl
  · rw [if_neg hf] at h
    obtain ⟨c, _, h⟩ := bind_eq_ok h
    unfold detail at h
    split at h
    · cases h; rfl
    · obtain ⟨e, he, h⟩ := bind_eq_ok h
      cases h
      unfold Office.wordDetailer at he
      obtain ⟨_, _, he⟩ := bind_eq_ok he
      cases he
      rfl
    · obtain ⟨e, he, h⟩ := bind_eq_ok h
      cases h
      unfold Office.pubDetailer at he
      obtain ⟨_, _, he⟩ := bind_eq_ok he
      cases he
      rfl
    · obtain ⟨e, he, h⟩ := bind_eq_ok h
      cases h
      unfold Office.visioDetailer at he
      obtain ⟨_, _, he⟩ := bind_eq_ok he
      cases he
      rfl
    · obtain ⟨_, _, h⟩ := bind_eq_ok h
      obtain ⟨e, he, h⟩ := bind_eq_ok h
      cases h
      unfold Office.pptDetailer at he
      obtain ⟨_, _, he⟩ := bind_eq_ok he
      cases he
      rfl
    · cases h
      unfold Office.msiDetailer
      split
      · rfl
      · split
        · rfl
        · split <;> rfl
    · obtain ⟨e, he, h⟩ := bind_eq_ok h
      cases h
    · cases h

theorem tableLoop_subtype {abi : Abi} {env : Env} {io : StorageIO} {full : WStr} (list : List OlessInfo)
    (hl : ∀ i ∈ list, i.SubType = []) : ∀ ei ei', (∀ e x, ei = some (.ole e x) → e.SubType = []) →
      tableLoop abi env io full list ei = .ok ei' → ∀ e x, ei' = some (.ole e x) → e.SubType = [] := by
  induction list with
  | nil => intro ei ei' h ht; cases ht; exact h
  | cons i list ih =>
    intro ei ei' h ht
    rw [tableLoop] at ht
    split at ht
    · obtain ⟨r, hr, ht⟩ := bind_eq_ok ht
      refine ih (fun i hi => hl i (by simp [hi])) _ _ (fun e x he => ?_) ht
      cases he
      rw [entryResult_subtype hr]
      exact hl i (by simp)
    · exact ih (fun i hi => hl i (by simp [hi])) _ _ h ht

theorem foldRes_invariant {α σ : Type} {f : σ → α → Res σ} (P : σ → Prop) (hf : ∀ s a s', P s → f s a = .ok s' → P s') :
    ∀ (as : List α) s s', P s → foldRes f s as = .ok s' → P s' := by
  intro as
  induction as with
  | nil => intro s s' h hs; cases hs; exact h
  | cons a as ih =>
    intro s s' h hs
    rw [foldRes] at hs
    obtain ⟨t, ht, hs⟩ := bind_eq_ok hs
    exact ih t s' (hf s a t h ht) hs

theorem recurse_invariant {σ : Type} {abi : Abi} {io : StorageIO} {push : σ → WStr → σ}
    {callback : σ → WStr → WStr → Res σ} (P : σ → Prop) (hp : ∀ s p, P s → P (push s p))
    (hc : ∀ s n p s', P s → callback s n p = .ok s' → P s') :
    ∀ depth path s s', P s → recurse abi io push callback depth path s = .ok s' → P s' := by
  intro depth
  induction depth with
  | zero => intro path s s' _ h; cases h
  | succ d ih =>
    intro path s s' h hr
    rw [recurse] at hr
    obtain ⟨es, _, hr⟩ := bind_eq_ok hr
    refine foldRes_invariant P ?_ es _ s' (hp s path h) hr
    intro s n s' h hs
    obtain ⟨t, ht, hs⟩ := bind_eq_ok hs
    obtain ⟨dd, _, hs⟩ := bind_eq_ok hs
    have := hc _ _ _ _ h ht
    split at hs
    · exact ih _ _ _ this hs
    · cases hs
      exact hp _ _ this

/-- C46: whatever the file, no result made from the table has one of the sub types the table gives ("drm",
"encrypted", "Office 2003", "Office 2007", "Office 2010"). -/
theorem C46_subtypes_lost (abi : Abi) (env : Env) (list : List OlessInfo) (hl : ∀ i ∈ list, i ∈ table) (depth : Nat)
    (file : File) (rs : List Result) (hg : Guess abi env list depth file = .ok rs) :
    ∀ e x, Result.ole e x ∈ rs → e.SubType = [] := by
  have ht : ∀ i ∈ table, i.SubType = [] := by decide +kernel
  have hP : ∀ (st : St), (∀ e x, Result.ole e x ∈ st.results → e.SubType = []) →
      ∀ e x, Result.ole e x ∈ finish st → e.SubType = [] := by
    intro st hst e x hm
    unfold finish at hm
    dsimp only at hm
    split at hm
    · rw [List.mem_singleton] at hm
      injection hm with h1
      rw [h1]
      rfl
    · have : ∀ (y : Extra) (l : List Result), (∀ e x, Result.ole e x ∈ l → e.SubType = []) →
          ∀ e x, Result.ole e x ∈ giveExtra y l → e.SubType = [] := by
        intro y l
        induction l with
        | nil => intro _ e x h; cases h
        | cons r l ih =>
          intro hl e x h
          have ih := ih fun e x h => hl e x (by simp [h])
          cases r with
          | ole e' x' =>
            rcases List.mem_cons.1 h with h | h
            · injection h with h1 h2
              rw [h1]
              exact hl e' x' (by simp)
            · exact hl e x (by simp [h])
          | excel i x' =>
            rcases List.mem_cons.1 h with h | h
            · cases h
            · exact hl e x (by simp [h])
          | wp e' =>
            rcases List.mem_cons.1 h with h | h
            · cases h
            · exact ih e x h
          | vba v =>
            rcases List.mem_cons.1 h with h | h
            · cases h
            · exact ih e x h
      exact this _ _ hst e x hm
  unfold Guess at hg
  obtain ⟨o, _, hg⟩ := bind_eq_ok hg
  split at hg
  · obtain ⟨st, hst, hg⟩ := bind_eq_ok hg
    cases hg
    refine hP st (recurse_invariant (fun st : St => ∀ e x, Result.ole e x ∈ st.results → e.SubType = []) ?_ ?_ _ _ _ _
      (by intro e x h; cases h) hst)
    · intro s p h; exact h
    · intro s n p s' h hs
      unfold guessStreamInfo at hs
      obtain ⟨d, _, hs⟩ := bind_eq_ok hs
      split at hs
      · split at hs
        · obtain ⟨r, hr, hs⟩ := bind_eq_ok hs
          cases hs
          intro e x hm
          rcases List.mem_append.1 hm with hm | hm
          · exact h e x hm
          · rw [List.mem_singleton] at hm
            subst hm
            cases ha : Analyze abi _ p <;> rw [ha] at hr <;> cases hr
        · cases hs; exact h
      · split at hs
        · unfold addProperties at hs
          split at hs <;> cases hs <;> exact h
        · obtain ⟨ei, he, hs⟩ := bind_eq_ok hs
          cases hs
          have := tableLoop_subtype list (fun i hi => ht i (hl i hi)) none ei (by intro e x h; cases h) he
          cases ei with
          | none => exact h
          | some r =>
            intro e x hm
            rcases List.mem_append.1 hm with hm | hm
            · exact h e x hm
            · rw [List.mem_singleton] at hm
              subst hm
              exact this e x rfl
  · cases hg
    exact hP {} (by intro e x h; cases h)

/-! ## C74 -/

theorem foldRes_ne_fuel {α σ : Type} {f : σ → α → Res σ} (h : ∀ s a, f s a ≠ .fuel) :
    ∀ (as : List α) s, foldRes f s as ≠ .fuel := by
  intro as
  induction as with
  | nil => intro s; exact fun h => nomatch h
  | cons a as ih => intro s; rw [foldRes]; exact bind_ne_fuel (h s a) fun s' => ih s'

/-- C74: the walk through a directory whose links form trees ends, whatever is done for each object, provided that
ends. The depth of the recursion is that of the storages. Missing for the full property: directories in which a
storage is inside itself, for which it is false (`C74_false`). -/
theorem C74_walk_partial {σ : Type} (abi : Abi) (habi : abi = Abi.linux ∨ abi = Abi.windows) (io : StorageIO)
    (objs : Objects) (h : Describes abi io.dirtree objs) (push : σ → WStr → σ) (callback : σ → WStr → WStr → Res σ)
    (hc : ∀ s n p, callback s n p ≠ .fuel) (st : σ) :
    recurse abi io push callback (objs.depth + 1) [47] st ≠ .fuel := by
  rw [recurse_spec habi h push callback _ (by omega)]
  refine foldRes_ne_fuel (fun s v => ?_) _ _
  unfold visitStep
  exact bind_ne_fuel (hc _ _ _) fun s' h => by cases h

/-! ## C75 -/

/-- The paths and properties reported with a result. -/
def extraOf : Result → Option Extra
  | .ole _ x => some x
  | .excel _ x => some x
  | _ => none

theorem giveExtra_extra (x : Extra) (rs : List Result) :
    (giveExtra x rs).filterMap extraOf = [] ∨ ∃ rest, (giveExtra x rs).filterMap extraOf = x :: rest := by
  induction rs with
  | nil => exact Or.inl rfl
  | cons r rs ih =>
    cases r with
    | ole => exact Or.inr ⟨_, rfl⟩
    | excel => exact Or.inr ⟨_, rfl⟩
    | wp e => exact ih
    | vba v => exact ih

/-- C75: the paths reported with the first result that can hold them are those of all storages and streams, storages
with a slash at the end, each storage before what is inside it. Missing for the full property: files with only
WordPerfect and VBA results, for which no paths are reported at all (`C75_wordperfect_false`). -/
theorem C75_paths_partial (abi : Abi) (habi : abi = Abi.linux ∨ abi = Abi.windows) (env : Env) (list : List OlessInfo)
    (hl : ∀ i, i ∈ list ↔ i ∈ table) (depth : Nat) (file : File) (io : StorageIO)
    (ho : openStorage abi file = .ok (.opened io)) (objs : Objects) (h : Describes abi io.dirtree objs)
    (hd : objs.depth < depth) (hp : ∀ v ∈ objs.visits (text b!"/"), v.Plain) (rs : List Result)
    (hg : Guess abi env list depth file = .ok rs) :
    (∀ r ∈ rs, extraOf r = none) ∨
    ∃ x rest, rs.filterMap extraOf = x :: rest ∧
      x.paths = text b!"/" :: (objs.visits (text b!"/")).map Visit.listed := by
  rw [show text b!"/" = [47] from rfl] at *
  unfold Guess at hg
  rw [ho, Res.bind_ok] at hg
  dsimp only at hg
  rw [recurse_spec habi h _ _ depth hd] at hg
  obtain ⟨st, hst, hg⟩ := bind_eq_ok hg
  cases hg
  obtain ⟨h1, _⟩ := walk_spec hl _ (fun v hv => by
    obtain ⟨_, _, _, _, _, h5, _, _⟩ := describes_visits habi h v hv
    exact ⟨h5, hp v hv⟩) _ _ hst
  have h1 : st.paths = [47] :: (objs.visits [47]).map Visit.listed := by rw [h1]; rfl
  unfold finish
  dsimp only
  split
  · exact Or.inr ⟨⟨st.paths, st.properties⟩, [], rfl, h1⟩
  · rcases giveExtra_extra ⟨st.paths, st.properties⟩ st.results with h2 | ⟨rest, h2⟩
    · refine Or.inl fun r hr => ?_
      rw [List.filterMap_eq_nil_iff] at h2
      exact h2 r hr
    · exact Or.inr ⟨_, rest, h2, h1⟩

/-- C75: every object the names lead to is among the visited ones, under the path made of the names. -/
theorem C75_every_object (isDir : Nat → Bool) (name : Nat → WStr) (kids : Nat → List Nat)
    (hleaf : ∀ i, isDir i = false → kids i = []) (objs : Objects) (h : Holds isDir name kids (kids 0) objs)
    (names : List WStr) (hne : names ≠ []) (k : Nat) (hr : Resolves kids name 0 names k) :
    ∃ v ∈ objs.visits (text b!"/"), v.path = names.flatMap (47 :: ·) ∧ v.isStorage = isDir k := by
  generalize hi : 0 = i at hr
  cases hr with
  | here => exact absurd rfl hne
  | @down _ j _ ns hj hr =>
    subst hi
    obtain ⟨v, hv, h1, h2⟩ := visits_complete hleaf h (text b!"/") j ns k hj hr
    exact ⟨v, hv, by rw [h1]; simp [pathOf, text], h2⟩

/-! ## C76 -/

theorem opened_of_image (abi : Abi) (habi : abi = Abi.linux ∨ abi = Abi.windows) (file : Bytes) (hd : CfbHeader)
    (fat minifat : List Nat) (dir : Bytes) (mini : List Nat) (h : CfbImage file hd fat minifat dir mini) :
    ∃ io, openStorage abi (some file) = .ok (.opened io) ∧ Opened file hd fat minifat mini io ∧
      ∀ i e, io.dirtree[i]? = some e → EntryAt dir (128 * i) e := by
  obtain ⟨io, h1, h2, h3, h4, h5, h6, h7, h8, _, _, h10⟩ :=
    C68_open abi (by rcases habi with rfl | rfl <;> decide) file hd fat minifat dir mini h
  exact ⟨io, h1, ⟨h2, h3, h4, h5, h6, h7, h8⟩, fun i e he => (h10 i e he).2⟩

/-- The stream of a visited object. -/
theorem visit_stream (abi : Abi) (file : Bytes) (hd : CfbHeader)
    (fat minifat : List Nat) (dir : Bytes) (mini : List Nat) (h : CfbImage file hd fat minifat dir mini)
    (hm : minifat.length ≤ 0xfffffffc) (io : StorageIO) (ho : Opened file hd fat minifat mini io)
    (he : ∀ i e, io.dirtree[i]? = some e → EntryAt dir (128 * i) e) (path : WStr) (hne : path ≠ []) (j : Nat)
    (hidx : entryIdx abi io.dirtree path = .ok (some j)) (hj : j < io.dirtree.length) (hdir : isDirOf io.dirtree j = false)
    (start size : Nat) (content : Bytes) (h1 : Num dir (128 * j + 0x74) 4 start) (h2 : Num dir (128 * j + 0x78) 4 size)
    (hc : StreamContent file hd fat minifat mini start size content) :
    ∃ s, io.streamIO abi path = .ok (some s) ∧ s.entry.size = size ∧ Reads io s content := by
  have hea := he j _ (List.getElem?_eq_getElem hj)
  have e1 := num_unique h1 hea.start
  have e2 := num_unique h2 hea.size
  have hlt := h2.lt
  have hdir' : (io.dirtree[j]'hj).dir = false := by simpa [isDirOf, hj] using hdir
  obtain ⟨s, hs, hse, hr⟩ := stream_spec ho h.good h.hfatSize hm (e := io.dirtree[j]) hdir' (content := content)
    (by rw [← e2]; simpa using hlt) (by rw [← e1, ← e2]; exact hc)
  refine ⟨s, ?_, by rw [hse]; exact e2.symm, hr⟩
  unfold StorageIO.streamIO
  have : path.length ≠ 0 := fun h => hne (List.length_eq_zero_iff.1 h)
  rw [if_neg this, hidx, Res.bind_ok]
  simp only [Option.bind_some, List.getElem?_eq_getElem hj]
  exact hs

/-- C76: in an opened compound file, reading a stream by its path gives its content: entry `j` of the directory has
the name, its start and size lead to the content. -/
theorem C76_stream_content (abi : Abi) (habi : abi = Abi.linux ∨ abi = Abi.windows) (file : Bytes) (hd : CfbHeader)
    (fat minifat : List Nat) (dir : Bytes) (mini : List Nat) (h : CfbImage file hd fat minifat dir mini)
    (hm : minifat.length ≤ 0xfffffffc) :
    ∃ io, openStorage abi (some file) = .ok (.opened io) ∧
      ∀ objs, Describes abi io.dirtree objs → ∀ v ∈ objs.visits (text b!"/"), v.isStorage = false →
        ∃ j, entryName io.dirtree j = v.name ∧
          ∀ start size content, Num dir (128 * j + 0x74) 4 start → Num dir (128 * j + 0x78) 4 size →
            StreamContent file hd fat minifat mini start size content →
            ReadStream abi io v.path = .ok content := by
  obtain ⟨io, ho, hop, he⟩ := opened_of_image abi habi file hd fat minifat dir mini h
  refine ⟨io, ho, fun objs hdes v hv hst => ?_⟩
  obtain ⟨j, h1, h2, h3, h4, _, h6, _⟩ := describes_visits habi hdes v hv
  refine ⟨j, h3.symm, fun start size content n1 n2 hc => ?_⟩
  obtain ⟨s, hs, _, hr⟩ := visit_stream abi file hd fat minifat dir mini h hm io hop he v.path h6 j h1 h4
    (by rw [← h2]; exact hst) start size content n1 n2 hc
  exact readStream_spec hs hr

/-- C76: a path that leads to a storage, or nowhere, gives no content. -/
theorem C76_no_stream (abi : Abi) (io : StorageIO) (path : WStr) (j : Option Nat)
    (h : entryIdx abi io.dirtree path = .ok j) (hn : ∀ i, j = some i → isDirOf io.dirtree i = true) :
    ReadStream abi io path = .ok [] ∧ io.streamIO abi path = .ok none := by
  have hs : io.streamIO abi path = .ok none := by
    unfold StorageIO.streamIO
    split
    · rfl
    · rw [h, Res.bind_ok]
      cases j with
      | none => rfl
      | some i =>
        have := hn i rfl
        simp only [isDirOf] at this
        cases hi : io.dirtree[i]? with
        | none => simp [hi] at this
        | some e =>
          simp only [Option.bind_some, hi, streamOf]
          rw [if_pos (by simpa [hi] using this)]
  refine ⟨?_, hs⟩
  unfold ReadStream
  rw [hs]
  rfl

/-! ## C78 -/

/-- C78: extracting a stream writes exactly its content. -/
theorem C78_dump (abi : Abi) (habi : abi = Abi.linux ∨ abi = Abi.windows) (file : Bytes) (hd : CfbHeader)
    (fat minifat : List Nat) (dir : Bytes) (mini : List Nat) (h : CfbImage file hd fat minifat dir mini)
    (hm : minifat.length ≤ 0xfffffffc) :
    ∃ io, openStorage abi (some file) = .ok (.opened io) ∧
      ∀ objs, Describes abi io.dirtree objs → ∀ v ∈ objs.visits (text b!"/"), v.isStorage = false →
        ∃ j, entryName io.dirtree j = v.name ∧
          ∀ start size content, Num dir (128 * j + 0x74) 4 start → Num dir (128 * j + 0x78) 4 size →
            StreamContent file hd fat minifat mini start size content →
            Dump abi (some file) v.path = .ok (some content) := by
  obtain ⟨io, ho, hop, he⟩ := opened_of_image abi habi file hd fat minifat dir mini h
  refine ⟨io, ho, fun objs hdes v hv hst => ?_⟩
  obtain ⟨j, h1, h2, h3, h4, _, h6, _⟩ := describes_visits habi hdes v hv
  refine ⟨j, h3.symm, fun start size content n1 n2 hc => ?_⟩
  obtain ⟨s, hs, _, hr⟩ := visit_stream abi file hd fat minifat dir mini h hm io hop he v.path h6 j h1 h4
    (by rw [← h2]; exact hst) start size content n1 n2 hc
  unfold Dump
  rw [ho, Res.bind_ok]
  dsimp only
  rw [hs, Res.bind_ok]
  dsimp only
  rw [dumpLoop_spec hr _ 0 [] (by omega) (by rw [hr.1]; omega), Res.bind_ok]
  simp

/-! ## C79 -/

/-- The entry of the listing is about the stream: its path and its size. -/
def ListsStream (abi : Abi) (t : DirTree) (dir : Bytes) (s : OleSummary) (v : Visit) : Prop :=
  Excel.convert abi v.path = .ok s.FullName ∧ ∃ j, entryIdx abi t v.path = .ok (some j) ∧ entryName t j = v.name ∧
    Num dir (128 * j + 0x78) 4 s.Size

/-- C79: a listing that is made gives every stream once, in the order of the walk, with its path and its size. -/
theorem C79_list (abi : Abi) (habi : abi = Abi.linux ∨ abi = Abi.windows) (file : Bytes) (hd : CfbHeader)
    (fat minifat : List Nat) (dir : Bytes) (mini : List Nat) (h : CfbImage file hd fat minifat dir mini) :
    ∃ io, openStorage abi (some file) = .ok (.opened io) ∧
      ∀ objs, Describes abi io.dirtree objs → ∀ depth, objs.depth < depth →
        ∀ l, List_ abi depth (some file) = .ok l →
          l.length = ((objs.visits (text b!"/")).filter (!·.isStorage)).length ∧
          ∀ (i : Nat) (s : OleSummary) (v : Visit), l[i]? = some s → ((objs.visits (text b!"/")).filter (!·.isStorage))[i]? = some v →
            ListsStream abi io.dirtree dir s v := by
  obtain ⟨io, ho, hop, he⟩ := opened_of_image abi habi file hd fat minifat dir mini h
  refine ⟨io, ho, fun objs hdes depth hdep l hl => ?_⟩
  unfold List_ at hl
  rw [ho, Res.bind_ok] at hl
  dsimp only at hl
  rw [recurse_spec habi hdes _ _ depth hdep] at hl
  have hvis := describes_visits habi hdes
  rw [show text b!"/" = [47] from rfl]
  have key : ∀ vs : List Visit, (∀ v ∈ vs, ∃ j, entryIdx abi io.dirtree v.path = .ok (some j) ∧
      v.isStorage = isDirOf io.dirtree j ∧ v.name = entryName io.dirtree j ∧ j < io.dirtree.length ∧
      io.isDirectory abi v.path = .ok v.isStorage ∧ v.path ≠ [] ∧ ∀ u ∈ v.name, u ∈ v.path) →
      ∀ st l, foldRes (visitStep (fun st _ => st) (printStreamInfo abi io)) st vs = .ok l →
      ∃ new, l = st ++ new ∧ new.length = (vs.filter (!·.isStorage)).length ∧
        ∀ (i : Nat) (s : OleSummary) (v : Visit), new[i]? = some s → (vs.filter (!·.isStorage))[i]? = some v → ListsStream abi io.dirtree dir s v := by
    intro vs
    induction vs with
    | nil => intro _ st l h; cases h; exact ⟨[], by simp, rfl, by simp⟩
    | cons v vs ih =>
      intro hv st l h
      rw [foldRes] at h
      obtain ⟨s1, hs1, h⟩ := bind_eq_ok h
      obtain ⟨new, hn1, hn2, hn3⟩ := ih (fun v hv' => hv v (by simp [hv'])) s1 l h
      obtain ⟨j, h1, h2, h3, h4, h5, h6, _⟩ := hv v (by simp)
      unfold visitStep at hs1
      obtain ⟨s2, hs2, hs1⟩ := bind_eq_ok hs1
      cases hs1
      unfold printStreamInfo at hs2
      rw [h5, Res.bind_ok] at hs2
      cases hst : v.isStorage with
      | true =>
        rw [hst, if_pos rfl] at hs2
        cases hs2
        refine ⟨new, hn1, ?_, ?_⟩
        · rw [List.filter_cons, if_neg (by simp [hst])]; exact hn2
        · rw [List.filter_cons, if_neg (by simp [hst])]; exact hn3
      | false =>
        rw [hst, if_neg (by simp)] at hs2
        obtain ⟨o, ho', hs2⟩ := bind_eq_ok hs2
        have hstream : ∃ s : StreamIO, o = some s ∧ s.entry = io.dirtree[j] := by
          unfold StorageIO.streamIO at ho'
          have : v.path.length ≠ 0 := fun h => h6 (List.length_eq_zero_iff.1 h)
          rw [if_neg this, h1, Res.bind_ok] at ho'
          simp only [Option.bind_some, List.getElem?_eq_getElem h4, streamOf] at ho'
          have hdir : (io.dirtree[j]'h4).dir = false := by
            have : isDirOf io.dirtree j = false := by rw [← h2]; exact hst
            simpa [isDirOf, h4] using this
          rw [if_neg (by simp [hdir])] at ho'
          obtain ⟨s, hs, ho'⟩ := bind_eq_ok ho'
          cases ho'
          unfold StreamIO.new at hs
          dsimp only at hs
          split at hs <;> (obtain ⟨_, _, hs⟩ := bind_eq_ok hs; cases hs; exact ⟨_, rfl, rfl⟩)
        obtain ⟨s, rfl, hse⟩ := hstream
        dsimp only at hs2
        obtain ⟨txt, htxt, hs2⟩ := bind_eq_ok hs2
        cases hs2
        have hls : ListsStream abi io.dirtree dir ⟨txt, s.entry.size⟩ v :=
          ⟨htxt, j, h1, h3.symm, by rw [hse]; exact (he j _ (List.getElem?_eq_getElem h4)).size⟩
        refine ⟨⟨txt, s.entry.size⟩ :: new, by rw [hn1]; simp, ?_, ?_⟩
        · rw [List.filter_cons, if_pos (by simp [hst])]
          simp [hn2]
        · rw [List.filter_cons, if_pos (by simp [hst])]
          intro i s' v' hi1 hi2
          cases i with
          | zero =>
            simp at hi1 hi2
            subst hi1 hi2
            exact hls
          | succ i => exact hn3 i s' v' (by simpa using hi1) (by simpa using hi2)
  obtain ⟨new, h1, h2, h3⟩ := key _ hvis [] l hl
  simp only [List.nil_append] at h1
  subst h1
  exact ⟨h2, h3⟩

end Fileid.Props
