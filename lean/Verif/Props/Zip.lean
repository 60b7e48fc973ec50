import Verif.Lemmas.Zip
import Verif.Props.Media

/-!
# Zip archives (C35 - C37, C64 - C66)
-/

namespace Fileid.Props

open Common Spec Tables Zip

/-! ## What an archive holds -/

/-- The first entry called `name` is there and unpacks to `data`. -/
def Holds (a : Archive) (name data : Bytes) : Prop :=
  ∃ pre e post, a = pre ++ e :: post ∧ (∀ x ∈ pre, x.FullName ≠ name) ∧ e.FullName = name ∧ e.Data = some data

/-- The first entry called `name` is there and cannot be unpacked. -/
def Locked (a : Archive) (name : Bytes) : Prop :=
  ∃ pre e post, a = pre ++ e :: post ∧ (∀ x ∈ pre, x.FullName ≠ name) ∧ e.FullName = name ∧ e.Data = none

/-- The content types the archive declares: none without `[Content_Types].xml`, otherwise those of its text. -/
inductive DeclaredTypes (a : Archive) : List Bytes → Prop
  | absent : (∀ e ∈ a, e.FullName ≠ b!"[Content_Types].xml") → DeclaredTypes a []
  | locked : Locked a b!"[Content_Types].xml" → DeclaredTypes a []
  | present (text : Bytes) (vs : List Bytes) : Holds a b!"[Content_Types].xml" text → Declares text vs →
      DeclaredTypes a vs

/-- The content types the program takes from the archive. -/
inductive TakenTypes (a : Archive) : List Bytes → Prop
  | absent : (∀ e ∈ a, e.FullName ≠ b!"[Content_Types].xml") → TakenTypes a []
  | locked : Locked a b!"[Content_Types].xml" → TakenTypes a []
  | present (text : Bytes) (vs : List Bytes) : Holds a b!"[Content_Types].xml" text → Scans text vs →
      TakenTypes a vs

/-- The content of the entry `mimetype`, if there is one. -/
inductive DeclaredMime (a : Archive) : List Bytes → Prop
  | absent : (∀ e ∈ a, e.FullName ≠ b!"mimetype") → DeclaredMime a []
  | locked : Locked a b!"mimetype" → DeclaredMime a []
  | present (text : Bytes) : Holds a b!"mimetype" text → DeclaredMime a [text]

/-- Extension and name of an item. -/
def kind (it : Item) : Kind := (it.info.Extension, it.info.Name)

/-- The entries of a table for a value (there is at most one). -/
def kindsOf (t : List (Bytes × Kind)) (v : Bytes) : List Kind := (t.filter fun e => e.1 = v).map (·.2)

/-- The kinds the marker entries of an archive tell, in the order of the list of markers. -/
def markerKinds (a : Archive) : List Kind :=
  (packageMarkers.filter fun m => decide (∃ e ∈ a, e.FullName = m.1)).map (·.2)

/-- The kinds content types and MIME type tell, in order; `vba` is told by the VBA project type. -/
def declaredKinds (vba : Kind) (types mime : List Bytes) : List Kind :=
  (types.flatMap fun v => kindsOf zipContentTypes v ++ if v = vbaProjectType then [vba] else []) ++
    mime.flatMap (kindsOf zipMimeTypes)

/-- An archive without any telling content is reported as such. -/
def orZip (ks : List Kind) : List Kind := if ks = [] then [(b!"zip", b!"Zip File")] else ks

theorem getEntry_holds {a : Archive} {name data : Bytes} (h : Holds a name data) :
    ∃ e, GetEntry a name = some e ∧ GetFile e = data := by
  obtain ⟨pre, e, post, rfl, hpre, he, hd⟩ := h
  refine ⟨e, ?_, by simp [GetFile, hd]⟩
  unfold GetEntry
  rw [List.find?_append, List.find?_eq_none.2 (by intro x hx; simp [hpre x hx])]
  simp [he]

theorem getEntry_locked {a : Archive} {name : Bytes} (h : Locked a name) :
    ∃ e, GetEntry a name = some e ∧ GetFile e = [] := by
  obtain ⟨pre, e, post, rfl, hpre, he, hd⟩ := h
  refine ⟨e, ?_, by simp [GetFile, hd]⟩
  unfold GetEntry
  rw [List.find?_append, List.find?_eq_none.2 (by intro x hx; simp [hpre x hx])]
  simp [he]

/-- An entry is missing, locked or held. -/
theorem entry_cases (a : Archive) (name : Bytes) :
    (∀ e ∈ a, e.FullName ≠ name) ∨ Locked a name ∨ ∃ data, Holds a name data := by
  induction a with
  | nil => exact .inl (by simp)
  | cons e a ih =>
    by_cases he : e.FullName = name
    · cases hd : e.Data with
      | none => exact .inr (.inl ⟨[], e, a, rfl, by simp, he, hd⟩)
      | some d => exact .inr (.inr ⟨d, [], e, a, rfl, by simp, he, hd⟩)
    · rcases ih with ih | ⟨pre, x, post, rfl, h1, h2⟩ | ⟨d, pre, x, post, rfl, h1, h2⟩
      · exact .inl (List.forall_mem_cons.2 ⟨he, ih⟩)
      · exact .inr (.inl ⟨e :: pre, x, post, rfl, List.forall_mem_cons.2 ⟨he, h1⟩, h2⟩)
      · exact .inr (.inr ⟨d, e :: pre, x, post, rfl, List.forall_mem_cons.2 ⟨he, h1⟩, h2⟩)

/-- The program takes some list of types from every archive. -/
theorem taken_total (a : Archive) : ∃ types, TakenTypes a types := by
  rcases entry_cases a b!"[Content_Types].xml" with h | h | ⟨text, h⟩
  · exact ⟨_, .absent h⟩
  · exact ⟨_, .locked h⟩
  · obtain ⟨vs, hv⟩ := scans_total text
    exact ⟨_, .present text vs h hv⟩

theorem mime_total (a : Archive) : ∃ mime, DeclaredMime a mime := by
  rcases entry_cases a b!"mimetype" with h | h | ⟨text, h⟩
  · exact ⟨_, .absent h⟩
  · exact ⟨_, .locked h⟩
  · exact ⟨_, .present text h⟩

/-- Without empty values these are the types declared. -/
theorem taken_of_declared {a : Archive} {types : List Bytes} (h : DeclaredTypes a types) (hne : ∀ v ∈ types, v ≠ []) :
    TakenTypes a types := by
  cases h with
  | absent h => exact .absent h
  | locked h => exact .locked h
  | present text _ h hd => exact .present text _ h (scans_of_declares hd hne)

theorem getEntry_none {a : Archive} {name : Bytes} (h : ∀ e ∈ a, e.FullName ≠ name) : GetEntry a name = none := by
  unfold GetEntry
  rw [List.find?_eq_none]
  intro x hx; simp [h x hx]

theorem getEntry_isSome (a : Archive) (name : Bytes) :
    (GetEntry a name).isSome = decide (∃ e ∈ a, e.FullName = name) := by
  unfold GetEntry
  rw [Bool.eq_iff_iff, List.find?_isSome]
  simp

/-! ## The model in terms of the kinds told -/

def typeItem (e : Bytes × Bytes × Bytes) : Item := Item.generic { Extension := e.2.1, Name := e.2.2 }

/-- Keys of a table are distinct. -/
def distinctKeys (t : List (Bytes × Bytes × Bytes)) : Bool := (t.map (·.1)).Nodup

theorem filter_find {t : List (Bytes × Bytes × Bytes)} (h : (t.map (·.1)).Nodup) (v : Bytes) :
    t.filter (fun e => decide (e.1 = v)) = (t.find? fun e => decide (e.1 = v)).toList := by
  induction t with
  | nil => rfl
  | cons e t ih =>
    rw [List.map_cons, List.nodup_cons] at h
    by_cases he : e.1 = v
    · rw [List.filter_cons_of_pos (by simpa using he), List.find?_cons_of_pos (by simpa using he)]
      rw [List.filter_eq_nil_iff.2]
      · rfl
      · intro x hx
        simp only [decide_eq_true_eq]
        intro hx'
        exact h.1 (by rw [he, ← hx']; exact List.mem_map_of_mem hx)
    · rw [List.filter_cons_of_neg (by simpa using he), List.find?_cons_of_neg (by simpa using he), ih h.2]

theorem content_nodup : (zipContentTypes.map (·.1)).Nodup := by decide +kernel
theorem mime_nodup : (zipMimeTypes.map (·.1)).Nodup := by decide +kernel

theorem checkType_eq {t : List (Bytes × Bytes × Bytes)} (h : (t.map (·.1)).Nodup) (st : St) (v : Bytes) :
    checkType t st v = ((t.filter fun e => decide (e.1 = v)).map typeItem).foldl addExtension st := by
  rw [filter_find h]
  unfold checkType
  cases t.find? fun e => decide (e.1 = v) with
  | none => rfl
  | some e => rfl

/-- The items the values of a content-type list stand for. -/
def typeItems (vba : Item) (v : Bytes) : List Item :=
  (zipContentTypes.filter fun e => decide (e.1 = v)).map typeItem ++ if v = vbaProjectType then [vba] else []

theorem scanStep_eq (analyze : Bytes → Res Item) (a : Archive) (vba : Item) (v : Bytes)
    (hv : v = vbaProjectType → GetVBA analyze a = .ok vba) (st : St) :
    scanStep analyze a st v = .ok ((typeItems vba v).foldl addExtension st) := by
  unfold scanStep CheckContentType typeItems
  rw [checkType_eq content_nodup, List.foldl_append]
  by_cases h : v = vbaProjectType
  · have hv' := hv h
    simp only [h, if_true, hv', Res.bind_ok, List.foldl_cons, List.foldl_nil, vbaProjectType]
  · rw [if_neg h, if_neg (by exact h)]; rfl

theorem foldlM_steps (analyze : Bytes → Res Item) (a : Archive) (vba : Item) :
    ∀ (vs : List Bytes), (vbaProjectType ∈ vs → GetVBA analyze a = .ok vba) → ∀ st,
      vs.foldlM (scanStep analyze a) st = .ok ((vs.flatMap (typeItems vba)).foldl addExtension st) := by
  intro vs
  induction vs with
  | nil => intro _ st; rfl
  | cons v vs ih =>
    intro hv st
    rw [List.foldlM_cons, scanStep_eq analyze a vba v (fun h => hv (by simp [h])), Res.bind_ok,
      ih (fun h => hv (by simp [h])), List.flatMap_cons, List.foldl_append]

/-- Adding items one by one adds the first of each new extension. -/
theorem adding (items : List Item) : ∀ (st : St),
    ((items.foldl addExtension st).ans.map kind =
      st.ans.map kind ++ (firstOfEach (items.map kind)).filter fun k => decide (k.1 ∉ st.extMap)) ∧
    ∀ x, x ∈ (items.foldl addExtension st).extMap ↔ x ∈ st.extMap ∨ x ∈ (items.map kind).map (·.1) := by
  induction items with
  | nil => intro st; simp [firstOfEach]
  | cons it items ih =>
    intro st
    rw [List.foldl_cons, List.map_cons, firstOfEach]
    by_cases h : it.info.Extension ∈ st.extMap
    · have e : addExtension st it = st := by unfold addExtension; rw [if_pos h]
      rw [e]
      refine ⟨?_, ?_⟩
      · rw [(ih st).1, List.filter_cons_of_neg (by simp [kind, h]), List.filter_filter]
        congr 1
        apply List.filter_congr
        intro k _
        by_cases hk : k.1 ∈ st.extMap
        · simp [hk]
        · have hne : k.1 ≠ (kind it).1 := fun heq => hk (by rw [heq]; exact h)
          simp [hk, hne]
      · intro x
        rw [(ih st).2 x]
        simp only [List.map_cons, List.mem_cons]
        constructor
        · rintro (hx | hx)
          · exact .inl hx
          · exact .inr (.inr hx)
        · rintro (hx | hx | hx)
          · exact .inl hx
          · left; rw [hx]; exact h
          · exact .inr hx
    · have e : addExtension st it = ⟨it.info.Extension :: st.extMap, st.ans ++ [it]⟩ := by
        unfold addExtension; rw [if_neg h]
      rw [e]
      refine ⟨?_, ?_⟩
      · rw [(ih _).1, List.filter_cons_of_pos (by simp [kind, h]), List.filter_filter]
        simp only [List.map_append, List.map_cons, List.map_nil, List.append_assoc, List.cons_append, List.nil_append]
        congr 2
        apply List.filter_congr
        intro k _
        by_cases h1 : k.1 = it.info.Extension <;> by_cases h2 : k.1 ∈ st.extMap <;> simp [kind, h1, h2]
      · intro x
        rw [(ih _).2 x]
        simp only [List.map_cons, List.mem_cons, kind]
        constructor
        · rintro ((hx | hx) | hx)
          · exact .inr (.inl hx)
          · exact .inl hx
          · exact .inr (.inr hx)
        · rintro (hx | hx | hx)
          · exact .inl (.inr hx)
          · exact .inl (.inl hx)
          · exact .inr hx

theorem markers_eq (a : Archive) : (zipMarkers.foldl (CheckEntry a) []).map kind = markerKinds a := by
  have key : ∀ (l : List (Bytes × Bytes × Bytes)) (acc : List Item),
      (l.foldl (CheckEntry a) acc).map kind =
        acc.map kind ++ (l.filter fun m => decide (∃ e ∈ a, e.FullName = m.1)).map (·.2) := by
    intro l
    induction l with
    | nil => intro acc; simp
    | cons m l ih =>
      intro acc
      rw [List.foldl_cons, ih]
      have hs := getEntry_isSome a m.1
      unfold CheckEntry
      cases h : GetEntry a m.1 with
      | none =>
        rw [h] at hs
        rw [List.filter_cons_of_neg (by rw [← hs]; simp)]
      | some e =>
        rw [h] at hs
        rw [List.filter_cons_of_pos (by rw [← hs]; rfl)]
        simp [kind, Item.generic]
  rw [key]
  have ht : zipMarkers = packageMarkers := by decide +kernel
  rw [ht]
  rfl

theorem kinds_typeItems (vba : Item) (v : Bytes) :
    (typeItems vba v).map kind = kindsOf zipContentTypes v ++ if v = vbaProjectType then [kind vba] else [] := by
  unfold typeItems kindsOf
  rw [List.map_append, List.map_map]
  congr 1
  split <;> rfl

/-- What inspecting an archive gives, with the extensions `seen` already reported by the process. -/
theorem detailer_kinds (analyze : Bytes → Res Item) (history : List Bytes) (a : Archive) (types mime : List Bytes)
    (vba : Item) (ht : TakenTypes a types) (hm : DeclaredMime a mime)
    (hv : vbaProjectType ∈ types → GetVBA analyze a = .ok vba) :
    ∃ items after, Detailer analyze history a = .ok (items, after) ∧
      items.map kind = orZip (markerKinds a ++
        (firstOfEach (declaredKinds (kind vba) types mime)).filter fun k => decide (k.1 ∉ history)) ∧
      (∀ x, x ∈ after ↔ x ∈ history ∨ x ∈ (declaredKinds (kind vba) types mime).map (·.1)) ∧
      (markerKinds a ++ (firstOfEach (declaredKinds (kind vba) types mime)).filter
        (fun k => decide (k.1 ∉ history)) = [] → items = [zipItem (a.map childInfo)]) := by
  let st0 : St := ⟨history, zipMarkers.foldl (CheckEntry a) []⟩
  have h1 : ooxmlPart analyze a st0 = .ok ((types.flatMap (typeItems vba)).foldl addExtension st0) := by
    unfold ooxmlPart
    cases ht with
    | absent h => rw [getEntry_none h]; rfl
    | locked h =>
      obtain ⟨e, he, hf⟩ := getEntry_locked h
      simp only [he, hf]
      rfl
    | present text _ h hd =>
      obtain ⟨e, he, hf⟩ := getEntry_holds h
      simp only [he, hf]
      split
      · rw [scan_exact _ text types hd, foldlM_steps analyze a vba types hv]
      · rename_i hl
        have : text = [] := List.length_eq_zero_iff.1 (by omega)
        subst this
        have : types = [] := scans_unique hd (.done [] (by
          rintro ⟨i, hi⟩
          have := hi.length_le
          simp [ctOpen_length] at this))
        subst this
        rfl
  let st1 : St := (types.flatMap (typeItems vba)).foldl addExtension st0
  let mimeItems : List Item := mime.flatMap fun v => (zipMimeTypes.filter fun e => decide (e.1 = v)).map typeItem
  have h2 : odfPart a st1 = mimeItems.foldl addExtension st1 := by
    unfold odfPart
    cases hm with
    | absent h => rw [getEntry_none h]; rfl
    | locked h =>
      obtain ⟨e, he, hf⟩ := getEntry_locked h
      simp only [he, hf]
      rfl
    | present text h =>
      obtain ⟨e, he, hf⟩ := getEntry_holds h
      simp only [he, hf]
      have hm1 : mimeItems = (zipMimeTypes.filter fun e => decide (e.1 = text)).map typeItem := by
        simp [mimeItems]
      rw [hm1]
      split
      · exact checkType_eq mime_nodup st1 text
      · rename_i hl
        have : text = [] := List.length_eq_zero_iff.1 (by omega)
        subst this
        rfl
  let st2 : St := mimeItems.foldl addExtension st1
  have hst : st2 = ((types.flatMap (typeItems vba)) ++ mimeItems).foldl addExtension st0 := by
    rw [List.foldl_append]
  have hD : Detailer analyze history a =
      if st2.ans.length = 0 then .ok ([zipItem (a.map childInfo)], st2.extMap) else .ok (st2.ans, st2.extMap) := by
    unfold Detailer
    dsimp only
    rw [show ooxmlPart analyze a ⟨history, zipMarkers.foldl (CheckEntry a) []⟩ = .ok st1 from h1, Res.bind_ok, h2]
  have hk : ((types.flatMap (typeItems vba)) ++ mimeItems).map kind = declaredKinds (kind vba) types mime := by
    rw [List.map_append, List.map_flatMap, List.map_flatMap]
    unfold declaredKinds
    congr 1
    · congr 1; funext v; exact kinds_typeItems vba v
    · congr 1; funext v
      unfold kindsOf
      rw [List.map_map]
      rfl
  obtain ⟨ha, hx⟩ := adding ((types.flatMap (typeItems vba)) ++ mimeItems) st0
  rw [← hst, hk, show st0.ans.map kind = markerKinds a from markers_eq a] at ha
  rw [hk] at hx
  by_cases h0 : st2.ans.length = 0
  · rw [if_pos h0] at hD
    refine ⟨_, _, hD, ?_, fun x => ?_, fun _ => rfl⟩
    · rw [show st2.ans = [] from List.length_eq_zero_iff.1 h0] at ha
      rw [← show _ = markerKinds a ++ _ from ha]
      rfl
    · rw [hst]; exact hx x
  · rw [if_neg h0] at hD
    have hne2 : st2.ans.map kind ≠ [] := by
      intro h; exact h0 (by rw [List.map_eq_nil_iff.1 h]; rfl)
    refine ⟨_, _, hD, ?_, fun x => ?_, fun hz => ?_⟩
    · rw [← show _ = markerKinds a ++ _ from ha]
      unfold orZip
      rw [if_neg hne2]
    · rw [hst]; exact hx x
    · exact absurd (ha.trans hz) hne2

theorem foldlM_ok_mem {σ α : Type} {f : σ → α → Res σ} {vs : List α} {st st' : σ} (h : vs.foldlM f st = .ok st') {v : α}
    (hv : v ∈ vs) : ∃ s s', f s v = .ok s' := by
  induction vs generalizing st with
  | nil => cases hv
  | cons x vs ih =>
    rw [List.foldlM_cons] at h
    cases h1 : f st x with
    | ok s1 =>
      rw [h1, Res.bind_ok] at h
      rcases List.mem_cons.1 hv with rfl | hv
      · exact ⟨_, _, h1⟩
      · exact ih h hv
    | throw _ => rw [h1] at h; cases h
    | ub _ => rw [h1] at h; cases h
    | fuel => rw [h1] at h; cases h

/-- An inspection that succeeds has analysed the VBA project told. -/
theorem taken_vba {analyze : Bytes → Res Item} {history : List Bytes} {a : Archive} {types : List Bytes} (ht : TakenTypes a types)
    {r : List Item × List Bytes} (h : Detailer analyze history a = .ok r) (hv : vbaProjectType ∈ types) :
    ∃ vba, GetVBA analyze a = .ok vba := by
  have bind_inv : ∀ {α β : Type} {x : Res α} {f : α → Res β} {b : β}, (x >>= f) = .ok b → ∃ y, x = .ok y ∧ f y = .ok b := by
    intro α β x f b h
    cases x with
    | ok y => exact ⟨y, rfl, h⟩
    | throw _ => cases h
    | ub _ => cases h
    | fuel => cases h
  unfold Detailer at h
  obtain ⟨st, h4, _⟩ := bind_inv h
  cases ht with
  | absent h => cases hv
  | locked h => cases hv
  | present text _ hh hdec =>
    obtain ⟨e, he, hf⟩ := getEntry_holds hh
    unfold Zip.ooxmlPart at h4
    simp only [he, hf] at h4
    split at h4
    · rw [scan_exact _ text types hdec] at h4
      obtain ⟨s, s', h5⟩ := foldlM_ok_mem h4 hv
      unfold Zip.scanStep at h5
      simp only [vbaProjectType, if_true] at h5
      obtain ⟨it, h6, _⟩ := bind_inv h5
      exact ⟨it, h6⟩
    · rename_i hl
      have : text = [] := List.length_eq_zero_iff.1 (by omega)
      subst this
      have : types = [] := scans_unique hdec (.done [] (by
        rintro ⟨i, hi⟩
        have := hi.length_le
        simp [ctOpen_length] at this))
      subst this
      cases hv

/-! ## C35 Content types -/

theorem not_occurs_of {s : Bytes} (h : Office.contains ctOpen s = false) : ¬ Occurs ctOpen s := by
  rw [← contains_iff, h]; simp

/-- Every text declares exactly one list of content types, so the statements below speak about every archive. -/
theorem declares_exists_unique (text : Bytes) :
    ∃ vs, Declares text vs ∧ ∀ vs', Declares text vs' → vs' = vs := by
  obtain ⟨vs, h⟩ := declares_total text
  exact ⟨vs, h, fun vs' h' => (declares_unique h vs' h').symm⟩

/-- C35: scanning a text whose declared content types are all non-empty passes exactly these, in order, to the
body of the scan, whatever the body does. Missing: texts with an empty value (`C35_empty_value_swallows`). -/
theorem C35_scan_partial {σ : Type} (body : σ → Bytes → Res σ) (text : Bytes) (values : List Bytes)
    (h : Declares text values) (hne : ∀ v ∈ values, v ≠ []) (st : σ) :
    scan body text st = values.foldlM body st :=
  scan_eq body text values h hne st

/-- C35, every text: what is passed to the body of the scan are the values as the program takes them. -/
theorem C35_scan_taken {σ : Type} (body : σ → Bytes → Res σ) (text : Bytes) :
    ∃ values, Scans text values ∧ (∀ vs, Scans text vs → vs = values) ∧
      (∀ st, scan body text st = values.foldlM body st) ∧
      ∀ vs, Declares text vs → (∀ v ∈ vs, v ≠ []) → vs = values := by
  obtain ⟨values, h⟩ := scans_total text
  exact ⟨values, h, fun vs hv => scans_unique hv h, scan_exact body text values h,
    fun vs hv hne => scans_unique (scans_of_declares hv hne) h⟩

/-- The two readings of a text with an empty value. -/
example : Declares b!"ContentType=\"\" ContentType=\"a/b\"" [[], b!"a/b"] ∧
    Scans b!"ContentType=\"\" ContentType=\"a/b\"" [b!"\" ContentType="] :=
  ⟨.attr [] [] b!" ContentType=\"a/b\"" _ (not_occurs_of (by decide)) (by decide)
      (.attr b!" " b!"a/b" [] _ (not_occurs_of (by decide)) (by decide) (.done _ (not_occurs_of (by decide)))),
    .attr [] 34 b!" ContentType=" b!"a/b\"" _ (not_occurs_of (by decide)) (by decide) (.done _ (not_occurs_of (by decide)))⟩

/-- In particular, collecting the values gives the declared list. -/
theorem C35_values_partial (text : Bytes) (values : List Bytes) (h : Declares text values)
    (hne : ∀ v ∈ values, v ≠ []) :
    scan (fun acc v => .ok (acc ++ [v])) text [] = .ok values := by
  rw [C35_scan_partial _ text values h hne]
  have key : ∀ (vs acc : List Bytes),
      vs.foldlM (fun acc v => (Res.ok (acc ++ [v]) : Res (List Bytes))) acc = .ok (acc ++ vs) := by
    intro vs
    induction vs with
    | nil => intro acc; simp
    | cons v vs ih => intro acc; rw [List.foldlM_cons, Res.bind_ok, ih]; simp
  simpa using key values []

/-- A content-type list with two attributes, the second with a value that reads like an attribute name. -/
example : Declares b!"<Override ContentType=\"a/b\" x=\"\"/><Default ContentType=\"ContentType=\"/>"
    [b!"a/b", b!"ContentType="] :=
  .attr b!"<Override " b!"a/b" b!" x=\"\"/><Default ContentType=\"ContentType=\"/>" _
    (not_occurs_of (by decide)) (by decide)
    (.attr b!" x=\"\"/><Default " b!"ContentType=" b!"/>" _ (not_occurs_of (by decide)) (by decide)
      (.done _ (not_occurs_of (by decide))))

/-- C35 is false of the code for empty values: after an empty value the text up to the next quote is taken
for a value, and the attribute that follows is lost. -/
theorem C35_empty_value_swallows :
    ¬ ∀ (text : Bytes) (values : List Bytes), Declares text values →
      scan (fun acc v => .ok (acc ++ [v])) text [] = .ok values := by
  intro h
  have := h b!"ContentType=\"\" ContentType=\"a/b\"" [[], b!"a/b"]
    (.attr [] [] b!" ContentType=\"a/b\"" _ (not_occurs_of (by decide)) (by decide)
      (.attr b!" " b!"a/b" [] _ (not_occurs_of (by decide)) (by decide) (.done _ (not_occurs_of (by decide)))))
  revert this
  decide +kernel

/-! ## C64 What is reported for an archive -/

/-- C64: in a process that has not inspected an archive before, the items reported are, in order: one per
marker entry present, then of each extension told by a content type or the MIME type the first. An archive
that tells nothing is reported as plain archive with the list of its entries. Missing: content-type lists
with an empty value, for which it is false (`C64_empty_value_wrong`). -/
theorem C64_archive_report_partial (analyze : Bytes → Res Item) (a : Archive) (types mime : List Bytes) (vba : Item)
    (ht : DeclaredTypes a types) (hne : ∀ v ∈ types, v ≠ []) (hm : DeclaredMime a mime)
    (hv : vbaProjectType ∈ types → GetVBA analyze a = .ok vba) :
    ∃ items after, Detailer analyze [] a = .ok (items, after) ∧
      items.map kind = orZip (markerKinds a ++ firstOfEach (declaredKinds (kind vba) types mime)) ∧
      (markerKinds a ++ firstOfEach (declaredKinds (kind vba) types mime) = [] →
        items = [zipItem (a.map childInfo)]) := by
  obtain ⟨items, after, h1, h2, _, h4⟩ := detailer_kinds analyze [] a types mime vba (taken_of_declared ht hne) hm hv
  have hf : ∀ l : List Kind, (l.filter fun k => decide (k.1 ∉ ([] : List Bytes))) = l := by
    intro l; simp
  rw [hf] at h2 h4
  exact ⟨items, after, h1, h2, h4⟩

/-- C64, every archive: the report as it is made from the types the program takes. It fails if and only if the VBA project
is told and cannot be analysed. -/
theorem C64_taken_report (analyze : Bytes → Res Item) (a : Archive) :
    ∃ types mime, TakenTypes a types ∧ DeclaredMime a mime ∧
      (∀ items after, Detailer analyze [] a = .ok (items, after) → vbaProjectType ∈ types → ∃ vba, GetVBA analyze a = .ok vba) ∧
      ∀ vba, (vbaProjectType ∈ types → GetVBA analyze a = .ok vba) →
        ∃ items after, Detailer analyze [] a = .ok (items, after) ∧
          items.map kind = orZip (markerKinds a ++ firstOfEach (declaredKinds (kind vba) types mime)) ∧
          (markerKinds a ++ firstOfEach (declaredKinds (kind vba) types mime) = [] →
            items = [zipItem (a.map childInfo)]) := by
  obtain ⟨types, ht⟩ := taken_total a
  obtain ⟨mime, hm⟩ := mime_total a
  refine ⟨types, mime, ht, hm, fun items after h hmem => taken_vba ht h hmem, fun vba hv => ?_⟩
  obtain ⟨items, after, h1, h2, _, h4⟩ := detailer_kinds analyze [] a types mime vba ht hm hv
  have hf : ∀ l : List Kind, (l.filter fun k => decide (k.1 ∉ ([] : List Bytes))) = l := by
    intro l; simp
  rw [hf] at h2 h4
  exact ⟨items, after, h1, h2, h4⟩

/-- An archive as a word processor writes it. -/
def sampleDocx : Archive :=
  [{ FullName := b!"[Content_Types].xml", Data := some b!"<Override ContentType=\"application/vnd.openxmlformats-officedocument.wordprocessingml.document.main+xml\"/>" },
   { FullName := b!"word/document.xml" }]

theorem sampleDocx_types : DeclaredTypes sampleDocx
    [b!"application/vnd.openxmlformats-officedocument.wordprocessingml.document.main+xml"] :=
  .present _ _ ⟨[], _, _, rfl, by simp, rfl, rfl⟩
    (.attr b!"<Override "
      b!"application/vnd.openxmlformats-officedocument.wordprocessingml.document.main+xml" b!"/>" _
      (not_occurs_of (by decide)) (by decide) (.done _ (not_occurs_of (by decide))))

theorem sampleDocx_taken : TakenTypes sampleDocx
    [b!"application/vnd.openxmlformats-officedocument.wordprocessingml.document.main+xml"] :=
  taken_of_declared sampleDocx_types (by decide)

theorem sampleDocx_mime : DeclaredMime sampleDocx [] := .absent (by decide)

example : orZip (markerKinds sampleDocx ++ firstOfEach (declaredKinds ([], [])
      [b!"application/vnd.openxmlformats-officedocument.wordprocessingml.document.main+xml"] [])) =
    [(b!"docx", b!"Microsoft Office Open XML Document")] := by decide +kernel

/-- The same archive with an empty type before. -/
def sampleEmptyType : Archive :=
  [{ FullName := b!"[Content_Types].xml", Data := some b!"<Default ContentType=\"\"/><Override ContentType=\"application/vnd.openxmlformats-officedocument.wordprocessingml.document.main+xml\"/>" },
   { FullName := b!"word/document.xml" }]

/-- C64 is false of the code: behind an empty content type the next one is lost, and a Word document is reported as a
plain archive. -/
theorem C64_empty_value_wrong (analyze : Bytes → Res Item) :
    DeclaredTypes sampleEmptyType [[], b!"application/vnd.openxmlformats-officedocument.wordprocessingml.document.main+xml"] ∧
    b!"docx" ∈ (declaredKinds ([], []) [[], b!"application/vnd.openxmlformats-officedocument.wordprocessingml.document.main+xml"] []).map (·.1) ∧
    ∃ items after, Detailer analyze [] sampleEmptyType = .ok (items, after) ∧ items.map (·.info.Extension) = [b!"zip"] := by
  refine ⟨.present _ _ ⟨[], _, _, rfl, by simp, rfl, rfl⟩
    (.attr b!"<Default " [] b!"/><Override ContentType=\"application/vnd.openxmlformats-officedocument.wordprocessingml.document.main+xml\"/>" _
      (not_occurs_of (by decide)) (by decide)
      (.attr b!"/><Override " b!"application/vnd.openxmlformats-officedocument.wordprocessingml.document.main+xml" b!"/>" _
        (not_occurs_of (by decide)) (by decide) (.done _ (not_occurs_of (by decide))))), by decide +kernel, ?_⟩
  have ht : TakenTypes sampleEmptyType [b!"\"/><Override ContentType="] := .present _ _ ⟨[], _, _, rfl, by simp, rfl, rfl⟩
    (.attr b!"<Default " 34 b!"/><Override ContentType=" b!"application/vnd.openxmlformats-officedocument.wordprocessingml.document.main+xml\"/>" _
      (not_occurs_of (by decide)) (by decide) (.done _ (not_occurs_of (by decide))))
  obtain ⟨items, after, h1, h2, _⟩ := detailer_kinds analyze [] sampleEmptyType _ [] emptyItem ht (.absent (by decide))
    (fun h => absurd h (by decide))
  have hk : firstOfEach (declaredKinds (kind emptyItem) [b!"\"/><Override ContentType="] []) = [] := by decide +kernel
  have hm : markerKinds sampleEmptyType = [] := by decide +kernel
  refine ⟨items, after, h1, ?_⟩
  have e : items.map (·.info.Extension) = (items.map kind).map (·.1) := by rw [List.map_map]; rfl
  rw [hk, hm] at h2
  rw [e, h2]
  decide

/-- C64, VBA: without an entry whose name ends in `bin` the VBA item is the plain one. -/
theorem C64_vba_without_binary (analyze : Bytes → Res Item) (a : Archive)
    (h : ∀ e ∈ a, ¬ ∃ stem, e.FullName = stem ++ b!"bin") :
    GetVBA analyze a = .ok (Item.generic { Extension := b!"vba", Name := b!"Visual Basic For Applications" }) := by
  unfold GetVBA
  rw [List.filter_eq_nil_iff.2]
  · rfl
  · intro f hf
    obtain ⟨e, he, rfl⟩ := List.mem_map.1 hf
    unfold hasEnding
    split
    · simp only [decide_eq_true_eq]
      intro hd
      exact h e he ⟨e.FullName.take (e.FullName.length - 3), by
        conv => lhs; rw [← List.take_append_drop (e.FullName.length - 3) e.FullName]
        rw [show e.FullName.drop (e.FullName.length - 3) = b!"bin" from hd]⟩
    · simp

/-- C64, VBA: the last entry whose name ends in `bin` decides. -/
theorem C64_vba_last_binary (analyze : Bytes → Res Item) (pre post : Archive) (e : Entry) (data : Bytes)
    (hend : ∃ stem, e.FullName = stem ++ b!"bin") (hdata : e.Data = some data)
    (hpost : ∀ x ∈ post, ¬ ∃ stem, x.FullName = stem ++ b!"bin")
    (hpre : ∀ x ∈ pre, x.FullName ≠ e.FullName ∧ ∀ stem, x.FullName = stem ++ b!"bin" →
      ∃ d it, Holds (pre ++ e :: post) x.FullName d ∧ analyze d = .ok it) :
    GetVBA analyze (pre ++ e :: post) = analyze data := by
  have hasEnd : ∀ f : Bytes, hasEnding f b!"bin" = true ↔ ∃ stem, f = stem ++ b!"bin" := by
    intro f
    unfold hasEnding
    constructor
    · intro h
      split at h
      · simp only [decide_eq_true_eq] at h
        exact ⟨f.take (f.length - 3), by
          conv => lhs; rw [← List.take_append_drop (f.length - 3) f]
          rw [show f.drop (f.length - 3) = b!"bin" from h]⟩
      · simp at h
    · rintro ⟨stem, rfl⟩
      rw [if_pos (by simp)]
      simp
  have holdsE : (GetEntry (pre ++ e :: post) e.FullName).bind (·.Data) = some data := by
    unfold GetEntry
    rw [List.find?_append, List.find?_eq_none.2 (by intro x hx; simp [(hpre x hx).1])]
    simp [hdata]
  unfold GetVBA
  rw [List.map_append, List.map_cons, List.filter_append, List.filter_cons_of_pos (p := fun f => hasEnding f b!"bin") ((hasEnd _).2 hend),
    show (post.map (·.FullName)).filter (fun f => hasEnding f b!"bin") = [] from List.filter_eq_nil_iff.2 (by
      intro f hf hf'
      obtain ⟨x, hx, rfl⟩ := List.mem_map.1 hf
      exact hpost x hx ((hasEnd _).1 hf'))]
  have key : ∀ (fs : List Bytes) (ei : Item), (∀ f ∈ fs, ∃ d it, (GetEntry (pre ++ e :: post) f).bind (·.Data) = some d ∧
      analyze d = .ok it) → vbaLoop analyze (pre ++ e :: post) (fs ++ [e.FullName]) ei = analyze data := by
    intro fs
    induction fs with
    | nil =>
      intro ei _
      rw [List.nil_append, vbaLoop, holdsE]
      show (analyze data >>= fun ei => vbaLoop analyze _ [] ei) = _
      cases analyze data <;> rfl
    | cons f fs ih =>
      intro ei hfs
      obtain ⟨d, it, h1, h2⟩ := hfs f (by simp)
      rw [List.cons_append, vbaLoop, h1]
      show (analyze d >>= fun ei => vbaLoop analyze _ _ ei) = _
      rw [h2, Res.bind_ok]
      exact ih it (fun f hf => hfs f (by simp [hf]))
  apply key
  intro f hf
  rw [List.mem_filter] at hf
  obtain ⟨x, hx, rfl⟩ := List.mem_map.1 hf.1
  obtain ⟨stem, hs⟩ := (hasEnd _).1 hf.2
  obtain ⟨d, it, hh, hit⟩ := (hpre x hx).2 stem hs
  obtain ⟨pre', e', post', h1, h2, h3, h4⟩ := hh
  refine ⟨d, it, ?_, hit⟩
  rw [h1]
  unfold GetEntry
  rw [List.find?_append, List.find?_eq_none.2 (by intro y hy; simp [h2 y hy])]
  simp [h3, h4]

/-! ## C36 Distinct extensions -/

theorem firstOfEach_nodup (ks : List Kind) : ((firstOfEach ks).map (·.1)).Nodup := by
  induction ks with
  | nil => simp [firstOfEach]
  | cons k ks ih =>
    rw [firstOfEach, List.map_cons, List.nodup_cons]
    constructor
    · intro h
      obtain ⟨k', hk', heq⟩ := List.mem_map.1 h
      rw [List.mem_filter] at hk'
      simp [heq] at hk'
    · exact List.Nodup.sublist (List.Sublist.map _ List.filter_sublist) ih

theorem firstOfEach_mem {ks : List Kind} {k : Kind} (h : k ∈ firstOfEach ks) : k ∈ ks := by
  induction ks with
  | nil => simp [firstOfEach] at h
  | cons k' ks ih =>
    rw [firstOfEach, List.mem_cons] at h
    rcases h with rfl | h
    · simp
    · exact List.mem_cons_of_mem _ (ih (List.mem_filter.1 h).1)

theorem firstOfEach_complete {ks : List Kind} {k : Kind} (h : k ∈ ks) :
    k.1 ∈ (firstOfEach ks).map (·.1) := by
  induction ks with
  | nil => simp at h
  | cons k' ks ih =>
    rw [firstOfEach, List.map_cons, List.mem_cons]
    by_cases he : k.1 = k'.1
    · exact .inl he
    · right
      rcases List.mem_cons.1 h with rfl | h
      · exact absurd rfl he
      · obtain ⟨k2, h2, h3⟩ := List.mem_map.1 (ih h)
        exact List.mem_map.2 ⟨k2, List.mem_filter.2 ⟨h2, by simp [h3, he]⟩, h3⟩

/-- The extensions of markers and of declared types do not meet. -/
theorem tables_apart : ∀ m ∈ packageMarkers, (∀ t ∈ zipContentTypes, t.2.1 ≠ m.2.1) ∧
    (∀ t ∈ zipMimeTypes, t.2.1 ≠ m.2.1) ∧ m.2.1 ≠ b!"vba" := by decide +kernel

/-- The markers of a choice of entries have distinct extensions unless both entries of a pair are chosen. -/
theorem markers_apart (p : Bytes → Bool) (h1 : ¬ (p b!"install.js" = true ∧ p b!"install.rdf" = true))
    (h2 : ¬ (p b!"AppManifest.xaml" = true ∧ p b!"WMAppManifest.xml" = true)) :
    (((packageMarkers.filter fun m => p m.1).map (·.2)).map (·.1)).Nodup := by
  generalize e0 : p b!"META-INF/MANIFEST.MF" = b0
  generalize e1 : p b!"WEB-INF/web.xml" = b1
  generalize e2 : p b!"META-INF/application.xml" = b2
  generalize e3 : p b!"AndroidManifest.xml" = b3
  generalize e4 : p b!"install.js" = b4 at h1
  generalize e5 : p b!"install.rdf" = b5 at h1
  generalize e6 : p b!"AppManifest.xaml" = b6 at h2
  generalize e7 : p b!"WMAppManifest.xml" = b7 at h2
  generalize e8 : p b!"Payload/Application.app" = b8
  generalize e9 : p b!"imsmanifest.xml" = b9
  simp only [packageMarkers, List.filter_cons, List.filter_nil, e0, e1, e2, e3, e4, e5, e6, e7, e8, e9]
  revert h1 h2
  clear e0 e1 e2 e3 e4 e5 e6 e7 e8 e9
  revert b0 b1 b2 b3 b4 b5 b6 b7 b8 b9
  decide +kernel

/-- C36, apart from two pairs of marker entries: in the result for one archive, whatever it holds, no two items share an
extension. Missing: archives with both `install.js` and `install.rdf`, or both `AppManifest.xaml` and
`WMAppManifest.xml`, for which it is false (`C36_marker_pair_repeats`). -/
theorem C36_distinct_partial (analyze : Bytes → Res Item) (a : Archive) (items : List Item) (after : List Bytes)
    (h : Detailer analyze [] a = .ok (items, after)) (hvba : ∀ vba, GetVBA analyze a = .ok vba → vba.info.Extension = b!"vba")
    (hi : ¬ ((∃ e ∈ a, e.FullName = b!"install.js") ∧ ∃ e ∈ a, e.FullName = b!"install.rdf"))
    (hx : ¬ ((∃ e ∈ a, e.FullName = b!"AppManifest.xaml") ∧ ∃ e ∈ a, e.FullName = b!"WMAppManifest.xml")) :
    (items.map (·.info.Extension)).Nodup := by
  obtain ⟨types, mime, ht, hm, hok, hrep⟩ := C64_taken_report analyze a
  obtain ⟨vba, hv, hvba⟩ : ∃ vba, (vbaProjectType ∈ types → GetVBA analyze a = .ok vba) ∧ vba.info.Extension = b!"vba" := by
    by_cases hmem : vbaProjectType ∈ types
    · obtain ⟨vba, hg⟩ := hok items after h hmem
      exact ⟨vba, fun _ => hg, hvba vba hg⟩
    · exact ⟨Item.generic { Extension := b!"vba" }, fun h => absurd h hmem, rfl⟩
  obtain ⟨items', after', h1, h2, _⟩ := hrep vba hv
  rw [h] at h1
  obtain ⟨rfl, rfl⟩ : items = items' ∧ after = after' := by injection h1 with h1; exact Prod.mk.inj h1
  have e : items.map (·.info.Extension) = (items.map kind).map (·.1) := by
    rw [List.map_map]; rfl
  rw [e, h2]
  unfold orZip
  split
  · decide
  · rw [List.map_append, List.nodup_append]
    refine ⟨?_, firstOfEach_nodup _, ?_⟩
    · unfold markerKinds
      apply markers_apart (fun n => decide (∃ e ∈ a, e.FullName = n))
      · simpa using hi
      · simpa using hx
    · intro x hxm y hy hxy
      subst hxy
      obtain ⟨k, hk, rfl⟩ := List.mem_map.1 hxm
      obtain ⟨k', hk', hkk⟩ := List.mem_map.1 hy
      unfold markerKinds at hk
      obtain ⟨m, hm', rfl⟩ := List.mem_map.1 hk
      obtain ⟨t1, t2, t3⟩ := tables_apart m (List.mem_filter.1 hm').1
      have hk2 := firstOfEach_mem hk'
      unfold declaredKinds at hk2
      rw [List.mem_append, List.mem_flatMap, List.mem_flatMap] at hk2
      rcases hk2 with ⟨v, _, hv2⟩ | ⟨v, _, hv2⟩
      · rw [List.mem_append] at hv2
        rcases hv2 with hv2 | hv2
        · unfold kindsOf at hv2
          obtain ⟨t, ht2, rfl⟩ := List.mem_map.1 hv2
          exact t1 t (List.mem_filter.1 ht2).1 hkk
        · split at hv2
          · rw [List.mem_singleton] at hv2
            subst hv2
            exact t3 (hkk.symm.trans hvba)
          · simp at hv2
      · unfold kindsOf at hv2
        obtain ⟨t, ht2, rfl⟩ := List.mem_map.1 hv2
        exact t2 t (List.mem_filter.1 ht2).1 hkk

/-- The sample archive meets the conditions: it is inspected, its VBA item would be the plain one, and it has no pair of markers. -/
example (analyze : Bytes → Res Item) : (∃ items after, Detailer analyze [] sampleDocx = .ok (items, after)) ∧
    (∀ vba, GetVBA analyze sampleDocx = .ok vba → vba.info.Extension = b!"vba") ∧
    ¬ ((∃ e ∈ sampleDocx, e.FullName = b!"install.js") ∧ ∃ e ∈ sampleDocx, e.FullName = b!"install.rdf") ∧
    ¬ ((∃ e ∈ sampleDocx, e.FullName = b!"AppManifest.xaml") ∧ ∃ e ∈ sampleDocx, e.FullName = b!"WMAppManifest.xml") :=
  ⟨by
    obtain ⟨items, after, h, _⟩ := C64_archive_report_partial analyze sampleDocx _ _ emptyItem sampleDocx_types (by decide) sampleDocx_mime
      (fun h => absurd h (by decide))
    exact ⟨items, after, h⟩,
   fun vba h => by
    rw [C64_vba_without_binary analyze sampleDocx (by
      intro e he
      simp only [sampleDocx, List.mem_cons, List.not_mem_nil, or_false] at he
      rcases he with rfl | rfl <;>
      · rintro ⟨stem, hs⟩
        have := congrArg (List.take 3 ∘ List.reverse) hs
        simp at this)] at h
    injection h with h
    rw [← h]
    rfl, by decide, by decide⟩

/-- C36 is false of the code: an archive with `install.js` and `install.rdf` is reported as `xpi` twice. -/
theorem C36_marker_pair_repeats (analyze : Bytes → Res Item) :
    ∃ items after, Detailer analyze [] [{ FullName := b!"install.js" }, { FullName := b!"install.rdf" }] =
      .ok (items, after) ∧ items.map (·.info.Extension) = [b!"xpi", b!"xpi"] :=
  ⟨_, _, rfl, rfl⟩

/-! ## C37 History -/

/-- C37, what the history can do: after any earlier inspections, the items reported are those a fresh process
reports without the declared extensions in the history; an archive all of whose kinds are in the history is
reported as plain archive. -/
theorem C37_history_effect_partial (analyze : Bytes → Res Item) (history : List Bytes) (a : Archive)
    (types mime : List Bytes) (vba : Item) (ht : TakenTypes a types)
    (hm : DeclaredMime a mime) (hv : vbaProjectType ∈ types → GetVBA analyze a = .ok vba) :
    ∃ items after, Detailer analyze history a = .ok (items, after) ∧
      items.map kind = orZip (markerKinds a ++
        (firstOfEach (declaredKinds (kind vba) types mime)).filter fun k => decide (k.1 ∉ history)) ∧
      ∀ x, x ∈ after ↔ x ∈ history ∨ x ∈ (declaredKinds (kind vba) types mime).map (·.1) := by
  obtain ⟨items, after, h1, h2, h3, _⟩ := detailer_kinds analyze history a types mime vba ht hm hv
  exact ⟨items, after, h1, h2, h3⟩

/-- C37 where it holds: when none of the archive's declared extensions was reported before, the report is that
of a fresh process. Missing: archives of a kind seen before, for which it is false
(`C37_second_archive_lost`). -/
theorem C37_independent_partial (analyze : Bytes → Res Item) (history : List Bytes) (a : Archive)
    (types mime : List Bytes) (vba : Item) (ht : TakenTypes a types)
    (hm : DeclaredMime a mime) (hv : vbaProjectType ∈ types → GetVBA analyze a = .ok vba)
    (hh : ∀ k ∈ declaredKinds (kind vba) types mime, k.1 ∉ history) :
    ∃ items items' after after', Detailer analyze [] a = .ok (items, after) ∧
      Detailer analyze history a = .ok (items', after') ∧ items'.map kind = items.map kind := by
  obtain ⟨items, after, h1, h2, _, _⟩ := detailer_kinds analyze [] a types mime vba ht hm hv
  obtain ⟨items', after', h1', h2', _, _⟩ := detailer_kinds analyze history a types mime vba ht hm hv
  refine ⟨items, items', after, after', h1, h1', ?_⟩
  rw [h2, h2']
  congr 2
  apply List.filter_congr
  intro k hk
  simp [hh k (firstOfEach_mem hk)]

example : ∀ k ∈ declaredKinds ([], []) [b!"application/vnd.openxmlformats-officedocument.wordprocessingml.document.main+xml"] [],
    k.1 ∉ [b!"xlsx", b!"odt"] := by decide +kernel

/-- C37 is false of the code: inspecting the same Word document twice reports `docx` the first time and a
plain `zip` the second time, because the table of reported extensions is global and never cleared. -/
theorem C37_second_archive_lost (analyze : Bytes → Res Item) :
    ∃ items after items' after', Detailer analyze [] sampleDocx = .ok (items, after) ∧
      Detailer analyze after sampleDocx = .ok (items', after') ∧
      items.map (·.info.Extension) = [b!"docx"] ∧ items'.map (·.info.Extension) = [b!"zip"] := by
  have hv : vbaProjectType ∈ [b!"application/vnd.openxmlformats-officedocument.wordprocessingml.document.main+xml"] →
      GetVBA analyze sampleDocx = .ok emptyItem := fun h => absurd h (by decide)
  obtain ⟨items, after, h1, h2, h3, _⟩ := detailer_kinds analyze [] sampleDocx _ _ emptyItem sampleDocx_taken
    sampleDocx_mime hv
  obtain ⟨items', after', h1', h2', _, _⟩ := detailer_kinds analyze after sampleDocx _ _ emptyItem sampleDocx_taken
    sampleDocx_mime hv
  have hmem : b!"docx" ∈ after := (h3 _).2 (.inr (by decide +kernel))
  have hk : firstOfEach (declaredKinds (kind emptyItem)
      [b!"application/vnd.openxmlformats-officedocument.wordprocessingml.document.main+xml"] []) =
      [(b!"docx", b!"Microsoft Office Open XML Document")] := by decide +kernel
  have hm : markerKinds sampleDocx = [] := by decide +kernel
  rw [hk, hm] at h2 h2'
  refine ⟨items, after, items', after', h1, h1', ?_, ?_⟩
  · have e : items.map (·.info.Extension) = (items.map kind).map (·.1) := by rw [List.map_map]; rfl
    rw [e, h2]; decide
  · have e : items'.map (·.info.Extension) = (items'.map kind).map (·.1) := by rw [List.map_map]; rfl
    rw [e, h2', List.filter_cons_of_neg (by simpa using hmem)]; rfl

/-! ## C65 The tables of types -/

/-- The extension the program gives a type. -/
def extensionOf (t : List (Bytes × Kind)) (v : Bytes) : Bytes := nameOf (t.map fun e => (e.1, e.2.1)) [] v

theorem realises_nameOf {α : Type} [DecidableEq α] (t names : List (α × Bytes)) (d : Bytes)
    (h1 : ∀ e ∈ names, nameOf t d e.1 = e.2) (h2 : ∀ e ∈ t, ∃ e' ∈ names, e'.1 = e.1) :
    Realises names d (nameOf t d) := by
  refine ⟨h1, fun k hk => ?_⟩
  have : ∀ e ∈ t, e.1 ≠ k := by
    intro e he heq
    obtain ⟨e', he', h'⟩ := h2 e he
    exact hk e' he' (h'.trans heq)
  clear h1 h2 hk
  induction t with
  | nil => rfl
  | cons e t ih =>
    rw [nameOf, if_neg (this e (by simp))]
    exact ih fun e' he' => this e' (by simp [he'])

/-- C65, Office: every content type of an Office main part gets its usual extension, and only these and the
part types listed get one. -/
theorem C65_office_types : Realises (officeTypes ++ officePartTypes) [] (extensionOf zipContentTypes) :=
  realises_nameOf _ _ _ (by decide +kernel) (by decide +kernel)

/-- C65, OpenDocument, apart from presentations: every MIME type gets its extension, and only these get one. -/
theorem C65_odf_types_partial :
    Realises ((b!"application/vnd.oasis.opendocument.presentation", b!"opd") ::
      odfTypes.filter fun e => decide (e.1 ≠ b!"application/vnd.oasis.opendocument.presentation")) []
      (extensionOf zipMimeTypes) :=
  realises_nameOf _ _ _ (by decide +kernel) (by decide +kernel)

/-- C65 is false of the code: presentations get `opd` instead of `odp`. -/
theorem C65_odf_presentation_wrong : ¬ Realises odfTypes [] (extensionOf zipMimeTypes) := by
  intro h
  have := h.1 (b!"application/vnd.oasis.opendocument.presentation", b!"odp") (by decide +kernel)
  revert this
  decide +kernel

/-- C65 for the whole run: a fresh process reports an archive whose only telling entry is a MIME type with
the extension the program's table gives it. -/
theorem C65_odf_reported (analyze : Bytes → Res Item) (a : Archive) (mimeType ext name : Bytes)
    (he : (mimeType, ext, name) ∈ zipMimeTypes) (hm : Holds a b!"mimetype" mimeType)
    (hct : ∀ e ∈ a, e.FullName ≠ b!"[Content_Types].xml") (hmk : ∀ e ∈ a, ∀ m ∈ packageMarkers, e.FullName ≠ m.1) :
    ∃ items after, Detailer analyze [] a = .ok (items, after) ∧ items.map kind = [(ext, name)] := by
  obtain ⟨items, after, h1, h2, _⟩ := C64_archive_report_partial analyze a [] [mimeType] emptyItem
    (.absent hct) (by simp) (.present _ hm) (by simp)
  refine ⟨items, after, h1, ?_⟩
  have hk : markerKinds a = [] := by
    unfold markerKinds
    rw [List.filter_eq_nil_iff.2]
    · rfl
    · intro m hm'
      simp only [decide_eq_true_eq]
      rintro ⟨e, hea, hen⟩
      exact hmk e hea m hm' hen
  have hall : ∀ t ∈ zipMimeTypes, kindsOf zipMimeTypes t.1 = [t.2] := by decide +kernel
  rw [h2, hk]
  have hd : declaredKinds (kind emptyItem) [] [mimeType] = [(ext, name)] := by
    unfold declaredKinds
    simpa using hall _ he
  rw [hd]
  rfl

example : Holds [{ FullName := b!"mimetype", Data := some b!"application/vnd.oasis.opendocument.text" }]
    b!"mimetype" b!"application/vnd.oasis.opendocument.text" := ⟨[], _, [], rfl, by simp, rfl, rfl⟩

/-! ## C66 Documents for plain archives -/

/-- What the JSON object of one entry says. -/
def childJson (c : ZipFileInfo) : List JEvent :=
  [.startObj, .key (chars b!"Name"), .str (chars c.Name), .key (chars b!"Size"), .str (chars (dec c.Size)),
    .key (chars b!"CompressedSize"), .str (chars (decInt c.CompressedSize)),
    .key (chars b!"CompressionMethod"), .str (chars c.CompressionMethod),
    .key (chars b!"IsPassworded"), .str (chars (showBool c.IsPassworded)),
    .key (chars b!"Comment"), .str (chars c.Comment), .key (chars b!"CRC32"), .str (chars (dec c.CRC32)), .endObj]

/-- What the JSON object of a plain archive says. -/
def archiveJson (cs : List ZipFileInfo) : List JEvent :=
  [.startObj, .key (chars b!"extension"), .str (chars b!"zip"), .key (chars b!"name"), .str (chars b!"Zip File")] ++
  (if cs.length > 0 then [.key (chars b!"children"), .startArr] ++ cs.flatMap childJson ++ [.endArr] else []) ++
  [.endObj]

theorem plain_dec (n : Nat) : plain (dec n) = true := by
  unfold plain jsonPlain xmlPlain
  rw [Bool.and_eq_true, List.all_eq_true, List.all_eq_true]
  constructor <;>
  · intro c hc
    obtain ⟨h1, h2⟩ := dec_chars n c hc
    have h1' : 48 ≤ c.toNat := h1
    have h2' : c.toNat ≤ 57 := h2
    simp only [Bool.and_eq_true, decide_eq_true_eq, bne_iff_ne, UInt8.le_iff_toNat_le, UInt8.lt_iff_toNat_lt]
    refine ⟨⟨⟨?_, ?_⟩, ?_⟩, ?_⟩
    · simp; omega
    · simp; omega
    · intro h; subst h; simp at h1' h2'
    · intro h; subst h; simp at h1' h2'

theorem plain_decInt (i : Int) : plain (decInt i) = true := by
  unfold decInt
  split
  · exact plain_append (a := [45]) (by decide) (plain_dec _)
  · exact plain_dec _

theorem plain_showBool (b : Bool) : plain (showBool b) = true := by cases b <;> decide

/-- The texts of an entry that are written without escaping. -/
def childPlain (c : ZipFileInfo) : Prop :=
  plain c.Name = true ∧ plain c.Comment = true ∧ plain c.CompressionMethod = true

theorem childJson_run (stack : List Bool) (c : ZipFileInfo) (h : childPlain c) :
    ∀ m, m = JMode.value ∨ m = JMode.valueOrEnd →
      run jsonStep (m, false :: stack) c.toJson = some ((.after, false :: stack), childJson c) := by
  obtain ⟨hN, hC, hM⟩ := h
  intro m hm
  have first : run jsonStep (m, false :: stack) (b!"{" ++ b!"\"Name\":\"") =
      some ((.inStr false [] false, true :: false :: stack), [.startObj, .key (chars b!"Name")]) := by
    rcases hm with rfl | rfl <;> rfl
  have name := run_jsonStr false (true :: false :: stack) c.Name _ (plain_json hN)
  have m1 := run_member (false :: stack) b!", \"Size\":\"" _ (chars b!"Size") _ rfl (jsonBody_dec c.Size)
  have m2 := run_member (false :: stack) b!", \"CompressedSize\":\"" _ (chars b!"CompressedSize") _ rfl
    (plain_json (plain_decInt c.CompressedSize))
  have m3 := run_member (false :: stack) b!", \"CompressionMethod\":\"" _ (chars b!"CompressionMethod") _ rfl
    (plain_json hM)
  have m4 := run_member (false :: stack) b!", \"IsPassworded\":\"" _ (chars b!"IsPassworded") _ rfl
    (plain_json (plain_showBool c.IsPassworded))
  have m5 := run_member (false :: stack) b!", \"Comment\":\"" _ (chars b!"Comment") _ rfl (plain_json hC)
  have m6 := run_member (false :: stack) b!", \"CRC32\":\"" _ (chars b!"CRC32") _ rfl (jsonBody_dec c.CRC32)
  have fin : run jsonStep (.after, true :: false :: stack) b!"}" =
      some ((.after, false :: stack), [.endObj]) := rfl
  have := run_append (run_append (run_append (run_append (run_append (run_append (run_append (run_append first name)
    m1) m2) m3) m4) m5) m6) fin
  have e1 : c.toJson = b!"{" ++ b!"\"Name\":\"" ++ (c.Name ++ [34]) ++
      (b!", \"Size\":\"" ++ dec c.Size ++ b!"\"") ++
      (b!", \"CompressedSize\":\"" ++ decInt c.CompressedSize ++ b!"\"") ++
      (b!", \"CompressionMethod\":\"" ++ c.CompressionMethod ++ b!"\"") ++
      (b!", \"IsPassworded\":\"" ++ showBool c.IsPassworded ++ b!"\"") ++
      (b!", \"Comment\":\"" ++ c.Comment ++ b!"\"") ++
      (b!", \"CRC32\":\"" ++ dec c.CRC32 ++ b!"\"") ++ b!"}" := by
    unfold ZipFileInfo.toJson
    simp only [List.append_assoc]
  rw [e1, this]
  rfl

theorem childrenJson_run (stack : List Bool) (cs : List ZipFileInfo) (h : ∀ c ∈ cs, childPlain c) :
    run jsonStep (.after, false :: stack) (childrenJson false cs) =
      some ((.after, false :: stack), cs.flatMap childJson) := by
  induction cs with
  | nil => rfl
  | cons c cs ih =>
    have h1 : run jsonStep (.after, false :: stack) b!"," = some ((.value, false :: stack), []) := rfl
    have h2 := childJson_run stack c (h c (by simp)) .value (.inl rfl)
    have := run_append (run_append h1 h2) (ih fun c hc => h c (by simp [hc]))
    simpa [childrenJson] using this

theorem zipJson_denotes (cs : List ZipFileInfo) (h : ∀ c ∈ cs, childPlain c) :
    DenotesJson (zipItem cs) (archiveJson cs) := by
  intro stack
  have go : ∀ m, m = JMode.value ∨ m = JMode.valueOrEnd →
      run jsonStep (m, false :: stack) (zipItem cs).json = some ((.after, false :: stack), archiveJson cs) := by
    intro m hm
    have first : run jsonStep (m, false :: stack) (b!"{ \"extension\" : \"" ++ b!"zip" ++ b!"\"" ++
        (b!", \"name\":\"" ++ b!"Zip File" ++ b!"\"")) = some ((.after, true :: false :: stack),
          [.startObj, .key (chars b!"extension"), .str (chars b!"zip"), .key (chars b!"name"),
            .str (chars b!"Zip File")]) := by
      rcases hm with rfl | rfl <;> rfl
    have kids := run_ite (false :: stack) (cs.length > 0)
      (b!", \"children\":[" ++ childrenJson true cs ++ b!"]")
      ([.key (chars b!"children"), .startArr] ++ cs.flatMap childJson ++ [.endArr]) (by
        intro hl
        cases cs with
        | nil => simp at hl
        | cons c cs =>
          have g0 : run jsonStep (.after, true :: false :: stack) b!", \"children\":[" =
              some ((.valueOrEnd, false :: true :: false :: stack), [.key (chars b!"children"), .startArr]) := rfl
          have g1 := childJson_run (true :: false :: stack) c (h c (by simp)) .valueOrEnd (.inr rfl)
          have g2 := childrenJson_run (true :: false :: stack) cs fun c hc => h c (by simp [hc])
          have g3 : run jsonStep (.after, false :: true :: false :: stack) b!"]" =
              some ((.after, true :: false :: stack), [.endArr]) := rfl
          have := run_append (run_append (run_append g0 g1) g2) g3
          simpa [childrenJson] using this)
    have fin : run jsonStep (.after, true :: false :: stack) b!"}" =
        some ((.after, false :: stack), [.endObj]) := rfl
    have := run_append (run_append first kids) fin
    have e1 : (zipItem cs).json = b!"{ \"extension\" : \"" ++ b!"zip" ++ b!"\"" ++
        (b!", \"name\":\"" ++ b!"Zip File" ++ b!"\"") ++
        (if cs.length > 0 then b!", \"children\":[" ++ childrenJson true cs ++ b!"]" else []) ++ b!"}" := by
      simp [zipItem, zipJson]
    rw [e1]
    exact this
  exact ⟨go _ (.inl rfl), go _ (.inr rfl)⟩

/-- C66, JSON, for plain archives whose entry names and comments are printable ASCII without quotes, backslashes and
markup: the document is well formed and lists every entry with its data. Missing: other entry names, see
`C66_json_entry_name_breaks`. -/
theorem C66_json_archive_item_partial (file : Bytes) (hfile : 0 ∉ file) (a : Archive)
    (h : ∀ e ∈ a, plain e.FullName = true ∧ plain e.Comment = true) :
    jsonDocument (Output .json file b!"extensions" [zipItem (a.map childInfo)]) =
      some ([.startObj, .key (chars b!"name"), .str (chars file), .key (chars b!"extensions"), .startArr] ++
        archiveJson (a.map childInfo) ++ [.endArr, .endObj]) := by
  have := C25_json_document_items file hfile [(zipItem (a.map childInfo), archiveJson (a.map childInfo))] (by
    intro p hp
    rw [List.mem_singleton] at hp
    subst hp
    apply zipJson_denotes
    intro c hc
    obtain ⟨e, he, rfl⟩ := List.mem_map.1 hc
    refine ⟨(h e he).1, (h e he).2, ?_⟩
    show plain (if e.IsDeflate then _ else _) = true
    split <;> decide)
  simpa using this

example : plain b!"dir/file name.txt" = true := by decide

/-- C66 is false of the code: an entry name with a quote breaks the document. -/
theorem C66_json_entry_name_breaks :
    jsonDocument (Output .json b!"f" b!"extensions" [zipItem ([{ FullName := b!"a\"b" }].map childInfo)]) = none := by
  decide +kernel

/-- What the XML element of one entry says. -/
def childXml (c : ZipFileInfo) : List XEvent :=
  elem b!"file" (elem b!"Name" (lit c.Name) ++ elem b!"Size" (lit (dec c.Size)) ++
    elem b!"CompressedSize" (lit (decInt c.CompressedSize)) ++
    elem b!"CompressionMethod" (lit c.CompressionMethod) ++
    elem b!"IsPassworded" (lit (showBool c.IsPassworded)) ++ elem b!"Comment" (lit c.Comment) ++
    elem b!"CRC32" (lit (dec c.CRC32)))

/-- What the XML element of a plain archive says. -/
def archiveXml (cs : List ZipFileInfo) : List XEvent :=
  elem b!"item" (elem b!"extension" (lit b!"zip") ++ elem b!"name" (lit b!"Zip File") ++
    if cs.length > 0 then elem b!"children" (cs.flatMap childXml) else [])

theorem childXml_run (n : Bytes) (stack : List Bytes) (c : ZipFileInfo) (h : childPlain c) :
    run xmlStep (.text, n :: stack) c.toXml = some ((.text, n :: stack), childXml c) := by
  obtain ⟨hN, hC, hM⟩ := h
  have E := fun (name o c body : Bytes) (ho) (hb : xmlPlain body = true) (hc) =>
    run_elem b!"file" (n :: stack) name o c body (lit body) ho (run_xmlPlain _ _ body hb) hc
  have m0 := E b!"Name" b!"<Name>" b!"</Name>" _ rfl (plain_xml hN) rfl
  have m1 := E b!"Size" b!"<Size>" b!"</Size>" _ rfl (xmlPlain_dec c.Size) rfl
  have m2 := E b!"CompressedSize" b!"<CompressedSize>" b!"</CompressedSize>" _ rfl
    (plain_xml (plain_decInt c.CompressedSize)) rfl
  have m3 := E b!"CompressionMethod" b!"<CompressionMethod>" b!"</CompressionMethod>" _ rfl (plain_xml hM) rfl
  have m4 := E b!"IsPassworded" b!"<IsPassworded>" b!"</IsPassworded>" _ rfl
    (plain_xml (plain_showBool c.IsPassworded)) rfl
  have m5 := E b!"Comment" b!"<Comment>" b!"</Comment>" _ rfl (plain_xml hC) rfl
  have m6 := E b!"CRC32" b!"<CRC32>" b!"</CRC32>" _ rfl (xmlPlain_dec c.CRC32) rfl
  have inner := run_append (run_append (run_append (run_append (run_append (run_append m0 m1) m2) m3) m4) m5) m6
  have := run_elem n stack b!"file" b!"<file>" b!"</file>" _ _ rfl inner rfl
  have e1 : c.toXml = b!"<file>" ++ (b!"<Name>" ++ c.Name ++ b!"</Name>" ++
      (b!"<Size>" ++ dec c.Size ++ b!"</Size>") ++
      (b!"<CompressedSize>" ++ decInt c.CompressedSize ++ b!"</CompressedSize>") ++
      (b!"<CompressionMethod>" ++ c.CompressionMethod ++ b!"</CompressionMethod>") ++
      (b!"<IsPassworded>" ++ showBool c.IsPassworded ++ b!"</IsPassworded>") ++
      (b!"<Comment>" ++ c.Comment ++ b!"</Comment>") ++
      (b!"<CRC32>" ++ dec c.CRC32 ++ b!"</CRC32>")) ++ b!"</file>" := by
    simp only [ZipFileInfo.toXml, List.append_assoc]
  rw [e1]
  exact this

theorem childrenXml_run (n : Bytes) (stack : List Bytes) (cs : List ZipFileInfo) (h : ∀ c ∈ cs, childPlain c) :
    run xmlStep (.text, n :: stack) (cs.map ZipFileInfo.toXml).flatten =
      some ((.text, n :: stack), cs.flatMap childXml) := by
  induction cs with
  | nil => rfl
  | cons c cs ih =>
    have := run_append (childXml_run n stack c (h c (by simp))) (ih fun c hc => h c (by simp [hc]))
    simpa using this

theorem zipXml_denotes (cs : List ZipFileInfo) (h : ∀ c ∈ cs, childPlain c) :
    DenotesXml (zipItem cs) (archiveXml cs) := by
  intro n stack
  have m0 : run xmlStep (.text, b!"item" :: n :: stack) (b!"<extension>" ++ b!"zip" ++ b!"</extension>") =
      some ((.text, b!"item" :: n :: stack), elem b!"extension" (lit b!"zip")) := rfl
  have m1 : run xmlStep (.text, b!"item" :: n :: stack) (b!"<name>" ++ b!"Zip File" ++ b!"</name>") =
      some ((.text, b!"item" :: n :: stack), elem b!"name" (lit b!"Zip File")) := rfl
  have m2 := run_iteX (.text, b!"item" :: n :: stack) (cs.length > 0) _ _ fun _ =>
    run_elem b!"item" (n :: stack) b!"children" b!"<children>" b!"</children>" _ _ rfl
      (childrenXml_run b!"children" (b!"item" :: n :: stack) cs h) rfl
  have := run_elem n stack b!"item" b!"<item>" b!"</item>" _ _ rfl (run_append (run_append m0 m1) m2) rfl
  have e1 : (zipItem cs).xml = b!"<item>" ++ (b!"<extension>" ++ b!"zip" ++ b!"</extension>" ++
      (b!"<name>" ++ b!"Zip File" ++ b!"</name>") ++
      (if cs.length > 0 then
        b!"<children>" ++ (cs.map ZipFileInfo.toXml).flatten ++ b!"</children>" else [])) ++ b!"</item>" := by
    simp [zipItem, zipXml]
  rw [e1]
  exact this

/-- C66, XML, under the same conditions. -/
theorem C66_xml_archive_item_partial (file : Bytes) (hfile : xmlLegal file = true) (a : Archive)
    (h : ∀ e ∈ a, plain e.FullName = true ∧ plain e.Comment = true) :
    xmlDocument (Output .xml file b!"extensions" [zipItem (a.map childInfo)]) =
      some (elem b!"file" (elem b!"name" (seen file) ++ elem b!"extensions" (archiveXml (a.map childInfo)))) := by
  have := C26_xml_document_items_partial file hfile [(zipItem (a.map childInfo), archiveXml (a.map childInfo))] (by
    intro p hp
    rw [List.mem_singleton] at hp
    subst hp
    apply zipXml_denotes
    intro c hc
    obtain ⟨e, he, rfl⟩ := List.mem_map.1 hc
    refine ⟨(h e he).1, (h e he).2, ?_⟩
    show plain (if e.IsDeflate then _ else _) = true
    split <;> decide)
  simpa using this

/-- C66 is false of the code: an entry name with `<` breaks the document. -/
theorem C66_xml_entry_name_breaks :
    xmlDocument (Output .xml b!"f" b!"extensions" [zipItem ([{ FullName := b!"a<b" }].map childInfo)]) = none := by
  decide +kernel

/-- The method shown for an entry. -/
def methodName (deflate : Bool) : Bytes := if deflate then b!"DEFLATE" else b!"stored"

/-- The document for a plain archive in terms of the entries of the archive. -/
def entryJson (e : Entry) : List JEvent :=
  [.startObj, .key (chars b!"Name"), .str (chars e.FullName), .key (chars b!"Size"), .str (chars (dec e.Size)),
    .key (chars b!"CompressedSize"), .str (chars (dec e.CompressedSize)),
    .key (chars b!"CompressionMethod"), .str (chars (methodName e.IsDeflate)),
    .key (chars b!"IsPassworded"), .str (chars (if e.IsPasswordProtected then b!"1" else b!"0")),
    .key (chars b!"Comment"), .str (chars e.Comment), .key (chars b!"CRC32"), .str (chars (dec e.Crc32)), .endObj]

/-- The same for XML. -/
def entryXml (e : Entry) : List XEvent :=
  elem b!"file" (elem b!"Name" (lit e.FullName) ++ elem b!"Size" (lit (dec e.Size)) ++
    elem b!"CompressedSize" (lit (dec e.CompressedSize)) ++
    elem b!"CompressionMethod" (lit (methodName e.IsDeflate)) ++
    elem b!"IsPassworded" (lit (if e.IsPasswordProtected then b!"1" else b!"0")) ++
    elem b!"Comment" (lit e.Comment) ++ elem b!"CRC32" (lit (dec e.Crc32)))

theorem childInfo_values (e : Entry) (hc : e.CompressedSize < 2 ^ 31) (hr : e.Crc32 < 2 ^ 32) :
    childJson (childInfo e) = entryJson e ∧ childXml (childInfo e) = entryXml e := by
  have h1 : decInt (toSigned 32 e.CompressedSize) = dec e.CompressedSize := by
    have : toSigned 32 e.CompressedSize = (e.CompressedSize : Int) := by
      unfold toSigned
      simp only [Nat.mod_eq_of_lt (show e.CompressedSize < 2 ^ 32 by omega)]
      rw [if_pos (by simpa using hc)]
    rw [this]
    unfold decInt
    rw [if_neg (by omega)]
    rfl
  have h2 : u32 e.Crc32 = e.Crc32 := Nat.mod_eq_of_lt hr
  have h3 : showBool e.IsPasswordProtected = if e.IsPasswordProtected then b!"1" else b!"0" := by
    cases e.IsPasswordProtected <;> rfl
  simp only [childJson, childXml, entryJson, entryXml, childInfo, methodName, h1, h2, h3, and_self]

/-- C66: for archives whose names and comments are such texts, whose compressed sizes are below 2 GiB and whose
checksums have 32 bits, both documents say of every entry its name, sizes, method, protection, comment and
checksum. -/
theorem C66_archive_documents_partial (file : Bytes) (a : Archive) (hne : a ≠ [])
    (h : ∀ e ∈ a, plain e.FullName = true ∧ plain e.Comment = true)
    (hv : ∀ e ∈ a, e.CompressedSize < 2 ^ 31 ∧ e.Crc32 < 2 ^ 32) :
    (0 ∉ file → jsonDocument (Output .json file b!"extensions" [zipItem (a.map childInfo)]) =
      some ([.startObj, .key (chars b!"name"), .str (chars file), .key (chars b!"extensions"), .startArr,
        .startObj, .key (chars b!"extension"), .str (chars b!"zip"), .key (chars b!"name"), .str (chars b!"Zip File"),
        .key (chars b!"children"), .startArr] ++ a.flatMap entryJson ++
        [.endArr, .endObj, .endArr, .endObj])) ∧
    (xmlLegal file = true → xmlDocument (Output .xml file b!"extensions" [zipItem (a.map childInfo)]) =
      some (elem b!"file" (elem b!"name" (seen file) ++ elem b!"extensions" (elem b!"item"
        (elem b!"extension" (lit b!"zip") ++ elem b!"name" (lit b!"Zip File") ++
          elem b!"children" (a.flatMap entryXml)))))) := by
  have hpos : (a.map childInfo).length > 0 := by
    rw [List.length_map]; exact List.length_pos_iff.2 hne
  have ej : ∀ a : Archive, (∀ e ∈ a, e.CompressedSize < 2 ^ 31 ∧ e.Crc32 < 2 ^ 32) →
      (a.map childInfo).flatMap childJson = a.flatMap entryJson ∧
      (a.map childInfo).flatMap childXml = a.flatMap entryXml := by
    intro a
    induction a with
    | nil => intro _; exact ⟨rfl, rfl⟩
    | cons e a ih =>
      intro hv
      have h1 := childInfo_values e (hv e (by simp)).1 (hv e (by simp)).2
      have h2 := ih fun x hx => hv x (by simp [hx])
      simp only [List.map_cons, List.flatMap_cons, h1.1, h1.2, h2.1, h2.2, and_self]
  constructor
  · intro hf
    rw [C66_json_archive_item_partial file hf a h, archiveJson, if_pos hpos, (ej a hv).1]
    simp
  · intro hf
    rw [C66_xml_archive_item_partial file hf a h, archiveXml, if_pos hpos, (ej a hv).2]

example : ∃ e : Entry, (plain e.FullName = true ∧ plain e.Comment = true) ∧ e.CompressedSize < 2 ^ 31 ∧
    e.Crc32 < 2 ^ 32 ∧ e.Size = 5 :=
  ⟨{ FullName := b!"a/b.txt", Size := 5, CompressedSize := 7, Crc32 := 0xffffffff, IsDeflate := true },
    by decide, by decide, by decide, rfl⟩

/-- C66 is false of large entries: a compressed size of 2^31 bytes is shown as a negative number. -/
theorem C66_large_entry_negative (e : Entry) (h : e.CompressedSize = 2 ^ 31) :
    decInt (childInfo e).CompressedSize = b!"-2147483648" := by
  show decInt (toSigned 32 e.CompressedSize) = _
  rw [h]
  decide

/-- C27 for the line about an archive, whatever its entries: its tab- or comma-separated fields are those of the item,
and it is one line. -/
theorem C27_archive_fields (children : List ZipFileInfo) :
    splitAll 9 (zipItem children).text = [b!"zip", b!"Zip File", [], b!"0", []] ∧
    splitAll 44 (zipItem children).csv = [b!"zip", b!"Zip File", [], b!"0", []] ∧
    10 ∉ (zipItem children).text ∧ 10 ∉ (zipItem children).csv :=
  ⟨rfl, rfl, by show 10 ∉ zipText _; decide, by show 10 ∉ zipCsv _; decide⟩

end Fileid.Props
