import Verif.Lemmas.Documents
import Verif.Props.Propset
import Verif.Props.OlessStreams

/-!
# Documents: exactly when results are made (C46) and printed (C77), and what they say (C100)
-/

namespace Fileid.Props

open Spec Spec.Ole Pole Oless Vba Common

/-! ## C46: exactly when results are made -/

/-- The program gets through with an object: the macros in a storage are read or reading them ends with an exception;
the property sets are read or reading them ends with a `range_error`; a stream that shows the type of the document can be
read and has the bytes that are looked at; a workbook is read to a result. -/
def Passes (abi : Abi) (env : Env) (io : StorageIO) (v : Visit) : Prop :=
  if v.isStorage then
    v.isVba = true → (∃ i, Analyze abi io v.path = .ok i) ∨ ∃ x, Analyze abi io v.path = .throw x
  else if v.name ∈ propertyNames then
    (∃ ps, parseProperties abi io v.path = .ok ps) ∨ parseProperties abi io v.path = .throw .rangeError
  else ∀ t ∈ documentTypes, t.Known v.path → t.inspection ≠ .nothing → ∃ content, ReadStream abi io v.path = .ok content ∧
    LongEnough abi.ulongBytes t.inspection content ∧
    (t.inspection = .presentation → ∃ user, ReadStream abi io (text b!"/Current User") = .ok user) ∧
    (t.inspection = .workbook → ∃ i, Excel.Detailer abi env.fmt env.what env.fuel content = .ok i)

theorem word_total (e : ExtInfo) (c : Bytes) : ∃ e', Office.wordDetailer e c = .ok e' := by
  obtain ⟨h1, h2⟩ := C56_word_version c
  unfold Office.wordDetailer
  by_cases h : 154 ≤ c.length
  · obtain ⟨v, hv, _⟩ := h1 h
    rw [hv]
    exact ⟨_, rfl⟩
  · rw [h2 (by omega)]
    exact ⟨_, rfl⟩

theorem pub_iff (abi : Abi) (e : ExtInfo) (c : Bytes) :
    (∃ e', Office.pubDetailer abi e c = .ok e') ↔ LongEnough abi.ulongBytes .publication c := by
  have h := C57_pub_out_of_bounds_iff abi c
  unfold LongEnough Office.pubDetailer
  dsimp only
  unfold Office.GetPubVersion at h ⊢
  by_cases h6 : c.length < 6
  · rw [member_ub (by omega)]
    constructor
    · rintro ⟨_, h⟩; cases h
    · rintro ⟨h, _⟩; omega
  · have hv := num_of_le (c := c) (off := 4) (n := 2) (by omega)
    generalize leVal ((c.drop 4).take 2) = v at hv
    rw [member_eq (base := 0) (off := 4) (by simpa using hv), Res.bind_ok] at h ⊢
    by_cases h3 : v = 300
    · subst h3
      rw [if_pos rfl]
      by_cases hl : c.length < 10 + abi.ulongBytes
      · rw [member_ub (by unfold Office.pubVersion2; omega)]
        constructor
        · rintro ⟨_, h⟩; cases h
        · rintro ⟨_, h⟩; have := h hv; omega
      · rw [member_ok (by unfold Office.pubVersion2; omega)]
        exact ⟨fun _ => ⟨by omega, fun _ => by omega⟩, fun _ => ⟨_, rfl⟩⟩
    · rw [if_neg h3]
      exact ⟨fun _ => ⟨by omega, fun h => absurd (num_unique hv h) h3⟩, fun _ => ⟨_, rfl⟩⟩

theorem visio_iff (e : ExtInfo) (c : Bytes) : (∃ e', Office.visioDetailer e c = .ok e') ↔ 28 ≤ c.length := by
  unfold Office.visioDetailer Office.GetVisoVersion
  by_cases h : c.length < 28
  · rw [member_ub (by omega)]
    constructor
    · rintro ⟨_, h⟩; cases h
    · intro h; omega
  · rw [member_ok (by omega)]
    exact ⟨fun _ => by omega, fun _ => ⟨_, rfl⟩⟩

theorem ppt_total (abi : Abi) (habi : abi = Abi.linux ∨ abi = Abi.windows) (e : ExtInfo) (u c : Bytes) :
    ∃ e', Office.pptDetailer abi e u c = .ok e' := by
  obtain ⟨v, hv⟩ := C57_ppt_in_bounds abi (by rcases habi with rfl | rfl <;> simp [Supported, Abi.linux, Abi.windows]) u c
  unfold Office.pptDetailer
  rw [hv]
  exact ⟨_, rfl⟩

theorem bind_ok_exists {α β : Type} {r : Res α} {f : α → Res β} (hf : ∀ a, ∃ b, f a = .ok b) :
    (∃ b, r.bind f = .ok b) ↔ ∃ a, r = .ok a := by
  constructor
  · rintro ⟨b, h⟩
    obtain ⟨a, ha, _⟩ := bind_eq_ok h
    exact ⟨a, ha⟩
  · rintro ⟨a, rfl⟩
    exact hf a

theorem entry_made (abi : Abi) (habi : abi = Abi.linux ∨ abi = Abi.windows) (env : Env) (io : StorageIO) (p : WStr)
    (t : DocumentType) : (∃ r, entryResult abi env io p (infoOf t) = .ok r) ↔
      (t.inspection ≠ .nothing → ∃ content, ReadStream abi io p = .ok content ∧
        LongEnough abi.ulongBytes t.inspection content ∧
        (t.inspection = .presentation → ∃ user, ReadStream abi io (text b!"/Current User") = .ok user) ∧
        (t.inspection = .workbook → ∃ i, Excel.Detailer abi env.fmt env.what env.fuel content = .ok i)) := by
  unfold entryResult
  dsimp only
  cases hi : t.inspection with
  | nothing => 
    rw [if_pos (by show funcOf t.inspection = _; rw [hi]; rfl)]
    exact ⟨fun _ h => absurd rfl h, fun _ => ⟨_, rfl⟩⟩
  | _ =>
    rw [if_neg (by show funcOf t.inspection ≠ _; rw [hi]; decide),
      show (infoOf t).extraFunc = funcOf t.inspection from rfl, hi]
    constructor
    · rintro ⟨r, h⟩ _
      obtain ⟨c, hc, h⟩ := bind_eq_ok h
      refine ⟨c, hc, ?_, ?_, ?_⟩
      all_goals first
        | (intro h; cases h; done)
        | trivial
        | (obtain ⟨e, he, h⟩ := bind_eq_ok h; exact (pub_iff abi _ c).1 ⟨e, he⟩)
        | (obtain ⟨e, he, h⟩ := bind_eq_ok h; exact (visio_iff _ c).1 ⟨e, he⟩)
        | (intro _; obtain ⟨e, he, h⟩ := bind_eq_ok h; exact ⟨e, he⟩)
    · intro h
      obtain ⟨c, hc, h1, h2, h3⟩ := h (by simp)
      rw [hc, Res.bind_ok]
      first
        | exact ⟨_, rfl⟩
        | (obtain ⟨e, he⟩ := word_total (infoOf t |> fun i => { Extension := i.Extension, VersionName := i.Version, SubType := i.SubType, Name := i.Name }) c
           exact ⟨_, by simp only [funcOf, detail, he, Res.bind_ok]; rfl⟩)
        | (obtain ⟨e, he⟩ := h3 rfl
           exact ⟨_, by simp only [funcOf, detail, he, Res.bind_ok]; rfl⟩)
        | (obtain ⟨u, hu⟩ := h2 rfl
           obtain ⟨e, he⟩ := ppt_total abi habi (infoOf t |> fun i => { Extension := i.Extension, VersionName := i.Version, SubType := i.SubType, Name := i.Name }) u c
           exact ⟨_, by simp only [funcOf, detail, show wide b!"/Current User" = text b!"/Current User" from rfl, hu, he, Res.bind_ok]; rfl⟩)
        | (obtain ⟨e, he⟩ := (pub_iff abi (infoOf t |> fun i => { Extension := i.Extension, VersionName := i.Version, SubType := i.SubType, Name := i.Name }) c).2 h1
           exact ⟨_, by simp only [funcOf, detail, he, Res.bind_ok]; rfl⟩)
        | (obtain ⟨e, he⟩ := (visio_iff (infoOf t |> fun i => { Extension := i.Extension, VersionName := i.Version, SubType := i.SubType, Name := i.Name }) c).2 h1
           exact ⟨_, by simp only [funcOf, detail, he, Res.bind_ok]; rfl⟩)

theorem look_made (abi : Abi) (habi : abi = Abi.linux ∨ abi = Abi.windows) (env : Env) (io : StorageIO) (v : Visit) :
    (∃ x, look abi env io v = .ok x) ↔ Passes abi env io v := by
  unfold look Passes
  by_cases hs : v.isStorage = true
  · rw [if_pos hs, if_pos hs]
    by_cases hv : v.isVba = true
    · rw [if_pos hv]
      cases ha : Analyze abi io v.path with
      | ok i => exact ⟨fun _ _ => Or.inl ⟨i, rfl⟩, fun _ => ⟨_, rfl⟩⟩
      | throw x => exact ⟨fun _ _ => Or.inr ⟨x, rfl⟩, fun _ => ⟨_, rfl⟩⟩
      | ub u =>
        refine ⟨fun ⟨_, h⟩ => (by cases h), fun h => ?_⟩
        rcases h hv with ⟨_, h⟩ | ⟨_, h⟩ <;> cases h
      | fuel =>
        refine ⟨fun ⟨_, h⟩ => (by cases h), fun h => ?_⟩
        rcases h hv with ⟨_, h⟩ | ⟨_, h⟩ <;> cases h
    · rw [if_neg hv]
      exact ⟨fun _ h => absurd h hv, fun _ => ⟨_, rfl⟩⟩
  · rw [if_neg hs, if_neg hs]
    by_cases hn : v.name ∈ propertyNames
    · rw [if_pos hn, if_pos hn]
      cases ha : parseProperties abi io v.path with
      | ok ps => exact ⟨fun _ => Or.inl ⟨ps, rfl⟩, fun _ => ⟨_, rfl⟩⟩
      | throw x =>
        by_cases hx : x = .rangeError
        · subst hx; exact ⟨fun _ => Or.inr rfl, fun _ => ⟨_, rfl⟩⟩
        · constructor
          · rintro ⟨_, h⟩
            exfalso
            cases x <;> first | exact hx rfl | cases h
          · rintro (⟨_, h⟩ | h)
            · cases h
            · cases h; exact absurd rfl hx
      | ub u =>
        refine ⟨fun ⟨_, h⟩ => (by cases h), fun h => ?_⟩
        rcases h with ⟨_, h⟩ | h <;> cases h
      | fuel =>
        refine ⟨fun ⟨_, h⟩ => (by cases h), fun h => ?_⟩
        rcases h with ⟨_, h⟩ | h <;> cases h
    · rw [if_neg hn, if_neg hn]
      cases hf : documentTypes.find? fun t => decide (t.Known v.path) with
      | none =>
        rw [List.find?_eq_none] at hf
        exact ⟨fun _ t ht hk => absurd (by simpa using hk) (hf t ht), fun _ => ⟨_, rfl⟩⟩
      | some t =>
        have ht := List.mem_of_find?_eq_some hf
        have hk : t.Known v.path := by simpa using List.find?_some hf
        dsimp only
        rw [show (do
          let r ← entryResult abi env io v.path (infoOf t)
          Res.ok ([r], ([] : List (WStr × List Propset.Property)))) = (entryResult abi env io v.path (infoOf t)).bind fun r =>
            Res.ok ([r], ([] : List (WStr × List Propset.Property))) from rfl,
          bind_ok_exists (fun a => ⟨_, rfl⟩), entry_made abi habi]
        constructor
        · intro h t' ht' hk'
          have := find_known types_exclusive ht' hk'
          rw [hf] at this
          injection this with this
          subst this
          exact h
        · intro h
          exact h t ht hk

/-- The results for a compound file from what each of its objects gives. -/
theorem guess_eq (abi : Abi) (habi : abi = Abi.linux ∨ abi = Abi.windows) (env : Env) (list : List OlessInfo)
    (hl : ∀ i, i ∈ list ↔ i ∈ table) (depth : Nat) (file : File) (io : StorageIO)
    (ho : openStorage abi file = .ok (.opened io)) (objs : Objects) (h : Describes abi io.dirtree objs)
    (hd : objs.depth < depth) (hp : ∀ v ∈ objs.visits [47], v.Plain) :
    Guess abi env list depth file = (mapRes (look abi env io) (objs.visits [47])).bind fun xs =>
      .ok (finish ((St.pushPath {} [47]).afterAll abi xs (objs.visits [47]))) := by
  unfold Guess
  rw [ho, Res.bind_ok]
  dsimp only
  rw [recurse_spec habi h _ _ depth hd, walk_look hl _ (fun v hv => by
    obtain ⟨_, _, _, _, _, h5, _, _⟩ := describes_visits habi h v hv
    exact ⟨h5, hp v hv⟩)]
  cases mapRes (look abi env io) (objs.visits [47]) <;> rfl

/-- C46: exactly when results are made for a compound file whose directory holds the objects `objs`: if and only if the
program gets through with each of them. -/
theorem C46_made_iff (abi : Abi) (habi : abi = Abi.linux ∨ abi = Abi.windows) (env : Env) (list : List OlessInfo)
    (hl : ∀ i, i ∈ list ↔ i ∈ table) (depth : Nat) (file : File) (io : StorageIO)
    (ho : openStorage abi file = .ok (.opened io)) (objs : Objects) (h : Describes abi io.dirtree objs)
    (hd : objs.depth < depth) (hp : ∀ v ∈ objs.visits (text b!"/"), v.Plain) :
    (∃ rs, Guess abi env list depth file = .ok rs) ↔ ∀ v ∈ objs.visits (text b!"/"), Passes abi env io v := by
  rw [show text b!"/" = [47] from rfl] at *
  rw [guess_eq abi habi env list hl depth file io ho objs h hd hp, bind_ok_exists (fun _ => ⟨_, rfl⟩)]
  constructor
  · rintro ⟨xs, hx⟩ v hv
    obtain ⟨x, _, hx⟩ := mapRes_get hx hv
    exact (look_made abi habi env io v).1 ⟨x, hx⟩
  · intro h
    exact mapRes_ok _ fun v hv => (look_made abi habi env io v).2 (h v hv)

/-! ## C77: exactly when reports are made -/

theorem mapInsert_mem {abi : Abi} {k : WStr} {v : List Propset.Property} {g : WStr × List Propset.Property} :
    ∀ {m : List (WStr × List Propset.Property)}, g ∈ mapInsert abi k v m → g = (k, v) ∨ g ∈ m := by
  intro m
  induction m with
  | nil => intro h; simpa [mapInsert] using h
  | cons a m ih =>
    obtain ⟨k', v'⟩ := a
    intro h
    rw [mapInsert] at h
    split at h
    · simpa using h
    · split at h
      · exact Or.inr h
      · rcases List.mem_cons.1 h with rfl | h
        · exact Or.inr (by simp)
        · rcases ih h with h | h
          · exact Or.inl h
          · exact Or.inr (by simp [h])

theorem look_key {abi : Abi} {env : Env} {io : StorageIO} {v : Visit}
    {x : List Result × List (WStr × List Propset.Property)} (h : look abi env io v = .ok x) :
    ∀ g ∈ x.2, g.1 = v.path ∧ v.isStorage = false ∧ v.name ∈ propertyNames := by
  unfold look at h
  split at h
  · split at h
    · obtain ⟨_, _, h⟩ := bind_eq_ok h; cases h; simp
    · cases h; simp
  · rename_i hs
    split at h
    · rename_i hn
      split at h <;> first | (cases h; done) | (cases h; simpa using ⟨by simpa using hs, hn⟩) | (cases h; simp)
    · split at h
      · cases h; simp
      · obtain ⟨_, _, h⟩ := bind_eq_ok h; cases h; simp

theorem afterAll_keys {abi : Abi} {env : Env} {io : StorageIO} (P : WStr → Prop) {vs : List Visit}
    {xs : List (List Result × List (WStr × List Propset.Property))}
    (h : Pointwise (fun v x => look abi env io v = .ok x) vs xs)
    (hv : ∀ v ∈ vs, v.isStorage = false → v.name ∈ propertyNames → P v.path) :
    ∀ st : St, (∀ g ∈ st.properties, P g.1) → ∀ g ∈ (st.afterAll abi xs vs).properties, P g.1 := by
  induction h with
  | nil => intro st hst; exact hst
  | @cons v x vs xs hx _ ih =>
    intro st hst
    rw [St.afterAll]
    refine ih (fun v h => hv v (by simp [h])) _ ?_
    have hk := look_key hx
    have : ∀ (l m : List (WStr × List Propset.Property)), (∀ g ∈ l, P g.1) → (∀ g ∈ m, P g.1) →
        ∀ g ∈ l.foldl (fun m g => mapInsert abi g.1 g.2 m) m, P g.1 := by
      intro l
      induction l with
      | nil => intro m _ hm; exact hm
      | cons a l ih =>
        intro m hl hm
        refine ih _ (fun g hg => hl g (by simp [hg])) fun g hg => ?_
        rcases mapInsert_mem hg with rfl | h
        · exact hl a (by simp)
        · exact hm g h
    exact this _ _ (fun g hg => by
      obtain ⟨h1, h2, h3⟩ := hk g hg
      rw [h1]
      exact hv v (by simp) h2 h3) hst

/-- The base of a report is made when all paths and the names of all groups have 16-bit units. -/
theorem base_made (env : Env) (e : ExtInfo) (x : Extra) (h : ∀ p ∈ x.paths, ∀ u ∈ p, u < 65536)
    (hp : ∀ g ∈ x.properties, ∀ u ∈ g.1, u < 65536) :
    (∃ out, baseJson Abi.windows env e x = .ok out) ∧ ∃ out, baseXml Abi.windows env e x = .ok out := by
  have : ∃ ts, mapRes (pathText Abi.windows) x.paths = .ok ts := mapRes_ok _ fun p hp' =>
    convert_small _ fun u hu => h p hp' u ((List.takeWhile_prefix _).mem hu)
  obtain ⟨ts, hts⟩ := this
  have : ∃ ts, mapRes (groupJson Abi.windows env) x.properties = .ok ts := mapRes_ok _ fun g hg => by
    obtain ⟨t, ht⟩ := convert_small g.1 (hp g hg)
    unfold groupJson
    rw [ht]
    exact ⟨_, rfl⟩
  obtain ⟨js, hjs⟩ := this
  have : ∃ ts, mapRes (groupXml Abi.windows env) x.properties = .ok ts := mapRes_ok _ fun g hg => by
    obtain ⟨t, ht⟩ := convert_small g.1 (hp g hg)
    unfold groupXml
    rw [ht]
    exact ⟨_, rfl⟩
  obtain ⟨xs, hxs⟩ := this
  unfold baseJson baseXml
  rw [hts, hjs, hxs]
  exact ⟨⟨_, rfl⟩, ⟨_, rfl⟩⟩

/-- What is printed of a workbook is made whatever is printed before it. -/
theorem excel_base (abi : Abi) (fmt : Excel.Fmt) (i : Excel.ExcelInfo) (b b' : Bytes) :
    ((∃ t, i.toJson abi fmt b = .ok t) ↔ ∃ t, i.toJson abi fmt b' = .ok t) ∧
    ((∃ t, i.toXml abi fmt b = .ok t) ↔ ∃ t, i.toXml abi fmt b' = .ok t) := by
  unfold Excel.ExcelInfo.toJson Excel.ExcelInfo.toXml
  constructor
  · cases Excel.substreamJson abi fmt i.eng.master i.eng.global with
    | ok g =>
      simp only [Res.bind_ok]
      cases Excel.printSheets (Excel.sheetJson abi fmt i.eng.master) i.eng.sheets <;> simp
    | _ => simp
  · cases Excel.substreamXml abi fmt i.eng.master i.eng.global with
    | ok g =>
      simp only [Res.bind_ok]
      cases Excel.printSheets (Excel.sheetXml abi fmt i.eng.master) i.eng.sheets <;> simp
    | _ => simp

theorem mapRes_ok_iff {α β : Type} {f : α → Res β} {l : List α} :
    (∃ bs, mapRes f l = .ok bs) ↔ ∀ a ∈ l, ∃ b, f a = .ok b :=
  ⟨fun ⟨_, h⟩ _ ha => (mapRes_get h ha).imp fun _ h => h.2, mapRes_ok l⟩

/-- Paths and properties of a result. -/
def addedTo : Result → Extra
  | .ole _ x => x
  | .excel _ x => x
  | .wp _ => {}
  | .vba _ => {}

theorem detail_extra {abi : Abi} {env : Env} {io : StorageIO} {f : Func} {e : ExtInfo} {c : Bytes} {r : Result}
    (h : detail abi env io f e c = .ok r) : addedTo r = {} := by
  unfold detail at h
  split at h
  case h_5 =>
    obtain ⟨_, _, h⟩ := bind_eq_ok h
    obtain ⟨_, _, h⟩ := bind_eq_ok h
    cases h
    rfl
  all_goals first
    | (cases h; rfl)
    | (obtain ⟨_, _, h⟩ := bind_eq_ok h; cases h; rfl)

theorem look_extra {abi : Abi} {env : Env} {io : StorageIO} {v : Visit}
    {x : List Result × List (WStr × List Propset.Property)} (h : look abi env io v = .ok x) : ∀ r ∈ x.1, addedTo r = {} := by
  unfold look at h
  split at h
  · split at h
    · obtain ⟨r, hr, h⟩ := bind_eq_ok h
      cases h
      intro r' hr'
      rw [List.mem_singleton] at hr'
      subst hr'
      cases ha : Analyze abi io v.path with
      | ok i => rw [ha] at hr; cases hr; rfl
      | throw x => rw [ha] at hr; cases hr; rfl
      | ub u => rw [ha] at hr; cases hr
      | fuel => rw [ha] at hr; cases hr
    · cases h; simp
  · split at h
    · split at h <;> first | (cases h; done) | (cases h; simp)
    · split at h
      · cases h; simp
      · obtain ⟨r, hr, h⟩ := bind_eq_ok h
        cases h
        intro r' hr'
        rw [List.mem_singleton] at hr'
        subst hr'
        unfold entryResult at hr
        dsimp only at hr
        split at hr
        · cases hr; rfl
        · obtain ⟨_, _, hr⟩ := bind_eq_ok hr
          exact detail_extra hr

theorem giveExtra_mem {x : Extra} : ∀ {rs : List Result}, (∀ r ∈ rs, addedTo r = {}) →
    ∀ r ∈ giveExtra x rs, addedTo r = x ∨ addedTo r = {} := by
  intro rs
  induction rs with
  | nil => intro _ r hr; cases hr
  | cons a rs ih =>
    intro h r hr
    have ih := ih fun r hr => h r (by simp [hr])
    cases a with
    | ole e y =>
      rcases List.mem_cons.1 hr with rfl | hr
      · exact Or.inl rfl
      · exact Or.inr (h r (by simp [hr]))
    | excel e y =>
      rcases List.mem_cons.1 hr with rfl | hr
      · exact Or.inl rfl
      · exact Or.inr (h r (by simp [hr]))
    | wp e =>
      rcases List.mem_cons.1 hr with rfl | hr
      · exact Or.inr rfl
      · exact ih r hr
    | vba e =>
      rcases List.mem_cons.1 hr with rfl | hr
      · exact Or.inr rfl
      · exact ih r hr

theorem visits_small {io : StorageIO} {objs : Objects} (h : Describes Abi.windows io.dirtree objs)
    (hunits : ∀ j, ∀ u ∈ entryName io.dirtree j, u < 65536) : ∀ v ∈ objs.visits [47], (∀ u ∈ v.path, u < 65536) ∧
      ∀ u ∈ v.listed, u < 65536 := by
  obtain ⟨_, _, kids, _, hh, _⟩ := h
  have := visits_units hh (· < 65536) hunits (by omega) [47] (by simp)
  intro v hv
  refine ⟨this v hv, fun u hu => ?_⟩
  unfold Visit.listed at hu
  split at hu
  · rcases List.mem_append.1 hu with h | h
    · exact this v hv u h
    · simp [text] at h; omega
  · exact this v hv u hu

/-- C77, on Windows: exactly when the reports of a compound file for which results are made are made, too: the JSON (XML)
report if and only if there is no WordPerfect document among the results and the JSON (XML) texts of the workbooks among
them are made. -/
theorem C77_windows_iff (env : Env) (list : List OlessInfo) (hl : ∀ i, i ∈ list ↔ i ∈ table) (depth : Nat)
    (file : File) (io : StorageIO) (ho : openStorage Abi.windows file = .ok (.opened io)) (objs : Objects)
    (h : Describes Abi.windows io.dirtree objs) (hd : objs.depth < depth) (hunits : ∀ j, ∀ u ∈ entryName io.dirtree j, u < 65536)
    (hp : ∀ v ∈ objs.visits (text b!"/"), v.Plain) (rs : List Result) (hg : Guess Abi.windows env list depth file = .ok rs)
    (name : Bytes) :
    ((∃ out, report Abi.windows env .json name rs = .ok out) ↔
      ∀ r ∈ rs, (∀ e, r ≠ .wp e) ∧ ∀ i x, r = .excel i x → ∃ t, i.toJson Abi.windows env.fmt [] = .ok t) ∧
    ((∃ out, report Abi.windows env .xml name rs = .ok out) ↔
      ∀ r ∈ rs, (∀ e, r ≠ .wp e) ∧ ∀ i x, r = .excel i x → ∃ t, i.toXml Abi.windows env.fmt [] = .ok t) := by
  rw [show text b!"/" = [47] from rfl] at *
  rw [guess_eq _ (Or.inr rfl) env list hl depth file io ho objs h hd hp] at hg
  obtain ⟨xs, hxs, hg⟩ := bind_eq_ok hg
  cases hg
  have hpw := mapRes_pointwise hxs
  have hsmall := visits_small h hunits
  generalize hst : (St.pushPath {} [47]).afterAll Abi.windows xs (objs.visits [47]) = st
  obtain ⟨hpaths, hres⟩ := afterAll_paths Abi.windows _ xs (St.pushPath {} [47]) (pointwise_length hpw)
  rw [hst] at hpaths hres
  have hkeys := afterAll_keys (fun p => ∀ u ∈ p, u < 65536) hpw (fun v hv _ _ => (hsmall v hv).1) (St.pushPath {} [47])
    (by intro g hg; cases hg)
  rw [hst] at hkeys
  have hpath : ∀ p ∈ st.paths, ∀ u ∈ p, u < 65536 := by
    rw [hpaths]
    intro p hp
    rcases List.mem_append.1 hp with hp | hp
    · have : p = [47] := by simpa [St.pushPath] using hp
      subst this
      simp
    · obtain ⟨v, hv, rfl⟩ := List.mem_map.1 hp
      exact (hsmall v hv).2
  have hextra : ∀ r ∈ st.results, addedTo r = {} := by
    rw [hres]
    intro r hr
    have : r ∈ (xs.map (·.1)).flatten := by simpa [St.pushPath] using hr
    obtain ⟨l, hl, hr⟩ := List.mem_flatten.1 this
    obtain ⟨x, hx, rfl⟩ := List.mem_map.1 hl
    have : ∀ {vs : List Visit} {xs : List (List Result × List (WStr × List Propset.Property))},
        Pointwise (fun v x => look Abi.windows env io v = .ok x) vs xs → ∀ x ∈ xs, ∃ v, look Abi.windows env io v = .ok x := by
      intro vs xs h
      induction h with
      | nil => simp
      | @cons v y vs ys hy _ ih =>
        intro x hx
        rcases List.mem_cons.1 hx with rfl | hx
        · exact ⟨v, hy⟩
        · exact ih x hx
    obtain ⟨v, hv⟩ := this hpw x hx
    exact look_extra hv r hr
  have hall : ∀ r ∈ finish st, (∀ p ∈ (addedTo r).paths, ∀ u ∈ p, u < 65536) ∧
      ∀ g ∈ (addedTo r).properties, ∀ u ∈ g.1, u < 65536 := by
    unfold finish
    dsimp only
    intro r hr
    have : addedTo r = ⟨st.paths, st.properties⟩ ∨ addedTo r = {} := by
      split at hr
      · rw [List.mem_singleton] at hr
        subst hr
        exact Or.inl rfl
      · exact giveExtra_mem hextra r hr
    rcases this with h | h <;> rw [h]
    · exact ⟨hpath, hkeys⟩
    · exact ⟨by simp, by simp⟩
  unfold report
  constructor
  · rw [show ∀ r : Res (List Bytes), (do
        let texts ← r
        Res.ok (Output OutputFormat.json name b!"extensions" (texts.map fun t => ⟨{}, t, t, t, t⟩))) = r.bind fun texts =>
        .ok (Output OutputFormat.json name b!"extensions" (texts.map fun t => ⟨{}, t, t, t, t⟩)) from fun _ => rfl,
      bind_ok_exists (fun _ => ⟨_, rfl⟩), mapRes_ok_iff]
    refine forall_congr' fun r => forall_congr' fun hr => ?_
    obtain ⟨h1, h2⟩ := hall r hr
    cases r with
    | ole e x =>
      obtain ⟨⟨o, ho⟩, _⟩ := base_made env e x h1 h2
      refine ⟨fun _ => ⟨by simp, by simp⟩, fun _ => ?_⟩
      simp only [Result.print, Result.toJson, ho, Res.bind_ok]
      exact ⟨_, rfl⟩
    | excel i x =>
      obtain ⟨⟨o, ho⟩, _⟩ := base_made env i.base x h1 h2
      simp only [Result.print, Result.toJson, ho, Res.bind_ok]
      rw [(excel_base Abi.windows env.fmt i o []).1]
      exact ⟨fun h => ⟨by simp, by rintro _ _ ⟨⟩; exact h⟩, fun h => h.2 i x rfl⟩
    | wp e =>
      refine ⟨fun ⟨_, h⟩ => (by cases h), fun h => absurd rfl (h.1 e)⟩
    | vba v => exact ⟨fun _ => ⟨by simp, by simp⟩, fun _ => ⟨_, rfl⟩⟩
  · rw [show ∀ r : Res (List Bytes), (do
        let texts ← r
        Res.ok (Output OutputFormat.xml name b!"extensions" (texts.map fun t => ⟨{}, t, t, t, t⟩))) = r.bind fun texts =>
        .ok (Output OutputFormat.xml name b!"extensions" (texts.map fun t => ⟨{}, t, t, t, t⟩)) from fun _ => rfl,
      bind_ok_exists (fun _ => ⟨_, rfl⟩), mapRes_ok_iff]
    refine forall_congr' fun r => forall_congr' fun hr => ?_
    obtain ⟨h1, h2⟩ := hall r hr
    cases r with
    | ole e x =>
      obtain ⟨_, ⟨o, ho⟩⟩ := base_made env e x h1 h2
      refine ⟨fun _ => ⟨by simp, by simp⟩, fun _ => ?_⟩
      simp only [Result.print, Result.toXml, ho, Res.bind_ok]
      exact ⟨_, rfl⟩
    | excel i x =>
      obtain ⟨_, ⟨o, ho⟩⟩ := base_made env i.base x h1 h2
      simp only [Result.print, Result.toXml, ho, Res.bind_ok]
      rw [(excel_base Abi.windows env.fmt i o []).2]
      exact ⟨fun h => ⟨by simp, by rintro _ _ ⟨⟩; exact h⟩, fun h => h.2 i x rfl⟩
    | wp e =>
      refine ⟨fun ⟨_, h⟩ => (by cases h), fun h => absurd rfl (h.1 e)⟩
    | vba v => exact ⟨fun _ => ⟨by simp, by simp⟩, fun _ => ⟨_, rfl⟩⟩

/-! ## C100: what is told of documents -/

theorem table_nameOf {names : List (Nat × Bytes)} {d : Bytes} {f : Nat → Bytes} (h : Realises names d f) (k : Nat) :
    f k = nameOf names d k := by
  obtain ⟨h1, hd⟩ := h
  have h2 := hd k
  clear hd
  induction names with
  | nil => exact h2 (by simp)
  | cons e es ih =>
    rw [nameOf]
    split
    · rename_i he
      rw [← he]
      exact h1 e (by simp)
    · rename_i he
      refine ih (fun e h => h1 e (by simp [h])) fun hn => h2 fun e' he' => ?_
      rcases List.mem_cons.1 he' with rfl | h
      · exact he
      · exact hn e' h

theorem ppt_name (v : Nat) : PptName v (Office.GetVersion_Powerpoint v) := by
  obtain ⟨h1, h2, h3⟩ := C63_tolerance_partial v
  by_cases h0 : v = 0
  · exact Or.inl ⟨h0, h1 h0⟩
  · by_cases hn : ∃ r ∈ pptReleases, near v r.1
    · obtain ⟨r, hr, h4, h5⟩ := h2 h0 hn
      exact Or.inr (Or.inl ⟨h0, r, hr, h4.1, h4.2, h5⟩)
    · exact Or.inr (Or.inr ⟨h0, fun r hr h => hn ⟨r, hr, h⟩, h3 h0 fun r hr h => hn ⟨r, hr, h⟩⟩)

/-- What the result for a stream says. -/
theorem entry_tells (env : Env) (io : StorageIO) (p : WStr) (t : DocumentType) (r : Result)
    (h : entryResult Abi.windows env io p (infoOf t) = .ok r) (hw : t.inspection ≠ .workbook)
    (hwp : t.inspection ≠ .wordPerfect) : ∃ c content user, r = .ole c.info {} ∧
      (t.inspection ≠ .nothing → ReadStream Abi.windows io p = .ok content) ∧
      (t.inspection = .presentation → ReadStream Abi.windows io (text b!"/Current User") = .ok user) ∧
      t.Tells user content c := by
  unfold entryResult at h
  dsimp only at h
  unfold DocumentType.Tells
  cases hi : t.inspection with
  | nothing =>
    rw [if_pos (by show funcOf t.inspection = _; rw [hi]; rfl)] at h
    cases h
    exact ⟨⟨t.extension, t.name, 0, t.version⟩, [], [], rfl, fun h => absurd rfl h, fun h => (by cases h), rfl⟩
  | workbook => exact absurd hi hw
  | wordPerfect => exact absurd hi hwp
  | word =>
    rw [if_neg (by show funcOf t.inspection ≠ _; rw [hi]; decide),
      show (infoOf t).extraFunc = funcOf t.inspection from rfl, hi] at h
    obtain ⟨c, hc, h⟩ := bind_eq_ok h
    obtain ⟨e, he, h⟩ := bind_eq_ok h
    cases h
    unfold Office.wordDetailer at he
    obtain ⟨v, hv, he⟩ := bind_eq_ok he
    cases he
    obtain ⟨h1, h2⟩ := C56_word_version c
    refine ⟨⟨t.extension, t.name, v, _⟩, c, [], rfl, fun _ => hc, fun h => (by cases h), rfl, rfl, fun hl => ?_, fun hl => ?_, ?_⟩
    · obtain ⟨w, hw, hw'⟩ := h1 hl
      rw [hv] at hw
      cases hw
      exact hw'
    · rw [h2 hl] at hv
      cases hv
      rfl
    · exact table_nameOf C56_word_names _
  | presentation =>
    rw [if_neg (by show funcOf t.inspection ≠ _; rw [hi]; decide),
      show (infoOf t).extraFunc = funcOf t.inspection from rfl, hi] at h
    obtain ⟨c, hc, h⟩ := bind_eq_ok h
    obtain ⟨u, hu, h⟩ := bind_eq_ok h
    obtain ⟨e, he, h⟩ := bind_eq_ok h
    cases h
    unfold Office.pptDetailer at he
    obtain ⟨v, hv, he⟩ := bind_eq_ok he
    cases he
    obtain ⟨h1, h2⟩ := C57_ppt_windows_partial u c
    refine ⟨⟨t.extension, t.name, v, _⟩, c, u, rfl, fun _ => hc, fun _ => hu, rfl, rfl, fun hl => ?_, fun hl off ho => ⟨fun hc => ?_, fun hc => ?_⟩, ?_⟩
    · rw [h1 hl] at hv
      cases hv
      rfl
    · rw [(h2 hl off ho).1 hc] at hv
      cases hv
      rfl
    · obtain ⟨w, hw, hw'⟩ := (h2 hl off ho).2 hc
      rw [hv] at hw
      cases hw
      exact hw'
    · exact ppt_name v
  | publication =>
    rw [if_neg (by show funcOf t.inspection ≠ _; rw [hi]; decide),
      show (infoOf t).extraFunc = funcOf t.inspection from rfl, hi] at h
    obtain ⟨c, hc, h⟩ := bind_eq_ok h
    obtain ⟨e, he, h⟩ := bind_eq_ok h
    have hle := (pub_iff Abi.windows _ c).1 ⟨e, he⟩
    cases h
    unfold Office.pubDetailer at he
    obtain ⟨v, hv, he⟩ := bind_eq_ok he
    cases he
    refine ⟨⟨t.extension, t.name, v, _⟩, c, [], rfl, fun _ => hc, fun h => (by cases h), rfl, rfl, ?_, ?_⟩
    · obtain ⟨h6, h14⟩ := hle
      have hn := num_of_le (c := c) (off := 4) (n := 2) (by omega)
      generalize leVal ((c.drop 4).take 2) = w at hn
      obtain ⟨h1, h2⟩ := C57_pub_partial Abi.windows c w hn
      by_cases h3 : w = 300
      · subst h3
        have hn' := num_of_le (c := c) (off := 12) (n := 2) (by have := h14 hn; simpa [Abi.windows] using this)
        rw [h2 rfl _ hn'] at hv
        cases hv
        exact Or.inr ⟨hn, hn'⟩
      · rw [h1 h3] at hv
        cases hv
        exact Or.inl ⟨hn, h3⟩
    · exact table_nameOf C57_publisher_names _
  | drawing =>
    rw [if_neg (by show funcOf t.inspection ≠ _; rw [hi]; decide),
      show (infoOf t).extraFunc = funcOf t.inspection from rfl, hi] at h
    obtain ⟨c, hc, h⟩ := bind_eq_ok h
    obtain ⟨e, he, h⟩ := bind_eq_ok h
    have hle := (visio_iff _ c).1 ⟨e, he⟩
    cases h
    unfold Office.visioDetailer at he
    obtain ⟨v, hv, he⟩ := bind_eq_ok he
    cases he
    have hn := num_of_le (c := c) (off := 26) (n := 2) (by omega)
    rw [(C57_visio_partial c).1 _ hn] at hv
    cases hv
    exact ⟨⟨t.extension, t.name, _, _⟩, c, [], rfl, fun _ => hc, fun h => (by cases h), rfl, rfl, hn, table_nameOf C57_visio_names _⟩
  | installer =>
    rw [if_neg (by show funcOf t.inspection ≠ _; rw [hi]; decide),
      show (infoOf t).extraFunc = funcOf t.inspection from rfl, hi] at h
    obtain ⟨c, hc, h⟩ := bind_eq_ok h
    cases h
    obtain ⟨h1, h2, h3, h4⟩ := C34_installer_kind
      { Extension := (infoOf t).Extension, VersionName := (infoOf t).Version, SubType := (infoOf t).SubType,
        Name := (infoOf t).Name } c
    by_cases ha : Occurs b!"ModuleAdminExecuteSequence" c
    · simp only [h1 ha]
      exact ⟨⟨_, _, _, _⟩, c, [], rfl, fun _ => hc, fun h => (by cases h), rfl, rfl, Or.inl ⟨ha, rfl, rfl⟩⟩
    · by_cases hb : Occurs b!"InstallExecuteSequence" c
      · simp only [h2 ha hb]
        exact ⟨⟨_, _, _, _⟩, c, [], rfl, fun _ => hc, fun h => (by cases h), rfl, rfl, Or.inr (Or.inr ⟨ha, Or.inl hb, rfl, rfl⟩)⟩
      · by_cases hm : Occurs b!"MsiPatchSequence" c
        · simp only [h3 ha hb hm]
          exact ⟨⟨_, _, _, _⟩, c, [], rfl, fun _ => hc, fun h => (by cases h), rfl, rfl, Or.inr (Or.inl ⟨ha, hb, hm, rfl, rfl⟩)⟩
        · simp only [h4 ha hb hm]
          exact ⟨⟨_, _, _, _⟩, c, [], rfl, fun _ => hc, fun h => (by cases h), rfl, rfl, Or.inr (Or.inr ⟨ha, Or.inr hm, rfl, rfl⟩)⟩

theorem wcompare_small (a b : WStr) (h : wcompare Abi.windows a b = 0) : a = b := by
  induction a generalizing b with
  | nil => cases b with
    | nil => rfl
    | cons => simp [wcompare] at h
  | cons x xs ih => cases b with
    | nil => simp [wcompare] at h
    | cons y ys =>
      rw [wcompare] at h
      have hx : ∀ u, wcharVal Abi.windows u = (u : Int) := fun u => by simp [wcharVal, Abi.windows]
      rw [hx, hx] at h
      split at h
      · cases h
      · split at h
        · cases h
        · have : x = y := by omega
          rw [this, ih ys h]

theorem mapInsert_has (k : WStr) (v : List Propset.Property) (m : List (WStr × List Propset.Property)) :
    ∃ g ∈ mapInsert Abi.windows k v m, g.1 = k := by
  induction m with
  | nil => exact ⟨_, List.mem_singleton_self _, rfl⟩
  | cons a m ih =>
    obtain ⟨k', v'⟩ := a
    rw [mapInsert]
    split
    · exact ⟨_, List.mem_cons_self, rfl⟩
    · split
      · rename_i h
        exact ⟨_, List.mem_cons_self, (wcompare_small _ _ h).symm⟩
      · obtain ⟨g, hg, h⟩ := ih
        exact ⟨g, List.mem_cons_of_mem _ hg, h⟩

theorem mapInsert_keeps {abi : Abi} {k : WStr} {v : List Propset.Property} {m : List (WStr × List Propset.Property)}
    {g : WStr × List Propset.Property} (h : g ∈ m) : g ∈ mapInsert abi k v m := by
  induction m with
  | nil => cases h
  | cons a m ih =>
    obtain ⟨k', v'⟩ := a
    rw [mapInsert]
    split
    · exact List.mem_cons_of_mem _ h
    · split
      · exact h
      · rcases List.mem_cons.1 h with rfl | h
        · exact List.mem_cons_self
        · exact List.mem_cons_of_mem _ (ih h)

/-- The groups of properties kept after some objects: those of all property streams that were read. -/
theorem afterAll_groups {env : Env} {io : StorageIO} {vs : List Visit}
    {xs : List (List Result × List (WStr × List Propset.Property))}
    (h : Pointwise (fun v x => look Abi.windows env io v = .ok x) vs xs) :
    ∀ st : St, (∀ g ∈ st.properties, parseProperties Abi.windows io g.1 = .ok g.2) →
      (∀ g ∈ (st.afterAll Abi.windows xs vs).properties, parseProperties Abi.windows io g.1 = .ok g.2) ∧
      (∀ g ∈ st.properties, g ∈ (st.afterAll Abi.windows xs vs).properties) ∧
      ∀ v ∈ vs, v.isStorage = false → v.name ∈ propertyNames → ∀ ps, parseProperties Abi.windows io v.path = .ok ps →
        (v.path, ps) ∈ (st.afterAll Abi.windows xs vs).properties := by
  induction h with
  | nil => intro st hst; exact ⟨hst, fun g h => h, by simp⟩
  | @cons v x vs xs hx _ ih =>
    intro st hst
    rw [St.afterAll]
    have key : (∀ g ∈ (st.after Abi.windows x v.listed).properties, parseProperties Abi.windows io g.1 = .ok g.2) ∧
        (∀ g ∈ st.properties, g ∈ (st.after Abi.windows x v.listed).properties) ∧
        (v.isStorage = false → v.name ∈ propertyNames → ∀ ps, parseProperties Abi.windows io v.path = .ok ps →
          (v.path, ps) ∈ (st.after Abi.windows x v.listed).properties) := by
      unfold look at hx
      split at hx
      · rename_i hs
        have : x.2 = [] := by
          split at hx
          · obtain ⟨_, _, hx⟩ := bind_eq_ok hx; cases hx; rfl
          · cases hx; rfl
        simp only [St.after, this, List.foldl_nil]
        exact ⟨hst, fun g h => h, fun h => by rw [hs] at h; cases h⟩
      · split at hx
        · split at hx
          · rename_i ps hps
            cases hx
            simp only [St.after, List.foldl_cons, List.foldl_nil]
            have h1 : ∀ g ∈ mapInsert Abi.windows v.path ps st.properties, parseProperties Abi.windows io g.1 = .ok g.2 := by
              intro g hg
              rcases mapInsert_mem hg with rfl | h
              · exact hps
              · exact hst g h
            refine ⟨h1, fun g hg => mapInsert_keeps hg, fun _ _ ps' hps' => ?_⟩
            obtain ⟨g, hg, hk⟩ := mapInsert_has v.path ps st.properties
            have := h1 g hg
            rw [hk, hps'] at this
            injection this with this
            obtain ⟨a, b⟩ := g
            dsimp only at hk this
            subst hk this
            exact hg
          · rename_i hps
            cases hx
            simp only [St.after, List.foldl_nil]
            exact ⟨hst, fun g h => h, fun _ _ ps h => by rw [hps] at h; cases h⟩
          · cases hx
          · cases hx
          · cases hx
        · rename_i hn
          have : x.2 = [] := by
            split at hx
            · cases hx; rfl
            · obtain ⟨_, _, hx⟩ := bind_eq_ok hx; cases hx; rfl
          simp only [St.after, this, List.foldl_nil]
          exact ⟨hst, fun g h => h, fun _ h => absurd h hn⟩
    obtain ⟨h1, h2, h3⟩ := ih _ key.1
    refine ⟨h1, fun g hg => h2 g (key.2.1 g hg), fun w hw hs hn ps hps => ?_⟩
    rcases List.mem_cons.1 hw with rfl | hw
    · exact h2 _ (key.2.2 hs hn ps hps)
    · exact h3 w hw hs hn ps hps

/-- The result says of the document what the stream shows. -/
def Says (io : StorageIO) (v : Visit) (r : Result) : Prop :=
  ∃ t ∈ documentTypes, t.Known v.path ∧ ∃ c x content user, r = .ole c.info x ∧
    (t.inspection ≠ .nothing → ReadStream Abi.windows io v.path = .ok content) ∧
    (t.inspection = .presentation → ReadStream Abi.windows io (text b!"/Current User") = .ok user) ∧
    t.Tells user content c

theorem look_says {env : Env} {io : StorageIO} {v : Visit} {x : List Result × List (WStr × List Propset.Property)}
    (h : look Abi.windows env io v = .ok x) (hm : v.isVba = false)
    (ht : ∀ t ∈ documentTypes, t.Known v.path → t.inspection ≠ .workbook ∧ t.inspection ≠ .wordPerfect) :
    (v.showsType = false ∧ x.1 = []) ∨ (v.showsType = true ∧ ∃ r, x.1 = [r] ∧ Says io v r) := by
  unfold Visit.showsType
  unfold look at h
  split at h
  · rename_i hs
    rw [if_neg (by simp [hm])] at h
    cases h
    exact Or.inl ⟨by simp [hs], rfl⟩
  · rename_i hs
    have hs : v.isStorage = false := by simpa using hs
    split at h
    · rename_i hn
      refine Or.inl ⟨by simp [hn], ?_⟩
      split at h <;> first | (cases h; done) | (cases h; rfl)
    · rename_i hn
      split at h
      · rename_i hf
        rw [List.find?_eq_none] at hf
        cases h
        refine Or.inl ⟨?_, rfl⟩
        rw [Bool.and_eq_false_iff]
        exact Or.inr (List.any_eq_false.2 hf)
      · rename_i t hf
        have hmem := List.mem_of_find?_eq_some hf
        have hk : t.Known v.path := by simpa using List.find?_some hf
        obtain ⟨r, hr, h⟩ := bind_eq_ok h
        cases h
        refine Or.inr ⟨?_, r, rfl, t, hmem, hk, ?_⟩
        · rw [hs, Bool.and_eq_true, List.any_eq_true]
          exact ⟨by simp [hn], t, hmem, by simpa using hk⟩
        · obtain ⟨e, c, u, h1, h2, h3, h4⟩ := entry_tells env io v.path t r hr (ht t hmem hk).1 (ht t hmem hk).2
          exact ⟨e, _, c, u, h1, h2, h3, h4⟩

theorem results_say {env : Env} {io : StorageIO} {vs : List Visit}
    {xs : List (List Result × List (WStr × List Propset.Property))}
    (h : Pointwise (fun v x => look Abi.windows env io v = .ok x) vs xs) (hm : ∀ v ∈ vs, v.isVba = false)
    (ht : ∀ v ∈ vs, ∀ t ∈ documentTypes, t.Known v.path → t.inspection ≠ .workbook ∧ t.inspection ≠ .wordPerfect) :
    Pointwise (Says io) (vs.filter Visit.showsType) (xs.map (·.1)).flatten := by
  induction h with
  | nil => exact .nil
  | @cons v x vs xs hx _ ih =>
    have ih := ih (fun v h => hm v (by simp [h])) (fun v h => ht v (by simp [h]))
    rcases look_says hx (hm v (by simp)) (ht v (by simp)) with ⟨h1, h2⟩ | ⟨h1, r, h2, h3⟩
    · rw [List.filter_cons, h1, List.map_cons, List.flatten_cons, h2]
      exact ih
    · rw [List.filter_cons, h1, List.map_cons, List.flatten_cons, h2]
      exact .cons h3 ih

theorem parse_of_read {abi : Abi} {io : StorageIO} {p : WStr} {c : Bytes} {ps : List Propset.Property}
    (h : ReadStream abi io p = .ok c) (hc : Propset.parseContent abi c = .ok ps) :
    parseProperties abi io p = .ok ps ∨ (c = [] ∧ parseProperties abi io p = .ok []) := by
  unfold ReadStream at h
  unfold parseProperties
  obtain ⟨s, hs, h⟩ := bind_eq_ok h
  obtain ⟨r, hr, h⟩ := bind_eq_ok h
  rw [hs, Res.bind_ok]
  dsimp only
  rw [hr, Res.bind_ok]
  split at h
  · rename_i he
    rw [if_pos he, h, Res.bind_ok, hc]
    exact Or.inl rfl
  · rename_i he
    cases h
    rw [if_neg he]
    exact Or.inr ⟨rfl, rfl⟩

theorem jsonItems_occurs {t : Bytes} : ∀ (l : List Item) (first : Bool) (i : Item), i ∈ l → Occurs t i.json →
    Occurs t (jsonItems first l) := by
  intro l
  induction l with
  | nil => intro _ i h; cases h
  | cons a l ih =>
    intro first i hi ho
    rw [jsonItems]
    rcases List.mem_cons.1 hi with rfl | hi
    · have := occurs_append (if first then [] else b!",") (jsonItems false l) ho
      simpa using this
    · have := occurs_append ((if first then [] else b!",") ++ a.json) [] (ih false i hi ho)
      simpa using this

theorem flatten_occurs {t : Bytes} : ∀ (l : List Bytes) (b : Bytes), b ∈ l → Occurs t b → Occurs t l.flatten := by
  intro l
  induction l with
  | nil => intro b h; cases h
  | cons a l ih =>
    intro b hb ho
    rw [List.flatten_cons]
    rcases List.mem_cons.1 hb with rfl | hb
    · have := occurs_append [] l.flatten ho
      simpa using this
    · have := occurs_append a [] (ih b hb ho)
      simpa using this

/-- C100: a report in JSON or XML shows every property of its results. -/
theorem C100_properties_shown (abi : Abi) (env : Env) (name : Bytes) (rs : List Result) (e : ExtInfo) (x : Extra)
    (hr : Result.ole e x ∈ rs) (g : WStr × List Propset.Property) (hg : g ∈ x.properties) (p : Propset.Property)
    (hp : p ∈ g.2) :
    (∀ out, report abi env .json name rs = .ok out → Occurs (p.toJson env.props) out) ∧
    ∀ out, report abi env .xml name rs = .ok out → Occurs (p.toXml env.props) out := by
  unfold report
  have hlen : x.properties.length > 0 := List.length_pos_of_mem hg
  constructor
  · intro out h
    obtain ⟨ts, hts, h⟩ := bind_eq_ok h
    cases h
    obtain ⟨t, ht, hpr⟩ := mapRes_get hts hr
    simp only [Result.print, Result.toJson] at hpr
    obtain ⟨b, hb, hpr⟩ := bind_eq_ok hpr
    cases hpr
    unfold baseJson at hb
    obtain ⟨ps, _, hb⟩ := bind_eq_ok hb
    obtain ⟨gs, hgs, hb⟩ := bind_eq_ok hb
    cases hb
    rw [if_pos hlen] at ht
    obtain ⟨gt, hgt, hgj⟩ := mapRes_get hgs hg
    unfold groupJson at hgj
    obtain ⟨k, _, hgj⟩ := bind_eq_ok hgj
    cases hgj
    have h1 := vectorJoin_occurs (p.toJson env.props) b!"," (g.2.map (·.toJson env.props)) (List.mem_map_of_mem hp)
    have h2 := occurs_append (b!"{\"Group\":\"" ++ JsonEscape k ++ b!"\",\"properties\": [") b!"]}" h1
    have h3 := vectorJoin_occurs _ b!"," gs hgt
    obtain ⟨o3, a3, b3, e3, _⟩ := h3
    have h4 : Occurs (p.toJson env.props) (vectorJoin gs b!",") := by
      rw [e3]
      have := occurs_append a3 b3 h2
      simpa using this
    have h5 := occurs_append (b!"{" ++ (e.buildBaseJson ++ (if x.paths.length > 0 then
        b!", \"Paths\": [" ++ vectorJoin (ps.map fun p => b!"\"" ++ JsonEscape p ++ b!"\"") b!"," ++ b!"]" else [])) ++
        b!",\"properties\": [") b!"]}" h4
    have h6 := jsonItems_occurs (ts.map fun t => (⟨{}, t, t, t, t⟩ : Item)) true _ (List.mem_map_of_mem ht)
      (t := p.toJson env.props) (by
        dsimp only
        simpa only [List.append_assoc, List.cons_append, List.nil_append] using h5)
    have h7 := occurs_append (b!"{\"name\":\"" ++ JsonEscape name ++ b!"\"," ++ b!"\"" ++ b!"extensions" ++ b!"\":[") b!"]}" h6
    unfold Output
    exact h7
  · intro out h
    obtain ⟨ts, hts, h⟩ := bind_eq_ok h
    cases h
    obtain ⟨t, ht, hpr⟩ := mapRes_get hts hr
    simp only [Result.print, Result.toXml] at hpr
    obtain ⟨b, hb, hpr⟩ := bind_eq_ok hpr
    cases hpr
    unfold baseXml at hb
    obtain ⟨ps, _, hb⟩ := bind_eq_ok hb
    obtain ⟨gs, hgs, hb⟩ := bind_eq_ok hb
    cases hb
    rw [if_pos hlen] at ht
    obtain ⟨gt, hgt, hgj⟩ := mapRes_get hgs hg
    unfold groupXml at hgj
    obtain ⟨k, _, hgj⟩ := bind_eq_ok hgj
    cases hgj
    have h1 := flatten_occurs (t := p.toXml env.props) (g.2.map (·.toXml env.props)) _ (List.mem_map_of_mem hp)
      ⟨0, [], [], by simp, rfl⟩
    have h2 := occurs_append (b!"<Group><Name>" ++ XmlEscape k ++ b!"</Name><properties>") b!"</properties></Group>" h1
    have h4 := flatten_occurs gs _ hgt h2
    have h5 := occurs_append (b!"<item>" ++ (e.buildBaseXml ++ (if x.paths.length > 0 then
        b!"<Paths>" ++ vectorJoin (ps.map fun p => b!"<Path>" ++ XmlEscape p ++ b!"</Path>") b!"," ++ b!"</Paths>"
        else [])) ++ b!"<properties>") (b!"</properties>" ++ b!"</item>") h4
    have h6 := flatten_occurs ((ts.map fun t => (⟨{}, t, t, t, t⟩ : Item)).map fun i => i.xml) _
      (List.mem_map_of_mem (List.mem_map_of_mem ht)) (t := p.toXml env.props) (by
        dsimp only
        simpa only [List.append_assoc, List.cons_append, List.nil_append] using h5)
    have h7 := occurs_append (b!"<file>" ++ b!"<name>" ++ XmlEscape name ++ b!"</name>" ++ b!"<" ++ b!"extensions" ++ b!">")
      (b!"</" ++ b!"extensions" ++ b!">" ++ b!"</file>") h6
    unfold Output
    simpa only [List.append_assoc] using h7

/-- C100: documents on Windows that are neither workbooks nor of WordPerfect and have no macros. The directory holds the
objects `objs`; the streams with property sets hold such sets (`sets`), of properties that are read rightly (`Good`, C58);
the streams that show the type can be read and hold the version. Then results are made: one for each stream that shows a
type, in the order of the walk, that says of the document what this stream shows (or, when there is none, one that says it
is a compound file). The first has the paths of all objects and the properties of all property sets. Reports are
made in all formats; those in JSON and XML show all these properties (`C100_properties_shown`). Missing: workbooks (C88 and C89 tell of their results),
macros (C80), WordPerfect documents (for which the property is false, C77). -/
theorem C100_documents_partial (env : Env) (list : List OlessInfo) (hl : ∀ i, i ∈ list ↔ i ∈ table) (depth : Nat)
    (file : File) (io : StorageIO) (ho : openStorage Abi.windows file = .ok (.opened io)) (objs : Objects)
    (h : Describes Abi.windows io.dirtree objs) (hd : objs.depth < depth)
    (hunits : ∀ j, ∀ u ∈ entryName io.dirtree j, u < 65536) (hp : ∀ v ∈ objs.visits (text b!"/"), v.Plain)
    (hm : ∀ v ∈ objs.visits (text b!"/"), v.isVba = false)
    (sets : List Nat → List (Bytes × List Oleps.Prop_))
    (hprop : ∀ v ∈ objs.visits (text b!"/"), v.isStorage = false → v.name ∈ propertyNames → ∃ content,
      ReadStream Abi.windows io v.path = .ok content ∧ content.length < 2 ^ 32 ∧
      Oleps.PropertyStream content (sets v.path) ∧ ∀ s ∈ sets v.path, ∀ p ∈ s.2, Good Abi.windows env.props p)
    (hdoc : ∀ v ∈ objs.visits (text b!"/"), ∀ t ∈ documentTypes, t.Known v.path →
      t.inspection ≠ .workbook ∧ t.inspection ≠ .wordPerfect ∧
      (t.inspection ≠ .nothing → ∃ content, ReadStream Abi.windows io v.path = .ok content ∧
        LongEnough 4 t.inspection content) ∧
      (t.inspection = .presentation → ∃ user, ReadStream Abi.windows io (text b!"/Current User") = .ok user)) :
    ∃ rs x, Guess Abi.windows env list depth file = .ok rs ∧
      ((objs.visits (text b!"/")).filter Visit.showsType = [] →
        rs = [.ole { Extension := b!"oless", VersionName := b!"OLE Structured Storage" } x]) ∧
      ((objs.visits (text b!"/")).filter Visit.showsType ≠ [] →
        Pointwise (Says io) ((objs.visits (text b!"/")).filter Visit.showsType) rs ∧ ∃ e rest, rs = .ole e x :: rest) ∧
      x.paths = text b!"/" :: (objs.visits (text b!"/")).map Visit.listed ∧
      (∀ v ∈ objs.visits (text b!"/"), v.isStorage = false → v.name ∈ propertyNames → ∃ ps, (v.path, ps) ∈ x.properties ∧
        ps.length = (Oleps.allProperties (sets v.path)).length ∧
        ∀ (i : Nat) (q : Bytes × Oleps.Prop_), (Oleps.allProperties (sets v.path))[i]? = some q → ∃ p : Propset.Property,
          ps[i]? = some p ∧
          Oleps.ShowsProperty (realText env.props) q.1 q.2 (p.toJson env.props) (p.toXml env.props)) ∧
      ∀ name format, ∃ out, report Abi.windows env format name rs = .ok out := by
  have hmade := (C46_made_iff Abi.windows (Or.inr rfl) env list hl depth file io ho objs h hd hp).2 (fun v hv => by
    unfold Passes
    split
    · intro hvba
      rw [hm v hv] at hvba
      cases hvba
    · rename_i hs
      split
      · rename_i hn
        obtain ⟨c, hc, h32, hps, hg⟩ := hprop v hv (by simpa using hs) hn
        obtain ⟨ps, hps, _⟩ := C58_partial Abi.windows env.props c _ h32 hps hg
        rcases parse_of_read hc hps with h | ⟨_, h⟩
        · exact Or.inl ⟨_, h⟩
        · exact Or.inl ⟨_, h⟩
      · intro t ht hk hi
        obtain ⟨h1, h2, h3, h4⟩ := hdoc v hv t ht hk
        obtain ⟨c, hc, hle⟩ := h3 hi
        exact ⟨c, hc, hle, h4, fun h => absurd h h1⟩)
  obtain ⟨rs, hrs⟩ := hmade
  have hreport := fun name => C77_windows_iff env list hl depth file io ho objs h hd hunits hp rs hrs name
  rw [show text b!"/" = [47] from rfl] at *
  have hg := hrs
  rw [guess_eq _ (Or.inr rfl) env list hl depth file io ho objs h hd hp] at hg
  obtain ⟨xs, hxs, hg⟩ := bind_eq_ok hg
  injection hg with hg
  have hpw := mapRes_pointwise hxs
  generalize hst : (St.pushPath {} [47]).afterAll Abi.windows xs (objs.visits [47]) = st at hg
  obtain ⟨hpaths, hres⟩ := afterAll_paths Abi.windows _ xs (St.pushPath {} [47]) (pointwise_length hpw)
  obtain ⟨_, _, hgroups⟩ := afterAll_groups hpw (St.pushPath {} [47]) (by intro g hg; cases hg)
  rw [hst] at hpaths hres hgroups
  have hsay := results_say hpw hm (fun v hv t ht hk => ⟨(hdoc v hv t ht hk).1, (hdoc v hv t ht hk).2.1⟩)
  have hres : st.results = (xs.map (·.1)).flatten := by rw [hres]; rfl
  rw [← hres] at hsay
  have hlen := pointwise_length hsay
  have hole : ∀ r ∈ rs, ∃ e x, r = .ole e x := by
    have : ∀ {vs : List Visit} {l : List Result}, Pointwise (Says io) vs l → ∀ r ∈ l, ∃ e x, r = .ole e x := by
      intro vs l h
      induction h with
      | nil => simp
      | @cons v r vs l hv _ ih =>
        intro r' hr'
        rcases List.mem_cons.1 hr' with rfl | hr'
        · obtain ⟨_, _, _, e, x, _, _, h, _⟩ := hv
          exact ⟨_, x, h⟩
        · exact ih r' hr'
    have hall := this hsay
    rw [← hg]
    unfold finish
    dsimp only
    split
    · intro r hr
      rw [List.mem_singleton] at hr
      exact ⟨_, _, hr⟩
    · cases hr0 : st.results with
      | nil => intro r hr; cases hr
      | cons r0 rest =>
        rw [hr0] at hall
        obtain ⟨e, y, rfl⟩ := hall r0 (by simp)
        intro r hr
        rcases List.mem_cons.1 hr with rfl | hr
        · exact ⟨_, _, rfl⟩
        · exact hall r (by simp [hr])
  refine ⟨rs, ⟨st.paths, st.properties⟩, hrs, fun hnil => ?_, fun hne => ?_, by rw [hpaths]; rfl, fun v hv hs hn => ?_,
    fun name format => ?_⟩
  · rw [hnil, List.length_nil] at hlen
    rw [← hg, finish, if_pos hlen]
    rfl
  · rw [← hg, finish, if_neg (by rw [hlen]; exact fun h => hne (List.length_eq_zero_iff.1 h))]
    cases hr : st.results with
    | nil => rw [hr] at hlen; exact absurd (List.length_eq_zero_iff.1 hlen.symm) hne
    | cons r rest =>
      rw [hr] at hsay
      generalize (objs.visits [47]).filter Visit.showsType = vs at hsay
      cases hsay with
      | @cons v _ vs _ hv hrest =>
        obtain ⟨t, ht, hk, e, y, c, u, rfl, h1, h2, h3⟩ := hv
        exact ⟨.cons ⟨t, ht, hk, e, _, c, u, rfl, h1, h2, h3⟩ hrest, _, rest, rfl⟩
  · obtain ⟨c, hc, h32, hps, hg'⟩ := hprop v hv hs hn
    obtain ⟨ps, hps', hall⟩ := C58_partial Abi.windows env.props c _ h32 hps hg'
    rcases parse_of_read hc hps' with h | ⟨rfl, _⟩
    · exact ⟨ps, hgroups v hv hs hn ps h, hall⟩
    · have := hps.1.length_le
      simp at this
  · obtain ⟨h1, h2⟩ := hreport name
    cases format with
    | text => exact (C77_text_partial Abi.windows env name rs).1
    | csv => exact (C77_text_partial Abi.windows env name rs).2
    | json =>
      exact h1.2 fun r hr => by
        obtain ⟨e, x, rfl⟩ := hole r hr
        exact ⟨fun _ h => (by cases h), fun _ _ h => (by cases h)⟩
    | xml =>
      exact h2.2 fun r hr => by
        obtain ⟨e, x, rfl⟩ := hole r hr
        exact ⟨fun _ h => (by cases h), fun _ _ h => (by cases h)⟩

/-- The hypotheses of `C46_made_iff`, `C77_windows_iff` and `C100_documents_partial` hold of the Binder document of
`Sample`: it is given one result, named as the table of document types names it, and every report of it is made. -/
theorem binder_shown (env : Env) : ∃ (rs : List Result) (x : Extra) (e : ExtInfo),
    Guess Abi.windows env table 2 (some (Sample.imageOf Sample.binderDir)) = .ok rs ∧
    rs = [.ole e x] ∧ e.Extension = b!"obd" ∧ e.Name = b!"Microsoft Office Binder" ∧
    x.paths = text b!"/" :: (Sample.binderObjects.visits (text b!"/")).map Visit.listed ∧
    ∀ name format, ∃ out, report Abi.windows env format name rs = .ok out := by
  have hunits : ∀ j, ∀ u ∈ entryName (Sample.ioOf Sample.binderDir Sample.binderTree).dirtree j, u < 65536 := fun j => by
    by_cases h : j < 4
    · have hcase : j = 0 ∨ j = 1 ∨ j = 2 ∨ j = 3 := by omega
      rcases hcase with rfl | rfl | rfl | rfl <;> decide
    · have : Sample.binderTree[j]? = none := List.getElem?_eq_none (by simp [Sample.binderTree]; omega)
      rw [show (Sample.ioOf Sample.binderDir Sample.binderTree).dirtree = Sample.binderTree from rfl, entryName, this]
      simp
  have hdoc : ∀ v ∈ [(⟨text b!"Sub", text b!"/Sub", true⟩ : Visit), ⟨text b!"a", text b!"/Sub/a", false⟩,
      ⟨text b!"Binder", text b!"/Binder", false⟩], ∀ t ∈ documentTypes, t.Known v.path →
      t.inspection = .nothing ∧ t.extension = b!"obd" ∧ t.name = b!"Microsoft Office Binder" := by decide +kernel
  obtain ⟨rs, x, h1, _, h4, h2, _, h3⟩ := C100_documents_partial env table (fun _ => Iff.rfl) 2 _
    (Sample.ioOf Sample.binderDir Sample.binderTree) Sample.binder_opens Sample.binderObjects Sample.binder_describes
    (by decide) hunits
    (fun v hv => Sample.plain_of_small (by rw [Sample.binder_visits] at hv; revert v; decide +kernel))
    (fun v hv => by rw [Sample.binder_visits] at hv; revert v; decide +kernel)
    (fun _ => [])
    (fun v hv hs hn => by
      exfalso
      rw [Sample.binder_visits] at hv
      revert v
      decide +kernel)
    (fun v hv t ht hk => by
      rw [Sample.binder_visits] at hv
      obtain ⟨hi, _⟩ := hdoc v hv t ht hk
      rw [hi]
      simp)
  have hf : (Sample.binderObjects.visits (text b!"/")).filter Visit.showsType =
      [⟨text b!"Binder", text b!"/Binder", false⟩] := by rw [Sample.binder_visits]; decide +kernel
  rw [hf] at h4
  obtain ⟨hs, e, rest, rfl⟩ := h4 (by simp)
  cases hs with
  | cons hs hrest =>
    cases hrest
    obtain ⟨t, ht, hk, e', x', c, u, he, _, _, hc⟩ := hs
    cases he
    obtain ⟨hi, h5, h6⟩ := hdoc _ (by simp) t ht hk
    unfold DocumentType.Tells at hc
    rw [hi] at hc
    subst hc
    exact ⟨_, x, _, h1, rfl, h5, h6, h2, h3⟩

end Fileid.Props
