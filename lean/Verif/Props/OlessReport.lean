import Verif.Props.Oless

/-!
# Reports about compound files (C77), and objects for which none is made (C46)
-/

namespace Fileid.Props

open Spec Spec.Ole Pole Oless Vba Common

/-! ## Loops -/

theorem convert_cases (abi : Abi) (l : List Nat) : (∃ t, Excel.convert abi l = .ok t) ∨ Excel.convert abi l = .throw .rangeError := by
  induction l with
  | nil => exact Or.inl ⟨_, rfl⟩
  | cons c l ih =>
    rw [Excel.convert]
    split
    · exact Or.inr rfl
    · split
      · exact Or.inr rfl
      · rcases ih with ⟨t, ht⟩ | h
        · rw [ht]; exact Or.inl ⟨_, rfl⟩
        · rw [h]; exact Or.inr rfl

theorem convert_big (abi : Abi) (l : List Nat) (h : ∃ u ∈ l, 0x10ffff < u) : Excel.convert abi l = .throw .rangeError := by
  induction l with
  | nil => simp at h
  | cons c l ih =>
    rw [Excel.convert]
    split
    · rfl
    · split
      · rfl
      · rename_i h1 _
        obtain ⟨u, hu, h2⟩ := h
        rcases List.mem_cons.1 hu with rfl | hu
        · exact absurd h2 h1
        · rw [ih ⟨u, hu, h2⟩]
          rfl

theorem convert_small (l : List Nat) (h : ∀ u ∈ l, u < 65536) : ∃ t, Excel.convert Abi.windows l = .ok t := by
  induction l with
  | nil => exact ⟨_, rfl⟩
  | cons c l ih =>
    have := h c (by simp)
    obtain ⟨t, ht⟩ := ih fun u hu => h u (by simp [hu])
    rw [Excel.convert, if_neg (by omega), if_neg (by simp [Abi.windows]), ht]
    exact ⟨_, rfl⟩

theorem mapRes_throw {α β : Type} {f : α → Res β} {x : Exc} (hf : ∀ a, (∃ b, f a = .ok b) ∨ f a = .throw x) {l : List α}
    {a : α} (ha : a ∈ l) (hx : f a = .throw x) : mapRes f l = .throw x := by
  induction l with
  | nil => simp at ha
  | cons c l ih =>
    rw [mapRes]
    rcases hf c with ⟨b, hb⟩ | h
    · rw [hb, Res.bind_ok]
      rcases List.mem_cons.1 ha with rfl | ha
      · rw [hb] at hx; cases hx
      · rw [ih ha]; rfl
    · rw [h]; rfl

theorem mapRes_ok {α β : Type} {f : α → Res β} (l : List α) (hf : ∀ a ∈ l, ∃ b, f a = .ok b) : ∃ bs, mapRes f l = .ok bs := by
  induction l with
  | nil => exact ⟨_, rfl⟩
  | cons c l ih =>
    obtain ⟨b, hb⟩ := hf c (by simp)
    obtain ⟨bs, hbs⟩ := ih fun a ha => hf a (by simp [ha])
    rw [mapRes, hb, Res.bind_ok, hbs]
    exact ⟨_, rfl⟩

theorem mapRes_get {α β : Type} {f : α → Res β} {l : List α} {bs : List β} (h : mapRes f l = .ok bs) {a : α} (ha : a ∈ l) :
    ∃ b ∈ bs, f a = .ok b := by
  induction l generalizing bs with
  | nil => simp at ha
  | cons c l ih =>
    rw [mapRes] at h
    obtain ⟨b, hb, h⟩ := bind_eq_ok h
    obtain ⟨bs', hbs, h⟩ := bind_eq_ok h
    cases h
    rcases List.mem_cons.1 ha with rfl | ha
    · exact ⟨b, by simp, hb⟩
    · obtain ⟨b', h1, h2⟩ := ih hbs ha
      exact ⟨b', by simp [h1], h2⟩

/-! ## C77 -/

/-- The formats whose report shows the paths. -/
theorem base_big (abi : Abi) (env : Env) (e : ExtInfo) (x : Extra)
    (h : ∃ p ∈ x.paths, ∃ u ∈ p.takeWhile (· ≠ 0), 0x10ffff < u) :
    baseJson abi env e x = .throw .rangeError ∧ baseXml abi env e x = .throw .rangeError := by
  obtain ⟨p, hp, hu⟩ := h
  have : mapRes (pathText abi) x.paths = .throw .rangeError :=
    mapRes_throw (fun a => convert_cases abi _) hp (convert_big abi _ hu)
  unfold baseJson baseXml
  rw [this]
  exact ⟨rfl, rfl⟩

/-- C77 is false on Linux: the JSON and XML reports of every compound file in which every name has two units or more,
such as ASCII texts (so that the first unit read is above 0x10ffff, see `C45_linux_false`), are not made; an exception
ends the program instead. -/
theorem C77_linux_false (env : Env) (list : List OlessInfo) (hl : ∀ i, i ∈ list ↔ i ∈ table) (depth : Nat) (file : File)
    (io : StorageIO) (ho : openStorage Abi.linux file = .ok (.opened io)) (objs : Objects)
    (h : Describes Abi.linux io.dirtree objs) (hd : objs.depth < depth) (hne : objs ≠ .nil)
    (hw : ∀ v ∈ objs.visits (text b!"/"), v.Plain ∧ ∃ u, v.name[0]? = some u ∧ 0x10ffff < u) (name : Bytes) :
    ∃ rs, Guess Abi.linux env list depth file = .ok rs ∧
      report Abi.linux env .json name rs = .throw .rangeError ∧
      report Abi.linux env .xml name rs = .throw .rangeError := by
  obtain ⟨x, hg, hx⟩ := C46_linux_false env list hl depth file io ho objs h hd (fun v hv => by
    obtain ⟨h1, u, h2, h3⟩ := hw v hv
    exact ⟨h1, u, List.mem_of_getElem? h2, by omega⟩)
  refine ⟨_, hg, ?_⟩
  have hb : ∃ p ∈ x.paths, ∃ u ∈ p.takeWhile (· ≠ 0), 0x10ffff < u := by
    have first : ∃ v ∈ objs.visits (text b!"/"), v.path = text b!"/" ++ v.name := by
      cases objs with
      | nil => exact absurd rfl hne
      | stream n rest => exact ⟨_, List.mem_cons_self, rfl⟩
      | storage n inside rest => exact ⟨_, List.mem_cons_self, rfl⟩
    obtain ⟨v, hv, hp⟩ := first
    obtain ⟨_, u, hu, h3⟩ := hw v hv
    refine ⟨v.listed, by rw [hx]; exact List.mem_cons_of_mem _ (List.mem_map_of_mem hv), u, ?_, h3⟩
    have : ∃ rest, v.listed = 47 :: u :: rest := by
      cases hn : v.name with
      | nil => rw [hn] at hu; simp at hu
      | cons a as =>
        rw [hn] at hu
        simp at hu
        subst hu
        unfold Visit.listed
        rw [hp, hn]
        split
        · exact ⟨as ++ text b!"/", rfl⟩
        · exact ⟨as, rfl⟩
    obtain ⟨rest, hr⟩ := this
    rw [hr, List.takeWhile_cons, if_pos (by decide), List.takeWhile_cons, if_pos (by simp; omega)]
    simp
  obtain ⟨h1, h2⟩ := base_big Abi.linux env { Extension := b!"oless", VersionName := b!"OLE Structured Storage" } x hb
  unfold report
  simp only [mapRes, Result.print, Result.toJson, Result.toXml, h1, h2, Res.bind_throw]
  exact ⟨trivial, trivial⟩

/-- C77: text and CSV reports are always made. -/
theorem C77_text_partial (abi : Abi) (env : Env) (name : Bytes) (rs : List Result) :
    (∃ out, report abi env .text name rs = .ok out) ∧ ∃ out, report abi env .csv name rs = .ok out := by
  constructor
  · obtain ⟨ts, h⟩ := mapRes_ok (f := fun r : Result => r.print abi env .text) rs (fun r _ => ⟨_, rfl⟩)
    unfold report
    rw [h]
    exact ⟨_, rfl⟩
  · obtain ⟨ts, h⟩ := mapRes_ok (f := fun r : Result => r.print abi env .csv) rs (fun r _ => ⟨_, rfl⟩)
    unfold report
    rw [h]
    exact ⟨_, rfl⟩

/-- Every unit of a visited path is a unit of a name or a slash. -/
theorem visits_units {isDir : Nat → Bool} {name : Nat → WStr} {kids : Nat → List Nat} {js : List Nat} {objs : Objects}
    (h : Holds isDir name kids js objs) (P : Nat → Prop) (hP : ∀ j, ∀ u ∈ name j, P u) (h47 : P 47) :
    ∀ dir, (∀ u ∈ dir, P u) → ∀ v ∈ objs.visits dir, ∀ u ∈ v.path, P u := by
  induction h with
  | nil => intro dir _ v hv; simp [Objects.visits] at hv
  | @stream j js rest _ _ ih =>
    intro dir hd v hv
    rw [Objects.visits, List.mem_cons] at hv
    rcases hv with rfl | hv
    · intro u hu
      rcases List.mem_append.1 hu with h | h
      · exact hd u h
      · exact hP j u h
    · exact ih dir hd v hv
  | @storage j js inside rest _ _ _ ih1 ih2 =>
    intro dir hd v hv
    have hd' : ∀ u ∈ dir ++ name j, P u := fun u hu => by
      rcases List.mem_append.1 hu with h | h
      · exact hd u h
      · exact hP j u h
    rw [Objects.visits, List.mem_cons, List.mem_append] at hv
    rcases hv with rfl | hv | hv
    · exact hd'
    · refine ih1 _ (fun u hu => ?_) v hv
      rcases List.mem_append.1 hu with h | h
      · exact hd' u h
      · simp [text] at h
        rw [h]
        exact h47
    · exact ih2 dir hd v hv

/-- The base of a report is made when all paths have 16-bit units and there are no properties. -/
theorem base_ok (env : Env) (e : ExtInfo) (x : Extra) (h : ∀ p ∈ x.paths, ∀ u ∈ p, u < 65536) (hp : x.properties = []) :
    (∃ out, baseJson Abi.windows env e x = .ok out) ∧ ∃ out, baseXml Abi.windows env e x = .ok out := by
  have : ∃ ts, mapRes (pathText Abi.windows) x.paths = .ok ts := mapRes_ok _ fun p hp' =>
    convert_small _ fun u hu => h p hp' u ((List.takeWhile_prefix _).mem hu)
  obtain ⟨ts, hts⟩ := this
  unfold baseJson baseXml
  rw [hts, hp]
  exact ⟨⟨_, rfl⟩, ⟨_, rfl⟩⟩

/-- C77, on Windows: the report of a compound file without macros, property sets and markers whose content is looked
at is made in every format. Missing for the full property: those files, and Linux, where it is false. -/
theorem C77_windows_partial (env : Env) (list : List OlessInfo) (hl : ∀ i, i ∈ list ↔ i ∈ table) (depth : Nat)
    (file : File) (io : StorageIO) (ho : openStorage Abi.windows file = .ok (.opened io)) (objs : Objects)
    (h : Describes Abi.windows io.dirtree objs) (hd : objs.depth < depth) (hunits : ∀ j, ∀ u ∈ entryName io.dirtree j, u < 65536)
    (hp : ∀ v ∈ objs.visits (text b!"/"), v.Plain ∧ v.isVba = false ∧
      (v.isStorage = false → v.name ∉ propertyNames ∧ ∀ m ∈ markers, m.Tells v.path → m.looksInside = false))
    (name : Bytes) (format : OutputFormat) :
    ∃ rs out, Guess Abi.windows env list depth file = .ok rs ∧ report Abi.windows env format name rs = .ok out := by
  rw [show text b!"/" = [47] from rfl] at *
  have hvis := describes_visits (Or.inr rfl) h
  obtain ⟨st, hst, hprops, new, hres, hnew⟩ := walk_ok (env := env) (io := io) (fun i hi => (hl i).1 hi) _ (fun v hv => by
    obtain ⟨_, _, _, _, _, h5, _, _⟩ := hvis v hv
    exact ⟨h5, hp v hv⟩) (St.pushPath {} [47])
  obtain ⟨hpaths, _⟩ := walk_spec hl _ (fun v hv => by
    obtain ⟨_, _, _, _, _, h5, _, _⟩ := hvis v hv
    exact ⟨h5, (hp v hv).1⟩) _ _ hst
  have hg : Guess Abi.windows env list depth file = .ok (finish st) := by
    unfold Guess
    rw [ho, Res.bind_ok]
    dsimp only
    rw [recurse_spec (Or.inr rfl) h _ _ depth hd, hst]
    rfl
  refine ⟨finish st, ?_⟩
  have hpaths : st.paths = [47] :: (objs.visits [47]).map Visit.listed := by rw [hpaths]; rfl
  have hprops : st.properties = [] := by rw [hprops]; rfl
  have hres : st.results = new := by rw [hres]; rfl
  have hsmall : ∀ p ∈ st.paths, ∀ u ∈ p, u < 65536 := by
    obtain ⟨_, _, kids, _, hh, _⟩ := h
    have := visits_units hh (· < 65536) hunits (by omega) [47] (by simp)
    intro p hp u hu
    rw [hpaths] at hp
    rcases List.mem_cons.1 hp with rfl | hp
    · simp at hu; omega
    · obtain ⟨v, hv, rfl⟩ := List.mem_map.1 hp
      unfold Visit.listed at hu
      split at hu
      · rcases List.mem_append.1 hu with h | h
        · exact this v hv u h
        · simp [text] at h; omega
      · exact this v hv u hu
  have hall : ∀ r ∈ finish st, ∃ e x, r = .ole e x ∧ (∀ p ∈ x.paths, ∀ u ∈ p, u < 65536) ∧ x.properties = [] := by
    unfold finish
    dsimp only
    split
    · intro r hr
      rw [List.mem_singleton] at hr
      exact ⟨_, _, hr, hsmall, hprops⟩
    · rw [hres]
      cases new with
      | nil => intro r hr; cases hr
      | cons r0 rest =>
        obtain ⟨e, rfl⟩ := hnew r0 (by simp)
        intro r hr
        rcases List.mem_cons.1 hr with rfl | hr
        · exact ⟨_, _, rfl, hsmall, hprops⟩
        · obtain ⟨e', rfl⟩ := hnew r (by simp [hr])
          exact ⟨_, _, rfl, by simp, rfl⟩
  obtain ⟨ts, hts⟩ := mapRes_ok (f := fun r : Result => r.print Abi.windows env format) (finish st) (fun r hr => by
    obtain ⟨e, x, rfl, h1, h2⟩ := hall r hr
    obtain ⟨⟨o1, h3⟩, ⟨o2, h4⟩⟩ := base_ok env e x h1 h2
    cases format
    · exact ⟨_, rfl⟩
    · simp only [Result.print, Result.toJson, h3, Res.bind_ok]; exact ⟨_, rfl⟩
    · simp only [Result.print, Result.toXml, h4, Res.bind_ok]; exact ⟨_, rfl⟩
    · exact ⟨_, rfl⟩)
  unfold report
  rw [hts]
  exact ⟨_, hg, rfl⟩

/-- C77 is false of WordPerfect documents on both platforms: printing one in JSON or XML uses memory that no longer
exists. -/
theorem C77_wordperfect_false (abi : Abi) (env : Env) (name : Bytes) (e : ExtInfo) (rest : List Result) :
    report abi env .json name (.wp e :: rest) = .ub .dangling ∧ report abi env .xml name (.wp e :: rest) = .ub .dangling :=
  ⟨rfl, rfl⟩

theorem vectorJoin_occurs (t : Bytes) (sep : Bytes) : ∀ (l : List Bytes), t ∈ l → Occurs t (vectorJoin l sep) := by
  have : ∀ (l : List Bytes) first, t ∈ l → ∃ a b, vectorJoinLoop sep false first l = a ++ t ++ b := by
    intro l
    induction l with
    | nil => intro _ h; cases h
    | cons x l ih =>
      intro first h
      rw [vectorJoinLoop]
      simp only [Bool.false_eq_true, if_false]
      rcases List.mem_cons.1 h with rfl | h
      · exact ⟨if first then [] else sep, vectorJoinLoop sep false false l, rfl⟩
      · obtain ⟨a, b, h⟩ := ih false h
        rw [h]
        exact ⟨(if first then [] else sep) ++ x ++ a, b, by simp⟩
  intro l h
  obtain ⟨a, b, h⟩ := this l true h
  exact ⟨a.length, a, b, by unfold vectorJoin; rw [h], rfl⟩

theorem occurs_append {t c : Bytes} (a b : Bytes) (h : Occurs t c) : Occurs t (a ++ c ++ b) := by
  obtain ⟨off, pre, post, h1, h2⟩ := h
  exact ⟨a.length + off, a ++ pre, post ++ b, by rw [h1]; simp, by simp [h2]⟩

/-- C77: a JSON report shows every path, as the escaped UTF-8 text of its units up to the first null. -/
theorem C77_json_paths (abi : Abi) (env : Env) (e : ExtInfo) (x : Extra) (out : Bytes)
    (h : (Result.ole e x).toJson abi env = .ok out) :
    ∀ p ∈ x.paths, ∃ t, Excel.convert abi (p.takeWhile (· ≠ 0)) = .ok t ∧ Occurs (b!"\"" ++ JsonEscape t ++ b!"\"") out := by
  intro p hp
  unfold Result.toJson at h
  obtain ⟨b, hb, h⟩ := bind_eq_ok h
  cases h
  unfold baseJson at hb
  obtain ⟨ts, hts, hb⟩ := bind_eq_ok hb
  obtain ⟨gs, _, hb⟩ := bind_eq_ok hb
  cases hb
  obtain ⟨t, ht, hc⟩ := mapRes_get hts hp
  refine ⟨t, hc, ?_⟩
  have hlen : x.paths.length > 0 := List.length_pos_of_mem hp
  rw [if_pos hlen]
  have := vectorJoin_occurs (b!"\"" ++ JsonEscape t ++ b!"\"") b!","
    (ts.map fun p => b!"\"" ++ JsonEscape p ++ b!"\"") (List.mem_map_of_mem (f := fun p => b!"\"" ++ JsonEscape p ++ b!"\"") ht)
  have := occurs_append (b!"{" ++ e.buildBaseJson ++ b!", \"Paths\": [")
    (b!"]" ++ (if x.properties.length > 0 then b!",\"properties\": [" ++ vectorJoin gs b!"," ++ b!"]" else []) ++ b!"}") this
  simpa only [List.append_assoc] using this

/-! ## C46: objects for which no result is made -/

/-- C46 is false: a storage with one of the names of VBA projects in which there is no project makes the program use a
version number it never read. -/
theorem C46_no_project_false (abi : Abi) (env : Env) (list : List OlessInfo) (io : StorageIO) (st : St) (v : Visit)
    (hd : io.isDirectory abi v.path = .ok true) (hv : v.isStorage = true) (hvba : v.isVba = true)
    (hnone : entryIdx abi io.dirtree (v.path ++ text b!"/VBA/_VBA_PROJECT") = .ok none) :
    guessStreamInfo abi env list io st v.name v.path = .ub .uninit := by
  have hs : io.streamIO abi (v.path ++ wide b!"/VBA/_VBA_PROJECT") = .ok none :=
    (C76_no_stream abi io _ none hnone (fun i h => nomatch h)).2
  have ha : Analyze abi io v.path = .ub .uninit := by
    unfold Analyze
    rw [hs]
    rfl
  unfold guessStreamInfo
  rw [hd, Res.bind_ok, if_pos rfl, isVba_iff v hv, if_pos hvba, ha]
  rfl

/-- C46 is false: for a workbook stream without content the program uses a version number it never read. -/
theorem C46_empty_workbook_false (abi : Abi) (env : Env) (hf : 0 < env.fuel) (io : StorageIO) (st : St)
    (hd : io.isDirectory abi (text b!"/Workbook") = .ok false) (hr : ReadStream abi io (text b!"/Workbook") = .ok []) :
    guessStreamInfo abi env table io st (text b!"Workbook") (text b!"/Workbook") = .ub .uninit := by
  have hx : Excel.Detailer abi env.fmt env.what env.fuel [] = .ub .uninit := by
    cases h : env.fuel with
    | zero => omega
    | succ n => rfl
  have he : ∀ i ∈ table, i.isMatch (text b!"/Workbook") = true → i.extraFunc = .excel := by decide +kernel
  have hm : ∃ i ∈ table, i.isMatch (text b!"/Workbook") = true := by decide +kernel
  have loop : ∀ list : List OlessInfo, (∀ i ∈ list, i.isMatch (text b!"/Workbook") = true → i.extraFunc = .excel) →
      (∃ i ∈ list, i.isMatch (text b!"/Workbook") = true) → ∀ ei, tableLoop abi env io (text b!"/Workbook") list ei = .ub .uninit := by
    intro list
    induction list with
    | nil => intro _ h; simp at h
    | cons i rest ih =>
      intro h1 h2 ei
      rw [tableLoop]
      split
      · rename_i hmat
        have := h1 i (by simp) hmat
        unfold entryResult
        rw [this, if_neg (by decide), hr, Res.bind_ok]
        simp only [detail, hx]
        rfl
      · rename_i hmat
        refine ih (fun j hj => h1 j (by simp [hj])) ?_ ei
        obtain ⟨j, hj, h3⟩ := h2
        rcases List.mem_cons.1 hj with rfl | hj
        · exact absurd h3 hmat
        · exact ⟨j, hj, h3⟩
  unfold guessStreamInfo
  rw [hd, Res.bind_ok, if_neg (by simp), if_neg (by decide), loop table he hm]
  rfl

end Fileid.Props
