import Verif.Lemmas.PoleQuickOpen
import Verif.Props.Book
import Verif.Props.Documents

/-!
# C102: the report about a compound file with documents, workbooks and macros
-/

namespace Fileid.Props

open Common Spec Spec.Biff Spec.Report Spec.Ole Excel Oless Pole Vba Report

/-- The object gives a result. -/
def _root_.Fileid.Spec.Ole.Visit.counts (v : Visit) : Bool := v.isVba || v.showsType

/-- What is told of the macros in a storage: what was read of them, or that reading them ended with an exception. -/
def MacrosTold (env : Env) (io : StorageIO) (v : Visit) (i : VbaInfo) : Prop :=
  Analyze Abi.windows io v.path = .ok i ∨ ∃ x, Analyze Abi.windows io v.path = .throw x ∧
    i = { ({} : VbaInfo) with ProjectName := env.sliced x, base := { ({} : VbaInfo).base with SubType := b!"ERROR" } }

/-- What a JSON report shows for an object that gives a result and carries the paths and properties `x`. -/
inductive ObjectShown (env : Env) (io : StorageIO) (books : List Nat → Workbook) (v : Visit) (x : Extra) : JVal → Prop
  | macros {i : VbaInfo} : v.isVba = true → MacrosTold env io v i →
      ObjectShown env io books v x (.obj (identity i.base ++ projectMembers i))
  | document {t : DocumentType} {c : Card} {content user : Bytes} {ms : List (Bytes × JVal)} : v.isVba = false →
      t ∈ documentTypes → t.Known v.path →
      (t.inspection ≠ .nothing → ReadStream Abi.windows io v.path = .ok content) →
      (t.inspection = .presentation → ReadStream Abi.windows io (text b!"/Current User") = .ok user) →
      t.Tells user content c → Carried env.props.real x.paths x.properties ms →
      ObjectShown env io books v x (.obj (identity c.info ++ ms))
  | workbook {t : DocumentType} {content : Bytes} {ms ws : List (Bytes × JVal)} : v.isVba = false →
      t ∈ documentTypes → t.Known v.path → t.inspection = .workbook → ReadStream Abi.windows io v.path = .ok content →
      (books v.path).Stored env.fmt.f64 True content → (books v.path).Shown env.fmt.f64 True ws → Carried env.props.real x.paths x.properties ms →
      ObjectShown env io books v x (.obj (identity biff8 ++ ms ++ ws))

/-- What the objects that give results carry of the paths and properties `x` of the file: the first that is not macros
carries all of it. -/
def carriers (x : Extra) : List Visit → List (Visit × Extra)
  | [] => []
  | v :: vs => if v.isVba then (v, {}) :: carriers x vs else (v, x) :: vs.map fun v => (v, {})

/-- What is known of the result for an object. -/
inductive ObjectItem (env : Env) (io : StorageIO) (books : List Nat → Workbook) (v : Visit) (x : Extra) : Result → Prop
  | macros {i : VbaInfo} : v.isVba = true → MacrosTold env io v i → ClearProject i → ObjectItem env io books v x (.vba i)
  | document {t : DocumentType} {c : Card} {content user : Bytes} : v.isVba = false → t ∈ documentTypes → t.Known v.path →
      (t.inspection ≠ .nothing → ReadStream Abi.windows io v.path = .ok content) →
      (t.inspection = .presentation → ReadStream Abi.windows io (text b!"/Current User") = .ok user) →
      t.Tells user content c → ObjectItem env io books v x (.ole c.info x)
  | workbook {t : DocumentType} {content : Bytes} {i : ExcelInfo} : v.isVba = false →
      t ∈ documentTypes → t.Known v.path → t.inspection = .workbook → ReadStream Abi.windows io v.path = .ok content →
      (books v.path).Stored env.fmt.f64 True content → BookMade Abi.windows env.fmt env.fuel (books v.path) i → ObjectItem env io books v x (.excel i x)

/-- What is asked of an object. -/
structure Readable (env : Env) (io : StorageIO) (books : List Nat → Workbook) (v : Visit) : Prop where
  macros : v.isVba = true → ∃ i, MacrosTold env io v i ∧ ClearProject i
  documents : ∀ t ∈ documentTypes, t.Known v.path → t.inspection ≠ .wordPerfect ∧
    (t.inspection = .workbook → ∃ content, ReadStream Abi.windows io v.path = .ok content ∧
      (books v.path).Stored env.fmt.f64 True content ∧ (books v.path).records.length < env.fuel)

theorem stored_made {env : Env} {w : Workbook} {content : Bytes} (h : w.Stored env.fmt.f64 True content)
    (hfuel : w.records.length < env.fuel ∧ 2 ^ 16 ≤ env.fuel) :
    ∃ i, Excel.Detailer Abi.windows env.fmt env.what env.fuel content = .ok i ∧ BookMade Abi.windows env.fmt env.fuel w i := by
  obtain ⟨tail, rfl, ht⟩ := h.bytes
  have hr : ∀ r ∈ w.records, ∃ v, Entry env.fmt.f64 (Abi.windows.wcharBytes = 2) w.definedNames r v := by
    intro r hr
    rw [show (Abi.windows.wcharBytes = 2) = True from eq_true rfl]
    exact h.entries r hr
  refine book_made h.valid (fun d hd => Or.inr rfl) (fun r h => by obtain ⟨v, hv⟩ := hr r h; exact entry_whole hv)
    (fun r h q hq => ?_) h.cells (fun r h => by
      obtain ⟨v, hv⟩ := hr r (List.mem_cons_of_mem _ (List.mem_append_left _ h))
      exact entry_label hv) h.size ht hfuel
  obtain ⟨v, hv⟩ := hr r (List.mem_cons_of_mem _ h)
  obtain ⟨⟨_, h2, h3⟩, _⟩ := entry_prints hv hfuel.2 hq
  rw [h2, h3]

theorem look_item {env : Env} {io : StorageIO} {books : List Nat → Workbook} {v : Visit} {x : List Result × List (WStr × List Propset.Property)}
    (h : look Abi.windows env io v = .ok x) (hr : Readable env io books v) (hfuel : 2 ^ 16 ≤ env.fuel) :
    (v.counts = false ∧ x.1 = []) ∨ (v.counts = true ∧ ∃ r, x.1 = [r] ∧ ObjectItem env io books v {} r) := by
  unfold Visit.counts
  by_cases hm : v.isVba = true
  · refine Or.inr ⟨by rw [hm]; rfl, ?_⟩
    have hs : v.isStorage = true := by
      unfold Visit.isVba at hm
      simp only [Bool.and_eq_true] at hm
      exact hm.1
    unfold look at h
    rw [if_pos hs, if_pos hm] at h
    obtain ⟨r, hv, h⟩ := bind_eq_ok h
    cases h
    obtain ⟨i, ht, hc⟩ := hr.macros hm
    have : r = .vba i := by
      rcases ht with ht | ⟨e, ht, rfl⟩ <;> rw [ht] at hv <;> cases hv <;> rfl
    subst this
    exact ⟨_, rfl, .macros hm ht hc⟩
  · have hm : v.isVba = false := by simpa using hm
    rw [hm, Bool.false_or]
    by_cases hw : ∃ t ∈ documentTypes, t.Known v.path ∧ t.inspection = .workbook
    · obtain ⟨t, ht, hk, hi⟩ := hw
      unfold Visit.showsType
      unfold look at h
      split at h
      · rename_i hs
        cases h
        exact Or.inl ⟨by simp [hs], rfl⟩
      · rename_i hs
        have hs : v.isStorage = false := by simpa using hs
        split at h
        · rename_i hn
          refine Or.inl ⟨by simp [hn], ?_⟩
          split at h <;> first | (cases h; done) | (cases h; rfl)
        · rename_i hn
          rw [find_known types_exclusive ht hk] at h
          obtain ⟨r, hr', h⟩ := bind_eq_ok h
          cases h
          refine Or.inr ⟨?_, r, rfl, ?_⟩
          · rw [hs, Bool.and_eq_true, List.any_eq_true]
            exact ⟨by simp [hn], t, ht, by simpa using hk⟩
          · obtain ⟨content, hc, hst, hf⟩ := (hr.documents t ht hk).2 hi
            obtain ⟨i, hd, hb⟩ := stored_made hst ⟨hf, hfuel⟩
            unfold entryResult at hr'
            dsimp only at hr'
            rw [if_neg (by show funcOf t.inspection ≠ _; rw [hi]; decide),
              show (infoOf t).extraFunc = funcOf t.inspection from rfl, hi, hc, Res.bind_ok] at hr'
            unfold funcOf detail at hr'
            dsimp only at hr'
            rw [hd] at hr'
            cases hr'
            exact .workbook hm ht hk hi hc hst hb
    · rcases look_says h hm (fun t ht hk => ⟨fun hi => hw ⟨t, ht, hk, hi⟩, (hr.documents t ht hk).1⟩) with
        h | ⟨h, r, hr, t, ht, hk, c, y, content, user, rfl, h1, h2, h3⟩
      · exact Or.inl h
      · refine Or.inr ⟨h, _, hr, ?_⟩
        have hy := look_extra ‹look _ _ _ _ = _› _ (by rw [hr]; exact List.mem_singleton_self _)
        unfold addedTo at hy
        dsimp only at hy
        subst hy
        exact .document hm ht hk h1 h2 h3

theorem results_items {env : Env} {io : StorageIO} {books : List Nat → Workbook} {vs : List Visit}
    {xs : List (List Result × List (WStr × List Propset.Property))}
    (h : Pointwise (fun v x => look Abi.windows env io v = .ok x) vs xs) (hr : ∀ v ∈ vs, Readable env io books v)
    (hfuel : 2 ^ 16 ≤ env.fuel) :
    Pointwise (fun v r => ObjectItem env io books v {} r) (vs.filter Visit.counts) (xs.map (·.1)).flatten := by
  induction h with
  | nil => exact .nil
  | @cons v x vs xs hx _ ih =>
    have ih := ih (fun v h => hr v (by simp [h]))
    rcases look_item hx (hr v (by simp)) hfuel with ⟨h1, h2⟩ | ⟨h1, r, h2, h3⟩
    · rw [List.filter_cons, h1, List.map_cons, List.flatten_cons, h2]
      exact ih
    · rw [List.filter_cons, h1, List.map_cons, List.flatten_cons, h2]
      exact .cons h3 ih

theorem giveExtra_items {env : Env} {io : StorageIO} {books : List Nat → Workbook} (x : Extra) {vs : List Visit} {rs : List Result}
    (h : Pointwise (fun v r => ObjectItem env io books v {} r) vs rs) :
    Pointwise (fun p r => ObjectItem env io books p.1 p.2 r) (carriers x vs) (giveExtra x rs) := by
  have rest : ∀ {vs : List Visit} {rs : List Result}, Pointwise (fun v r => ObjectItem env io books v {} r) vs rs →
      Pointwise (fun p r => ObjectItem env io books p.1 p.2 r) (vs.map fun v => (v, ({} : Extra))) rs := by
    intro vs rs h
    induction h with
    | nil => exact .nil
    | cons h _ ih => exact .cons h ih
  induction h with
  | nil => exact .nil
  | @cons v r vs rs h ht ih =>
    rw [carriers]
    cases h with
    | macros h1 h2 h3 =>
      rw [if_pos h1, show ∀ i, giveExtra x (.vba i :: rs) = .vba i :: giveExtra x rs from fun _ => rfl]
      exact .cons (.macros h1 h2 h3) ih
    | document h1 h2 h3 h4 h5 h6 =>
      rw [if_neg (by simp [h1]), giveExtra]
      exact .cons (.document h1 h2 h3 h4 h5 h6) (rest ht)
    | workbook h1 h2 h3 h4 h5 h6 h7 =>
      rw [if_neg (by simp [h1]), giveExtra]
      exact .cons (.workbook h1 h2 h3 h4 h5 h6 h7) (rest ht)

/-- What is asked of what a result carries: it can be written as text, and real numbers are numbers. -/
structure WritableExtra (env : Env) (x : Extra) : Prop where
  paths : ∀ p ∈ x.paths, ∀ u ∈ p, u < 65536
  groups : ∀ g ∈ x.properties, ∀ u ∈ g.1, u < 65536
  numbers : ∀ g ∈ x.properties, ∀ p ∈ g.2, NumberReal env.props.real p

theorem item_json {env : Env} {io : StorageIO} {books : List Nat → Workbook} {v : Visit} {x : Extra} {r : Result} (h : ObjectItem env io books v x r)
    (hc : ClearInfo r.base) (hx : WritableExtra env x) (hfuel : 2 ^ 16 ≤ env.fuel) :
    ∃ t j, r.toJson Abi.windows env = .ok t ∧ JClosed t j ∧ ObjectShown env io books v x j := by
  cases h with
  | macros h1 h2 h3 => exact ⟨_, _, rfl, project_reads hc h3, .macros h1 h2⟩
  | @document t c content user h1 h2 h3 h4 h5 h6 =>
    obtain ⟨⟨b, hb⟩, _⟩ := base_made env c.info x hx.paths hx.groups
    obtain ⟨m, ms, paths, groups, rfl, g1, g2, g3⟩ := base_reads hc hx.numbers hb
    rw [List.append_assoc] at g1
    refine ⟨_, _, by unfold Result.toJson; dsimp only; rw [hb]; rfl, JClosed.of (jclosed_obj g1) rfl rfl,
      .document h1 h2 h3 h4 h5 h6 ⟨paths, groups, rfl, g2, g3⟩⟩
  | @workbook t content i h1 h2 h3 h4 h5 h6 h7 =>
    obtain ⟨⟨b, hb⟩, _⟩ := base_made env biff8 x hx.paths hx.groups
    obtain ⟨m, ms, paths, groups, rfl, g1, g2, g3⟩ := base_reads biff8_clear hx.numbers hb
    rw [List.append_assoc] at g1
    have hw : (Abi.windows.wcharBytes = 2) = True := eq_true rfl
    obtain ⟨e1, e2⟩ := made_json h7 h6.valid (fun d hd => (h6.names d hd).2) (by rw [hw]; exact h6.entries) hfuel
    obtain ⟨t, ht⟩ := e1 (membersText (m :: ms))
    obtain ⟨ws, e3, e4⟩ := e2 g1 ht
    rw [hw] at e4
    refine ⟨t, _, by unfold Result.toJson; dsimp only; rw [h7.base, hb, Res.bind_ok, ht], e3,
      .workbook h1 h2 h3 h4 h5 h6 e4 ⟨paths, groups, rfl, g2, g3⟩⟩

theorem report_of {abi : Abi} {env : Env} {α : Type} {as : List α} {S : α → JVal → Prop} {rs : List Result} {name : Bytes}
    (hn : 0 ∉ name) (h : Pointwise (fun a r => ∃ t j, r.toJson abi env = .ok t ∧ JClosed t j ∧ S a j) as rs) :
    ∃ t js, report abi env .json name rs = .ok t ∧
      jsonDocument t = some (JVal.obj [(b!"name", .text name), (b!"extensions", .arr js)]).events ∧ Pointwise S as js := by
  obtain ⟨ts, js, h1, h2, h3⟩ : ∃ ts js, mapRes (fun r => Result.print abi env r .json) rs = .ok ts ∧ Pointwise JClosed ts js ∧
      Pointwise S as js := by
    induction h with
    | nil => exact ⟨[], [], rfl, .nil, .nil⟩
    | cons h _ ih =>
      obtain ⟨t, j, h1, h2, h3⟩ := h
      obtain ⟨ts, js, g1, g2, g3⟩ := ih
      refine ⟨t :: ts, j :: js, ?_, .cons h2 g2, .cons h3 g3⟩
      rw [mapRes, show Result.print abi env _ .json = _ from h1, Res.bind_ok, g1]
      rfl
  refine ⟨_, js, by unfold report; rw [h1]; rfl, ?_, h3⟩
  obtain ⟨items, hi1, hi2, hi3⟩ : ∃ items : List (Common.Item × List JEvent),
      items.map (·.1) = ts.map (fun t => ⟨{}, t, t, t, t⟩) ∧ (∀ p ∈ items, DenotesJson p.1 p.2) ∧
      (items.map (·.2)).flatten = JVal.itemEvents js := by
    clear h1 h3 h
    induction h2 with
    | nil => exact ⟨[], rfl, fun p hp => absurd hp (by simp), rfl⟩
    | cons hc _ ih =>
      rename_i t v _ _ _
      obtain ⟨items, g1, g2, g3⟩ := ih
      refine ⟨(⟨{}, t, t, t, t⟩, v.events) :: items, by rw [List.map_cons, List.map_cons, g1], ?_, ?_⟩
      · intro p hp
        rcases List.mem_cons.1 hp with rfl | hp
        · exact denotes_of_closed hc
        · exact g2 p hp
      · rw [List.map_cons, List.flatten_cons, g3, JVal.itemEvents]
  have := C25_json_document_items name hn items hi2
  rw [hi1, hi3] at this
  rw [this]
  simp [JVal.events, JVal.memberEvents, JVal.text, chars]

theorem mem_carriers {x : Extra} {vs : List Visit} {p : Visit × Extra} (h : p ∈ carriers x vs) : p.2 = x ∨ p.2 = {} := by
  induction vs with
  | nil => cases h
  | cons v vs ih =>
    rw [carriers] at h
    split at h
    · rcases List.mem_cons.1 h with rfl | h
      · exact Or.inr rfl
      · exact ih h
    · rcases List.mem_cons.1 h with rfl | h
      · exact Or.inl rfl
      · obtain ⟨v, _, rfl⟩ := List.mem_map.1 h
        exact Or.inr rfl

theorem carriers_fst {x : Extra} {vs : List Visit} {p : Visit × Extra} (h : p ∈ carriers x vs) : p.1 ∈ vs := by
  induction vs with
  | nil => cases h
  | cons v vs ih =>
    rw [carriers] at h
    split at h
    · rcases List.mem_cons.1 h with rfl | h
      · simp
      · exact List.mem_cons_of_mem _ (ih h)
    · rcases List.mem_cons.1 h with rfl | h
      · simp
      · obtain ⟨v, hv, rfl⟩ := List.mem_map.1 h
        exact List.mem_cons_of_mem _ hv

/-- What is asked of a compound file with the objects `objs`: streams with property sets hold such sets (`sets`), of
properties that are read rightly (`Good`, C58); the streams that show the type of a document can be read and hold the
version, those of workbooks hold workbooks (`books`) whose records have entries (`Workbook.Stored`); macros are read or
reading them ends with an exception, and the names of their references need no escaping (C92). -/
structure ReadableFile (env : Env) (io : StorageIO) (objs : Objects) (sets : List Nat → List (Bytes × List Oleps.Prop_))
    (books : List Nat → Workbook) : Prop where
  props : ∀ v ∈ objs.visits (text b!"/"), v.isStorage = false → v.name ∈ propertyNames → ∃ content,
    ReadStream Abi.windows io v.path = .ok content ∧ content.length < 2 ^ 32 ∧
    Oleps.PropertyStream content (sets v.path) ∧ (∀ s ∈ sets v.path, ∀ p ∈ s.2, Good Abi.windows env.props p) ∧
    ∀ ps, parseProperties Abi.windows io v.path = .ok ps → ∀ p ∈ ps, NumberReal env.props.real p
  read : ∀ v ∈ objs.visits (text b!"/"), Readable env io books v
  docs : ∀ v ∈ objs.visits (text b!"/"), ∀ t ∈ documentTypes, t.Known v.path →
    (t.inspection ≠ .nothing → ∃ content, ReadStream Abi.windows io v.path = .ok content ∧
      LongEnough 4 t.inspection content) ∧
    (t.inspection = .presentation → ∃ user, ReadStream Abi.windows io (text b!"/Current User") = .ok user)

/-- The properties of all property sets are among those carried, under the paths of their streams. -/
def PropertiesTold (env : Env) (objs : Objects) (sets : List Nat → List (Bytes × List Oleps.Prop_)) (x : Extra) : Prop :=
  ∀ v ∈ objs.visits (text b!"/"), v.isStorage = false → v.name ∈ propertyNames → ∃ ps, (v.path, ps) ∈ x.properties ∧
    ps.length = (Oleps.allProperties (sets v.path)).length ∧
    ∀ (i : Nat) (q : Bytes × Oleps.Prop_), (Oleps.allProperties (sets v.path))[i]? = some q → ∃ p : Propset.Property,
      ps[i]? = some p ∧
      Oleps.ShowsProperty (realText env.props) q.1 q.2 (p.toJson env.props) (p.toXml env.props)

theorem guess_items (env : Env) (hfuel : 2 ^ 16 ≤ env.fuel) (list : List OlessInfo) (hl : ∀ i, i ∈ list ↔ i ∈ table) (depth : Nat)
    (file : File) (io : StorageIO) (ho : openStorage Abi.windows file = .ok (.opened io)) (objs : Objects)
    (h : Describes Abi.windows io.dirtree objs) (hd : objs.depth < depth)
    (hunits : ∀ j, ∀ u ∈ entryName io.dirtree j, u < 65536) (hp : ∀ v ∈ objs.visits (text b!"/"), v.Plain)
    (sets : List Nat → List (Bytes × List Oleps.Prop_)) (books : List Nat → Workbook) (hf : ReadableFile env io objs sets books) :
    ∃ rs x, Guess Abi.windows env list depth file = .ok rs ∧ (∀ r ∈ rs, ClearInfo r.base) ∧ WritableExtra env x ∧
      ((objs.visits (text b!"/")).filter Visit.counts = [] ∧ rs = [.ole newOle x] ∨
        (objs.visits (text b!"/")).filter Visit.counts ≠ [] ∧ Pointwise (fun p r => ObjectItem env io books p.1 p.2 r)
          (carriers x ((objs.visits (text b!"/")).filter Visit.counts)) rs) ∧
      x.paths = text b!"/" :: (objs.visits (text b!"/")).map Visit.listed ∧ PropertiesTold env objs sets x ∧
      ∀ g ∈ x.properties, parseProperties Abi.windows io g.1 = .ok g.2 ∧
        ∃ v ∈ objs.visits (text b!"/"), v.isStorage = false ∧ v.name ∈ propertyNames ∧ v.path = g.1 := by
  have hmade := (C46_made_iff Abi.windows (Or.inr rfl) env list hl depth file io ho objs h hd hp).2 (fun v hv => by
    unfold Passes
    split
    · intro hvba
      obtain ⟨i, ht, _⟩ := (hf.read v hv).macros hvba
      rcases ht with ht | ⟨x, hx, _⟩
      · exact Or.inl ⟨_, ht⟩
      · exact Or.inr ⟨_, hx⟩
    · rename_i hs
      split
      · rename_i hn
        obtain ⟨c, hc, h32, hps, hg, _⟩ := hf.props v hv (by simpa using hs) hn
        obtain ⟨ps, hps, _⟩ := C58_partial Abi.windows env.props c _ h32 hps hg
        rcases parse_of_read hc hps with h | ⟨_, h⟩
        · exact Or.inl ⟨_, h⟩
        · exact Or.inl ⟨_, h⟩
      · intro t ht hk hi
        obtain ⟨h3, h4⟩ := hf.docs v hv t ht hk
        obtain ⟨c, hc, hle⟩ := h3 hi
        refine ⟨c, hc, hle, h4, fun hwb => ?_⟩
        obtain ⟨c', hc', hst, hf⟩ := ((hf.read v hv).documents t ht hk).2 hwb
        rw [hc] at hc'
        cases hc'
        obtain ⟨i, hi, _⟩ := stored_made hst ⟨hf, hfuel⟩
        exact ⟨i, hi⟩)
  obtain ⟨rs, hrs⟩ := hmade
  have hclear := guess_made (fun i hi => (hl i).1 hi) hrs
  rw [show text b!"/" = [47] from rfl] at *
  have hg := hrs
  rw [guess_eq _ (Or.inr rfl) env list hl depth file io ho objs h hd hp] at hg
  obtain ⟨xs, hxs, hg⟩ := bind_eq_ok hg
  injection hg with hg
  have hpw := Oless.mapRes_pointwise hxs
  generalize hst : (St.pushPath {} [47]).afterAll Abi.windows xs (objs.visits [47]) = st at hg
  obtain ⟨hpaths, hres⟩ := afterAll_paths Abi.windows _ xs (St.pushPath {} [47]) (Oless.pointwise_length hpw)
  obtain ⟨hparsed, _, hgroups⟩ := afterAll_groups hpw (St.pushPath {} [47]) (by intro g hg; cases hg)
  have hsmall := visits_small h hunits
  have hkeys := afterAll_keys (fun p => (∀ u ∈ p, u < 65536) ∧ ∀ ps, parseProperties Abi.windows io p = .ok ps →
      ∀ q ∈ ps, NumberReal env.props.real q) hpw (fun v hv hs hn => ⟨(hsmall v hv).1, by
        obtain ⟨_, _, _, _, _, hnum⟩ := hf.props v hv hs hn
        exact hnum⟩) (St.pushPath {} [47]) (by intro g hg; cases hg)
  rw [hst] at hpaths hres hgroups hparsed hkeys
  have hitems := results_items hpw hf.read hfuel
  have hres : st.results = (xs.map (·.1)).flatten := by rw [hres]; rfl
  rw [← hres] at hitems
  have hlen := Oless.pointwise_length hitems
  have hpath : ∀ p ∈ st.paths, ∀ u ∈ p, u < 65536 := by
    rw [hpaths]
    intro p hp
    rcases List.mem_append.1 hp with hp | hp
    · have : p = [47] := by simpa [St.pushPath] using hp
      subst this
      simp
    · obtain ⟨v, hv, rfl⟩ := List.mem_map.1 hp
      exact (hsmall v hv).2
  have hwrite : WritableExtra env ⟨st.paths, st.properties⟩ :=
    ⟨hpath, fun g hg => (hkeys g hg).1, fun g hg => (hkeys g hg).2 _ (hparsed g hg)⟩
  have hprops : ∀ v ∈ objs.visits [47], v.isStorage = false → v.name ∈ propertyNames → ∃ ps, (v.path, ps) ∈ st.properties ∧
        ps.length = (Oleps.allProperties (sets v.path)).length ∧
        ∀ (i : Nat) (q : Bytes × Oleps.Prop_), (Oleps.allProperties (sets v.path))[i]? = some q → ∃ p : Propset.Property,
          ps[i]? = some p ∧
          Oleps.ShowsProperty (realText env.props) q.1 q.2 (p.toJson env.props) (p.toXml env.props) := by
    intro v hv hs hn
    obtain ⟨c, hc, h32, hps, hg', _⟩ := hf.props v hv hs hn
    obtain ⟨ps, hps', hall⟩ := C58_partial Abi.windows env.props c _ h32 hps hg'
    rcases parse_of_read hc hps' with h | ⟨rfl, _⟩
    · exact ⟨ps, hgroups v hv hs hn ps h, hall⟩
    · have := hps.1.length_le
      simp at this
  have hfrom := afterAll_keys (fun p => ∃ v ∈ objs.visits [47], v.isStorage = false ∧ v.name ∈ propertyNames ∧ v.path = p) hpw
    (fun v hv hs hn => ⟨v, hv, hs, hn, rfl⟩) (St.pushPath {} [47]) (by intro g hg; cases hg)
  rw [hst] at hfrom
  refine ⟨rs, ⟨st.paths, st.properties⟩, hrs, fun r hr => (hclear r hr).1, hwrite, ?_, hpaths, hprops,
    fun g hg => ⟨hparsed g hg, hfrom g hg⟩⟩
  by_cases hnil : (objs.visits [47]).filter Visit.counts = []
  · have hz : st.results.length = 0 := by rw [hlen, hnil]; rfl
    exact Or.inl ⟨hnil, by rw [← hg, finish, if_pos hz]⟩
  · have hz : ¬ st.results.length = 0 := by
      rw [hlen]
      intro h
      exact hnil (List.length_eq_zero_iff.1 h)
    have hrs' : rs = giveExtra ⟨st.paths, st.properties⟩ st.results := by
      rw [← hg, finish, if_neg hz]
    rw [hrs']
    exact Or.inr ⟨hnil, giveExtra_items ⟨st.paths, st.properties⟩ hitems⟩

theorem newOle_clear : ClearInfo newOle := by
  constructor <;> decide

theorem items_imp {env : Env} {io : StorageIO} {books : List Nat → Workbook} {S : Visit × Extra → Result → Prop}
    {as : List (Visit × Extra)} {rs : List Result} (h : Pointwise (fun p r => ObjectItem env io books p.1 p.2 r) as rs)
    (hc : ∀ r ∈ rs, ClearInfo r.base) (ha : ∀ p ∈ as, ∀ r, ObjectItem env io books p.1 p.2 r → ClearInfo r.base → S p r) :
    Pointwise S as rs := by
  induction h with
  | nil => exact .nil
  | cons h _ ih =>
    exact .cons (ha _ (by simp) _ h (hc _ (by simp))) (ih (fun r hr => hc r (by simp [hr])) fun p hp => ha p (by simp [hp]))

/-- C102 on Windows for JSON: for a compound file as described by `ReadableFile` a report is made; it is a JSON document
that shows under `extensions` one item for each object that gives a result, in the order of the walk: of macros what was
read of them, of documents their type and version, of workbooks all their sheets and records. The first that is not macros
has the paths of all objects and the properties of all property sets. Missing: WordPerfect documents (for which the
property is false, C77) and workbooks with other records. -/
theorem C102_json_partial (env : Env) (hfuel : 2 ^ 16 ≤ env.fuel) (list : List OlessInfo) (hl : ∀ i, i ∈ list ↔ i ∈ table) (depth : Nat)
    (file : File) (io : StorageIO) (ho : openStorage Abi.windows file = .ok (.opened io)) (objs : Objects)
    (h : Describes Abi.windows io.dirtree objs) (hd : objs.depth < depth)
    (hunits : ∀ j, ∀ u ∈ entryName io.dirtree j, u < 65536) (hp : ∀ v ∈ objs.visits (text b!"/"), v.Plain)
    (sets : List Nat → List (Bytes × List Oleps.Prop_)) (books : List Nat → Workbook) (hf : ReadableFile env io objs sets books)
    (name : Bytes) (hname : 0 ∉ name) :
    ∃ rs x t js, Guess Abi.windows env list depth file = .ok rs ∧ report Abi.windows env .json name rs = .ok t ∧
      jsonDocument t = some (JVal.obj [(b!"name", .text name), (b!"extensions", .arr js)]).events ∧
      ((objs.visits (text b!"/")).filter Visit.counts = [] → ∃ ms, Carried env.props.real x.paths x.properties ms ∧
        js = [.obj (identity { Extension := b!"oless", VersionName := b!"OLE Structured Storage" } ++ ms)]) ∧
      ((objs.visits (text b!"/")).filter Visit.counts ≠ [] →
        Pointwise (fun p j => ObjectShown env io books p.1 p.2 j) (carriers x ((objs.visits (text b!"/")).filter Visit.counts)) js) ∧
      x.paths = text b!"/" :: (objs.visits (text b!"/")).map Visit.listed ∧ PropertiesTold env objs sets x := by
  obtain ⟨rs, x, hrs, hclear, hwrite, hcase, hpaths, hprops, _⟩ :=
    guess_items env hfuel list hl depth file io ho objs h hd hunits hp sets books hf
  have hwrite0 : WritableExtra env {} := ⟨by simp, by simp, by simp⟩
  rcases hcase with ⟨hnil, rfl⟩ | ⟨hnil, hitems⟩
  · obtain ⟨⟨b, hb⟩, _⟩ := base_made env newOle x hwrite.paths hwrite.groups
    obtain ⟨m, ms, paths, groups, rfl, g1, g2, g3⟩ := base_reads newOle_clear hwrite.numbers hb
    rw [List.append_assoc] at g1
    have hjs : Result.toJson Abi.windows env (.ole newOle x) = .ok (objText (m :: ms)) := by
      unfold Result.toJson
      dsimp only
      rw [hb]
      rfl
    obtain ⟨t, js, h1, h2, h3⟩ := report_of (as := [()]) (S := fun _ j => ∃ ms,
        Carried env.props.real x.paths x.properties ms ∧ j = .obj (identity newOle ++ ms)) hname
      (.cons ⟨_, _, hjs, JClosed.of (jclosed_obj g1) rfl rfl, _, ⟨paths, groups, rfl, g2, g3⟩, rfl⟩ .nil)
    refine ⟨_, x, t, js, hrs, h1, h2, fun _ => ?_, fun h => absurd hnil h, hpaths, hprops⟩
    cases h3 with
    | cons h h' =>
      cases h'
      obtain ⟨ms, h, rfl⟩ := h
      exact ⟨ms, h, rfl⟩
  · obtain ⟨t, js, h1, h2, h3⟩ := report_of hname (items_imp hitems hclear fun p hp r hr hc => item_json hr hc (by
      rcases mem_carriers hp with h | h <;> rw [h] <;> assumption) hfuel)
    exact ⟨_, x, t, js, hrs, h1, h2, fun h => absurd h hnil, fun _ => h3, hpaths, hprops⟩

/-! ## XML -/

/-- What an XML report shows for an object that gives a result and carries the paths and properties `x`. -/
inductive ObjectShownX (env : Env) (io : StorageIO) (books : List Nat → Workbook) (v : Visit) (x : Extra) : XVal → Prop
  | macros {i : VbaInfo} {ps : List XVal} : v.isVba = true → MacrosTold env io v i → ProjectShownX i ps →
      ObjectShownX env io books v x (.elem b!"item" (identityX i.base ++ ps))
  | document {t : DocumentType} {c : Card} {content user : Bytes} {us : List XVal} : v.isVba = false →
      t ∈ documentTypes → t.Known v.path →
      (t.inspection ≠ .nothing → ReadStream Abi.windows io v.path = .ok content) →
      (t.inspection = .presentation → ReadStream Abi.windows io (text b!"/Current User") = .ok user) →
      t.Tells user content c → CarriedX env.props.real x.paths x.properties us →
      ObjectShownX env io books v x (.elem b!"item" (identityX c.info ++ us))
  | workbook {t : DocumentType} {content : Bytes} {us ws : List XVal} : v.isVba = false →
      t ∈ documentTypes → t.Known v.path → t.inspection = .workbook → ReadStream Abi.windows io v.path = .ok content →
      (books v.path).Stored env.fmt.f64 True content → (books v.path).ShownX env.fmt.f64 True ws → CarriedX env.props.real x.paths x.properties us →
      ObjectShownX env io books v x (.elem b!"item" (identityX biff8 ++ us ++ ws))

/-- What is asked of an object besides, so that it can be shown in XML: no text has a character that may not stand in
XML, and names of sheets have no angle brackets (C12). -/
structure LegalObject (env : Env) (io : StorageIO) (books : List Nat → Workbook) (v : Visit) : Prop where
  path : ∀ u ∈ v.listed.takeWhile (· ≠ 0), XmlUnit u
  macros : v.isVba = true → ∀ i, MacrosTold env io v i → LegalProject i
  properties : v.isStorage = false → v.name ∈ propertyNames → (∀ u ∈ v.path, XmlUnit u) ∧
    ∀ ps, parseProperties Abi.windows io v.path = .ok ps → ∀ p ∈ ps, ValueLegal env.props.real p
  books : ∀ t ∈ documentTypes, t.Known v.path → t.inspection = .workbook →
    (∀ r ∈ (books v.path).records, ∃ e, EntryX env.fmt.f64 True (books v.path).definedNames r e) ∧
    ∀ d ∈ declared (books v.path).globals, LegalText d.name.text ∧ 60 ∉ d.name.text ∧ 62 ∉ d.name.text

theorem item_xml {env : Env} {io : StorageIO} {books : List Nat → Workbook} {v : Visit} {x : Extra} {r : Result}
    (h : ObjectItem env io books v x r) (hc : ClearInfo r.base) (hx : WritableExtra env x) (hl : LegalExtra env.props.real x)
    (hv : LegalObject env io books v) (hfuel : 2 ^ 16 ≤ env.fuel) :
    ∃ t j, r.toXml Abi.windows env = .ok t ∧ XReads t [j] ∧ ObjectShownX env io books v x j := by
  cases h with
  | macros h1 h2 h3 =>
    obtain ⟨vs, g1, g2⟩ := projectX_reads hc h3 (hv.macros h1 _ h2)
    exact ⟨_, _, rfl, g1, .macros h1 h2 g2⟩
  | @document t c content user h1 h2 h3 h4 h5 h6 =>
    obtain ⟨_, ⟨b, hb⟩⟩ := base_made env c.info x hx.paths hx.groups
    obtain ⟨us, g1, g2⟩ := carriedX_reads hc hl.1 hl.2 hb
    refine ⟨_, _, by unfold Result.toXml; dsimp only; rw [hb]; rfl,
      XReads.of (xreads_elem (n := b!"item") (by decide) g1) (by simp [elemText]) rfl, .document h1 h2 h3 h4 h5 h6 g2⟩
  | @workbook t content i h1 h2 h3 h4 h5 h6 h7 =>
    obtain ⟨_, ⟨b, hb⟩⟩ := base_made env biff8 x hx.paths hx.groups
    obtain ⟨us, g1, g2⟩ := carriedX_reads biff8_clear hl.1 hl.2 hb
    have hw : (Abi.windows.wcharBytes = 2) = True := eq_true rfl
    obtain ⟨k1, k2⟩ := hv.books _ h2 h3 h4
    obtain ⟨e1, e2⟩ := made_xml h7 h6.valid k2 (by rw [hw]; exact k1) hfuel
    obtain ⟨t, ht⟩ := e1 b
    obtain ⟨ws, e3, e4⟩ := e2 g1 ht
    rw [hw] at e4
    refine ⟨t, _, by unfold Result.toXml; dsimp only; rw [h7.base, hb, Res.bind_ok, ht], e3,
      .workbook h1 h2 h3 h4 h5 h6 e4 g2⟩

theorem reportX_of {abi : Abi} {env : Env} {α : Type} {as : List α} {S : α → XVal → Prop} {rs : List Result} {name : Bytes}
    (hn : xmlLegal name = true) (h : Pointwise (fun a r => ∃ t j, r.toXml abi env = .ok t ∧ XReads t [j] ∧ S a j) as rs) :
    ∃ t n js, report abi env .xml name rs = .ok t ∧ ((∀ c ∈ name, c ≠ 60 ∧ c ≠ 62) → n = codes name) ∧
      xmlDocument t = some (XVal.elem b!"file" [.elem b!"name" [.chars n], .elem b!"extensions" js]).events ∧
      Pointwise S as js := by
  obtain ⟨ts, js, h1, h2, h3⟩ : ∃ ts js, mapRes (fun r => Result.print abi env r .xml) rs = .ok ts ∧
      Pointwise (fun t v => XReads t [v]) ts js ∧ Pointwise S as js := by
    induction h with
    | nil => exact ⟨[], [], rfl, .nil, .nil⟩
    | cons h _ ih =>
      obtain ⟨t, j, h1, h2, h3⟩ := h
      obtain ⟨ts, js, g1, g2, g3⟩ := ih
      refine ⟨t :: ts, j :: js, ?_, .cons h2 g2, .cons h3 g3⟩
      rw [mapRes, show Result.print abi env _ .xml = _ from h1, Res.bind_ok, g1]
      rfl
  refine ⟨Output .xml name b!"extensions" (ts.map fun t => ⟨{}, t, t, t, t⟩), _, js, by unfold report; rw [h1]; rfl, swapped_eq, ?_, h3⟩
  have hd := xmlDocument_elem (n := b!"file") (by decide) ((xreads_elem (n := b!"name") (by decide) (xreads_escape hn)).append
    (xreads_elem (n := b!"extensions") (by decide) (xreads_flatten h2)))
  have e : elemText b!"file" (elemText b!"name" (XmlEscape name) ++ elemText b!"extensions" ts.flatten) =
      Output .xml name b!"extensions" (ts.map fun t => ⟨{}, t, t, t, t⟩) := by
    rw [Output]
    simp [elemText, List.map_map, Function.comp_def]
  rw [e] at hd
  exact hd

/-- C102 on Windows for XML: the same, when no text has a character that may not stand in XML (`LegalObject`). -/
theorem C102_xml_partial (env : Env) (hfuel : 2 ^ 16 ≤ env.fuel) (list : List OlessInfo) (hl : ∀ i, i ∈ list ↔ i ∈ table) (depth : Nat)
    (file : File) (io : StorageIO) (ho : openStorage Abi.windows file = .ok (.opened io)) (objs : Objects)
    (h : Describes Abi.windows io.dirtree objs) (hd : objs.depth < depth)
    (hunits : ∀ j, ∀ u ∈ entryName io.dirtree j, u < 65536) (hp : ∀ v ∈ objs.visits (text b!"/"), v.Plain)
    (sets : List Nat → List (Bytes × List Oleps.Prop_)) (books : List Nat → Workbook) (hf : ReadableFile env io objs sets books)
    (hlegal : ∀ v ∈ objs.visits (text b!"/"), LegalObject env io books v)
    (name : Bytes) (hname : ∀ c ∈ name, XmlUnit c.toNat ∧ c ≠ 60 ∧ c ≠ 62) :
    ∃ rs x t js, Guess Abi.windows env list depth file = .ok rs ∧ report Abi.windows env .xml name rs = .ok t ∧
      xmlDocument t = some (XVal.elem b!"file" [.leaf b!"name" name, .elem b!"extensions" js]).events ∧
      ((objs.visits (text b!"/")).filter Visit.counts = [] → ∃ us, CarriedX env.props.real x.paths x.properties us ∧
        js = [.elem b!"item" (identityX { Extension := b!"oless", VersionName := b!"OLE Structured Storage" } ++ us)]) ∧
      ((objs.visits (text b!"/")).filter Visit.counts ≠ [] →
        Pointwise (fun p j => ObjectShownX env io books p.1 p.2 j) (carriers x ((objs.visits (text b!"/")).filter Visit.counts)) js) ∧
      x.paths = text b!"/" :: (objs.visits (text b!"/")).map Visit.listed ∧ PropertiesTold env objs sets x := by
  obtain ⟨rs, x, hrs, hclear, hwrite, hcase, hpaths, hprops, hfrom⟩ :=
    guess_items env hfuel list hl depth file io ho objs h hd hunits hp sets books hf
  have hwrite0 : WritableExtra env {} := ⟨by simp, by simp, by simp⟩
  have hlx0 : LegalExtra env.props.real {} := ⟨by simp, by simp⟩
  have hlx : LegalExtra env.props.real x := by
    refine ⟨?_, fun g hg => ?_⟩
    · rw [hpaths]
      intro p hp
      rcases List.mem_cons.1 hp with rfl | hp
      · unfold XmlUnit
        decide
      · obtain ⟨v, hv, rfl⟩ := List.mem_map.1 hp
        exact (hlegal v hv).path
    · obtain ⟨h1, v, hv, hs, hn, he⟩ := hfrom g hg
      obtain ⟨h2, h3⟩ := (hlegal v hv).properties hs hn
      rw [he] at h2 h3
      exact ⟨h2, h3 _ h1⟩
  have hn : xmlLegal name = true := LegalText.legal fun c hc => (hname c hc).1
  have hcodes : ∀ c ∈ name, c ≠ 60 ∧ c ≠ 62 := fun c hc => (hname c hc).2
  rcases hcase with ⟨hnil, rfl⟩ | ⟨hnil, hitems⟩
  · obtain ⟨_, ⟨b, hb⟩⟩ := base_made env newOle x hwrite.paths hwrite.groups
    obtain ⟨us, g1, g2⟩ := carriedX_reads newOle_clear hlx.1 hlx.2 hb
    have hjs : Result.toXml Abi.windows env (.ole newOle x) = .ok (elemText b!"item" b) := by
      unfold Result.toXml
      dsimp only
      rw [hb]
      simp [elemText, Res.bind_ok]
    obtain ⟨t, n, js, h1, h0, h2, h3⟩ := reportX_of (as := [()]) (S := fun _ j => ∃ us,
        CarriedX env.props.real x.paths x.properties us ∧ j = .elem b!"item" (identityX newOle ++ us)) hn
      (.cons ⟨_, _, hjs, xreads_elem (n := b!"item") (by decide) g1, _, g2, rfl⟩ .nil)
    rw [h0 hcodes] at h2
    refine ⟨_, x, t, js, hrs, h1, h2, fun _ => ?_, fun h => absurd hnil h, hpaths, hprops⟩
    cases h3 with
    | cons h h' =>
      cases h'
      obtain ⟨ms, h, rfl⟩ := h
      exact ⟨ms, h, rfl⟩
  · have hvs : ∀ p ∈ carriers x ((objs.visits (text b!"/")).filter Visit.counts), p.1 ∈ objs.visits (text b!"/") := by
      intro p hp
      exact (List.mem_filter.1 (carriers_fst hp)).1
    obtain ⟨t, n, js, h1, h0, h2, h3⟩ := reportX_of hn (items_imp hitems hclear fun p hp r hr hc => item_xml hr hc (by
      rcases mem_carriers hp with h | h <;> rw [h] <;> assumption) (by
      rcases mem_carriers hp with h | h <;> rw [h] <;> assumption) (hlegal _ (hvs p hp)) hfuel)
    rw [h0 hcodes] at h2
    exact ⟨_, x, t, js, hrs, h1, h2, fun h => absurd h hnil, fun _ => h3, hpaths, hprops⟩

/-! ## A workbook in a compound file -/

namespace Sample

/-- A workbook with one empty sheet. -/
def tinyBook : Workbook :=
  { bof := (Content.bof sampleBof).record
    globals := [.sheet ⟨37, 0, 0, .narrow b!"A"⟩, .other ⟨0x000A, []⟩]
    sheets := [[(Content.bof { sampleBof with kind := 0x10 }).record]] }

def tinyStream : Bytes := stream tinyBook.records ++ [0]

/-- A compound file with this workbook. -/
def tinyFile : Bytes :=
  header ++ fat.flatMap (leBytes 4) ++ soleDir (text b!"Workbook") 2 0xffffffff 58 ++ minifat.flatMap (leBytes 4) ++ tinyStream ++
    List.replicate 454 0

def tinyIo : StorageIO := { io with file := tinyFile, dirtree := soleTree (text b!"Workbook") false 0xffffffff 58 }

theorem tiny_opens : openStorage Abi.windows (some tinyFile) = .ok (.opened tinyIo) := by rw [openStorage_quick]; decide +kernel

theorem tiny_read : ReadStream Abi.windows tinyIo (text b!"/Workbook") = .ok tinyStream := by decide +kernel

theorem tiny_stored {num : Nat → Bytes} : tinyBook.Stored num True tinyStream := by
  have hd : ∀ d ∈ declared tinyBook.globals, d = ⟨37, 0, 0, .narrow b!"A"⟩ := by
    intro d hd
    simpa [tinyBook, declared] using hd
  have bof : ∀ k ∈ [5, 0x10, 0x20], ∃ v, Entry num True tinyBook.definedNames (Content.bof { sampleBof with kind := k }).record v := fun k hk =>
    ⟨_, .content (sampleBof_valid k hk) (Or.inl trivial) (fun b h => by cases h; exact (by decide : (1 : Nat) < 2))
      ⟨(fun s hs => by cases hs), fun s hs => by cases hs⟩⟩
  have hcells : tinyBook.CellsInSheets := by
    intro g hg
    simp only [tinyBook, List.mem_cons, List.not_mem_nil, or_false] at hg
    rcases hg with rfl | rfl <;> decide +kernel
  refine ⟨?_, hcells, fun d h => by rw [hd d h]; exact ⟨Or.inr trivial, by decide⟩, ?_, ⟨[0], rfl, by decide, by decide⟩, by decide +kernel⟩
  · constructor
    · unfold Record.Valid; decide +kernel
    · exact ⟨by decide, by decide +kernel, by decide +kernel⟩
    · intro d hd
      simp only [tinyBook, List.mem_cons, reduceCtorEq, GlobalRec.sheet.injEq, List.not_mem_nil, or_false] at hd
      subst hd
      exact ⟨by decide, by decide, fun cs h => by cases h⟩
    · intro r hr
      simp only [tinyBook, List.mem_cons, reduceCtorEq, false_or, GlobalRec.other.injEq, List.not_mem_nil, or_false] at hr
      subst hr
      decide
    · intro s hs
      simp only [tinyBook, List.mem_cons, List.not_mem_nil, or_false] at hs
      subst hs
      exact ⟨_, _, rfl, rfl⟩
    · decide
    · decide
    · decide +kernel
    · intro d h
      rw [hd d h]
      exact ⟨[(Content.bof { sampleBof with kind := 0x10 }).record], by decide +kernel⟩
  · intro r hr
    simp only [Workbook.records, Workbook.head, tinyBook, List.map_cons, List.map_nil, List.flatten_cons,
      List.flatten_nil, List.append_nil, List.cons_append, List.nil_append, List.mem_cons, List.not_mem_nil, or_false,
      GlobalRec.record] at hr
    rcases hr with rfl | rfl | rfl | rfl
    · exact bof 5 (by simp)
    · exact ⟨_, .content (c := .sheet ⟨37, 0, 0, .narrow b!"A"⟩) ⟨by decide +kernel, ⟨by decide, by decide, fun cs h => by cases h⟩⟩
        (Or.inl ⟨_, rfl⟩) (fun b h => by cases h) ⟨(fun s hs => by cases hs), by decide⟩⟩
    · exact ⟨_, .plain (by decide) (by decide)⟩
    · exact bof 0x10 (by simp)

theorem tiny_legal {num : Nat → Bytes} : (∀ r ∈ tinyBook.records, ∃ e, EntryX num True tinyBook.definedNames r e) ∧
    ∀ d ∈ declared tinyBook.globals, LegalText d.name.text ∧ 60 ∉ d.name.text ∧ 62 ∉ d.name.text := by
  have bof : ∀ k ∈ [5, 0x10, 0x20], ∃ v, EntryX num True tinyBook.definedNames (Content.bof { sampleBof with kind := k }).record v := fun k hk =>
    ⟨_, .content (sampleBof_valid k hk) (Or.inl trivial) (fun b h => by cases h; exact (by decide : (1 : Nat) < 2))
      (fun s hs => by cases hs)⟩
  refine ⟨fun r hr => ?_, fun d hd => ?_⟩
  · simp only [Workbook.records, Workbook.head, tinyBook, List.map_cons, List.map_nil, List.flatten_cons,
      List.flatten_nil, List.append_nil, List.cons_append, List.nil_append, List.mem_cons, List.not_mem_nil, or_false,
      GlobalRec.record] at hr
    rcases hr with rfl | rfl | rfl | rfl
    · exact bof 5 (by simp)
    · refine ⟨_, .content (c := .sheet ⟨37, 0, 0, .narrow b!"A"⟩) ⟨by decide +kernel, ⟨by decide, by decide, fun cs h => by cases h⟩⟩
        (Or.inl ⟨_, rfl⟩) (fun b h => by cases h) ?_⟩
      show ∀ s ∈ [b!"A"], _
      unfold LegalText XmlUnit
      decide
    · exact ⟨_, .plain (by decide) (by decide)⟩
    · exact bof 0x10 (by simp)
  · have : d = ⟨37, 0, 0, .narrow b!"A"⟩ := by simpa [tinyBook, declared] using hd
    rw [this]
    unfold LegalText XmlUnit
    decide

end Sample

open Sample in
/-- A compound file with a workbook meets the hypotheses, and its report shows the workbook. -/
example (env : Env) (hfuel : 2 ^ 16 ≤ env.fuel) : ∃ rs t ms ws, ∃ x : Extra, Guess Abi.windows env table 2 (some tinyFile) = .ok rs ∧
    report Abi.windows env .json b!"tiny.xls" rs = .ok t ∧
    tinyBook.Shown env.fmt.f64 True ws ∧
    Carried env.props.real [text b!"/", text b!"/Workbook"] x.properties ms ∧
    jsonDocument t = some (JVal.obj [(b!"name", .text b!"tiny.xls"),
      (b!"extensions", .arr [.obj (identity biff8 ++ ms ++ ws)])]).events := by
  have hv : (Objects.stream (text b!"Workbook") .nil).visits (text b!"/") =
      [⟨text b!"Workbook", text b!"/Workbook", false⟩] := by decide
  have hone : ∀ t ∈ documentTypes, t.Known (text b!"/Workbook") → t.inspection = .workbook := by decide
  obtain ⟨rs, x, t, js, h1, h2, h3, _, h5, h6, _⟩ := C102_json_partial env hfuel table (fun _ => Iff.rfl) 2 (some tinyFile)
    tinyIo tiny_opens (.stream (text b!"Workbook") .nil)
    (sole_describes Abi.windows _ false _ _ (by decide) (by decide) (by decide)) (by decide)
    (by
      intro j
      rcases Nat.lt_or_ge j 4 with hj | hj
      · revert hj
        revert j
        decide +kernel
      · have : (soleTree (text b!"Workbook") false 0xffffffff 58)[j]? = none := List.getElem?_eq_none hj
        rw [show tinyIo.dirtree = soleTree (text b!"Workbook") false 0xffffffff 58 from rfl, entryName, this]
        intro u hu
        cases hu)
    (by rw [hv]; intro v h; rw [List.mem_singleton.1 h]; exact plain_of_small (by decide))
    (fun _ => []) (fun _ => tinyBook) ⟨(by rw [hv]; intro v h; rw [List.mem_singleton.1 h]; intro _ hn; exact absurd hn (by decide)), (by
      rw [hv]
      intro v h
      rw [List.mem_singleton.1 h]
      refine ⟨fun h => absurd h (by decide), fun t ht hk => ⟨?_, fun _ => ⟨_, tiny_read, tiny_stored, Nat.lt_of_lt_of_le (by decide +kernel) hfuel⟩⟩⟩
      revert hk
      revert t
      decide), (by
      rw [hv]
      intro v h t ht hk
      rw [List.mem_singleton.1 h] at hk ⊢
      rw [hone t ht hk]
      exact ⟨fun _ => ⟨_, tiny_read, (by unfold LongEnough; decide +kernel)⟩, fun h => by cases h⟩)⟩
    b!"tiny.xls" (by decide)
  have hc : ((Objects.stream (text b!"Workbook") .nil).visits (text b!"/")).filter Visit.counts =
      [⟨text b!"Workbook", text b!"/Workbook", false⟩] := by decide
  rw [hc] at h5
  cases h5 (by simp) with
  | cons h h' =>
    cases h'
    cases h with
    | macros h =>
      exact absurd (show Visit.isVba ⟨text b!"Workbook", text b!"/Workbook", false⟩ = true from h) (by decide)
    | document _ ht hk _ _ hs =>
      unfold DocumentType.Tells at hs
      rw [hone _ ht hk] at hs
      cases hs
    | workbook _ _ _ _ _ _ hw hca =>
      rw [h6] at hca
      exact ⟨rs, t, _, _, x, h1, h2, hw, hca, h3⟩

open Sample in
/-- A compound file with a workbook meets the hypotheses, and its report in XML shows the workbook. -/
example (env : Env) (hfuel : 2 ^ 16 ≤ env.fuel) : ∃ rs t us ws, ∃ x : Extra, Guess Abi.windows env table 2 (some tinyFile) = .ok rs ∧
    report Abi.windows env .xml b!"tiny.xls" rs = .ok t ∧
    tinyBook.ShownX env.fmt.f64 True ws ∧
    CarriedX env.props.real [text b!"/", text b!"/Workbook"] x.properties us ∧
    xmlDocument t = some (XVal.elem b!"file" [.leaf b!"name" b!"tiny.xls",
      .elem b!"extensions" [.elem b!"item" (identityX biff8 ++ us ++ ws)]]).events := by
  have hv : (Objects.stream (text b!"Workbook") .nil).visits (text b!"/") =
      [⟨text b!"Workbook", text b!"/Workbook", false⟩] := by decide
  have hone : ∀ t ∈ documentTypes, t.Known (text b!"/Workbook") → t.inspection = .workbook := by decide
  obtain ⟨rs, x, t, js, h1, h2, h3, _, h5, h6, _⟩ := C102_xml_partial env hfuel table (fun _ => Iff.rfl) 2 (some tinyFile)
    tinyIo tiny_opens (.stream (text b!"Workbook") .nil)
    (sole_describes Abi.windows _ false _ _ (by decide) (by decide) (by decide)) (by decide)
    (by
      intro j
      rcases Nat.lt_or_ge j 4 with hj | hj
      · revert hj
        revert j
        decide +kernel
      · have : (soleTree (text b!"Workbook") false 0xffffffff 58)[j]? = none := List.getElem?_eq_none hj
        rw [show tinyIo.dirtree = soleTree (text b!"Workbook") false 0xffffffff 58 from rfl, entryName, this]
        intro u hu
        cases hu)
    (by rw [hv]; intro v h; rw [List.mem_singleton.1 h]; exact plain_of_small (by decide))
    (fun _ => []) (fun _ => tinyBook) ⟨(by rw [hv]; intro v h; rw [List.mem_singleton.1 h]; intro _ hn; exact absurd hn (by decide)), (by
      rw [hv]
      intro v h
      rw [List.mem_singleton.1 h]
      refine ⟨fun h => absurd h (by decide), fun t ht hk => ⟨?_, fun _ => ⟨_, tiny_read, tiny_stored, Nat.lt_of_lt_of_le (by decide +kernel) hfuel⟩⟩⟩
      revert hk
      revert t
      decide), (by
      rw [hv]
      intro v h t ht hk
      rw [List.mem_singleton.1 h] at hk ⊢
      rw [hone t ht hk]
      exact ⟨fun _ => ⟨_, tiny_read, (by unfold LongEnough; decide +kernel)⟩, fun h => by cases h⟩)⟩
    (by
      rw [hv]
      intro v h
      rw [List.mem_singleton.1 h]
      exact ⟨by unfold XmlUnit; decide, fun h => absurd h (by decide), fun _ h => absurd h (by decide), fun _ _ _ _ => tiny_legal⟩)
    b!"tiny.xls" (by unfold XmlUnit; decide)
  have hc : ((Objects.stream (text b!"Workbook") .nil).visits (text b!"/")).filter Visit.counts =
      [⟨text b!"Workbook", text b!"/Workbook", false⟩] := by decide
  rw [hc] at h5
  cases h5 (by simp) with
  | cons h h' =>
    cases h'
    cases h with
    | macros h =>
      exact absurd (show Visit.isVba ⟨text b!"Workbook", text b!"/Workbook", false⟩ = true from h) (by decide)
    | document _ ht hk _ _ hs =>
      unfold DocumentType.Tells at hs
      rw [hone _ ht hk] at hs
      cases hs
    | workbook _ _ _ _ _ _ hw hca =>
      rw [h6] at hca
      exact ⟨rs, t, _, _, x, h1, h2, hw, hca, h3⟩

end Fileid.Props
