import Verif.Props.Report
import Verif.Lemmas.ReportBad
import Verif.Props.ReportExcel

/-!
# C92: the reports about VBA projects are documents that show the project
-/

namespace Fileid.Props

open Common Spec Spec.Report Spec.Ovba Oless Report Vba Pole

/-- A project's directory is read as `Analyze` (see `analyze_parses`) does it. -/
def Parsed (abi : Abi) (b : Bytes) (len : Nat) (code : WStr → Nat → Res Bytes) (v : VbaInfo) : Prop :=
  ∃ n, parseDir abi b len code { base := { Extension := b!"vba", Name := b!"Visual Basic for Applications", Version := n } } = .ok v

/-- Every result of the analysis is one of reading a directory. -/
theorem C92_analyzed (abi : Abi) (io : StorageIO) (p : WStr) (v : VbaInfo) (h : Analyze abi io p = .ok v) :
    ∃ b len, Parsed abi b len (fun name offset => GetCode abi io (p ++ wide b!"/VBA/" ++ name) offset) v := by
  obtain ⟨b, len, n, h⟩ := analyze_parses h
  exact ⟨b, len, n, h⟩

theorem Parsed.clear {abi : Abi} {b : Bytes} {len : Nat} {code : WStr → Nat → Res Bytes} {v : VbaInfo}
    (h : Parsed abi b len code v) : ClearInfo v.base := by
  obtain ⟨n, h⟩ := h
  rw [parse_base h]
  exact mk_clear (clear_lit _ (by decide)) (clear_lit _ (by decide)) clear_nil clear_nil

/-- Whenever a project is read, its JSON report is a document that shows its name, version, references and modules with
their source texts, whatever characters are in them. Missing: references whose names need escaping. -/
theorem C92_json_partial (abi : Abi) (env : Env) (b : Bytes) (len : Nat) (code : WStr → Nat → Res Bytes) (v : VbaInfo)
    (hv : Parsed abi b len code v) (hc : ClearProject v) (name : Bytes) (hn : 0 ∉ name) (t : Bytes)
    (ht : report abi env .json name [.vba v] = .ok t) :
    jsonDocument t = some (JVal.obj [(b!"name", .text name),
      (b!"extensions", .arr [.obj (identity v.base ++ projectMembers v)])]).events := by
  obtain ⟨vs, h1, h2⟩ := report_json (S := ResultShown env.props.real) hn (fun r hm t ht => by
    rw [List.mem_singleton] at hm
    subst hm
    exact result_json hv.clear hc ht) ht
  cases h1 with
  | cons h h' =>
  cases h'
  cases h
  exact h2

/-- The same for XML. Missing also: characters that may not stand in XML, source texts that are not ASCII or contain
the end of a CDATA section. -/
theorem C92_xml_partial (abi : Abi) (env : Env) (b : Bytes) (len : Nat) (code : WStr → Nat → Res Bytes) (v : VbaInfo)
    (hv : Parsed abi b len code v) (hc : ClearProject v) (hl : LegalProject v) (name : Bytes) (hn : Clear name) (t : Bytes)
    (ht : report abi env .xml name [.vba v] = .ok t) :
    ∃ vs, ProjectShownX v vs ∧ xmlDocument t = some (XVal.elem b!"file" [.leaf b!"name" name,
      .elem b!"extensions" [.elem b!"item" (identityX v.base ++ vs)]]).events := by
  obtain ⟨n, vs, h1, hname, h2⟩ := report_xml (S := ResultShownX env.props.real) (Clear.legal hn) (fun r hm t ht => by
    rw [List.mem_singleton] at hm
    subst hm
    exact result_xml hv.clear ⟨hc, hl⟩ ht) ht
  rw [hname fun c hc => ⟨(hn c hc).2.2.2.2.2.1, (hn c hc).2.2.2.2.2.2⟩] at h2
  cases h1 with
  | cons h h' =>
  cases h'
  obtain ⟨us, rfl, h⟩ := h
  exact ⟨us, h, h2⟩

/-! ## Where C92 is false -/

/-- A JSON report is no document when the name of a reference breaks it. -/
theorem C92_json_false (abi : Abi) (env : Env) (b : Bytes) (len : Nat) (code : WStr → Nat → Res Bytes) (v : VbaInfo)
    (hv : Parsed abi b len code v) (pre post : List Bytes) (s : Bytes) (hr : v.References = pre ++ s :: post)
    (hpre : ∀ r ∈ pre, Clear r) (hs : Breaks s) (rs : List Result) (name : Bytes) (hn : 0 ∉ name) (t : Bytes)
    (ht : report abi env .json name (.vba v :: rs) = .ok t) : jsonDocument t = none := by
  unfold report at ht
  obtain ⟨ts, hts, ht⟩ := Excel.bind_ok_inv ht
  injection ht with ht
  have hpw := mapRes_pointwise hts
  cases hpw with
  | cons h0 _ =>
  rename_i t0 ts _
  change Res.ok v.toJson = .ok t0 at h0
  injection h0 with h0
  subst h0
  have bad := project_bad hv.clear hr hpre hs
  have e1 : run jsonStep (.value, []) b!"{\"name\":\"" =
      some ((.inStr false [] false, [true]), [.startObj, .key (chars b!"name")]) := rfl
  have e2 := run_jsonStr false [true] (JsonEscape name) _ (C10_json_escape_lossless_partial name hn)
  have e3 : run jsonStep (.after, [true]) (b!"," ++ b!"\"" ++ b!"extensions" ++ b!"\":[") =
      some ((.valueOrEnd, [false, true]), [.key (chars b!"extensions"), .startArr]) := rfl
  have e := run_append (run_append e1 e2) e3
  have : run jsonStep (.value, []) t = none := by
    rw [← ht]
    have := run_after_bad e (bad .valueOrEnd [false, true] (jsonItems false (ts.map fun t => (⟨{}, t, t, t, t⟩ : Item)) ++ b!"]}") (Or.inr rfl))
    simpa [Output, jsonItems] using this
  unfold jsonDocument
  rw [this]

theorem filled_commas (k : Bytes) (w : XVal) : ∀ (us ws : List XVal),
    filled k (commas (us ++ w :: ws)) = [.elem k (commas (us ++ w :: ws))]
  | [], [] => rfl
  | [], _ :: _ => rfl
  | [_], _ => rfl
  | _ :: _ :: _, _ => rfl

/-- An XML report can be forged: the author of a macro whose source text ends the CDATA section can put any element
into the report. -/
theorem C92_source_false (abi : Abi) (env : Env) (b : Bytes) (len : Nat) (code : WStr → Nat → Res Bytes) (v : VbaInfo)
    (hv : Parsed abi b len code v) (hc : ClearProject v) (hname : LegalText v.ProjectName)
    (pre post : List Module) (m : Module) (hm : v.Modules = pre ++ m :: post)
    (hl : ∀ m' ∈ pre ++ m :: post, LegalText m'.Name ∧ LegalText m'.StreamName)
    (hcode : ∀ m' ∈ pre ++ post, (∀ c ∈ m'.Code, XmlUnit c.toNat ∧ c.toNat < 128) ∧ ¬ ∃ a b, m'.Code = a ++ b!"]]>" ++ b)
    (x y k s : Bytes) (hx : Clear x ∧ 93 ∉ x) (hy : Clear y ∧ 93 ∉ y) (hk : isName k = true) (hs : Clear s)
    (he : m.Code = x ++ b!"]]><" ++ k ++ b!">" ++ s ++ b!"</" ++ k ++ b!"><![CDATA[" ++ y)
    (name : Bytes) (hn : Clear name) (t : Bytes) (ht : report abi env .xml name [.vba v] = .ok t) :
    ∃ us mods mods' mod more, xmlDocument t = some (XVal.elem b!"file" [.leaf b!"name" name,
        .elem b!"extensions" [.elem b!"item" (us ++ [.elem b!"Modules" (commas (mods ++ .elem b!"Module" (mod ++
          [.elem b!"Code" (.chars (codes x) :: .leaf k s :: more)]) :: mods'))])]]).events ∧
      Pointwise ModuleShownX pre mods ∧ Pointwise ModuleShownX post mods' := by
  have cd : ∀ z, Clear z ∧ 93 ∉ z → XReads (b!"<![CDATA[" ++ (z ++ b!"]]>")) [.chars (codes z)] := by
    intro z ⟨hz, h93⟩
    refine cdata_code (fun c hc => ?_) ?_
    · have := hz c hc
      exact ⟨by unfold XmlUnit; omega, by omega⟩
    · rintro ⟨a, b, rfl⟩
      simp at h93
  have hcd : XReads (b!"<![CDATA[" ++ (m.Code ++ b!"]]>")) [.chars (codes x), .leaf k s, .chars (codes y)] := by
    refine XReads.of (((cd x hx).append (xreads_leaf hk hs.xml)).append (cd y hy)) ?_ rfl
    rw [he]
    simp only [elemText, List.append_assoc, List.cons_append, List.nil_append]
  obtain ⟨n1, n2, h1, _, _⟩ := moduleX_code (hl m (by simp)).1 (hl m (by simp)).2 hcd
  have each : ∀ l : List Module, (∀ m' ∈ l, m' ∈ pre ++ post) →
      ∃ us, Pointwise (fun (m : Module) v => XReads m.toXml [v] ∧ ModuleShownX m v) l us := by
    intro l hsub
    refine Pointwise.exists fun m' hm' => ?_
    have hmem := hsub m' hm'
    have hmem' : m' ∈ pre ++ m :: post := by
      rw [List.mem_append] at hmem ⊢
      rcases hmem with h | h
      · exact Or.inl h
      · exact Or.inr (List.mem_cons_of_mem _ h)
    exact moduleX_reads (hl m' hmem').1 (hl m' hmem').2 (hcode m' hmem).1 (hcode m' hmem).2
  obtain ⟨mods, p1⟩ := each pre fun m' h => List.mem_append_left _ h
  obtain ⟨mods', p2⟩ := each post fun m' h => List.mem_append_right _ h
  have all := Pointwise.append (p1.imp fun _ _ h => h.1) (Pointwise.cons (R := fun (m : Module) v => XReads m.toXml [v]) h1
    (p2.imp fun _ _ h => h.1))
  rw [← hm] at all
  obtain ⟨nm, h2, _⟩ := projectX_modules hv.clear hc hname all
  obtain ⟨n, vs, h3, hnm, h4⟩ := report_xml (S := fun _ v => v = _) (Clear.legal hn) (fun r hr t ht => by
    rw [List.mem_singleton] at hr
    subst hr
    change Res.ok v.toXml = .ok t at ht
    injection ht with ht
    subst ht
    exact ⟨_, h2, rfl⟩) ht
  rw [hnm fun c hc => ⟨(hn c hc).2.2.2.2.2.1, (hn c hc).2.2.2.2.2.2⟩] at h4
  cases h3 with
  | cons h h' =>
  cases h'
  subst h
  rw [filled_commas, ← List.append_assoc] at h4
  exact ⟨_, mods, mods', [n1, n2, _, _, _], [.chars (codes y)], h4, p1.imp fun _ _ h => h.2, p2.imp fun _ _ h => h.2⟩

namespace Sample

/-- A project with one reference, whose name has a quotation mark, and no module. -/
def quoting : ProjectInfo :=
  { name := b!"P", major := 0x5b3e1d47, minor := 7
    references := [{ name := b!"a\"b", nameUnicode := [], kind := 0x0d, data := leBytes 4 3 ++ b!"lib id" ++ List.replicate 6 0 }] }

/-- Source text that puts an element of its own into the report. -/
def forged : Bytes := b!"' ]]><Verdict>clean</Verdict><![CDATA["

end Sample

/-- The hypotheses of `C92_json_partial` and `C92_xml_partial` hold of a project with a module. -/
example : ∃ v t u, Parsed Abi.windows Sample.small.dir Sample.small.dir.length Sample.smallCode v ∧
    v.Modules.map (·.Code) = [b!"Sub"] ∧
    report Abi.windows Sample.plainEnv .json b!"f" [.vba v] = .ok t ∧
    report Abi.windows Sample.plainEnv .xml b!"f" [.vba v] = .ok u ∧
    jsonDocument t = some (JVal.obj [(b!"name", .text b!"f"),
      (b!"extensions", .arr [.obj (identity v.base ++ projectMembers v)])]).events ∧
    ∃ vs, ProjectShownX v vs ∧ xmlDocument u = some (XVal.elem b!"file" [.leaf b!"name" b!"f",
      .elem b!"extensions" [.elem b!"item" (identityX v.base ++ vs)]]).events := by
  obtain ⟨v, hv, h⟩ := Sample.good_ok (p := fun v : VbaInfo => decide (v.ProjectName = b!"P") && decide (v.References = []) &&
      decide (v.Modules.map (fun m => (m.Name, m.StreamName, m.Code)) = [(b!"M", b!"M", b!"Sub")]))
    (r := parseDir Abi.windows Sample.small.dir Sample.small.dir.length Sample.smallCode
      { base := { Extension := b!"vba", Name := b!"Visual Basic for Applications", Version := 7 } }) (by decide +kernel)
  simp only [Bool.and_eq_true, decide_eq_true_eq] at h
  obtain ⟨⟨h1, h2⟩, h3⟩ := h
  obtain ⟨m, hm, h3⟩ : ∃ m, v.Modules = [m] ∧ m.Name = b!"M" ∧ m.StreamName = b!"M" ∧ m.Code = b!"Sub" := by
    obtain ⟨m, hm, h3⟩ := List.map_eq_singleton_iff.1 h3
    simp only [Prod.mk.injEq] at h3
    exact ⟨m, hm, h3⟩
  have hp : Parsed Abi.windows Sample.small.dir Sample.small.dir.length Sample.smallCode v := ⟨_, hv⟩
  have hc : ClearProject v := by intro r hr; rw [h2] at hr; cases hr
  have hl : LegalProject v := by
    refine ⟨by rw [h1]; unfold LegalText; decide, ?_⟩
    intro m' hm'
    rw [hm, List.mem_singleton] at hm'
    subst hm'
    rw [h3.1, h3.2.1, h3.2.2]
    refine ⟨by unfold LegalText; decide, by unfold LegalText; decide, by decide, ?_⟩
    rintro ⟨a, b, hab⟩
    have : (93 : UInt8) ∈ b!"Sub" := by rw [hab]; simp
    exact absurd this (by decide)
  exact ⟨v, _, _, hp, by rw [hm, List.map_cons, h3.2.2]; rfl, rfl, rfl,
    C92_json_partial Abi.windows Sample.plainEnv _ _ _ v hp hc b!"f" (by decide) _ rfl,
    C92_xml_partial Abi.windows Sample.plainEnv _ _ _ v hp hc hl b!"f" (by decide) _ rfl⟩

/-- A project for `C92_json_false`: its report is no document. -/
example : ∃ v t, Parsed Abi.windows Sample.quoting.dir Sample.quoting.dir.length Sample.smallCode v ∧
    report Abi.windows Sample.plainEnv .json b!"f" [.vba v] = .ok t ∧ jsonDocument t = none := by
  obtain ⟨v, hv, h⟩ := Sample.good_ok (p := fun v : VbaInfo => decide (v.References = [b!"a\"b"]))
    (r := parseDir Abi.windows Sample.quoting.dir Sample.quoting.dir.length Sample.smallCode
      { base := { Extension := b!"vba", Name := b!"Visual Basic for Applications", Version := 7 } }) (by decide +kernel)
  have hp : Parsed Abi.windows Sample.quoting.dir Sample.quoting.dir.length Sample.smallCode v := ⟨_, hv⟩
  exact ⟨v, _, hp, rfl, C92_json_false Abi.windows Sample.plainEnv _ _ _ v hp [] [] _ (of_decide_eq_true h)
    (fun _ h => absurd h (by simp)) (.quote (a := b!"a") (c := 98) (b := []) (by decide) (by decide)) [] b!"f" (by decide) _ rfl⟩

/-- A project for `C92_source_false`: a verdict made up by the author of its macro stands in the report. -/
example : ∃ v t us mod more, Parsed Abi.windows Sample.small.dir Sample.small.dir.length (fun _ _ => .ok Sample.forged) v ∧
    report Abi.windows Sample.plainEnv .xml b!"f" [.vba v] = .ok t ∧
    xmlDocument t = some (XVal.elem b!"file" [.leaf b!"name" b!"f",
        .elem b!"extensions" [.elem b!"item" (us ++ [.elem b!"Modules" [.elem b!"Module" (mod ++
          [.elem b!"Code" (.chars (codes b!"' ") :: .leaf b!"Verdict" b!"clean" :: more)])]])]]).events := by
  obtain ⟨v, hv, h⟩ := Sample.good_ok (p := fun v : VbaInfo => decide (v.ProjectName = b!"P") && decide (v.References = []) &&
      decide (v.Modules.map (fun m => (m.Name, m.StreamName, m.Code)) = [(b!"M", b!"M", Sample.forged)]))
    (r := parseDir Abi.windows Sample.small.dir Sample.small.dir.length (fun _ _ => .ok Sample.forged)
      { base := { Extension := b!"vba", Name := b!"Visual Basic for Applications", Version := 7 } }) (by decide +kernel)
  simp only [Bool.and_eq_true, decide_eq_true_eq] at h
  obtain ⟨⟨h1, h2⟩, h3⟩ := h
  obtain ⟨m, hm, h3⟩ : ∃ m, v.Modules = [m] ∧ m.Name = b!"M" ∧ m.StreamName = b!"M" ∧ m.Code = Sample.forged := by
    obtain ⟨m, hm, h3⟩ := List.map_eq_singleton_iff.1 h3
    simp only [Prod.mk.injEq] at h3
    exact ⟨m, hm, h3⟩
  have hp : Parsed Abi.windows Sample.small.dir Sample.small.dir.length (fun _ _ => .ok Sample.forged) v := ⟨_, hv⟩
  have hc : ClearProject v := by intro r hr; rw [h2] at hr; cases hr
  obtain ⟨us, mods, mods', mod, more, e, p1, p2⟩ := C92_source_false Abi.windows Sample.plainEnv _ _ _ v hp hc
    (by rw [h1]; unfold LegalText; decide) [] [] m hm
    (by
      intro m' hm'
      rw [List.nil_append, List.mem_singleton] at hm'
      subst hm'
      rw [h3.1, h3.2.1]
      exact ⟨by unfold LegalText; decide, by unfold LegalText; decide⟩)
    (fun _ h => absurd h (by simp)) b!"' " [] b!"Verdict" b!"clean" ⟨by decide, by decide⟩ ⟨by decide, by decide⟩ (by decide)
    (by decide) (by rw [h3.2.2]; decide) b!"f" (by decide) _ rfl
  cases p1
  cases p2
  exact ⟨v, _, us, mod, more, hp, rfl, e⟩

end Fileid.Props
