import Verif.Lemmas.ReportExcel

/-!
# Lemmas about the XML reports on workbooks
-/

namespace Fileid.Report

open Common Spec Spec.Report Excel Props

theorem _root_.Fileid.Spec.Report.LegalText.legal {s : Bytes} (h : LegalText s) : xmlLegal s = true := by
  unfold xmlLegal
  rw [List.all_eq_true]
  intro c hc
  have := h c hc
  unfold XmlUnit at this
  simp [isXmlChar]; omega

theorem elemText_eq (n t : Bytes) : b!"<" ++ n ++ b!">" ++ t ++ b!"</" ++ n ++ b!">" = elemText n t := rfl

def FieldReadsX (f : Field) (v : XVal) : Prop := XReads f.toXml [v]

theorem numX_reads {k v : Bytes} (hk : isName k = true) (hv : Clear v) : FieldReadsX (.num k v) (.leaf k v) :=
  xreads_leaf hk hv.xml

theorem numFX_reads {k : Bytes} {n : Nat} (hk : isName k = true) : FieldReadsX (numF k n) (numX k n) :=
  numX_reads hk (clear_dec n)

theorem textX_reads {k s : Bytes} (hk : isName k = true) (hs : Clear s) : FieldReadsX (.text k s) (.leaf k s) :=
  xreads_leaf hk hs.xml

theorem textX_of {k s : Bytes} (hk : isName k = true) (hs : xmlLegal s = true) :
    ∃ v, XReads (elemText k (XmlEscape s)) [v] ∧ TextX k s v :=
  ⟨_, xreads_elem hk (xreads_escape hs), _, rfl, swapped_eq⟩

theorem escX_reads {k s : Bytes} (hk : isName k = true) (hs : xmlLegal s = true) : ∃ v, FieldReadsX (.esc k s) v ∧ TextX k s v :=
  textX_of hk hs

theorem objX_fields {l : List Field} {vs : List XVal} (h : Pointwise FieldReadsX l vs) : XReads (objXml l) vs :=
  xreads_flatten (Pointwise.map_left h)

theorem nestedX_reads {k : Bytes} {l : List Field} {vs : List XVal} (hk : isName k = true) (h : Pointwise FieldReadsX l vs) :
    FieldReadsX (nested k l) (.elem k vs) :=
  xreads_elem hk (objX_fields h)

theorem rgbX_reads {k d : Bytes} (hk : isName k = true) : ∃ v, FieldReadsX (rgbField k d) v := by
  have := xreads_elem hk (xreads_elem (n := b!"LongRGB") (by decide) (objX_fields (l := [
    numF b!"red" (d.getD 0 0).toNat, numF b!"green" (d.getD 1 0).toNat, numF b!"blue" (d.getD 2 0).toNat,
    numF b!"reserved" (d.getD 3 0).toNat]) (.cons (numFX_reads (by decide)) (.cons (numFX_reads (by decide))
    (.cons (numFX_reads (by decide)) (.cons (numFX_reads (by decide)) .nil))))))
  refine ⟨_, XReads.of this ?_ rfl⟩
  simp only [rgbField, Field.toXml, elemText, List.append_assoc, List.cons_append, List.nil_append]

theorem clear_int (i : Int) : Clear (decInt i) := by
  unfold decInt
  split
  · exact Clear.append (s := [45]) (clear_lit _ (by decide)) (clear_dec _)
  · exact clear_dec _

theorem clear_codePage (n : Nat) : xmlLegal (CPToString n) = true := by
  have h : ∀ e ∈ ExcelTables.codePages, xmlLegal e.2 = true := by decide +kernel
  unfold CPToString
  cases hl : Tables.lookup ExcelTables.codePages n with
  | none => decide
  | some v => exact h _ (Propset.lookup_some_mem hl)

theorem clear_formulaValue {fmt : Fmt} (hf : ClearFmt fmt) (v : Bytes) : Clear (formulaValue fmt v) := by
  unfold formulaValue
  refine clear_if (clear_if (clear_if (clear_lit _ (by decide)) (clear_lit _ (by decide)))
    (clear_if (clear_error _) (clear_lit _ (by decide)))) (hf.2 _)

theorem clear_rkValue {fmt : Fmt} (hf : ClearFmt fmt) (n : Nat) : Clear (rkValue fmt n) := by
  unfold rkValue
  exact clear_if (clear_if (clear_dec _) (clear_dec _)) (hf.1 _)

theorem erasenulls_eq (s : Bytes) : erasenulls s = s.filter (· ≠ 0) := by
  have : ∀ (acc s : Bytes), s.foldl (fun output c => if c ≠ 0 then output ++ [c] else output) acc = acc ++ s.filter (· ≠ 0) := by
    intro acc s
    induction s generalizing acc with
    | nil => simp
    | cons c s ih =>
      rw [List.foldl_cons, ih]
      by_cases h : c = 0
      · simp [h]
      · simp [h]
  simpa [erasenulls] using this [] s

/-- Without its zero bytes the converted text is legal when the other units are. -/
theorem convert_erased {abi : Abi} {units : List Nat} {s : Bytes} (h : convert abi units = .ok s)
    (hu : ∀ u ∈ units, XmlUnit u ∨ u = 0) : xmlLegal (erasenulls s) = true := by
  rw [erasenulls_eq]
  induction units generalizing s with
  | nil => injection h with h; subst h; rfl
  | cons u us ih =>
    rw [convert] at h
    split at h
    · cases h
    · split at h
      · cases h
      · obtain ⟨r, hr, h'⟩ := bind_ok_inv h
        injection h' with h'
        subst h'
        have h2 := ih hr fun v hv => hu v (by simp [hv])
        have h1 : xmlLegal ((utf8 u).filter (· ≠ 0)) = true := by
          rcases hu u (by simp) with h1 | rfl
          · have := utf8_legal u (by omega) h1
            unfold xmlLegal at this ⊢
            rw [List.all_eq_true] at this ⊢
            exact fun c hc => this c ((List.mem_filter.1 hc).1)
          · decide
        unfold xmlLegal at h1 h2 ⊢
        rw [List.filter_append, List.all_append, h1, h2]; rfl

theorem cdata_reads (s : Bytes) : XReads (b!"<![CDATA[" ++ (XmlEscape s ++ b!"]]>")) [.chars (codes (XmlEscape s))] := by
  intro n stack
  have c1 : run xmlStep (.text, n :: stack) b!"<![CDATA[" = some ((.cdata 0, n :: stack), []) := rfl
  have c2 := run_cdata (n :: stack) (XmlEscape s) (fun c hc => by
    have := C11_xml_escape_safe s c hc
    exact ⟨this.1, this.2.1, this.2.2.2.1⟩) 0 (by omega)
  have := run_append c1 c2
  rw [this]
  simp [XVal.listEvents, XVal.events, codes, lit]

/-! ## Records -/

/-- Prove that elements are read, one after the other. -/
macro "read_elems" : tactic =>
  `(tactic| repeat first
    | exact Pointwise.nil
    | (apply Pointwise.cons
       first
       | exact numFX_reads (by decide)
       | assumption
       | exact textX_reads (by decide) (by assumption)
       | exact textX_reads (by decide) (clear_bofType _)
       | exact textX_reads (by decide) (clear_cell _ _)
       | exact textX_reads (by decide) (clear_column _)
       | exact textX_reads (by decide) (clear_bin2hex _)
       | exact textX_reads (by decide) (clear_lit _ (by decide))))

theorem localeX_reads {k : Bytes} {n : Nat} (hk : isName k = true) :
    FieldReadsX (localeField k n) (.elem k [numX b!"Code" n, .leaf b!"Name" (GetCountryName n)]) := by
  have := xreads_elem hk ((xreads_leaf (n := b!"Code") (by decide) (clear_dec n).xml).append
    (xreads_leaf (n := b!"Name") (by decide) (clear_country n).xml))
  refine XReads.of this ?_ rfl
  simp only [localeField, Field.toXml, elemText, List.append_assoc, List.cons_append, List.nil_append]

theorem filled_reads {k t x : Bytes} {α : Type} {l : List α} {vs : List XVal} {j : Bytes} (hk : isName k = true)
    (h : l.length = vs.length) (hx : x = elemText k t) (ht : XReads t vs) :
    Pointwise FieldReadsX (if l.length > 0 then [.raw j x] else []) (filled k vs) := by
  subst hx
  cases vs with
  | nil => rw [if_neg (by rw [h]; simp)]; exact .nil
  | cons v vs => rw [if_pos (by rw [h]; simp)]; exact .cons (xreads_elem hk ht) .nil

theorem filePassX_reads {abi : Abi} {data : Bytes} {p : FilePass} {l : List Field} (hp : ∀ u ∈ p.cspName, XmlUnit u ∨ u = 0)
    (h : filePassFields abi data p = .ok l) : ∃ vs, Pointwise FieldReadsX l vs ∧ DetailsX (.filePass p) vs := by
  have xor : FieldReadsX (.raw (b!"\"XorKey\": " ++ dec p.key) (b!"<XorKey>" ++ dec p.key ++ b!"</XorKey>"))
      (numX b!"XorKey" p.key) :=
    XReads.of (xreads_leaf (n := b!"XorKey") (by decide) (clear_dec p.key).xml)
      (by simp only [Field.toXml, elemText, List.append_assoc, List.cons_append, List.nil_append]) rfl
  have ver : FieldReadsX (.raw (b!"\"RC4Version\": {\"Major\":" ++ dec p.vMajor ++ b!",\"Minor\":" ++ dec p.vMinor ++ b!"}")
        (b!"<RC4Version><Major>" ++ dec p.vMajor ++ b!"</Major><Minor>" ++ dec p.vMinor ++ b!"</Minor></RC4Version>"))
      (.elem b!"RC4Version" [numX b!"Major" p.vMajor, numX b!"Minor" p.vMinor]) := by
    refine XReads.of (xreads_elem (n := b!"RC4Version") (by decide)
      ((xreads_leaf (n := b!"Major") (by decide) (clear_dec p.vMajor).xml).append
       (xreads_leaf (n := b!"Minor") (by decide) (clear_dec p.vMinor).xml))) ?_ rfl
    simp only [Field.toXml, elemText, List.append_assoc, List.cons_append, List.nil_append]
  unfold filePassFields at h
  by_cases h0 : p.wEncryptionType = 0
  · rw [if_pos h0] at h
    injection h with h
    subst h
    refine ⟨_, .cons (textX_reads (by decide) (clear_lit _ (by decide))) (.cons xor (.cons (numFX_reads (by decide)) .nil)), ?_⟩
    exact ⟨fun _ => rfl, fun h => by omega, fun h => by omega⟩
  rw [if_neg h0] at h
  by_cases h1 : p.wEncryptionType = 1
  · rw [if_pos h1] at h
    have wrap : ∀ {l : List Field} {ms}, Pointwise FieldReadsX l ms → ∃ ms', Pointwise FieldReadsX
        ([ .text b!"EncryptionType" b!"RC4",
      .raw (b!"\"RC4Version\": {\"Major\":" ++ dec p.vMajor ++ b!",\"Minor\":" ++ dec p.vMinor ++ b!"}")
        (b!"<RC4Version><Major>" ++ dec p.vMajor ++ b!"</Major><Minor>" ++ dec p.vMinor ++ b!"</Minor></RC4Version>")] ++ l) ms' ∧
        DetailsX (.filePass p) ms' := by
      intro l ms hl
      refine ⟨_, .cons (textX_reads (by decide) (clear_lit _ (by decide))) (.cons ver hl), ?_⟩
      exact ⟨fun h => absurd h h0, fun _ => ⟨_, rfl⟩, fun h => by omega⟩
    dsimp only at h
    split at h
    · cases h
    · rename_i off hoff
      obtain ⟨l', h2, h⟩ := bind_ok_inv h
      injection h with h
      subst h
      unfold filePassApiFields at h2
      obtain ⟨flags, _, h2⟩ := bind_ok_inv h2
      obtain ⟨header, _, h2⟩ := bind_ok_inv h2
      obtain ⟨csp, hcsp, h2⟩ := bind_ok_inv h2
      obtain ⟨verifier, _, h2⟩ := bind_ok_inv h2
      injection h2 with h2
      subst h2
      have f1 : ∀ w, ∃ ms, Pointwise FieldReadsX (flagsFields w) ms := fun w => by
        apply Exists.intro
        unfold flagsFields
        read_elems
      have f2 : ∃ ms, Pointwise FieldReadsX (encHeaderFields header) ms := by
        obtain ⟨ms, hms⟩ := f1 (leVal ((header.drop 0).take 4))
        apply Exists.intro
        unfold encHeaderFields
        apply Pointwise.cons
        · exact nestedX_reads (by decide) hms
        read_elems
      have f3 : ∃ ms, Pointwise FieldReadsX (verifierFields verifier) ms := by
        apply Exists.intro
        unfold verifierFields
        read_elems
      obtain ⟨m1, g1⟩ := f1 (leVal flags)
      obtain ⟨m2, g2⟩ := f2
      obtain ⟨m3, g3⟩ := f3
      obtain ⟨m4, g4, _⟩ := escX_reads (k := b!"CSPName") (by decide) (convert_erased hcsp hp)
      exact wrap (.cons (nestedX_reads (by decide) g1) (.cons (nestedX_reads (by decide) g2) (.cons g4
        (.cons (nestedX_reads (by decide) g3) (.cons (textX_reads (by decide) (clear_bin2hex _)) .nil)))))
    · injection h with h
      subst h
      apply wrap
      read_elems
  · rw [if_neg h1] at h
    injection h with h
    subst h
    refine ⟨_, .cons (numFX_reads (by decide)) .nil, ?_⟩
    exact ⟨fun h => absurd h h0, fun h => absurd h h1, fun _ => rfl⟩

theorem fieldsX_read {abi : Abi} {fmt : Fmt} (hf : ClearFmt fmt) {r : Rec} (hr : ClearRecord r) (hx : LegalRecord r) {l : List Field}
    (h : r.fields abi fmt = .ok l) : ∃ vs, Pointwise FieldReadsX l vs ∧ DetailsX r.view vs := by
  unfold Rec.fields at h
  unfold ClearRecord at hr
  unfold LegalRecord at hx
  cases hv : r.view with
  | plain => rw [hv] at h; injection h with h; subst h; exact ⟨_, .nil, rfl⟩
  | boundSheet5 s => rw [hv] at h; injection h with h; subst h; exact ⟨_, .nil, rfl⟩
  | bof =>
    rw [hv] at h
    have h := unmoved_ok h
    unfold bofFields at h
    split at h
    · cases h
    obtain ⟨d, _, h⟩ := bind_ok_inv h
    injection h with h
    subst h
    apply Exists.intro
    apply And.intro
    · read_elems
    · exact ⟨⟨_, List.mem_cons_self⟩, _, List.mem_cons_of_mem _ List.mem_cons_self⟩
  | formula rw col ixfe value flags formula =>
    rw [hv] at h hx
    injection h with h
    subst h
    obtain ⟨v1, g1, _⟩ := escX_reads (k := b!"Value") (by decide) (Clear.legal (clear_formulaValue hf value))
    obtain ⟨v2, g2, t2⟩ := escX_reads (k := b!"FormulaString") (by decide) hx.legal
    unfold formulaFields
    apply Exists.intro
    apply And.intro
    · read_elems
    · exact ⟨v2, by simp, t2⟩
  | lbl name =>
    rw [hv] at h hx
    have h := unmoved_ok h
    unfold lblFields at h
    obtain ⟨d, _, h⟩ := bind_ok_inv h
    injection h with h
    subst h
    have hn : FieldReadsX (.raw b!"\"namedparsedformula\":{}" b!"<NameParsedFormula></NameParsedFormula>")
        (.elem b!"NameParsedFormula" []) :=
      XReads.of (xreads_elem (n := b!"NameParsedFormula") (by decide) xreads_nil) rfl rfl
    obtain ⟨v2, g2, t2⟩ := escX_reads (k := b!"name") (by decide) hx.legal
    apply Exists.intro
    apply And.intro
    · read_elems
    · exact ⟨v2, by simp, t2⟩
  | winProtect n =>
    rw [hv] at h; injection h with h; subst h
    exact ⟨_, .cons (numFX_reads (by decide)) .nil, rfl⟩
  | externName a =>
    rw [hv] at h hr
    have h := unmoved_ok h
    unfold externNameFields at h
    obtain ⟨d, _, h⟩ := bind_ok_inv h
    injection h with h
    subst h
    cases a with
    | none =>
      apply Exists.intro
      apply And.intro
      · read_elems
      · intro s hs; cases hs
    | some s =>
      have hs : Clear s := hr
      apply Exists.intro
      apply And.intro
      · read_elems
      · intro t ht; injection ht with ht; subst ht; simp
  | filePass p =>
    rw [hv] at h hx
    exact filePassX_reads hx (unmoved_ok h)
  | codePage n =>
    rw [hv] at h; injection h with h; subst h
    obtain ⟨v2, g2, t2⟩ := escX_reads (k := b!"CodePageStr") (by decide) (clear_codePage n)
    exact ⟨_, .cons (numFX_reads (by decide)) (.cons g2 .nil), _, rfl⟩
  | writeAccess s =>
    rw [hv] at h hr; injection h with h; subst h
    exact ⟨_, .cons (textX_reads (by decide) hr) .nil, rfl⟩
  | boundSheet8 name =>
    rw [hv] at h hx
    have h := unmoved_ok h
    unfold boundSheet8Fields at h
    obtain ⟨d, _, h⟩ := bind_ok_inv h
    injection h with h
    subst h
    obtain ⟨v2, g2, t2⟩ := escX_reads (k := b!"Name") (by decide) hx.legal
    exact ⟨_, .cons g2 (.cons (numFX_reads (by decide)) (.cons (numFX_reads (by decide)) .nil)), _, _, _, t2, rfl⟩
  | country a b =>
    rw [hv] at h; injection h with h; subst h
    exact ⟨_, .cons (localeX_reads (by decide)) (.cons (localeX_reads (by decide)) .nil), _, _, rfl⟩
  | fnGroupName s =>
    rw [hv] at h hr; injection h with h; subst h
    exact ⟨_, .cons (textX_reads (by decide) hr) .nil, rfl⟩
  | builtInFnGroupCount n =>
    rw [hv] at h; injection h with h; subst h
    exact ⟨_, .cons (numFX_reads (by decide)) .nil, rfl⟩
  | mulBlank rw a b ixs =>
    rw [hv] at h; injection h with h; subst h
    have harr : XReads (ixs.map (fun x => b!"<ixfe>" ++ dec x ++ b!"</ixfe>")).flatten (ixs.map (numX b!"ixfe")) :=
      xreads_flatten (pointwise_map fun n _ => XReads.of (xreads_leaf (n := b!"ixfe") (by decide) (clear_dec n).xml)
        (by simp only [elemText, List.append_assoc, List.cons_append, List.nil_append]) rfl)
    have hl := filled_reads (k := b!"rgixfe") (l := ixs) (j := b!"\"rgixfe\":[" ++ vectorJoin (ixs.map dec) b!"," ++ b!"]")
      (x := b!"<rgixfe>" ++ (ixs.map (fun x => b!"<ixfe>" ++ dec x ++ b!"</ixfe>")).flatten ++ b!"</rgixfe>")
      (by decide) (by simp) (by simp only [elemText, List.append_assoc, List.cons_append, List.nil_append]) harr
    exact ⟨_, Pointwise.append (.cons (numFX_reads (by decide)) (.cons (textX_reads (by decide) (clear_column _))
      (.cons (textX_reads (by decide) (clear_column _)) .nil))) hl, _, _, rfl⟩
  | sst a b ss =>
    rw [hv] at h hx; injection h with h; subst h
    have hex : ∀ s ∈ ss, ∃ v, XReads (b!"<string>" ++ XmlEscape s ++ b!"</string>") [v] ∧ TextX b!"string" s v := by
      intro s hs
      obtain ⟨v, h1, h2⟩ := textX_of (k := b!"string") (by decide) (hx s hs).legal
      exact ⟨v, XReads.of h1 (by simp only [elemText, List.append_assoc, List.cons_append, List.nil_append]) rfl, h2⟩
    obtain ⟨vs, hvs⟩ := Pointwise.exists hex
    have h1 : XReads (ss.map (fun s => b!"<string>" ++ XmlEscape s ++ b!"</string>")).flatten vs :=
      xreads_flatten (Pointwise.map_left (hvs.imp fun _ _ h => h.1))
    have hl := filled_reads (k := b!"strings") (l := ss)
      (j := b!"\"strings\":[" ++ vectorJoin (ss.map JsonEscape) b!"," true ++ b!"]")
      (x := b!"<strings>" ++ (ss.map (fun s => b!"<string>" ++ XmlEscape s ++ b!"</string>")).flatten ++ b!"</strings>")
      (by decide) (Pointwise_length hvs) (by simp only [elemText, List.append_assoc, List.cons_append, List.nil_append]) h1
    exact ⟨_, Pointwise.append (.cons (numX_reads (by decide) (clear_int a)) (.cons (numX_reads (by decide) (clear_int b)) .nil)) hl,
      vs, hvs.imp fun _ _ h => h.2, rfl⟩
  | labelSst i v =>
    rw [hv] at h hx
    have h := unmoved_ok h
    unfold labelSstFields at h
    obtain ⟨cell, hc, h⟩ := bind_ok_inv h
    injection h with h
    subst h
    have hc := clear_throughCast hc
    cases v with
    | none => exact ⟨_, .cons (textX_reads (by decide) hc) (.cons (numFX_reads (by decide)) .nil), _, _, rfl, fun s hs => by cases hs⟩
    | some s =>
      obtain ⟨v2, g2, t2⟩ := escX_reads (k := b!"Value") (by decide) (hx s rfl).legal
      refine ⟨_, .cons (textX_reads (by decide) hc) (.cons (numFX_reads (by decide)) (.cons g2 .nil)), _, _, rfl, ?_⟩
      intro t ht
      injection ht with ht
      subst ht
      exact ⟨_, rfl, t2⟩
  | supBook a b path ss =>
    rw [hv] at h hr; injection h with h; subst h
    obtain ⟨hp, hs⟩ := hr
    have harr : XReads (ss.map (fun s => b!"<string>" ++ s ++ b!"</string>")).flatten (ss.map (.leaf b!"string")) :=
      xreads_flatten (pointwise_map fun s hm => XReads.of (xreads_leaf (n := b!"string") (by decide) (hs s hm).xml)
        (by simp only [elemText, List.append_assoc, List.cons_append, List.nil_append]) rfl)
    have hl := filled_reads (k := b!"rgst") (l := ss) (j := b!"\"rgst\":[" ++ vectorJoin ss b!"," true ++ b!"]")
      (x := b!"<rgst>" ++ (ss.map (fun s => b!"<string>" ++ s ++ b!"</string>")).flatten ++ b!"</rgst>")
      (by decide) (by simp) (by simp only [elemText, List.append_assoc, List.cons_append, List.nil_append]) harr
    cases path with
    | none => exact ⟨_, Pointwise.append (.cons (numFX_reads (by decide)) (.cons (numFX_reads (by decide)) .nil)) hl, rfl⟩
    | some s => exact ⟨_, Pointwise.append (.cons (numFX_reads (by decide)) (.cons (numFX_reads (by decide))
        (.cons (textX_reads (by decide) (hp s rfl)) .nil))) hl, rfl⟩
  | codeName s =>
    rw [hv] at h hr; injection h with h; subst h
    exact ⟨_, .cons (textX_reads (by decide) hr) .nil, rfl⟩
  | blank =>
    rw [hv] at h
    have h := unmoved_ok h
    unfold blankFields at h
    obtain ⟨cell, hc, h⟩ := bind_ok_inv h
    injection h with h
    subst h
    exact ⟨_, .cons (textX_reads (by decide) (clear_throughCast hc)) .nil, _, rfl⟩
  | boolErr b f =>
    rw [hv] at h
    have h := unmoved_ok h
    unfold boolErrFields at h
    obtain ⟨cell, hc, h⟩ := bind_ok_inv h
    injection h with h
    subst h
    exact ⟨_, .cons (textX_reads (by decide) (clear_throughCast hc)) (.cons (numFX_reads (by decide)) (.cons (numFX_reads (by decide))
      (.cons (textX_reads (by decide) (clear_if (clear_dec _) (clear_error _))) .nil))), _, _, rfl⟩
  | string s =>
    rw [hv] at h; injection h with h; subst h
    refine ⟨_, .cons (XReads.of (xreads_elem (n := b!"String") (by decide) (cdata_reads s)) ?_ rfl) .nil, rfl⟩
    simp only [Field.toXml, elemText, List.append_assoc, List.cons_append, List.nil_append]
  | row a b c d e f g h' i j =>
    rw [hv] at h; injection h with h; subst h
    unfold rowFields
    apply Exists.intro
    apply And.intro
    · read_elems
    · exact ⟨_, rfl⟩
  | rk rw col ixfe =>
    rw [hv] at h
    have h := unmoved_ok h
    unfold rkFields at h
    obtain ⟨d, _, h⟩ := bind_ok_inv h
    injection h with h
    subst h
    have hc : Clear (ColNumToName col ++ dec (rw + 1)) := (clear_column _).append (clear_dec _)
    apply Exists.intro
    apply And.intro
    · read_elems
      apply Pointwise.cons
      · exact numX_reads (by decide) (clear_rkValue hf _)
      · exact .nil
    · exact ⟨_, rfl⟩
  | areaFormat a b c d e f g =>
    rw [hv] at h; injection h with h; subst h
    obtain ⟨v, h1⟩ := rgbX_reads (k := b!"rgbFore") (d := a) (by decide)
    obtain ⟨w, h2⟩ := rgbX_reads (k := b!"rgbBack") (d := b) (by decide)
    unfold areaFormatFields
    apply Exists.intro
    apply And.intro
    · apply Pointwise.cons
      · exact h1
      apply Pointwise.cons
      · exact h2
      read_elems
    · simp [DetailsX]

theorem recordX_reads {abi : Abi} {fmt : Fmt} (hf : ClearFmt fmt) {r : Rec} (hr : ClearRecord r) (hx : LegalRecord r) {t : Bytes}
    (h : r.toXml abi fmt = .ok t) : ∃ v, XReads t [v] ∧ RecordShownX r v := by
  unfold Rec.toXml at h
  obtain ⟨l, hl, h⟩ := bind_ok_inv h
  injection h with h
  obtain ⟨vs, h1, h2⟩ := fieldsX_read hf hr hx hl
  refine ⟨_, XReads.of (xreads_elem (n := b!"Record") (by decide) (objX_fields
    (.cons (textX_reads (k := b!"Type") (by decide) (clear_recordType r.type))
      (.cons (numFX_reads (k := b!"Length") (n := r.length) (by decide)) h1)))) ?_ rfl, vs, rfl, h2⟩
  rw [← h]
  simp only [Rec.baseFields, elemText, List.append_assoc, List.cons_append, List.nil_append]

/-! ## Parts of the workbook -/

/-- Each record that is printed is printed as an element of which `S` holds. -/
def PrintsAsX (abi : Abi) (fmt : Fmt) (S : Rec → XVal → Prop) (master : List Rec) : Prop :=
  ∀ r ∈ master, ∀ t, r.toXml abi fmt = .ok t → ∃ v, XReads t [v] ∧ S r v

/-- The element stands for the sheet. -/
def SheetListedX (S : Rec → XVal → Prop) (master : List Rec) (s : Sheet) (v : XVal) : Prop :=
  ∃ name rs, TextX b!"Name" s.Name name ∧ Listed S master s.children rs ∧
    v = .elem b!"Sheet" ([name, .leaf b!"Type" (GetSheetTypeStr s.kind), .leaf b!"Visiblity" (GetVisibilityStr s.Visiblity),
      numX b!"Offset" s.Offset] ++ filled b!"Records" rs)

theorem substreamX_reads {abi : Abi} {fmt : Fmt} {S : Rec → XVal → Prop} {master : List Rec}
    (hr : PrintsAsX abi fmt S master) {ids : List Nat} {t : Bytes} (h : substreamXml abi fmt master ids = .ok t) :
    ∃ vs, XReads t [.elem b!"Records" vs] ∧ Listed S master ids vs ∧ ids.length = vs.length := by
  unfold substreamXml at h
  obtain ⟨l, hl, h⟩ := bind_ok_inv h
  injection h with h
  obtain ⟨vs, h1, h2⟩ := printAll_reads (R := fun t v => XReads t [v]) hl
    fun r hm t ht => hr r hm t ht
  refine ⟨vs, XReads.of (xreads_elem (n := b!"Records") (by decide) (xreads_flatten h1)) ?_ rfl, h2, Pointwise_length h2⟩
  rw [← h]
  simp only [elemText, List.append_assoc, List.cons_append, List.nil_append]

theorem sheetX_reads {abi : Abi} {fmt : Fmt} {S : Rec → XVal → Prop} {master : List Rec}
    (hr : PrintsAsX abi fmt S master) {s : Sheet} (hs : LegalText s.Name) {t : Bytes}
    (h : sheetXml abi fmt master s = .ok t) : ∃ v, XReads t [v] ∧ SheetListedX S master s v := by
  unfold sheetXml at h
  dsimp only at h
  obtain ⟨name, n1, n2⟩ := textX_of (k := b!"Name") (by decide) hs.legal
  have base := ((n1.append (xreads_leaf (n := b!"Type") (by decide) (clear_sheetType s.kind).xml)).append
    (xreads_leaf (n := b!"Visiblity") (by decide) (clear_visibility s.Visiblity).xml)).append
    (xreads_leaf (n := b!"Offset") (by decide) (clear_dec s.Offset).xml)
  by_cases hc : s.children.length > 0
  · rw [if_pos hc] at h
    obtain ⟨k, hs, h⟩ := bind_ok_inv h
    injection h with h
    obtain ⟨vs, h1, h3, h4⟩ := substreamX_reads hr hs
    refine ⟨_, ?_, name, vs, n2, h3, rfl⟩
    have : filled b!"Records" vs = [.elem b!"Records" vs] := by
      cases vs with
      | nil => rw [h4] at hc; cases hc
      | cons _ _ => rfl
    rw [this]
    refine XReads.of (xreads_elem (n := b!"Sheet") (by decide) (base.append h1)) ?_ rfl
    rw [← h]
    simp only [elemText, List.append_assoc, List.cons_append, List.nil_append]
  · rw [if_neg hc] at h
    injection h with h
    have hnil : s.children = [] := List.eq_nil_of_length_eq_zero (by omega)
    refine ⟨_, ?_, name, [], n2, by rw [hnil]; exact .nil, rfl⟩
    refine XReads.of (xreads_elem (n := b!"Sheet") (by decide) base) ?_ rfl
    rw [← h]
    simp only [elemText, List.append_assoc, List.cons_append, List.nil_append]

theorem workbookX_says {abi : Abi} {fmt : Fmt} {S : Rec → XVal → Prop} {x : ExcelInfo}
    (hr : PrintsAsX abi fmt S x.eng.master) (hs : ∀ s ∈ x.eng.sheets, LegalText s.Name)
    (he : Clear x.error) {b : Bytes} {us : List XVal} (hb : XReads b us) {t : Bytes} (h : x.toXml abi fmt b = .ok t) :
    ∃ rs ss, XReads t [.elem b!"item" (us ++ .elem b!"globals" [.elem b!"Records" rs] ::
        (filled b!"sheets" ss ++ givenX b!"ERROR" x.error))] ∧
      Listed S x.eng.master x.eng.global rs ∧ Pointwise (SheetListedX S x.eng.master) x.eng.sheets ss := by
  unfold ExcelInfo.toXml at h
  obtain ⟨g, hg, h1⟩ := bind_ok_inv h
  obtain ⟨sh, hsh, h2⟩ := bind_ok_inv h1
  injection h2 with h2
  obtain ⟨rs, g1, g2, _⟩ := substreamX_reads hr hg
  obtain ⟨ss, s1, s2⟩ := pointwise_trans (S := fun t v => XReads t [v]) (T := SheetListedX S x.eng.master)
    (printSheets_pointwise hsh) (fun s hm t ht => sheetX_reads hr (hs s hm) ht)
  have sheets : XReads (if sh.length > 0 then elemText b!"sheets" sh.flatten else []) (filled b!"sheets" ss) := by
    have := Pointwise_length s1
    cases ss with
    | nil => rw [if_neg (by rw [this]; simp)]; exact xreads_nil
    | cons v vs => rw [if_pos (by rw [this]; simp)]; exact xreads_elem (by decide) (xreads_flatten s1)
  have error := xreads_opt (x.error ≠ []) (xreads_leaf (n := b!"ERROR") (by decide) he.xml) Iff.rfl
  have := xreads_elem (n := b!"item") (by decide) (hb.append ((xreads_elem (n := b!"globals") (by decide) g1).append
    (sheets.append error)))
  refine ⟨rs, ss, XReads.of this ?_ rfl, g2, s2⟩
  rw [← h2]
  simp only [elemText, List.append_assoc, List.cons_append, List.nil_append]

theorem workbookX_reads {abi : Abi} {fmt : Fmt} (hf : ClearFmt fmt) {x : ExcelInfo}
    (hr : ∀ r ∈ x.eng.master, ClearRecord r ∧ LegalRecord r) (hs : ∀ s ∈ x.eng.sheets, LegalText s.Name)
    (he : Clear x.error) {b : Bytes} {us : List XVal} (hb : XReads b us) {t : Bytes} (h : x.toXml abi fmt b = .ok t) :
    ∃ vs, XReads t [.elem b!"item" (us ++ vs)] ∧ WorkbookShownX x vs := by
  obtain ⟨rs, ss, h1, h2, h3⟩ := workbookX_says (S := RecordShownX)
    (fun r hm t ht => recordX_reads hf (hr r hm).1 (hr r hm).2 ht) hs he hb h
  exact ⟨_, h1, rs, ss, h2, h3, rfl⟩

end Fileid.Report
