import Verif.Spec.ReportExcel
import Verif.Lemmas.ReportXml
import Verif.Lemmas.Excel

/-!
# Lemmas about the reports on workbooks
-/

namespace Fileid.Report

open Common Spec Spec.Report Excel Props

/-- The text of the member is read as key and value. -/
def FieldReads (f : Field) (p : Bytes × JVal) : Prop := ∃ m : JMember, f.toJson = m.text ∧ m.Reads p

theorem num_reads {k v : Bytes} {x : JVal} (hk : jsonPlain k = true) (hv : JReads v x) : FieldReads (.num k v) (k, x) :=
  ⟨{ key := k, val := v }, by simp [Field.toJson, JMember.text], Asf.member hk hv⟩

theorem numF_reads {k : Bytes} {n : Nat} (hk : jsonPlain k = true) : FieldReads (numF k n) (k, .nat n) :=
  num_reads hk (jreads_nat n)

theorem text_reads {k s : Bytes} (hk : jsonPlain k = true) (hs : Clear s) : FieldReads (.text k s) (k, .text s) :=
  ⟨{ key := k, val := b!"\"" ++ s ++ b!"\"" }, by simp [Field.toJson, JMember.text],
    Asf.member hk (jclosed_text hs.json).reads⟩

theorem esc_reads {k s : Bytes} (hk : jsonPlain k = true) : FieldReads (.esc k s) (k, shown s) :=
  ⟨{ key := k, val := b!"\"" ++ JsonEscape s ++ b!"\"" }, by simp [Field.toJson, JMember.text],
    Asf.member hk (jclosed_esc s).reads⟩

theorem raw_reads {k j t xml : Bytes} {v : JVal} (hk : jsonPlain k = true) (hj : j = b!"\"" ++ k ++ b!"\":" ++ t) (h : JReads t v) :
    FieldReads (.raw j xml) (k, v) :=
  ⟨{ key := k, val := t }, by rw [hj]; simp [Field.toJson, JMember.text], Asf.member hk h⟩

/-- An object of such members. -/
theorem obj_fields {l : List Field} {ps : List (Bytes × JVal)} (h : Pointwise FieldReads l ps) : JClosed (objJson l) (.obj ps) := by
  obtain ⟨ms, h1, h2⟩ : ∃ ms : List JMember, l.map Field.toJson = ms.map JMember.text ∧ Pointwise JMember.Reads ms ps := by
    induction h with
    | nil => exact ⟨[], rfl, .nil⟩
    | cons hf _ ih =>
      obtain ⟨m, h1, h2⟩ := hf
      obtain ⟨ms, h3, h4⟩ := ih
      exact ⟨m :: ms, by rw [List.map_cons, List.map_cons, h1, h3], .cons h2 h4⟩
  refine JClosed.of (jclosed_obj h2) ?_ rfl
  rw [objJson, objText, vectorJoin_plain, h1, Asf.membersText_eq]

theorem nested_reads {k : Bytes} {l : List Field} {ps : List (Bytes × JVal)} (hk : jsonPlain k = true)
    (h : Pointwise FieldReads l ps) : FieldReads (nested k l) (k, .obj ps) :=
  raw_reads hk rfl (obj_fields h).reads

theorem rgb_reads {k d : Bytes} (hk : jsonPlain k = true) : ∃ v, FieldReads (rgbField k d) (k, v) :=
  ⟨_, raw_reads hk rfl (obj_fields (.cons (numF_reads rfl) (.cons (numF_reads rfl) (.cons (numF_reads rfl)
    (.cons (numF_reads rfl) .nil))))).reads⟩

/-! ## Texts of tables -/

theorem clear_if {p : Prop} [Decidable p] {a b : Bytes} (ha : Clear a) (hb : Clear b) : Clear (if p then a else b) := by
  split
  · exact ha
  · exact hb

theorem clear_recordType (n : Nat) : Clear (GetRecordTypeStr n) := by
  unfold GetRecordTypeStr
  exact clear_lookup (by decide +kernel) n (clear_lit _ (by decide))

theorem clear_country (n : Nat) : Clear (GetCountryName n) := by
  unfold GetCountryName
  exact clear_lookup (by decide +kernel) n (clear_lit _ (by decide))

theorem clear_bofType (n : Nat) : Clear (GetBOFType n) := by
  unfold GetBOFType
  repeat' refine clear_if (clear_lit _ (by decide)) ?_
  exact clear_lit _ (by decide)

theorem clear_error (n : Nat) : Clear (ErrorValueString n) := by
  unfold ErrorValueString
  repeat' refine clear_if (clear_lit _ (by decide)) ?_
  exact clear_lit _ (by decide)

theorem clear_sheetType (n : Nat) : Clear (GetSheetTypeStr n) := by
  unfold GetSheetTypeStr
  repeat' refine clear_if (clear_lit _ (by decide)) ?_
  exact clear_lit _ (by decide)

theorem clear_visibility (n : Nat) : Clear (GetVisibilityStr n) := by
  unfold GetVisibilityStr
  repeat' refine clear_if (clear_lit _ (by decide)) ?_
  exact clear_lit _ (by decide)

theorem clear_column (n : Nat) : Clear (ColNumToName n) := by
  intro c hc
  have h := (ColNumToName_spec n).1 c hc
  simp only [UInt8.le_iff_toNat_le] at h
  have h1 : (65 : UInt8).toNat = 65 := rfl
  have h2 : (90 : UInt8).toNat = 90 := rfl
  rw [h1, h2] at h
  refine ⟨by omega, by omega, ?_, ?_, ?_, ?_, ?_⟩
  all_goals intro he; subst he; simp at h

theorem clear_cell (row col : Nat) : Clear (cellRef row col) := (clear_column _).append (clear_dec _)

theorem clear_throughCast {data s : Bytes} (h : cellThroughCast data = .ok s) : Clear s := by
  unfold cellThroughCast at h
  obtain ⟨d, _, h⟩ := bind_ok_inv h
  injection h with h
  rw [← h]; exact clear_cell _ _

/-! ## Numbers -/

theorem jreads_int (i : Int) : JReads (decInt i) (.bare (decInt i)) := by
  unfold decInt
  split
  · refine jreads_bare rfl (fun d hd => ?_) ?_
    · rcases dec_shape i.natAbs with h | ⟨c, cs, h, hc, _, hcs⟩
      · rw [h] at hd
        rw [List.mem_singleton.1 hd]; decide
      · rw [h] at hd
        rcases List.mem_cons.1 hd with rfl | hd
        · exact digit_not_delim hc
        · exact digit_not_delim (hcs d hd)
    · unfold jsonBare
      have : jsonNumber (45 :: dec i.natAbs) = true := by
        unfold jsonNumber
        rw [if_pos (show (45 :: dec i.natAbs).head? = some 45 from rfl), List.tail_cons]
        rcases dec_shape i.natAbs with h | ⟨c, cs, h, hc, h0, hcs⟩
        · rw [h]; rfl
        · rw [h]
          split
          · rename_i h'; cases h'
          · rename_i h'; injection h' with h' _; exact absurd h' h0
          · rename_i h'
            injection h' with h1 h2
            subst h1; subst h2
            rw [hc, dropWhile_all hcs]; rfl
      rw [this]; simp
  · exact jreads_nat _

theorem bits_lt (n lo w : Nat) : bits n lo w < 2 ^ w := Nat.mod_lt _ (Nat.two_pow_pos w)

theorem rkValue_reads {fmt : Fmt} (hf : NumberFmt fmt) (n : Nat) : JReads (rkValue fmt n) (.bare (rkValue fmt n)) := by
  unfold rkValue
  split
  · split
    · exact jreads_nat _
    · exact jreads_nat _
  · obtain ⟨h1, h2⟩ := hf _ (bits_lt n 2 30)
    exact jreads_number h1 h2

/-! ## Records -/

/-- Prove that members are read, one after the other. -/
macro "read_fields" : tactic =>
  `(tactic| repeat first
    | exact Pointwise.nil
    | (apply Pointwise.cons
       first
       | exact numF_reads rfl
       | exact esc_reads rfl
       | exact text_reads rfl (by assumption)
       | exact text_reads rfl (clear_bofType _)
       | exact text_reads rfl (clear_cell _ _)
       | exact text_reads rfl (clear_column _)
       | exact text_reads rfl (clear_bin2hex _)
       | exact text_reads rfl (clear_lit _ (by decide))))

theorem locale_reads {k : Bytes} {n : Nat} (hk : jsonPlain k = true) :
    FieldReads (localeField k n) (k, .obj [(b!"Code", .nat n), (b!"Name", .text (GetCountryName n))]) := by
  have := jclosed_obj (ms := [
    { pre := b!" ", key := b!"Code", val := dec n },
    { pre := b!" ", key := b!"Name", mid := b!": ", val := b!"\"" ++ GetCountryName n ++ b!"\"" }])
    (ps := [(b!"Code", .nat n), (b!"Name", .text (GetCountryName n))])
    (.cons ⟨rfl, rfl, rfl, ⟨[], [], rfl, rfl, rfl⟩, jreads_nat n⟩
      (.cons ⟨rfl, rfl, rfl, ⟨[], b!" ", rfl, rfl, rfl⟩, (jclosed_text (clear_country n).json).reads⟩ .nil))
  refine ⟨{ key := k, mid := b!" : ", val := _ }, ?_, ⟨rfl, hk, rfl, ⟨b!" ", b!" ", rfl, rfl, rfl⟩, this.reads⟩⟩
  simp only [localeField, Field.toJson, objText, membersText, JMember.text, List.append_assoc, List.cons_append, List.nil_append]

theorem listed_reads {k : Bytes} {α : Type} {l : List α} {vs : List JVal} {f : Field} (h : l.length = vs.length)
    (hf : FieldReads f (k, .arr vs)) : Pointwise FieldReads (if l.length > 0 then [f] else []) (listed k vs) := by
  cases vs with
  | nil => rw [if_neg (by rw [h]; simp)]; exact .nil
  | cons v vs => rw [if_pos (by rw [h]; simp)]; exact .cons hf .nil

theorem pointwise_map {α β γ : Type} {R : β → γ → Prop} {f : α → β} {g : α → γ} {l : List α} (h : ∀ a ∈ l, R (f a) (g a)) :
    Pointwise R (l.map f) (l.map g) := by
  induction l with
  | nil => exact .nil
  | cons a l ih => exact .cons (h a (by simp)) (ih fun b hb => h b (by simp [hb]))

theorem quoted_join {α : Type} {l : List α} {f : α → Bytes} {g : α → JVal}
    (h : ∀ a ∈ l, JReads (b!"\"" ++ f a ++ b!"\"") (g a)) :
    JClosed (b!"[" ++ vectorJoin (l.map f) b!"," true ++ b!"]") (.arr (l.map g)) := by
  rw [vectorJoin_items, List.map_map]
  exact jclosed_arr (pointwise_map (f := _) (by simpa using h))

theorem filePass_reads {abi : Abi} {data : Bytes} {p : FilePass} {l : List Field} (h : filePassFields abi data p = .ok l) :
    ∃ ms, Pointwise FieldReads l ms ∧ Details (.filePass p) ms := by
  have xor : FieldReads (.raw (b!"\"XorKey\": " ++ dec p.key) (b!"<XorKey>" ++ dec p.key ++ b!"</XorKey>"))
      (b!"XorKey", .nat p.key) :=
    ⟨{ key := b!"XorKey", mid := b!": ", val := dec p.key },
      by simp only [Field.toJson, JMember.text, List.append_assoc, List.cons_append, List.nil_append],
      Asf.member_gap rfl (jreads_nat _)⟩
  have ver : FieldReads (.raw (b!"\"RC4Version\": {\"Major\":" ++ dec p.vMajor ++ b!",\"Minor\":" ++ dec p.vMinor ++ b!"}")
        (b!"<RC4Version><Major>" ++ dec p.vMajor ++ b!"</Major><Minor>" ++ dec p.vMinor ++ b!"</Minor></RC4Version>"))
      (b!"RC4Version", .obj [(b!"Major", .nat p.vMajor), (b!"Minor", .nat p.vMinor)]) := by
    have := jclosed_obj (ms := [{ key := b!"Major", val := dec p.vMajor }, { key := b!"Minor", val := dec p.vMinor }])
      (.cons (Asf.member_nat _ rfl) (.cons (Asf.member_nat _ rfl) .nil))
    refine ⟨{ key := b!"RC4Version", mid := b!": ", val := _ }, ?_, Asf.member_gap rfl this.reads⟩
    simp only [Field.toJson, objText, membersText, JMember.text, List.append_assoc, List.cons_append, List.nil_append]
  unfold filePassFields at h
  by_cases h0 : p.wEncryptionType = 0
  · rw [if_pos h0] at h
    injection h with h
    subst h
    refine ⟨_, .cons (text_reads rfl (clear_lit _ (by decide))) (.cons xor (.cons (numF_reads rfl) .nil)), ?_⟩
    exact ⟨fun _ => rfl, fun h => by omega, fun h => by omega⟩
  rw [if_neg h0] at h
  by_cases h1 : p.wEncryptionType = 1
  · rw [if_pos h1] at h
    have wrap : ∀ {l : List Field} {ms}, Pointwise FieldReads l ms → ∃ ms', Pointwise FieldReads
        ([ .text b!"EncryptionType" b!"RC4",
      .raw (b!"\"RC4Version\": {\"Major\":" ++ dec p.vMajor ++ b!",\"Minor\":" ++ dec p.vMinor ++ b!"}")
        (b!"<RC4Version><Major>" ++ dec p.vMajor ++ b!"</Major><Minor>" ++ dec p.vMinor ++ b!"</Minor></RC4Version>")] ++ l) ms' ∧
        Details (.filePass p) ms' := by
      intro l ms hl
      refine ⟨_, .cons (text_reads rfl (clear_lit _ (by decide))) (.cons ver hl), ?_⟩
      exact ⟨fun h => absurd h h0, fun _ => ⟨_, rfl⟩, fun h => by omega⟩
    dsimp only at h
    split at h
    · cases h
    · rename_i off hoff
      obtain ⟨l', h2, h⟩ := bind_ok_inv h
      injection h with h
      subst h
      unfold filePassApiFields at h2
      obtain ⟨flags, _, h2⟩ := bind_ok_inv h2
      obtain ⟨header, _, h2⟩ := bind_ok_inv h2
      obtain ⟨csp, _, h2⟩ := bind_ok_inv h2
      obtain ⟨verifier, _, h2⟩ := bind_ok_inv h2
      injection h2 with h2
      subst h2
      have f1 : ∀ w, ∃ ms, Pointwise FieldReads (flagsFields w) ms := fun w => by
        apply Exists.intro
        unfold flagsFields
        read_fields
      have f2 : ∃ ms, Pointwise FieldReads (encHeaderFields header) ms := by
        obtain ⟨ms, hms⟩ := f1 (leVal ((header.drop 0).take 4))
        apply Exists.intro
        unfold encHeaderFields
        apply Pointwise.cons
        · exact nested_reads rfl hms
        read_fields
      have f3 : ∃ ms, Pointwise FieldReads (verifierFields verifier) ms := by
        apply Exists.intro
        unfold verifierFields
        read_fields
      obtain ⟨m1, g1⟩ := f1 (leVal flags)
      obtain ⟨m2, g2⟩ := f2
      obtain ⟨m3, g3⟩ := f3
      exact wrap (.cons (nested_reads rfl g1) (.cons (nested_reads rfl g2) (.cons (esc_reads rfl)
        (.cons (nested_reads rfl g3) (.cons (text_reads rfl (clear_bin2hex _)) .nil)))))
    · injection h with h
      subst h
      apply wrap
      read_fields
  · rw [if_neg h1] at h
    injection h with h
    subst h
    refine ⟨_, .cons (numF_reads rfl) .nil, ?_⟩
    exact ⟨fun h => absurd h h0, fun h => absurd h h1, fun _ => rfl⟩

theorem unmoved_ok {m : Bool} {x : Res (List Field)} {l : List Field} (h : ifUnmoved m x = .ok l) : x = .ok l := by
  unfold ifUnmoved at h
  split at h
  · cases h
  · exact h

theorem fields_read {abi : Abi} {fmt : Fmt} (hf : NumberFmt fmt) {r : Rec} (hr : ClearRecord r) {l : List Field}
    (h : r.fields abi fmt = .ok l) : ∃ ms, Pointwise FieldReads l ms ∧ Details r.view ms := by
  unfold Rec.fields at h
  unfold ClearRecord at hr
  cases hv : r.view with
  | plain => rw [hv] at h; injection h with h; subst h; exact ⟨_, .nil, rfl⟩
  | boundSheet5 s => rw [hv] at h; injection h with h; subst h; exact ⟨_, .nil, rfl⟩
  | bof =>
    rw [hv] at h
    have h := unmoved_ok h
    unfold bofFields at h
    split at h
    · cases h
    obtain ⟨d, _, h⟩ := bind_ok_inv h
    injection h with h
    subst h
    apply Exists.intro
    apply And.intro
    · read_fields
    · exact ⟨⟨_, List.mem_cons_self⟩, _, List.mem_cons_of_mem _ List.mem_cons_self⟩
  | formula rw col ixfe value flags formula =>
    rw [hv] at h
    injection h with h
    subst h
    unfold formulaFields
    apply Exists.intro
    apply And.intro
    · read_fields
    · simp [Details]
  | lbl name =>
    rw [hv] at h
    have h := unmoved_ok h
    unfold lblFields at h
    obtain ⟨d, _, h⟩ := bind_ok_inv h
    injection h with h
    subst h
    have hn : FieldReads (.raw b!"\"namedparsedformula\":{}" b!"<NameParsedFormula></NameParsedFormula>")
        (b!"namedparsedformula", .obj []) :=
      raw_reads (k := b!"namedparsedformula") rfl rfl (jclosed_obj .nil).reads
    apply Exists.intro
    apply And.intro
    · read_fields
      apply Pointwise.cons
      · exact hn
      · exact .nil
    · simp [Details]
  | winProtect n =>
    rw [hv] at h; injection h with h; subst h
    exact ⟨_, .cons (numF_reads rfl) .nil, rfl⟩
  | externName a =>
    rw [hv] at h hr
    have h := unmoved_ok h
    unfold externNameFields at h
    obtain ⟨d, _, h⟩ := bind_ok_inv h
    injection h with h
    subst h
    cases a with
    | none =>
      apply Exists.intro
      apply And.intro
      · read_fields
      · intro s hs; cases hs
    | some s =>
      have hs : Clear s := hr
      apply Exists.intro
      apply And.intro
      · read_fields
      · intro t ht; injection ht with ht; subst ht; simp
  | filePass p =>
    rw [hv] at h
    exact filePass_reads (unmoved_ok h)
  | codePage n =>
    rw [hv] at h; injection h with h; subst h
    exact ⟨_, .cons (numF_reads rfl) (.cons (esc_reads rfl) .nil), _, rfl⟩
  | writeAccess s =>
    rw [hv] at h hr; injection h with h; subst h
    exact ⟨_, .cons (text_reads rfl hr) .nil, rfl⟩
  | boundSheet8 name =>
    rw [hv] at h
    have h := unmoved_ok h
    unfold boundSheet8Fields at h
    obtain ⟨d, _, h⟩ := bind_ok_inv h
    injection h with h
    subst h
    exact ⟨_, .cons (esc_reads rfl) (.cons (numF_reads rfl) (.cons (numF_reads rfl) .nil)), _, _, rfl⟩
  | country a b =>
    rw [hv] at h; injection h with h; subst h
    exact ⟨_, .cons (locale_reads rfl) (.cons (locale_reads rfl) .nil), _, _, rfl⟩
  | fnGroupName s =>
    rw [hv] at h hr; injection h with h; subst h
    exact ⟨_, .cons (text_reads rfl hr) .nil, rfl⟩
  | builtInFnGroupCount n =>
    rw [hv] at h; injection h with h; subst h
    exact ⟨_, .cons (numF_reads rfl) .nil, rfl⟩
  | mulBlank rw a b ixs =>
    rw [hv] at h; injection h with h; subst h
    have harr : Pointwise JReads (ixs.map dec) (ixs.map .nat) := pointwise_map fun n _ => jreads_nat n
    refine ⟨_, Pointwise.append (.cons (numF_reads rfl) (.cons (text_reads rfl (clear_column _))
      (.cons (text_reads rfl (clear_column _)) .nil)))
      (listed_reads (k := b!"rgixfe") (vs := ixs.map .nat) (by simp) (raw_reads rfl ?_ (arr_join harr).reads)), _, _, rfl⟩
    simp only [List.append_assoc, List.cons_append, List.nil_append]
  | sst a b ss =>
    rw [hv] at h; injection h with h; subst h
    refine ⟨_, Pointwise.append (.cons (num_reads rfl (jreads_int a)) (.cons (num_reads rfl (jreads_int b)) .nil))
      (listed_reads (k := b!"strings") (vs := ss.map shown) (by simp)
        (raw_reads rfl ?_ (quoted_join (f := JsonEscape) (g := shown) fun s _ => (jclosed_esc s).reads).reads)), rfl⟩
    simp only [List.append_assoc, List.cons_append, List.nil_append]
  | labelSst i v =>
    rw [hv] at h
    have h := unmoved_ok h
    unfold labelSstFields at h
    obtain ⟨cell, hc, h⟩ := bind_ok_inv h
    injection h with h
    subst h
    have hc := clear_throughCast hc
    cases v with
    | none => exact ⟨_, .cons (text_reads rfl hc) (.cons (numF_reads rfl) .nil), _, rfl⟩
    | some s => exact ⟨_, .cons (text_reads rfl hc) (.cons (numF_reads rfl) (.cons (esc_reads rfl) .nil)), _, rfl⟩
  | supBook a b path ss =>
    rw [hv] at h hr; injection h with h; subst h
    obtain ⟨hp, hs⟩ := hr
    have hq := quoted_join (l := ss) (f := fun s => s) (g := JVal.text) fun s hm => (jclosed_text (hs s hm).json).reads
    rw [List.map_id'] at hq
    have hl := listed_reads (k := b!"rgst") (l := ss) (vs := ss.map .text) (f := .raw
      (b!"\"rgst\":[" ++ vectorJoin ss b!"," true ++ b!"]")
      (b!"<rgst>" ++ (ss.map (fun s => b!"<string>" ++ s ++ b!"</string>")).flatten ++ b!"</rgst>")) (by simp)
      (raw_reads rfl (by simp only [List.append_assoc, List.cons_append, List.nil_append]) hq.reads)
    cases path with
    | none => exact ⟨_, Pointwise.append (.cons (numF_reads rfl) (.cons (numF_reads rfl) .nil)) hl, rfl⟩
    | some s => exact ⟨_, Pointwise.append (.cons (numF_reads rfl) (.cons (numF_reads rfl)
        (.cons (text_reads rfl (hp s rfl)) .nil))) hl, rfl⟩
  | codeName s =>
    rw [hv] at h hr; injection h with h; subst h
    exact ⟨_, .cons (text_reads rfl hr) .nil, rfl⟩
  | blank =>
    rw [hv] at h
    have h := unmoved_ok h
    unfold blankFields at h
    obtain ⟨cell, hc, h⟩ := bind_ok_inv h
    injection h with h
    subst h
    exact ⟨_, .cons (text_reads rfl (clear_throughCast hc)) .nil, _, rfl⟩
  | boolErr b f =>
    rw [hv] at h
    have h := unmoved_ok h
    unfold boolErrFields at h
    obtain ⟨cell, hc, h⟩ := bind_ok_inv h
    injection h with h
    subst h
    exact ⟨_, .cons (text_reads rfl (clear_throughCast hc)) (.cons (numF_reads rfl) (.cons (numF_reads rfl)
      (.cons (text_reads rfl (clear_if (clear_dec _) (clear_error _))) .nil))), _, _, rfl⟩
  | string s =>
    rw [hv] at h; injection h with h; subst h
    refine ⟨_, .cons (raw_reads (k := b!"String") rfl ?_ (jclosed_esc s).reads) .nil, rfl⟩
    simp only [List.append_assoc, List.cons_append, List.nil_append]
  | row a b c d e f g h' i j =>
    rw [hv] at h; injection h with h; subst h
    unfold rowFields
    apply Exists.intro
    apply And.intro
    · read_fields
    · exact ⟨_, rfl⟩
  | rk rw col ixfe =>
    rw [hv] at h
    have h := unmoved_ok h
    unfold rkFields at h
    obtain ⟨d, _, h⟩ := bind_ok_inv h
    injection h with h
    subst h
    have hc : Clear (ColNumToName col ++ dec (rw + 1)) := (clear_column _).append (clear_dec _)
    apply Exists.intro
    apply And.intro
    · read_fields
      apply Pointwise.cons
      · exact num_reads rfl (rkValue_reads hf _)
      · exact .nil
    · exact ⟨_, rfl⟩
  | areaFormat a b c d e f g =>
    rw [hv] at h; injection h with h; subst h
    obtain ⟨v, h1⟩ := rgb_reads (k := b!"rgbFore") (d := a) rfl
    obtain ⟨w, h2⟩ := rgb_reads (k := b!"rgbBack") (d := b) rfl
    unfold areaFormatFields
    apply Exists.intro
    apply And.intro
    · apply Pointwise.cons
      · exact h1
      apply Pointwise.cons
      · exact h2
      read_fields
    · simp [Details]

theorem record_reads {abi : Abi} {fmt : Fmt} (hf : NumberFmt fmt) {r : Rec} (hr : ClearRecord r) {t : Bytes}
    (h : r.toJson abi fmt = .ok t) : ∃ v, JClosed t v ∧ RecordShown r v := by
  unfold Rec.toJson at h
  obtain ⟨l, hl, h⟩ := bind_ok_inv h
  injection h with h
  subst h
  obtain ⟨ms, h1, h2⟩ := fields_read hf hr hl
  exact ⟨_, obj_fields (.cons (text_reads rfl (clear_recordType _)) (.cons (numF_reads rfl) h1)), ms, rfl, h2⟩

/-! ## Parts of the workbook -/

theorem printAll_reads {print : Rec → Res Bytes} {master : List Rec} {ids : List Nat} {ts : List Bytes} {α : Type}
    {R : Bytes → α → Prop} {S : Rec → α → Prop} (h : printAll print master ids = .ok ts)
    (hr : ∀ r ∈ master, ∀ t, print r = .ok t → ∃ v, R t v ∧ S r v) :
    ∃ vs, Pointwise R ts vs ∧ Pointwise (fun i v => ∃ r, master[i]? = some r ∧ S r v) ids vs := by
  induction ids generalizing ts with
  | nil => injection h with h; subst h; exact ⟨[], .nil, .nil⟩
  | cons i ids ih =>
    rw [printAll] at h
    cases hi : master[i]? with
    | none => rw [hi] at h; cases h
    | some r =>
      rw [hi] at h
      obtain ⟨x, hx, h1⟩ := bind_ok_inv h
      obtain ⟨xs, hxs, h2⟩ := bind_ok_inv h1
      injection h2 with h2
      subst h2
      obtain ⟨v, hv1, hv2⟩ := hr r (List.mem_of_getElem? hi) x hx
      obtain ⟨vs, h3, h4⟩ := ih hxs
      exact ⟨v :: vs, .cons hv1 h3, .cons ⟨r, hi, hv2⟩ h4⟩

/-- Each record that is printed is printed as a value of which `S` holds. -/
def PrintsAs (abi : Abi) (fmt : Fmt) (S : Rec → JVal → Prop) (master : List Rec) : Prop :=
  ∀ r ∈ master, ∀ t, r.toJson abi fmt = .ok t → ∃ v, JClosed t v ∧ S r v

/-- The values stand for the records at the positions. -/
def Listed {α : Type} (S : Rec → α → Prop) (master : List Rec) (ids : List Nat) (vs : List α) : Prop :=
  Pointwise (fun i v => ∃ r, master[i]? = some r ∧ S r v) ids vs

/-- The value stands for the sheet. -/
def SheetListed (S : Rec → JVal → Prop) (master : List Rec) (s : Sheet) (v : JVal) : Prop :=
  ∃ rs, Listed S master s.children rs ∧
    v = .obj ([(b!"Name", shown s.Name), (b!"Type", .text (GetSheetTypeStr s.kind)),
      (b!"Visiblity", .text (GetVisibilityStr s.Visiblity)), (b!"Offset", .nat s.Offset)] ++ listed b!"Records" rs)

theorem substream_reads {abi : Abi} {fmt : Fmt} {S : Rec → JVal → Prop} {master : List Rec} (hr : PrintsAs abi fmt S master)
    {ids : List Nat} {t : Bytes} (h : substreamJson abi fmt master ids = .ok t) :
    ∃ m : JMember, ∃ vs, t = m.text ∧ m.Reads (b!"Records", .arr vs) ∧ Listed S master ids vs ∧ ids.length = vs.length ∧
      m.pre = [] := by
  unfold substreamJson at h
  obtain ⟨l, hl, h⟩ := bind_ok_inv h
  injection h with h
  subst h
  obtain ⟨vs, h1, h2⟩ := printAll_reads hl fun r hm t ht => hr r hm t ht
  refine ⟨{ key := b!"Records", val := b!"[" ++ vectorJoin l b!"," ++ b!"]" }, vs, ?_,
    Asf.member rfl (arr_join (h1.imp fun _ _ h => h.reads)).reads, h2, Pointwise_length h2, rfl⟩
  simp only [JMember.text, List.append_assoc, List.cons_append, List.nil_append]

theorem sheet_reads {abi : Abi} {fmt : Fmt} {S : Rec → JVal → Prop} {master : List Rec} (hr : PrintsAs abi fmt S master)
    {s : Sheet} {t : Bytes} (h : sheetJson abi fmt master s = .ok t) : ∃ v, JClosed t v ∧ SheetListed S master s v := by
  unfold sheetJson at h
  dsimp only at h
  have base : Pointwise JMember.Reads [
      { key := b!"Name", val := b!"\"" ++ JsonEscape s.Name ++ b!"\"" },
      { key := b!"Type", val := b!"\"" ++ GetSheetTypeStr s.kind ++ b!"\"" },
      { key := b!"Visiblity", val := b!"\"" ++ GetVisibilityStr s.Visiblity ++ b!"\"" },
      { key := b!"Offset", val := dec s.Offset }]
      [(b!"Name", shown s.Name), (b!"Type", .text (GetSheetTypeStr s.kind)),
      (b!"Visiblity", .text (GetVisibilityStr s.Visiblity)), (b!"Offset", .nat s.Offset)] :=
    .cons (Asf.member rfl (jclosed_esc s.Name).reads)
      (.cons (Asf.member rfl (jclosed_text (clear_sheetType s.kind).json).reads)
      (.cons (Asf.member rfl (jclosed_text (clear_visibility s.Visiblity).json).reads)
      (.cons (Asf.member_nat s.Offset rfl) .nil)))
  by_cases hc : s.children.length > 0
  · rw [if_pos hc] at h
    obtain ⟨k, hs, h⟩ := bind_ok_inv h
    injection h with h
    obtain ⟨m, vs, h1, h2, h3, h4, _⟩ := substream_reads hr hs
    refine ⟨_, ?_, vs, h3, rfl⟩
    have : listed b!"Records" vs = [(b!"Records", .arr vs)] := by
      cases vs with
      | nil => rw [h4] at hc; cases hc
      | cons _ _ => rfl
    rw [this]
    refine JClosed.of (jclosed_obj (base.append (.cons h2 .nil))) ?_ rfl
    rw [← h, h1]
    simp only [objText, membersText, JMember.text, List.append_assoc, List.cons_append, List.nil_append]
  · rw [if_neg hc] at h
    injection h with h
    have hnil : s.children = [] := List.eq_nil_of_length_eq_zero (by omega)
    refine ⟨_, ?_, [], by rw [hnil]; exact .nil, rfl⟩
    refine JClosed.of (jclosed_obj base) ?_ rfl
    rw [← h]
    simp only [objText, membersText, JMember.text, List.append_assoc, List.cons_append, List.nil_append]

theorem printSheets_pointwise {print : Sheet → Res Bytes} {ss : List Sheet} {ts : List Bytes} (h : printSheets print ss = .ok ts) :
    Pointwise (fun s t => print s = .ok t) ss ts := by
  induction ss generalizing ts with
  | nil => injection h with h; subst h; exact .nil
  | cons s ss ih =>
    rw [printSheets] at h
    obtain ⟨x, hx, h1⟩ := bind_ok_inv h
    obtain ⟨xs, hxs, h2⟩ := bind_ok_inv h1
    injection h2 with h2
    subst h2
    exact .cons hx (ih hxs)

theorem workbook_says {abi : Abi} {fmt : Fmt} {S : Rec → JVal → Prop} {x : ExcelInfo} (hr : PrintsAs abi fmt S x.eng.master)
    (he : Clear x.error) {m : JMember} {ms : List JMember} {ps : List (Bytes × JVal)}
    (hb : Pointwise JMember.Reads (m :: ms) ps) {t : Bytes}
    (h : x.toJson abi fmt (membersText (m :: ms)) = .ok t) :
    ∃ rs ss, JClosed t (.obj (ps ++ (b!"globals", .obj [(b!"Records", .arr rs)]) ::
        (listed b!"sheets" ss ++ given b!"ERROR" x.error))) ∧
      Listed S x.eng.master x.eng.global rs ∧ Pointwise (SheetListed S x.eng.master) x.eng.sheets ss := by
  unfold ExcelInfo.toJson at h
  obtain ⟨g, hg, h1⟩ := bind_ok_inv h
  obtain ⟨sh, hs, h2⟩ := bind_ok_inv h1
  injection h2 with h2
  obtain ⟨gm, rs, g1, g2, g3, _, gpre⟩ := substream_reads hr hg
  obtain ⟨ss, s1, s2⟩ := pointwise_trans (S := JClosed) (T := SheetListed S x.eng.master) (printSheets_pointwise hs)
    (fun s _ t ht => sheet_reads hr ht)
  have globals : JMember.Reads
      { pre := b!" ", key := b!"globals", mid := b!": ", val := objText [{ gm with pre := b!" " }] } (b!"globals", .obj [(b!"Records", .arr rs)]) := by
    refine ⟨rfl, rfl, rfl, ⟨[], b!" ", rfl, rfl, rfl⟩, (jclosed_obj (.cons ?_ .nil)).reads⟩
    exact ⟨rfl, g2.key, g2.keyEq, g2.mid, g2.val⟩
  have sheets : Pointwise JMember.Reads (if sh.length > 0 then
      [{ pre := b!" ", key := b!"sheets", mid := b!": ", val := b!"[" ++ vectorJoin sh b!"," ++ b!"]" }] else []) (listed b!"sheets" ss) := by
    have := Pointwise_length s1
    cases ss with
    | nil => rw [if_neg (by rw [this]; simp)]; exact .nil
    | cons v vs =>
      rw [if_pos (by rw [this]; simp)]
      exact .cons ⟨rfl, rfl, rfl, ⟨[], b!" ", rfl, rfl, rfl⟩, (arr_join (s1.imp fun _ _ h => h.reads)).reads⟩ .nil
  have error : Pointwise JMember.Reads (if x.error ≠ [] then
      [{ pre := b!" ", key := b!"ERROR", mid := b!": ", val := b!"\"" ++ x.error ++ b!"\"" }] else []) (given b!"ERROR" x.error) := by
    unfold given
    by_cases hx : x.error = []
    · rw [if_neg (by simpa using hx), if_pos hx]; exact .nil
    · rw [if_pos hx, if_neg hx]
      exact .cons ⟨rfl, rfl, rfl, ⟨[], b!" ", rfl, rfl, rfl⟩, (jclosed_text he.json).reads⟩ .nil
  refine ⟨rs, ss, ?_, g3, s2⟩
  refine JClosed.of (jclosed_obj (hb.append (.cons globals (sheets.append error)))) ?_ rfl
  have e : ∀ l : List JMember, m :: ms ++ l = m :: (ms ++ l) := fun _ => rfl
  rw [← h2, g1, objText, e, membersText_cons, membersText_cons, List.map_append, List.flatten_append, List.map_cons,
    List.flatten_cons, List.map_append, List.flatten_append, flatten_opt, flatten_opt]
  simp only [objText, membersText, JMember.text, gpre, List.append_assoc, List.cons_append, List.nil_append]

theorem workbook_reads {abi : Abi} {fmt : Fmt} (hf : NumberFmt fmt) {x : ExcelInfo} (hr : ∀ r ∈ x.eng.master, ClearRecord r)
    (he : Clear x.error) {m : JMember} {ms : List JMember} {ps : List (Bytes × JVal)}
    (hb : Pointwise JMember.Reads (m :: ms) ps) {t : Bytes}
    (h : x.toJson abi fmt (membersText (m :: ms)) = .ok t) :
    ∃ qs, JClosed t (.obj (ps ++ qs)) ∧ WorkbookShown x qs := by
  obtain ⟨rs, ss, h1, h2, h3⟩ := workbook_says (S := RecordShown) (fun r hm t ht => record_reads hf (hr r hm) ht) he hb h
  exact ⟨_, h1, rs, ss, h2, h3, rfl⟩

end Fileid.Report
