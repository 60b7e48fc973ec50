import Verif.Spec.Book
import Verif.Lemmas.BookFormula
import Verif.Props.WorkbookSheets
import Verif.Props.NamesTables
import Verif.Lemmas.RecordsMore
import Verif.Props.Report

/-!
# Lemmas for the report about a whole workbook
-/

namespace Fileid.Excel

open Common Spec Spec.Biff ExcelTables

/-- Without `Continue` records, what is listed is what is parsed, and nothing that is listed before changes. -/
theorem doRecords_made {abi : Abi} {fmt : Fmt} {fuel max : Nat} (rs : List Record) : ∀ (e e' : Eng),
    (∀ r ∈ rs, r.type ≠ filePassType ∧ r.type ≠ continueType) → e.version = 1536 → 4 ≤ e.index →
    e.index + (stream rs).length < 2 ^ 32 → doRecords abi fmt fuel max rs e = .ok e' →
    ∀ q ∈ e'.master, q ∈ e.master ∨ ∃ r ∈ rs, ∃ e0 : Eng, e0.version = 1536 ∧ e.master <+: e0.master ∧
      ParseRecord abi fmt fuel e0 r.type r.data = .ok (some (e0.master, q)) := by
  induction rs with
  | nil => intro e e' _ _ _ _ h q hq; cases h; exact Or.inl hq
  | cons r rs ih =>
    intro e e' hf hv h4 hi h q hq
    have hi' := hi
    rw [stream_cons, List.length_append] at hi'
    rw [doRecords] at h
    obtain ⟨e1, h1, h⟩ := bind_ok_inv h
    have hone : doRecords abi fmt fuel max [r] e = .ok e1 := by
      rw [doRecords, h1]; rfl
    obtain ⟨v1, _, i1⟩ := doRecords_version [r] (fun x hx => (hf x (by simp at hx; simp [hx])).1) e e1 h4
      (by rw [stream_cons, List.length_append]; simp [stream]; omega) hone
    have hs : (stream [r]).length = r.bytes.length := by rw [stream_cons]; simp [stream]
    rw [hs] at i1
    have hpre : e.master <+: e1.master ∧ ∀ q ∈ e1.master, q ∈ e.master ∨ ∃ e0 : Eng, e0.version = 1536 ∧ e.master <+: e0.master ∧
        ParseRecord abi fmt fuel e0 r.type r.data = .ok (some (e0.master, q)) := by
      rcases doRecord_inv h1 with ⟨he, _⟩ | ⟨m, v, _, _, hp, _, _, _, hm1, hmm⟩
      · rw [he]
        exact ⟨List.prefix_refl _, fun q hq => Or.inl hq⟩
      · rcases hmm with rfl | ⟨hr, _⟩
        · rw [hm1]
          refine ⟨List.prefix_append _ _, fun q hm => ?_⟩
          rw [List.mem_append, List.mem_singleton] at hm
          rcases hm with hm | rfl
          · exact Or.inl hm
          · exact Or.inr ⟨_, hv, List.prefix_refl _, hp⟩
        · exact absurd hr (hf r (by simp)).2
    rcases ih e1 e' (fun x hx => hf x (by simp [hx])) (by rw [v1, hv]) (by omega) (by omega) h q hq with hm | ⟨x, hx, e0, g1, g2, g3⟩
    · rcases hpre.2 q hm with hm | hp
      · exact Or.inl hm
      · exact Or.inr ⟨r, by simp, hp⟩
    · exact Or.inr ⟨x, by simp [hx], e0, g1, hpre.1.trans g2, g3⟩

/-- Complete records are all listed. -/
theorem doRecords_all {abi : Abi} {fmt : Fmt} {fuel max : Nat} (hfuel : 2 ^ 16 ≤ fuel) (rs : List Record) : ∀ (e e' : Eng),
    (∀ r ∈ rs, r.Valid ∧ r.type ≠ filePassType ∧ r.type ≠ continueType ∧ Whole (abi.wcharBytes = 2) r) → e.version = 1536 →
    e.master ≠ [] → 4 ≤ e.index → e.index + (stream rs).length < 2 ^ 32 → doRecords abi fmt fuel max rs e = .ok e' →
    ∃ qs, e'.master = e.master ++ qs ∧ Pointwise (fun r q => q.type = r.type ∧ ∃ e0 : Eng, e0.version = 1536 ∧
      ParseRecord abi fmt fuel e0 r.type r.data = .ok (some (e0.master, q))) rs qs := by
  induction rs with
  | nil => intro e e' _ _ _ _ _ h; cases h; exact ⟨[], by simp, .nil⟩
  | cons r rs ih =>
    intro e e' hf hv hm h4 hi h
    have hi' := hi
    rw [stream_cons, List.length_append] at hi'
    rw [doRecords] at h
    obtain ⟨e1, h1, h⟩ := bind_ok_inv h
    have hone : doRecords abi fmt fuel max [r] e = .ok e1 := by
      rw [doRecords, h1]; rfl
    obtain ⟨v1, _, i1⟩ := doRecords_version [r] (fun x hx => (hf x (by simp at hx; simp [hx])).2.1) e e1 h4
      (by rw [stream_cons, List.length_append]; simp [stream]; omega) hone
    have hs : (stream [r]).length = r.bytes.length := by rw [stream_cons]; simp [stream]
    rw [hs] at i1
    obtain ⟨g1, g2, g3, g4⟩ := hf r (by simp)
    obtain ⟨v, hw⟩ := parse_whole (abi := abi) (fmt := fmt) (fuel := fuel) (e := { e with index := u32 (e.index + 4) }) g4 g1.2
      (by have := g1.2; omega) g3 hv hm
    have hstep : ∃ q : Rec, e1.master = e.master ++ [q] ∧ q.type = r.type ∧ ∃ e0 : Eng, e0.version = 1536 ∧
        ParseRecord abi fmt fuel e0 r.type r.data = .ok (some (e0.master, q)) := by
      rcases doRecord_inv h1 with ⟨_, hp⟩ | ⟨m, v, _, _, hp, _, _, _, hm1, hmm⟩
      · rw [hw] at hp
        cases hp
      · rcases hmm with rfl | ⟨hr, _⟩
        · exact ⟨_, hm1, rfl, _, hv, hp⟩
        · exact absurd hr g3
    obtain ⟨q, hq1, hq2, hq3⟩ := hstep
    obtain ⟨qs, hqs, hall⟩ := ih e1 e' (fun x hx => hf x (by simp [hx])) (by rw [v1, hv]) (by rw [hq1]; simp) (by omega) (by omega) h
    exact ⟨q :: qs, by rw [hqs, hq1]; simp, .cons ⟨hq2, hq3⟩ hall⟩

theorem pointwise_filter {α β : Type} {R : α → β → Prop} {p : α → Bool} {p' : β → Bool} {as : List α} {bs : List β} (h : Pointwise R as bs)
    (hp : ∀ a b, R a b → p a = p' b) : Pointwise R (as.filter p) (bs.filter p') := by
  induction h with
  | nil => exact .nil
  | @cons a b _ _ hr _ ih =>
    rw [List.filter_cons, List.filter_cons, ← hp a b hr]
    split
    · exact .cons hr ih
    · exact ih

theorem pointwise_get {α β : Type} {R : α → β → Prop} {as : List α} {bs : List β} (h : Pointwise R as bs) :
    ∀ {i : Nat} {a : α}, as[i]? = some a → ∃ b, bs[i]? = some b ∧ R a b := by
  induction h with
  | nil => intro i a h; simp at h
  | cons hr _ ih =>
    intro i a h
    cases i with
    | zero => simp only [List.getElem?_cons_zero, Option.some.injEq] at h; subst h; exact ⟨_, rfl, hr⟩
    | succ i => exact ih (by simpa using h)

/-- What is listed before a name gives it the same number. -/
theorem names_prefix {e0 : Eng} {m : List Rec} (h : m <+: e0.master) {k i : Nat} {q : Rec}
    (hq : (m.filter (fun r => r.type == k))[i]? = some q) : e0.names k i = q.name? := by
  obtain ⟨t, ht⟩ := h
  unfold Eng.names Eng.recordOfType
  rw [← ht, List.filter_append, List.getElem?_append_left (by
    obtain ⟨h, _⟩ := List.getElem?_eq_some_iff.1 hq
    exact h), hq]
  rfl

/-- The names defined by records, by the type of the defining record and its number among those. -/
def namesIn (gs : List Record) (type i : Nat) : Option Bytes :=
  if type = 0x0018 then ((gs.filter (fun r => r.type = 0x0018))[i]?).bind Record.definedName else none

/-- Every listed record of a walk that ends without an error; the records `gs` come first, and the names they define are
known when formulas among those that follow are read. -/
theorem walk_made {abi : Abi} {fmt : Fmt} {fuel : Nat} {b : Record} {gs ss : List Record} {tail : Bytes} {e : Eng}
    (hv : ∀ r ∈ b :: (gs ++ ss), r.Valid ∧ r.type ≠ filePassType) (hb : b.type ∈ bofTypes ∧ 2 ≤ b.data.length ∧ bofVersion b.data = 0x0600)
    (hc : ∀ r ∈ gs ++ ss, r.type ≠ continueType)
    (hw : ∀ r ∈ gs, Whole (abi.wcharBytes = 2) r ∧ r.type ≠ 0x0006)
    (hl : ∀ r ∈ gs, r.type = 0x0018 → ∃ l formula, r = (Content.label l formula).record ∧ (Content.label l formula).Valid)
    (hfuel : 2 ^ 16 ≤ fuel)
    (hlen : (stream (b :: (gs ++ ss)) ++ tail).length + 4 ≤ 2 ^ 32) (ht : 0 < tail.length ∧ tail.length ≤ 4)
    (h : ParseStream abi fmt fuel (stream (b :: (gs ++ ss)) ++ tail) = (e, .ok ())) :
    e.Version = some 1536 ∧ ∀ q ∈ e.master, q = Rec.make b.type b.data .bof ∨ ∃ r ∈ gs ++ ss, ∃ e0 : Eng, e0.version = 1536 ∧
      (r.type = 0x0006 → ∀ k i n, namesIn gs k i = some n → e0.names k i = some n) ∧
      ParseRecord abi fmt fuel e0 r.type r.data = .ok (some (e0.master, q)) := by
  unfold ParseStream at h
  obtain ⟨k, hk, hall⟩ := walk_inv hlen ht _ (fun r hr => (hv r hr).1) (fun r hr => (hv r hr).2) fuel {} e (.ok ()) [] rfl rfl h
  rw [hall rfl, List.take_length, doRecords] at hk
  obtain ⟨e1, h1, h2⟩ := bind_ok_inv hk
  obtain ⟨e1', h1', p1, i1⟩ := first_step (abi := abi) (fmt := fmt) (fuel := fuel)
    (max := (stream (b :: (gs ++ ss)) ++ tail).length) hb.1 hb.2.1 (hv b (by simp)).1.2
  rw [h1'] at h1
  injection h1 with h1
  subst h1
  have hm : e1'.master = [Rec.make b.type b.data .bof] := by
    have hbof : isBofType b.type = true := by
      have hb := hb.1
      simp only [bofTypes, List.mem_cons, List.not_mem_nil, or_false] at hb
      rcases hb with h | h | h | h <;> rw [h] <;> rfl
    have hp : ParseRecord abi fmt fuel { ({} : Eng) with index := u32 (0 + 4) } b.type b.data =
        .ok (some ([], Rec.make b.type b.data .bof)) := by
      unfold ParseRecord parseVersioned
      rw [if_neg (by decide), if_neg (by decide), if_neg (by decide), if_neg (by decide), if_neg (by decide), if_pos hbof]
      rfl
    rcases doRecord_inv h1' with ⟨_, hq⟩ | ⟨m, v, _, _, hq, _, _, _, hm, _⟩
    · have hq : ParseRecord abi fmt fuel { ({} : Eng) with index := u32 (0 + 4) } b.type b.data = .ok none := hq
      rw [hp] at hq
      cases hq
    · have hq : ParseRecord abi fmt fuel { ({} : Eng) with index := u32 (0 + 4) } b.type b.data =
          .ok (some (m, Rec.make b.type b.data v)) := hq
      rw [hp] at hq
      injection hq with hq
      injection hq with hq
      injection hq with hq1 hq2
      rw [hm, ← hq1, ← hq2]
      rfl
  have hl' : b.bytes.length + (stream (gs ++ ss)).length < 2 ^ 32 := by
    rw [stream_cons] at hlen
    simp only [List.length_append] at hlen
    omega
  have hst : (stream (gs ++ ss)).length = (stream gs).length + (stream ss).length := by
    unfold stream
    rw [List.map_append, List.flatten_append, List.length_append]
  refine ⟨?_, fun q hq => ?_⟩
  · obtain ⟨_, h3, _⟩ := doRecords_version (gs ++ ss) (fun r hr => (hv r (List.mem_cons_of_mem _ hr)).2) e1' e p1.moved (by omega) h2
    rw [h3, p1.Version, hb.2.2]
  have hv1 : e1'.version = 1536 := by rw [p1.version, hb.2.2]
  obtain ⟨em, hem, hes⟩ := bind_ok_inv ((doRecords_append ..) ▸ h2)
  obtain ⟨vm, _, im⟩ := doRecords_version gs (fun r hr => (hv r (by simp [hr])).2) e1' em p1.moved (by omega) hem
  obtain ⟨qs, hqs, hpq⟩ := doRecords_all hfuel gs e1' em (fun r hr => ⟨(hv r (by simp [hr])).1, (hv r (by simp [hr])).2, hc r (by simp [hr]), (hw r hr).1⟩)
    hv1 (by rw [hm]; simp) p1.moved (by omega) hem
  rcases doRecords_made ss em e (fun r hr => ⟨(hv r (by simp [hr])).2, hc r (by simp [hr])⟩) (by rw [vm, hv1])
    (by have := p1.moved; omega) (by omega) hes q hq with hq | ⟨r, hr, e0, g1, g2, g3⟩
  · rcases doRecords_made gs e1' em (fun r hr => ⟨(hv r (by simp [hr])).2, hc r (by simp [hr])⟩) hv1 p1.moved (by omega) hem q hq with hq | ⟨r, hr, e0, g1, _, g3⟩
    · rw [hm, List.mem_singleton] at hq
      exact Or.inl hq
    · exact Or.inr ⟨r, by simp [hr], e0, g1, fun h => absurd h (hw r hr).2, g3⟩
  · refine Or.inr ⟨r, by simp [hr], e0, g1, fun _ k i n hn => ?_, g3⟩
    unfold namesIn at hn
    split at hn
    · next hk =>
      subst hk
      obtain ⟨x, hx, hn⟩ := Option.bind_eq_some_iff.1 hn
      have hfil := pointwise_filter (p := fun r : Record => decide (r.type = 0x0018)) (p' := fun q : Rec => q.type == 0x0018) hpq (by
        rintro a b ⟨h, _⟩
        rw [h]
        by_cases h : a.type = 0x0018 <;> simp [h])
      obtain ⟨y, hy, _, e2, he2, hp2⟩ := pointwise_get hfil hx
      have hxm := List.mem_filter.1 (List.mem_of_getElem? hx)
      obtain ⟨l, formula, rfl, hval⟩ := hl x hxm.1 (by simpa using hxm.2)
      rw [Report.label_name hval.2.1] at hn
      injection hn with hn
      have hp3 := content_parse (abi := abi) (fuel := fuel) fmt hval (by trivial) (by have := hval.1; omega) he2
      have hp2 : ParseRecord abi fmt fuel e2 (Content.label l formula).type (Content.label l formula).data = _ := hp2
      rw [hp3] at hp2
      injection hp2 with hp2
      injection hp2 with hp2
      injection hp2 with _ hp2
      have hbt : b.type ≠ 0x0018 := by
        intro h
        have hb := hb.1
        rw [h] at hb
        revert hb
        decide
      rw [names_prefix g2 (q := y) (by
        rw [hqs, hm, List.singleton_append, List.filter_cons_of_neg (by simpa [Rec.make] using hbt)]
        exact hy), ← hp2, ← hn]
      rfl
    · cases hn

theorem ParseRecord_plain8 (abi : Abi) (fmt : Fmt) (fuel : Nat) (e : Eng) {type : Nat} (data : Bytes) (he : e.version = 1536)
    (h : type ∉ interpreted) : ParseRecord abi fmt fuel e type data = .ok (some (e.master, Rec.make type data .plain)) := by
  unfold ParseRecord parseVersioned
  rw [if_pos he, parseBiff8_plain _ _ _ _ _ h]
  rfl

end Fileid.Excel

namespace Fileid.Report

open Common Spec Spec.Biff Spec.Report Excel ExcelTables Props

theorem sheetKinds_eq (kind : Nat) : GetSheetTypeStr kind = nameOf sheetKinds b!"Unknown/Undocumented type" kind := by
  unfold GetSheetTypeStr sheetKinds
  simp only [nameOf, eq_comm (a := kind)]

theorem visibilities_eq (state : Nat) : GetVisibilityStr state = nameOf visibilities b!"Unknown/Undocumented visiblitiy" state := by
  unfold GetVisibilityStr visibilities
  simp only [nameOf, eq_comm (a := state)]

theorem kindName_eq (r : Record) : GetRecordTypeStr r.type = r.kindName := C99_records r.type

theorem other_whole {wide : Prop} {o : Other} (h : o.Valid) : Whole wide o.record := by
  cases o with
  | protect b => exact .sized (n := 2) (by simp [Other.record, Other.type, sizes]) (by simp [Other.record, Other.data, leBytes_length])
  | row r => exact .sized (n := 16) (by simp [Other.record, Other.type, sizes]) (by simp [Other.record, Other.data, Row.data, leBytes_length])
  | area a => exact .sized (n := 16) (by simp [Other.record, Other.type, sizes]) (by simp [Other.record, Other.data, Area.data, leBytes_length])
  | blanks row column formats => exact .blanks h.2.2.2.1 h.2.2.1
  | number row column format hundredths value =>
    exact .sized (n := 10) (by simp [Other.record, Other.type, sizes]) (by simp [Other.record, Other.data, leBytes_length])
  | self sheets => exact .self

theorem content_types (c : Content) : c.type ∈ interpreted ∧ c.type ≠ continueType := by
  cases c <;> (constructor <;> simp [Content.type, interpreted, continueType])

theorem other_types (o : Other) : o.type ∈ interpreted ∧ o.type ≠ continueType := by
  cases o <;> (constructor <;> simp [Other.type, interpreted, continueType])

theorem formula_whole {num : Nat → Bytes} {wide : Prop} {names : Nat → Nat → Option Bytes} {f : FormulaCell} (h : f.Valid num names) : Whole wide f.record := by
  have := Whole.formula (wide := wide) (head := leBytes 2 f.row ++ leBytes 2 f.column ++ leBytes 2 f.format ++ f.value ++ f.flags.data)
    (formula := f.rgce) (by simp [FormulaFlags.data, leBytes_length, h.value])
    ⟨num, names, f.tokens, h.tokens, rfl⟩
  exact this

theorem entry_whole {num : Nat → Bytes} {wide : Prop} {names : Nat → Nat → Option Bytes} {r : Record} {v : JVal} (h : Entry num wide names r v) : Whole wide r ∧ r.type ≠ continueType := by
  cases h with
  | content hv hn => exact ⟨.content hv hn, (content_types _).2⟩
  | other ho => exact ⟨other_whole ho, (other_types _).2⟩
  | formula hf => exact ⟨formula_whole hf, by simp [FormulaCell.record, continueType]⟩
  | plain hp => exact ⟨.other hp, fun h => hp (by rw [h]; decide)⟩

theorem entryX_whole {num : Nat → Bytes} {wide : Prop} {names : Nat → Nat → Option Bytes} {r : Record} {v : XVal} (h : EntryX num wide names r v) : Whole wide r ∧ r.type ≠ continueType := by
  cases h with
  | content hv hn => exact ⟨.content hv hn, (content_types _).2⟩
  | other ho => exact ⟨other_whole ho, (other_types _).2⟩
  | formula hf => exact ⟨formula_whole hf, by simp [FormulaCell.record, continueType]⟩
  | plain hp => exact ⟨.other hp, fun h => hp (by rw [h]; decide)⟩

/-- The record as a reader of BIFF8 parses it that knows the names. -/
def Parsed (abi : Abi) (fmt : Fmt) (fuel : Nat) (names : Nat → Nat → Option Bytes) (r : Record) (q : Rec) : Prop :=
  ∃ e0 : Eng, e0.version = 1536 ∧ (r.type = 0x0006 → ∀ k i n, names k i = some n → e0.names k i = some n) ∧
    ParseRecord abi fmt fuel e0 r.type r.data = .ok (some (e0.master, q))

theorem parsed_eq {abi : Abi} {fmt : Fmt} {fuel : Nat} {names : Nat → Nat → Option Bytes} {r : Record} {q q' : Rec} (h : Parsed abi fmt fuel names r q)
    (hp : ∀ e : Eng, e.version = 1536 → (r.type = 0x0006 → ∀ k i n, names k i = some n → e.names k i = some n) → ParseRecord abi fmt fuel e r.type r.data = .ok (some (e.master, q'))) : q = q' := by
  obtain ⟨e, he, hn, h⟩ := h
  rw [hp e he hn] at h
  injection h with h
  injection h with h
  injection h with _ h
  exact h.symm

theorem takeWhile_nonzero {s : Bytes} (h : 0 ∉ s) : s.takeWhile (· ≠ 0) = s := by
  induction s with
  | nil => rfl
  | cons c s ih =>
    simp only [List.mem_cons, not_or] at h
    rw [List.takeWhile_cons_of_pos (by simpa using fun h' => h.1 h'.symm), ih h.2]

theorem entry_prints {abi : Abi} {fmt : Fmt} {fuel : Nat} {names : Nat → Nat → Option Bytes} {r : Record} {v : JVal} {q : Rec} (h : Entry fmt.f64 (abi.wcharBytes = 2) names r v)
    (hfuel : 2 ^ 16 ≤ fuel) (hq : Parsed abi fmt fuel names r q) :
    (q.type = r.type ∧ q.data = r.data ∧ q.length = r.data.length) ∧ ∃ t v', q.toJson abi fmt = .ok t ∧ JClosed t v' ∧ Entry fmt.f64 (abi.wcharBytes = 2) names r v' := by
  cases h with
  | @content c hv hn hh hj =>
    have := parsed_eq hq (q' := Rec.make c.type c.data (Content.view c)) fun e he _ =>
      content_parse fmt hv (content_reads hn) (by have := hv.1; omega) he
    subst this
    obtain ⟨t, h1, h2⟩ := content_toJson (abi := abi) (fmt := fmt) hv hh hj
    exact ⟨⟨rfl, rfl, rfl⟩, t, _, h1, h2, .content hv hn hh hj⟩
  | @other o facts ho hs =>
    obtain ⟨view, hview, hs⟩ := other_shown abi fuel ho
    have := parsed_eq hq (q' := Rec.make o.type o.data view) fun e he _ => other_parse hview e he
    subst this
    obtain ⟨l, facts, hl, hsay, hf⟩ := hs fmt
    obtain ⟨json, j1, j2⟩ := entry_json (other_class o).2 hl (says_json hsay)
    exact ⟨⟨rfl, rfl, rfl⟩, json, _, j1, j2, .other ho hf⟩
  | @formula f cell value hf hc hv h0 h1 =>
    have := parsed_eq hq (q' := Rec.make 0x0006 f.data (FormulaCell.view f)) fun e he hn => formula_parse hf hfuel e he (hn rfl)
    subst this
    obtain ⟨l, hl, hsay⟩ := formula_fields (abi := abi) hf hv
    have h2 : ∀ {k s : Bytes}, jsonPlain k = true → 0 ∉ s → FieldReads (.esc k s) (k, .text s) := by
      intro k s hk hs
      have := esc_reads (s := s) hk
      unfold shown at this
      rw [takeWhile_nonzero hs] at this
      exact this
    obtain ⟨json, j1, j2⟩ := entry_json (name := b!"Formula") (by decide +kernel) hl
      ((says_json hsay).append (.cons (h2 rfl h0) (.cons (h2 rfl h1) .nil)))
    exact ⟨⟨rfl, rfl, rfl⟩, json, _, j1, j2, .formula hf (cellRef_names hf.column) hv h0 h1⟩
  | plain hp hb =>
    have := parsed_eq hq (q' := Rec.make r.type r.data .plain) fun e he _ => ParseRecord_plain8 abi fmt fuel e r.data he hp
    subst this
    obtain ⟨json, j1, j2⟩ := entry_json (abi := abi) (fmt := fmt) (v := .plain) (data := r.data) (l := []) (kindName_eq r) rfl .nil
    exact ⟨⟨rfl, rfl, rfl⟩, json, _, j1, j2, .plain hp hb⟩

theorem entryX_prints {abi : Abi} {fmt : Fmt} {fuel : Nat} {names : Nat → Nat → Option Bytes} {r : Record} {v : XVal} {q : Rec} (h : EntryX fmt.f64 (abi.wcharBytes = 2) names r v)
    (hfuel : 2 ^ 16 ≤ fuel) (hq : Parsed abi fmt fuel names r q) :
    (q.type = r.type ∧ q.data = r.data ∧ q.length = r.data.length) ∧ ∃ t v', q.toXml abi fmt = .ok t ∧ XReads t [v'] ∧ EntryX fmt.f64 (abi.wcharBytes = 2) names r v' := by
  cases h with
  | @content c hv hn hh hj =>
    have := parsed_eq hq (q' := Rec.make c.type c.data (Content.view c)) fun e he _ =>
      content_parse fmt hv (content_reads hn) (by have := hv.1; omega) he
    subst this
    obtain ⟨l, hl⟩ := content_fields abi fmt hv
    obtain ⟨t, h1, h2, _⟩ := content_toXml (abi := abi) (fmt := fmt) hv hh hj hl
    exact ⟨⟨rfl, rfl, rfl⟩, t, _, h1, h2, .content hv hn hh hj⟩
  | @other o facts ho hs =>
    obtain ⟨view, hview, hs⟩ := other_shown abi fuel ho
    have := parsed_eq hq (q' := Rec.make o.type o.data view) fun e he _ => other_parse hview e he
    subst this
    obtain ⟨l, facts, hl, hsay, hf⟩ := hs fmt
    obtain ⟨xml, j1, j2⟩ := entry_xml' (other_class o).2 hl (says_xml hsay)
    exact ⟨⟨rfl, rfl, rfl⟩, xml, _, j1, j2, .other ho hf⟩
  | @formula f cell value hf hc hv hs =>
    have := parsed_eq hq (q' := Rec.make 0x0006 f.data (FormulaCell.view f)) fun e he hn => formula_parse hf hfuel e he (hn rfl)
    subst this
    obtain ⟨l, hl, hsay⟩ := formula_fields (abi := abi) hf hv
    have h2 : ∀ {k s : Bytes}, isName k = true → (LegalText s ∧ 60 ∉ s ∧ 62 ∉ s) → FieldReadsX (.esc k s) (.leaf k s) := by
      intro k s hk hs
      obtain ⟨v, hv, cs, rfl, hcs⟩ := escX_reads (s := s) hk (LegalText.legal hs.1)
      rw [hcs fun c hc => ⟨fun h => hs.2.1 (h ▸ hc), fun h => hs.2.2 (h ▸ hc)⟩] at hv
      exact hv
    obtain ⟨xml, j1, j2⟩ := entry_xml' (name := b!"Formula") (by decide +kernel) hl
      ((says_xml hsay).append (.cons (h2 rfl (hs _ (by simp))) (.cons (h2 rfl (hs _ (by simp))) .nil)))
    exact ⟨⟨rfl, rfl, rfl⟩, xml, _, j1, j2, .formula hf (cellRef_names hf.column) hv hs⟩
  | plain hp hb =>
    have := parsed_eq hq (q' := Rec.make r.type r.data .plain) fun e he _ => ParseRecord_plain8 abi fmt fuel e r.data he hp
    subst this
    obtain ⟨xml, j1, j2⟩ := entry_xml' (abi := abi) (fmt := fmt) (v := .plain) (data := r.data) (l := []) (kindName_eq r) rfl .nil
    exact ⟨⟨rfl, rfl, rfl⟩, xml, _, j1, j2, .plain hp hb⟩

/-- The first record of a stream. -/
theorem entry_first {num : Nat → Bytes} {wide : Prop} {names : Nat → Nat → Option Bytes} {r : Record} {v : JVal} (h : Entry num wide names r v) (hb : r.type ∈ bofTypes) :
    ∃ b : Bof, r = (Content.bof b).record ∧ (Content.bof b).Valid ∧ b.highest < 2 := by
  cases h with
  | @content c hv _ hh =>
    obtain ⟨b, rfl⟩ := content_bof hb
    exact ⟨b, rfl, hv, hh b rfl⟩
  | @other o => exact absurd hb (by cases o <;> simp [Other.record, Other.type, bofTypes])
  | formula => exact absurd hb (by simp [FormulaCell.record, bofTypes])
  | plain _ h => exact absurd hb h

theorem entryX_first {num : Nat → Bytes} {wide : Prop} {names : Nat → Nat → Option Bytes} {r : Record} {v : XVal} (h : EntryX num wide names r v) (hb : r.type ∈ bofTypes) :
    ∃ b : Bof, r = (Content.bof b).record ∧ (Content.bof b).Valid ∧ b.highest < 2 := by
  cases h with
  | @content c hv _ hh =>
    obtain ⟨b, rfl⟩ := content_bof hb
    exact ⟨b, rfl, hv, hh b rfl⟩
  | @other o => exact absurd hb (by cases o <;> simp [Other.record, Other.type, bofTypes])
  | formula => exact absurd hb (by simp [FormulaCell.record, bofTypes])
  | plain _ h => exact absurd hb h

theorem entry_label {num : Nat → Bytes} {wide : Prop} {names : Nat → Nat → Option Bytes} {r : Record} {v : JVal} (h : Entry num wide names r v)
    (hb : r.type = 0x0018) : ∃ l formula, r = (Content.label l formula).record ∧ (Content.label l formula).Valid := by
  cases h with
  | @content c hv =>
    cases c with
    | label l formula => exact ⟨l, formula, rfl, hv⟩
    | _ => exact absurd hb (by simp [Content.record, Content.type])
  | @other o => exact absurd hb (by cases o <;> simp [Other.record, Other.type])
  | formula => exact absurd hb (by simp [FormulaCell.record])
  | plain h => exact absurd hb fun h' => h (by rw [h']; decide)

theorem entryX_label {num : Nat → Bytes} {wide : Prop} {names : Nat → Nat → Option Bytes} {r : Record} {v : XVal} (h : EntryX num wide names r v)
    (hb : r.type = 0x0018) : ∃ l formula, r = (Content.label l formula).record ∧ (Content.label l formula).Valid := by
  cases h with
  | @content c hv =>
    cases c with
    | label l formula => exact ⟨l, formula, rfl, hv⟩
    | _ => exact absurd hb (by simp [Content.record, Content.type])
  | @other o => exact absurd hb (by cases o <;> simp [Other.record, Other.type])
  | formula => exact absurd hb (by simp [FormulaCell.record])
  | plain h => exact absurd hb fun h' => h (by rw [h']; decide)

/-! ## Printing goes through -/

theorem printAll_ok {print : Rec → Res Bytes} {master : List Rec} (hp : ∀ r ∈ master, ∃ t, print r = .ok t) {ids : List Nat}
    (hi : ∀ i ∈ ids, ∃ r, master[i]? = some r) : ∃ ts, printAll print master ids = .ok ts := by
  induction ids with
  | nil => exact ⟨[], rfl⟩
  | cons i ids ih =>
    obtain ⟨r, hr⟩ := hi i (by simp)
    obtain ⟨t, ht⟩ := hp r (List.mem_of_getElem? hr)
    obtain ⟨ts, hts⟩ := ih fun j hj => hi j (by simp [hj])
    exact ⟨t :: ts, by rw [printAll, hr]; show (print r >>= _) = _; rw [ht, Res.bind_ok, hts, Res.bind_ok]⟩

theorem printSheets_ok {print : Sheet → Res Bytes} {ss : List Sheet} (h : ∀ s ∈ ss, ∃ t, print s = .ok t) :
    ∃ ts, printSheets print ss = .ok ts := by
  induction ss with
  | nil => exact ⟨[], rfl⟩
  | cons s ss ih =>
    obtain ⟨t, ht⟩ := h s (by simp)
    obtain ⟨ts, hts⟩ := ih fun j hj => h j (by simp [hj])
    exact ⟨t :: ts, by rw [printSheets, ht, Res.bind_ok, hts, Res.bind_ok]⟩

/-- The positions listed are those of records. -/
def InRange (x : ExcelInfo) : Prop :=
  (∀ i ∈ x.eng.global, ∃ r, x.eng.master[i]? = some r) ∧
    ∀ s ∈ x.eng.sheets, ∀ i ∈ s.children, ∃ r, x.eng.master[i]? = some r

theorem workbook_ok {abi : Abi} {fmt : Fmt} {x : ExcelInfo} (hi : InRange x) (hp : ∀ r ∈ x.eng.master, ∃ t, r.toJson abi fmt = .ok t)
    (b : Bytes) : ∃ t, x.toJson abi fmt b = .ok t := by
  obtain ⟨g, hg⟩ := printAll_ok hp hi.1
  obtain ⟨ss, hss⟩ := printSheets_ok (print := sheetJson abi fmt x.eng.master) (ss := x.eng.sheets) (fun s hs => by
    unfold sheetJson
    dsimp only
    split
    · obtain ⟨k, hk⟩ := printAll_ok hp (hi.2 s hs)
      unfold substreamJson
      rw [hk]
      exact ⟨_, rfl⟩
    · exact ⟨_, rfl⟩)
  unfold ExcelInfo.toJson substreamJson
  rw [hg, hss]
  exact ⟨_, rfl⟩

theorem workbookX_ok {abi : Abi} {fmt : Fmt} {x : ExcelInfo} (hi : InRange x) (hp : ∀ r ∈ x.eng.master, ∃ t, r.toXml abi fmt = .ok t)
    (b : Bytes) : ∃ t, x.toXml abi fmt b = .ok t := by
  obtain ⟨g, hg⟩ := printAll_ok hp hi.1
  obtain ⟨ss, hss⟩ := printSheets_ok (print := sheetXml abi fmt x.eng.master) (ss := x.eng.sheets) (fun s hs => by
    unfold sheetXml
    split
    · obtain ⟨k, hk⟩ := printAll_ok hp (hi.2 s hs)
      unfold substreamXml
      rw [hk]
      exact ⟨_, rfl⟩
    · exact ⟨_, rfl⟩)
  unfold ExcelInfo.toXml substreamXml
  rw [hg, hss]
  exact ⟨_, rfl⟩

theorem pointwise_join {α β γ : Type} {R : α → β → Prop} {T : α → γ → Prop} {U : β → γ → Prop} {as : List α} {bs : List β}
    {cs : List γ} (h1 : Pointwise R as bs) (h2 : Pointwise T as cs) (h : ∀ b ∈ bs, ∀ a c, R a b → T a c → U b c) : Pointwise U bs cs := by
  induction h1 generalizing cs with
  | nil => cases h2; exact .nil
  | cons hr _ ih =>
    cases h2 with
    | cons ht h2 => exact .cons (h _ (by simp) _ _ hr ht) (ih h2 fun b hb => h b (by simp [hb]))

theorem pointwise_index {α β : Type} {R : α → β → Prop} : ∀ {as : List α} {bs : List β}, as.length = bs.length →
    (∀ (i : Nat) a b, as[i]? = some a → bs[i]? = some b → R a b) → Pointwise R as bs
  | [], [], _, _ => .nil
  | a :: as, b :: bs, hl, h => .cons (h 0 a b rfl rfl) (pointwise_index (by simpa using hl) fun i a b ha hb => h (i + 1) a b ha hb)

/-- The listed record at a position is the given one. -/
def Is (m : List Rec) (i : Nat) (r : Record) : Prop := ∃ q, m[i]? = some q ∧ q.type = r.type ∧ q.data = r.data

/-- What is known of the result for a workbook. -/
structure BookMade (abi : Abi) (fmt : Fmt) (fuel : Nat) (w : Workbook) (i : ExcelInfo) : Prop where
  base : i.base = biff8
  error : i.error = []
  global : Pointwise (Is i.eng.master) i.eng.global w.head
  sheets : Pointwise (fun d s => s.Name = d.name.text ∧ s.kind = d.kind.toNat ∧ s.Visiblity = d.state.toNat % 4 ∧ s.Offset = d.offset ∧
    ∃ rs, (d.offset, rs) ∈ w.starts ∧ rs ≠ [] ∧ Pointwise (Is i.eng.master) s.children rs) (declared w.globals) i.eng.sheets
  records : ∀ q ∈ i.eng.master, q = Rec.make w.bof.type w.bof.data .bof ∨
    ∃ r ∈ w.globals.map GlobalRec.record ++ w.sheets.flatten, Parsed abi fmt fuel w.definedNames r q

theorem book_made {abi : Abi} {fmt : Fmt} {what : Excel.What} {fuel : Nat} {w : Workbook} {tail : Bytes} (hw : w.Valid)
    (hn : ∀ d ∈ declared w.globals, d.Narrow ∨ abi.wcharBytes = 2)
    (hr : ∀ r ∈ w.records, Whole (abi.wcharBytes = 2) r ∧ r.type ≠ continueType)
    (hq : ∀ r ∈ w.globals.map GlobalRec.record ++ w.sheets.flatten, ∀ q, Parsed abi fmt fuel w.definedNames r q → q.length = q.data.length)
    (hcells : w.CellsInSheets)
    (hlab : ∀ r ∈ w.globals.map GlobalRec.record, r.type = 0x0018 →
      ∃ l formula, r = (Content.label l formula).record ∧ (Content.label l formula).Valid)
    (hlen : (stream w.records ++ tail).length + 4 ≤ 2 ^ 32) (ht : 0 < tail.length ∧ tail.length ≤ 4)
    (hfuel : w.records.length < fuel ∧ 2 ^ 16 ≤ fuel) :
    ∃ i, Excel.Detailer abi fmt what fuel (stream w.records ++ tail) = .ok i ∧ BookMade abi fmt fuel w i := by
  obtain ⟨e, he, h1, h2, h3, _⟩ := C88_complete_partial abi fmt fuel w tail hw hn
    (fun r hm => (hr r (by
      unfold Workbook.records Workbook.head
      refine List.mem_append_left _ (List.mem_cons_of_mem _ ?_)
      exact List.mem_map.2 ⟨_, hm, rfl⟩)).1)
    (fun s hs r hm => (hr r (by
      unfold Workbook.records
      exact List.mem_append_right _ (List.mem_flatten.2 ⟨s, hs, hm⟩))).1) hlen ht hfuel
  have hrec : w.records = w.bof :: (w.globals.map GlobalRec.record ++ w.sheets.flatten) := rfl
  obtain ⟨hV, hm⟩ := walk_made (abi := abi) (fmt := fmt) (fuel := fuel) (b := w.bof)
    (gs := w.globals.map GlobalRec.record) (ss := w.sheets.flatten) (tail := tail) (e := e) hw.records hw.bof
    (fun r h => (hr r (by rw [hrec]; exact List.mem_cons_of_mem _ h)).2)
    (fun r h => ⟨(hr r (by rw [hrec]; exact List.mem_cons_of_mem _ (List.mem_append_left _ h))).1, by
      obtain ⟨g, hg, rfl⟩ := List.mem_map.1 h
      exact hcells g hg⟩) hlab hfuel.2 hlen ht he
  have hlen' : ∀ q ∈ e.master, q.length = q.data.length := by
    intro q h
    rcases hm q h with rfl | ⟨r, hr, hp⟩
    · rfl
    · exact hq r hr q hp
  have his : ∀ {ids : List Nat} {rs : List Record}, Pointwise (fun i r => ∃ q, e.master[i]? = some q ∧ q.type = r.type ∧
      q.length = r.data.length ∧ r.data <+: q.data) ids rs → Pointwise (Is e.master) ids rs := by
    intro ids rs h
    refine h.imp ?_
    rintro i r ⟨q, hq, h1, h2, h3⟩
    refine ⟨q, hq, h1, ?_⟩
    rw [hlen' q (List.mem_of_getElem? hq)] at h2
    exact (h3.eq_of_length h2.symm).symm
  refine ⟨⟨biff8, e, []⟩, ?_, rfl, rfl, his h2, ?_, hm⟩
  · unfold Excel.Detailer
    dsimp only
    rw [he]
    show (match e.Version with | none => _ | some v => _) = _
    rw [hV]
    rfl
  · refine pointwise_index (by have := congrArg List.length h1; simpa using this.symm) fun i d s hd hs => ?_
    have hx := congrArg (fun l => l[i]?) h1
    simp only [List.getElem?_map, hd, hs, Option.map_some, Option.some.injEq, Prod.mk.injEq] at hx
    obtain ⟨rs, hrs⟩ := hw.meant d (List.mem_of_getElem? hd)
    refine ⟨hx.1, hx.2.1, hx.2.2.1, hx.2.2.2, rs, hrs, ?_, his (h3 i d s rs hd hs hrs)⟩
    obtain ⟨b, body, hb, _⟩ := hw.begins rs (mem_starts hrs)
    rw [hb]
    simp

theorem made_range {abi : Abi} {fmt : Fmt} {fuel : Nat} {w : Workbook} {i : ExcelInfo} (h : BookMade abi fmt fuel w i) : InRange i := by
  have key : ∀ {m : List Rec} {ids : List Nat} {rs : List Record}, Pointwise (Is m) ids rs → ∀ i ∈ ids, ∃ q, m[i]? = some q := by
    intro m ids rs h
    induction h with
    | nil => simp
    | cons hr _ ih =>
      intro i hi
      rcases List.mem_cons.1 hi with rfl | hi
      · obtain ⟨q, hq, _⟩ := hr; exact ⟨q, hq⟩
      · exact ih i hi
  refine ⟨key h.global, ?_⟩
  have : ∀ {ds : List SheetDecl} {ss : List Sheet}, Pointwise (fun d s => s.Name = d.name.text ∧ s.kind = d.kind.toNat ∧
      s.Visiblity = d.state.toNat % 4 ∧ s.Offset = d.offset ∧
      ∃ rs, (d.offset, rs) ∈ w.starts ∧ rs ≠ [] ∧ Pointwise (Is i.eng.master) s.children rs) ds ss →
      ∀ s ∈ ss, ∀ j ∈ s.children, ∃ r, i.eng.master[j]? = some r := by
    intro ds ss h
    induction h with
    | nil => simp
    | cons hr _ ih =>
      intro s hs
      rcases List.mem_cons.1 hs with rfl | hs
      · obtain ⟨_, _, _, _, rs, _, _, hc⟩ := hr
        exact key hc
      · exact ih s hs
  exact this h.sheets


/-! ## The entries -/

theorem bof_parsed {abi : Abi} {fmt : Fmt} {b : Bof} (hv : (Content.bof b).Valid) (hh : b.highest < 2) :
    (∃ t, (Rec.make 0x0809 b.data .bof).toJson abi fmt = .ok t ∧ JClosed t (Content.bof b).json) ∧
    ∃ t, (Rec.make 0x0809 b.data .bof).toXml abi fmt = .ok t ∧ XReads t [(Content.bof b).xml] := by
  have hh' : ∀ b', Content.bof b = .bof b' → b'.highest < 2 := fun b' h => by cases h; exact hh
  constructor
  · exact content_toJson (c := .bof b) hv hh' ⟨by simp [Content.unescaped], by simp [Content.texts]⟩
  · obtain ⟨l, hl⟩ := content_fields abi fmt hv
    obtain ⟨t, h1, h2, _⟩ := content_toXml (c := .bof b) hv hh' (by intro s hs; simp [Content.texts] at hs) hl
    exact ⟨t, h1, h2⟩

/-- The entry of a listed record. -/
def RecEntry (num : Nat → Bytes) (wide : Prop) (names : Nat → Nat → Option Bytes) (q : Rec) (v : JVal) : Prop := Entry num wide names ⟨q.type, q.data⟩ v

def RecEntryX (num : Nat → Bytes) (wide : Prop) (names : Nat → Nat → Option Bytes) (q : Rec) (v : XVal) : Prop := EntryX num wide names ⟨q.type, q.data⟩ v

theorem made_prints {abi : Abi} {fmt : Fmt} {fuel : Nat} {w : Workbook} {i : ExcelInfo} (h : BookMade abi fmt fuel w i) (hw : w.Valid)
    (hr : ∀ r ∈ w.records, ∃ v, Entry fmt.f64 (abi.wcharBytes = 2) w.definedNames r v) (hfuel : 2 ^ 16 ≤ fuel) :
    ∀ q ∈ i.eng.master, ∃ t v, q.toJson abi fmt = .ok t ∧ JClosed t v ∧ RecEntry fmt.f64 (abi.wcharBytes = 2) w.definedNames q v := by
  intro q hq
  rcases h.records q hq with rfl | ⟨r, hm, hp⟩
  · obtain ⟨v, hv⟩ := hr w.bof (List.mem_cons_self)
    obtain ⟨b, hb, hbv, hbh⟩ := entry_first hv hw.bof.1
    rw [hb]
    obtain ⟨t, h1, h2⟩ := (bof_parsed (abi := abi) (fmt := fmt) hbv hbh).1
    refine ⟨t, _, h1, h2, ?_⟩
    exact .content (c := .bof b) hbv (Or.inl trivial) (fun b' h => by cases h; exact hbh)
      ⟨by simp [Content.unescaped], by simp [Content.texts]⟩
  · obtain ⟨v, hv⟩ := hr r (List.mem_cons_of_mem _ hm)
    obtain ⟨⟨h1, h2, _⟩, t, v', h3, h4, h5⟩ := entry_prints hv hfuel hp
    refine ⟨t, v', h3, h4, ?_⟩
    unfold RecEntry
    rw [h1, h2]
    exact h5

theorem made_printsX {abi : Abi} {fmt : Fmt} {fuel : Nat} {w : Workbook} {i : ExcelInfo} (h : BookMade abi fmt fuel w i) (hw : w.Valid)
    (hr : ∀ r ∈ w.records, ∃ v, EntryX fmt.f64 (abi.wcharBytes = 2) w.definedNames r v) (hfuel : 2 ^ 16 ≤ fuel) :
    ∀ q ∈ i.eng.master, ∃ t v, q.toXml abi fmt = .ok t ∧ XReads t [v] ∧ RecEntryX fmt.f64 (abi.wcharBytes = 2) w.definedNames q v := by
  intro q hq
  rcases h.records q hq with rfl | ⟨r, hm, hp⟩
  · obtain ⟨v, hv⟩ := hr w.bof (List.mem_cons_self)
    obtain ⟨b, hb, hbv, hbh⟩ := entryX_first hv hw.bof.1
    rw [hb]
    obtain ⟨t, h1, h2⟩ := (bof_parsed (abi := abi) (fmt := fmt) hbv hbh).2
    refine ⟨t, _, h1, h2, ?_⟩
    exact .content (c := .bof b) hbv (Or.inl trivial) (fun b' h => by cases h; exact hbh)
      (by intro s hs; simp [Content.texts] at hs)
  · obtain ⟨v, hv⟩ := hr r (List.mem_cons_of_mem _ hm)
    obtain ⟨⟨h1, h2, _⟩, t, v', h3, h4, h5⟩ := entryX_prints hv hfuel hp
    refine ⟨t, v', h3, h4, ?_⟩
    unfold RecEntryX
    rw [h1, h2]
    exact h5

theorem listed_entries {num : Nat → Bytes} {wide : Prop} {names : Nat → Nat → Option Bytes} {m : List Rec} {ids : List Nat} {rs : List Record} {vs : List JVal}
    (h1 : Pointwise (Is m) ids rs) (h2 : Listed (RecEntry num wide names) m ids vs) : Pointwise (Entry num wide names) rs vs := by
  refine pointwise_join h1 h2 ?_
  rintro r _ i v ⟨q, hq, ht, hd⟩ ⟨q', hq', he⟩
  rw [hq] at hq'
  injection hq' with hq'
  subst hq'
  unfold RecEntry at he
  rw [ht, hd] at he
  exact he

theorem listed_entriesX {num : Nat → Bytes} {wide : Prop} {names : Nat → Nat → Option Bytes} {m : List Rec} {ids : List Nat} {rs : List Record} {vs : List XVal}
    (h1 : Pointwise (Is m) ids rs) (h2 : Listed (RecEntryX num wide names) m ids vs) : Pointwise (EntryX num wide names) rs vs := by
  refine pointwise_join h1 h2 ?_
  rintro r _ i v ⟨q, hq, ht, hd⟩ ⟨q', hq', he⟩
  rw [hq] at hq'
  injection hq' with hq'
  subst hq'
  unfold RecEntryX at he
  rw [ht, hd] at he
  exact he

theorem pointwise_join_left {α β γ : Type} {R : β → α → Prop} {T : α → γ → Prop} {U : β → γ → Prop} {as : List α} {bs : List β}
    {cs : List γ} (h1 : Pointwise R bs as) (h2 : Pointwise T as cs) (h : ∀ b ∈ bs, ∀ a c, R b a → T a c → U b c) : Pointwise U bs cs := by
  induction h1 generalizing cs with
  | nil => cases h2; exact .nil
  | cons hr _ ih =>
    cases h2 with
    | cons ht h2 => exact .cons (h _ (by simp) _ _ hr ht) (ih h2 fun b hb => h b (by simp [hb]))

theorem made_json {abi : Abi} {fmt : Fmt} {fuel : Nat} {w : Workbook} {i : ExcelInfo} (h : BookMade abi fmt fuel w i) (hw : w.Valid)
    (hnul : ∀ d ∈ declared w.globals, 0 ∉ d.name.text)
    (hr : ∀ r ∈ w.records, ∃ v, Entry fmt.f64 (abi.wcharBytes = 2) w.definedNames r v) (hfuel : 2 ^ 16 ≤ fuel) :
    (∀ b, ∃ t, i.toJson abi fmt b = .ok t) ∧
    ∀ {m : JMember} {ms : List JMember} {ps : List (Bytes × JVal)} {t : Bytes}, Pointwise JMember.Reads (m :: ms) ps →
      i.toJson abi fmt (membersText (m :: ms)) = .ok t →
      ∃ ws, JClosed t (.obj (ps ++ ws)) ∧ w.Shown fmt.f64 (abi.wcharBytes = 2) ws := by
  have hp := made_prints h hw hr hfuel
  refine ⟨workbook_ok (made_range h) fun q hq => ?_, fun hb ht => ?_⟩
  · obtain ⟨t, _, h1, _⟩ := hp q hq
    exact ⟨t, h1⟩
  · obtain ⟨rs, ss, h1, h2, h3⟩ := workbook_says (S := RecEntry fmt.f64 (abi.wcharBytes = 2) w.definedNames) (fun q hq t ht => by
      obtain ⟨t', v, g1, g2, g3⟩ := hp q hq
      rw [ht] at g1
      injection g1 with g1
      subst g1
      exact ⟨v, g2, g3⟩) (by rw [h.error]; exact fun c hc => by cases hc) hb ht
    rw [h.error, show given b!"ERROR" [] = [] from rfl, List.append_nil] at h1
    refine ⟨_, h1, rs, ss, listed_entries h.global h2, ?_, rfl⟩
    refine pointwise_join_left h.sheets h3 ?_
    rintro d hd s v ⟨e1, e2, e3, e4, rs, hm, hne, hc⟩ ⟨vs, hl, rfl⟩
    refine ⟨rs, vs, hm, listed_entries hc hl, ?_⟩
    have hvs : listed b!"Records" vs = [(b!"Records", .arr vs)] := by
      cases vs with
      | nil =>
        have := Pointwise_length (listed_entries hc hl)
        exact absurd (List.eq_nil_of_length_eq_zero this) hne
      | cons _ _ => rfl
    rw [hvs, e1, e2, e3, e4]
    unfold shown SheetDecl.json SheetDecl.kindName SheetDecl.visibility
    rw [takeWhile_nonzero (hnul d hd), sheetKinds_eq, visibilities_eq]
    rfl

theorem made_xml {abi : Abi} {fmt : Fmt} {fuel : Nat} {w : Workbook} {i : ExcelInfo} (h : BookMade abi fmt fuel w i) (hw : w.Valid)
    (hname : ∀ d ∈ declared w.globals, LegalText d.name.text ∧ 60 ∉ d.name.text ∧ 62 ∉ d.name.text)
    (hr : ∀ r ∈ w.records, ∃ v, EntryX fmt.f64 (abi.wcharBytes = 2) w.definedNames r v) (hfuel : 2 ^ 16 ≤ fuel) :
    (∀ b, ∃ t, i.toXml abi fmt b = .ok t) ∧
    ∀ {b : Bytes} {us : List XVal} {t : Bytes}, XReads b us → i.toXml abi fmt b = .ok t →
      ∃ ws, XReads t [.elem b!"item" (us ++ ws)] ∧ w.ShownX fmt.f64 (abi.wcharBytes = 2) ws := by
  have hp := made_printsX h hw hr hfuel
  have hs : ∀ s ∈ i.eng.sheets, LegalText s.Name := by
    have : ∀ {ds : List SheetDecl} {ss : List Sheet}, Pointwise (fun d s => s.Name = d.name.text) ds ss →
        (∀ d ∈ ds, LegalText d.name.text) → ∀ s ∈ ss, LegalText s.Name := by
      intro ds ss h
      induction h with
      | nil => simp
      | cons hr _ ih =>
        intro hd s hs
        rcases List.mem_cons.1 hs with rfl | hs
        · rw [hr]; exact hd _ (by simp)
        · exact ih (fun d h => hd d (by simp [h])) s hs
    exact this (h.sheets.imp fun _ _ h => h.1) fun d hd => (hname d hd).1
  refine ⟨workbookX_ok (made_range h) fun q hq => ?_, fun hb ht => ?_⟩
  · obtain ⟨t, _, h1, _⟩ := hp q hq
    exact ⟨t, h1⟩
  · obtain ⟨rs, ss, h1, h2, h3⟩ := workbookX_says (S := RecEntryX fmt.f64 (abi.wcharBytes = 2) w.definedNames) (fun q hq t ht => by
      obtain ⟨t', v, g1, g2, g3⟩ := hp q hq
      rw [ht] at g1
      injection g1 with g1
      subst g1
      exact ⟨v, g2, g3⟩) hs (by rw [h.error]; exact fun c hc => by cases hc) hb ht
    rw [h.error, show givenX b!"ERROR" [] = [] from rfl, List.append_nil] at h1
    refine ⟨_, h1, rs, ss, listed_entriesX h.global h2, ?_, rfl⟩
    refine pointwise_join_left h.sheets h3 ?_
    rintro d hd s v ⟨e1, e2, e3, e4, rs, hm, hne, hc⟩ ⟨name, vs, ⟨cs, rfl, hcs⟩, hl, rfl⟩
    refine ⟨rs, vs, hm, listed_entriesX hc hl, ?_⟩
    have hvs : filled b!"Records" vs = [.elem b!"Records" vs] := by
      cases vs with
      | nil =>
        have := Pointwise_length (listed_entriesX hc hl)
        exact absurd (List.eq_nil_of_length_eq_zero this) hne
      | cons _ _ => rfl
    have hcs' := hcs (by
      rw [e1]
      intro c hcm
      exact ⟨fun h => (hname d hd).2.1 (h ▸ hcm), fun h => (hname d hd).2.2 (h ▸ hcm)⟩)
    rw [hvs, hcs', e1, e2, e3, e4, sheetKinds_eq, visibilities_eq]
    rfl

end Fileid.Report
