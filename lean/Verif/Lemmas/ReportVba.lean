import Verif.Spec.ReportVba
import Verif.Lemmas.ReportExcelXml

/-!
# Lemmas about the reports on VBA projects
-/

namespace Fileid.Report

open Common Spec Spec.Report Vba Props

theorem flag_dec (b : Bool) : (if b then b!"1" else b!"0") = dec (if b then 1 else 0) := by cases b <;> rfl

theorem module_reads (m : Module) : JClosed m.toJson (moduleValue m) := by
  have := jclosed_obj (ms := [
    { key := b!"Name", val := b!"\"" ++ JsonEscape m.Name ++ b!"\"" },
    { key := b!"StreamName", val := b!"\"" ++ JsonEscape m.StreamName ++ b!"\"" },
    { key := b!"Offset", val := dec m.Offset },
    { key := b!"isPrivate", val := dec (if m.isPrivate then 1 else 0) },
    { key := b!"isReadOnly", val := dec (if m.isReadOnly then 1 else 0) },
    { key := b!"Code", val := b!"\"" ++ JsonEscape m.Code ++ b!"\"" }])
    (.cons (Asf.member rfl (jclosed_esc m.Name).reads) (.cons (Asf.member rfl (jclosed_esc m.StreamName).reads)
      (.cons (Asf.member_nat _ rfl) (.cons (Asf.member_nat _ rfl) (.cons (Asf.member_nat _ rfl)
      (.cons (Asf.member rfl (jclosed_esc m.Code).reads) .nil))))))
  refine JClosed.of this ?_ rfl
  simp only [Module.toJson, flag_dec, objText, membersText, JMember.text, List.append_assoc, List.cons_append, List.nil_append]

theorem opt_member {p : Prop} [Decidable p] {m : JMember} {ps : List (Bytes × JVal)} {q : Bytes × JVal} (h : m.Reads q)
    (hp : ps = if p then [q] else []) : Pointwise JMember.Reads (if p then [m] else []) ps := by
  subst hp
  split
  · exact .cons h .nil
  · exact .nil

theorem listed_if (k : Bytes) (vs : List JVal) : listed k vs = if vs.length > 0 then [(k, .arr vs)] else [] := by
  cases vs <;> rfl

theorem project_reads {v : VbaInfo} (hb : ClearInfo v.base) (hv : ClearProject v) :
    JClosed v.toJson (.obj (identity v.base ++ projectMembers v)) := by
  obtain ⟨m, ms, hm⟩ : ∃ m ms, baseMembers v.base = m :: ms := ⟨_, _, rfl⟩
  have base := baseMembers_reads hb
  rw [hm] at base
  have name : Pointwise JMember.Reads (if v.ProjectName.length > 0 then
      [{ pre := b!" ", key := b!"projectname", val := b!"\"" ++ JsonEscape v.ProjectName ++ b!"\"" }] else [])
      (if v.ProjectName = [] then [] else [(b!"projectname", shown v.ProjectName)]) :=
    opt_member (q := (b!"projectname", shown v.ProjectName))
      ⟨rfl, rfl, rfl, ⟨[], [], rfl, rfl, rfl⟩, (jclosed_esc v.ProjectName).reads⟩
      (by cases v.ProjectName <;> rfl)
  have number : ∀ (k : Bytes) (n : Nat), jsonPlain k = true → Pointwise JMember.Reads (if n > 0 then
      [{ pre := b!" ", key := k, mid := b!" : ", val := dec n }] else []) (counted k n) := fun k n hk =>
    opt_member (q := (k, .nat n)) ⟨rfl, hk, rfl, ⟨b!" ", b!" ", rfl, rfl, rfl⟩, jreads_nat n⟩ (by cases n <;> rfl)
  have refs : Pointwise JMember.Reads (if v.References.length > 0 then
      [{ pre := b!" ", key := b!"References", mid := b!" : ", val := b!"[" ++ vectorJoin v.References b!"," true ++ b!"]" }] else [])
      (listed b!"References" (v.References.map .text)) := by
    have hq := quoted_join (l := v.References) (f := fun s => s) (g := JVal.text) fun s hs => (jclosed_text (hv s hs).json).reads
    rw [List.map_id'] at hq
    exact opt_member (q := (b!"References", .arr (v.References.map .text)))
      ⟨rfl, rfl, rfl, ⟨b!" ", b!" ", rfl, rfl, rfl⟩, hq.reads⟩ (by rw [listed_if, List.length_map])
  have mods : Pointwise JMember.Reads (if v.Modules.length > 0 then
      [{ pre := b!" ", key := b!"Modules", mid := b!" : ", val := b!"[" ++ vectorJoin (v.Modules.map (·.toJson)) b!"," ++ b!"]" }] else [])
      (listed b!"Modules" (v.Modules.map moduleValue)) :=
    opt_member (q := (b!"Modules", .arr (v.Modules.map moduleValue)))
      ⟨rfl, rfl, rfl, ⟨b!" ", b!" ", rfl, rfl, rfl⟩, (arr_join (pointwise_map fun m _ => (module_reads m).reads)).reads⟩
      (by rw [listed_if, List.length_map])
  have all := base.append ((((name.append (number b!"VBAVersionMajor" v.VBAVersionMajor rfl)).append
    (number b!"VBAVersionMinor" v.VBAVersionMinor rfl)).append refs).append mods)
  refine JClosed.of (jclosed_obj all) ?_ rfl
  have e : ∀ l : List JMember, m :: ms ++ l = m :: (ms ++ l) := fun _ => rfl
  rw [VbaInfo.toJson, ← baseMembers_text, hm, objText, e, membersText_cons, membersText_cons]
  simp only [List.map_append, List.flatten_append, flatten_opt]
  simp only [JMember.text, List.append_assoc, List.cons_append, List.nil_append]

/-! ## XML -/

theorem run_cdata_code (stack : List Bytes) (s : Bytes) (hs : ∀ c ∈ s, XmlUnit c.toNat ∧ c.toNat < 128) (k : Nat) (hk : k ≤ 2)
    (hn : ¬ ∃ a b, List.replicate k 93 ++ s = a ++ b!"]]>" ++ b) :
    run xmlStep (.cdata k, stack) (s ++ b!"]]>") = some ((.text, stack), List.replicate k (.char 93) ++ lit s) := by
  induction s generalizing k with
  | nil =>
    have : k = 0 ∨ k = 1 ∨ k = 2 := by omega
    rcases this with rfl | rfl | rfl <;> rfl
  | cons c s ih =>
    obtain ⟨hc1, hc2⟩ := hs c (by simp)
    have ih' := fun k hk hn => ih (fun x hx => hs x (by simp [hx])) k hk hn
    rw [List.cons_append, run]
    by_cases h93 : c = 93
    · subst h93
      by_cases hk2 : k = 2
      · subst hk2
        have := ih' 2 (by omega) (fun ⟨a, b, h⟩ => hn ⟨93 :: a, b, by rw [List.cons_append, List.cons_append, ← h]; rfl⟩)
        simp only [xmlStep, if_true, this]
        rfl
      · have := ih' (k + 1) (by omega) (fun ⟨a, b, h⟩ => hn ⟨a, b, by
          rw [← h, List.replicate_succ', List.append_assoc]; rfl⟩)
        simp only [xmlStep, if_true, hk2, if_false, this]
        simp [lit, List.replicate_succ']
    · have := ih' 0 (by omega) (fun ⟨a, b, h⟩ => hn ⟨List.replicate k 93 ++ c :: a, b, by
          rw [List.replicate_zero, List.nil_append] at h
          rw [h]; simp⟩)
      have hno : ¬ (c = 62 ∧ k = 2) := by
        rintro ⟨rfl, rfl⟩
        exact hn ⟨[], s, rfl⟩
      have hx : isXmlChar c.toNat = true := by
        unfold XmlUnit at hc1
        simp [isXmlChar]; omega
      have l2 : c < 128 := by rw [UInt8.lt_iff_toNat_lt]; exact hc2
      simp [xmlStep, h93, hno, hx, l2, this, lit]

theorem cdata_code {s : Bytes} (hs : ∀ c ∈ s, XmlUnit c.toNat ∧ c.toNat < 128) (hn : ¬ ∃ a b, s = a ++ b!"]]>" ++ b) :
    XReads (b!"<![CDATA[" ++ (s ++ b!"]]>")) [.chars (codes s)] := by
  intro n stack
  have c1 : run xmlStep (.text, n :: stack) b!"<![CDATA[" = some ((.cdata 0, n :: stack), []) := rfl
  have := run_append c1 (run_cdata_code (n :: stack) s hs 0 (by omega) hn)
  rw [this]
  simp [XVal.listEvents, XVal.events, codes, lit]

theorem moduleX_code {m : Module} (h1 : LegalText m.Name) (h2 : LegalText m.StreamName) {us : List XVal}
    (h : XReads (b!"<![CDATA[" ++ (m.Code ++ b!"]]>")) us) :
    ∃ name stream, XReads m.toXml [.elem b!"Module" [name, stream, numX b!"Offset" m.Offset,
      numX b!"isPrivate" (if m.isPrivate then 1 else 0), numX b!"isReadOnly" (if m.isReadOnly then 1 else 0), .elem b!"Code" us]] ∧
      TextX b!"Name" m.Name name ∧ TextX b!"StreamName" m.StreamName stream := by
  obtain ⟨name, n1, n2⟩ := textX_of (k := b!"Name") (by decide) h1.legal
  obtain ⟨stream, s1, s2⟩ := textX_of (k := b!"StreamName") (by decide) h2.legal
  have := xreads_elem (n := b!"Module") (by decide) (((((n1.append s1).append
    (xreads_leaf (n := b!"Offset") (by decide) (clear_dec m.Offset).xml)).append
    (xreads_leaf (n := b!"isPrivate") (by decide) (clear_dec (if m.isPrivate then 1 else 0)).xml)).append
    (xreads_leaf (n := b!"isReadOnly") (by decide) (clear_dec (if m.isReadOnly then 1 else 0)).xml)).append
    (xreads_elem (n := b!"Code") (by decide) h))
  refine ⟨name, stream, XReads.of this ?_ rfl, n2, s2⟩
  simp only [Module.toXml, flag_dec, elemText, List.append_assoc, List.cons_append, List.nil_append]

theorem moduleX_reads {m : Module} (h1 : LegalText m.Name) (h2 : LegalText m.StreamName)
    (h3 : ∀ c ∈ m.Code, XmlUnit c.toNat ∧ c.toNat < 128) (h4 : ¬ ∃ a b, m.Code = a ++ b!"]]>" ++ b) :
    ∃ v, XReads m.toXml [v] ∧ ModuleShownX m v := by
  obtain ⟨name, stream, h5, h6, h7⟩ := moduleX_code h1 h2 (cdata_code h3 h4)
  exact ⟨_, h5, name, stream, h6, h7, rfl⟩

theorem projectX_modules {v : VbaInfo} (hb : ClearInfo v.base) (hv : ClearProject v) (hname : LegalText v.ProjectName)
    {mods : List XVal} (hm : Pointwise (fun (m : Module) v => XReads m.toXml [v]) v.Modules mods) :
    ∃ name, XReads v.toXml [.elem b!"item" (identityX v.base ++ (name ++ countedX b!"VBAVersionMajor" v.VBAVersionMajor ++
      countedX b!"VBAVersionMinor" v.VBAVersionMinor ++ filled b!"References" (v.References.map (.leaf b!"Reference")) ++
      filled b!"Modules" (commas mods)))] ∧
      (if v.ProjectName = [] then name = [] else ∃ n, name = [n] ∧ TextX b!"projectname" v.ProjectName n) := by
  have base := baseXml_reads hb
  obtain ⟨name, n1, n2⟩ : ∃ name, XReads (if v.ProjectName.length > 0 then elemText b!"projectname" (XmlEscape v.ProjectName) else [])
      name ∧ (if v.ProjectName = [] then name = [] else ∃ n, name = [n] ∧ TextX b!"projectname" v.ProjectName n) := by
    obtain ⟨n, h1, h2⟩ := textX_of (k := b!"projectname") (by decide) hname.legal
    cases hp : v.ProjectName with
    | nil => exact ⟨[], xreads_nil, rfl⟩
    | cons c cs =>
      rw [hp] at h1 h2
      exact ⟨[n], h1, n, rfl, h2⟩
  have number : ∀ (k : Bytes) (n : Nat), isName k = true → XReads (if n > 0 then elemText k (dec n) else []) (countedX k n) := by
    intro k n hk
    cases n with
    | zero => exact xreads_nil
    | succ n => exact xreads_leaf hk (clear_dec _).xml
  have refs : XReads (if v.References.length > 0 then elemText b!"References"
      (v.References.map fun r => b!"<Reference>" ++ r ++ b!"</Reference>").flatten else [])
      (filled b!"References" (v.References.map (.leaf b!"Reference"))) := by
    have harr : XReads (v.References.map fun r => b!"<Reference>" ++ r ++ b!"</Reference>").flatten
        (v.References.map (.leaf b!"Reference")) :=
      xreads_flatten (pointwise_map fun s hm => XReads.of (xreads_leaf (n := b!"Reference") (by decide) (hv s hm).xml)
        (by simp only [elemText, List.append_assoc, List.cons_append, List.nil_append]) rfl)
    cases hr : v.References with
    | nil => exact xreads_nil
    | cons r rs => rw [hr] at harr; exact xreads_elem (by decide) harr
  have hmods : XReads (if v.Modules.length > 0 then elemText b!"Modules" (vectorJoin (v.Modules.map (·.toXml)) b!",") else [])
      (filled b!"Modules" (commas mods)) := by
    have harr : XReads (vectorJoin (v.Modules.map (·.toXml)) b!",") (commas mods) :=
      commas_reads (Pointwise.map_left (R := fun t v => XReads t [v]) (f := Module.toXml) hm)
    have hl := Pointwise_length hm
    cases mods with
    | nil => rw [if_neg (by rw [hl]; simp)]; exact xreads_nil
    | cons w ws =>
      rw [if_pos (by rw [hl]; simp)]
      cases ws with
      | nil => exact xreads_elem (by decide) harr
      | cons w' ws => exact xreads_elem (by decide) harr
  have := xreads_elem (n := b!"item") (by decide) (base.append ((((n1.append (number b!"VBAVersionMajor" v.VBAVersionMajor (by decide))).append
    (number b!"VBAVersionMinor" v.VBAVersionMinor (by decide))).append refs).append hmods))
  refine ⟨name, XReads.of this ?_ rfl, n2⟩
  simp only [VbaInfo.toXml, elemText, List.append_assoc, List.cons_append, List.nil_append]

theorem projectX_reads {v : VbaInfo} (hb : ClearInfo v.base) (hv : ClearProject v) (hx : LegalProject v) :
    ∃ vs, XReads v.toXml [.elem b!"item" (identityX v.base ++ vs)] ∧ ProjectShownX v vs := by
  obtain ⟨hname, hmods⟩ := hx
  obtain ⟨mods, hm⟩ := Pointwise.exists (R := fun (m : Module) v => XReads m.toXml [v] ∧ ModuleShownX m v) (as := v.Modules)
    fun m hm => moduleX_reads (hmods m hm).1 (hmods m hm).2.1 (hmods m hm).2.2.1 (hmods m hm).2.2.2
  obtain ⟨name, h1, h2⟩ := projectX_modules hb hv hname (hm.imp fun _ _ h => h.1)
  exact ⟨_, h1, name, mods, h2, hm.imp fun _ _ h => h.2, rfl⟩

end Fileid.Report
