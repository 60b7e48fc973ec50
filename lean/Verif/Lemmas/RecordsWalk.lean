import Verif.Lemmas.Records
import Verif.Lemmas.WorkbookPass
import Verif.Lemmas.AsfFile

/-!
# Interpreted records in the list of records
-/

namespace Fileid.Excel

open Common Spec Spec.Biff ExcelTables

theorem parse_bof_view (abi : Abi) (fmt : Fmt) (fuel : Nat) (e : Eng) (data : Bytes) (he : e.version = 0) :
    ParseRecord abi fmt fuel e bofType data = .ok (some (e.master, Rec.make bofType data .bof)) := by
  have hc : (Tables.lookup biff8Classes bofType).getD [] = b!"BOF" := by decide +kernel
  have hs : ∀ d, simpleView abi fuel b!"BOF" d = .ok .bof := fun _ => rfl
  have hp : parseBiff8 abi fmt fuel e bofType data = fresh e bofType data (.ok .bof) := by
    unfold parseBiff8
    dsimp only
    rw [hc, hs]
    rfl
  unfold ParseRecord parseVersioned
  rw [hp, he]
  rfl

/-- Once a record stands behind another that is no `Continue` record, it is not changed any more. -/
theorem doRecords_behind {abi : Abi} {fmt : Fmt} {fuel max : Nat} (rs : List Record) : ∀ (e e' : Eng) (a b : List Rec) (q : Rec),
    e.master = a ++ q :: b → (∃ x ∈ b, x.type ≠ continueType) → doRecords abi fmt fuel max rs e = .ok e' →
    ∃ a' b', e'.master = a' ++ q :: b' ∧ a'.length = a.length := by
  induction rs with
  | nil => intro e e' a b q hm _ h; cases h; exact ⟨a, b, hm, rfl⟩
  | cons r rs ih =>
    intro e e' a b q hm hx h
    rw [doRecords] at h
    obtain ⟨e1, h1, h⟩ := bind_ok_inv h
    rcases doRecord_inv h1 with ⟨he, _⟩ | ⟨m, v, _, _, _, _, _, _, hm1, hmm⟩
    · exact ih e1 e' a b q (by rw [he]; exact hm) hx h
    · rcases hmm with rfl | ⟨hr, i, hi, rfl⟩
      · obtain ⟨x, hx1, hx2⟩ := hx
        exact ih e1 e' a (b ++ [Rec.make r.type r.data v]) q (by rw [hm1, hm]; simp) ⟨x, by simp [hx1], hx2⟩ h
      · -- the record extended stands behind
        have key : ∀ (l : List Rec), (∃ x ∈ l, x.type ≠ continueType) → ∃ l1 x l2, l = l1 ++ x :: l2 ∧ x.type ≠ continueType ∧
            ∀ y ∈ l2, y.type = continueType := by
          intro l
          induction l with
          | nil => intro h; obtain ⟨x, hx, _⟩ := h; cases hx
          | cons z l ihl =>
            intro hz
            by_cases hl : ∃ x ∈ l, x.type ≠ continueType
            · obtain ⟨l1, x, l2, rfl, h1, h2⟩ := ihl hl
              exact ⟨z :: l1, x, l2, rfl, h1, h2⟩
            · obtain ⟨x, hx, hxt⟩ := hz
              rcases List.mem_cons.1 hx with rfl | hx
              · exact ⟨[], x, l, rfl, hxt, fun y hy => Decidable.byContradiction fun hn => hl ⟨y, hy, hn⟩⟩
              · exact absurd ⟨x, hx, hxt⟩ hl
        obtain ⟨l1, x, l2, rfl, h1, h2⟩ := key b hx
        have hs : e.master = (a ++ q :: l1) ++ x :: l2 := by rw [hm]; simp
        have hi' : i = (a ++ q :: l1).length := by
          rw [hs, lastIdx_split (by rw [hr]; simpa using h1) (fun y hy => by rw [h2 y hy, hr]; simp)] at hi
          injection hi with hi
          exact hi.symm
        subst hi'
        refine ih e1 e' a (l1 ++ x.append r.data :: (l2 ++ [Rec.make r.type r.data v])) q ?_ ?_ h
        · rw [hm1, hs, modify_split]
          simp
        · refine ⟨x.append r.data, by simp, ?_⟩
          have : (x.append r.data).type = x.type := congrArg (·.1) (append_key x r.data)
          rw [this]
          exact h1

/-- A record that is no `Continue` record is not changed if no `Continue` record follows up to the next record that is
not interpreted. -/
theorem doRecords_keeps {abi : Abi} {fmt : Fmt} {fuel max : Nat} (rs : List Record) : ∀ (e e' : Eng) (a : List Rec) (q : Rec),
    (∀ r ∈ rs.takeWhile (·.type ∈ interpreted), r.type ≠ continueType) →
    e.master = a ++ [q] → doRecords abi fmt fuel max rs e = .ok e' →
    ∃ a' b', e'.master = a' ++ q :: b' ∧ a'.length = a.length := by
  induction rs with
  | nil => intro e e' a q _ hm h; cases h; exact ⟨a, [], hm, rfl⟩
  | cons r rs ih =>
    intro e e' a q hc hm h
    rw [doRecords] at h
    obtain ⟨e1, h1, h⟩ := bind_ok_inv h
    have hnc : r.type ≠ continueType := by
      by_cases hi : r.type ∈ interpreted
      · exact hc r (by rw [List.takeWhile_cons_of_pos (by simpa using hi)]; simp)
      · exact fun h => hi (h ▸ by decide)
    rcases doRecord_inv h1 with ⟨he, hp⟩ | ⟨m, v, _, _, _, _, _, _, hm1, hmm⟩
    · have hi : r.type ∈ interpreted := Decidable.byContradiction fun hn => by
        obtain ⟨v, hv⟩ := ParseRecord_plain abi fmt fuel { e with index := u32 (e.index + 4) } r.data hn
        rw [hp] at hv
        cases hv
      exact ih e1 e' a q (fun x hx => hc x (by rw [List.takeWhile_cons_of_pos (by simpa using hi)]; exact List.mem_cons_of_mem _ hx)) (by rw [he]; exact hm) h
    · rcases hmm with rfl | ⟨hr, _⟩
      · exact doRecords_behind rs e1 e' a [Rec.make r.type r.data v] q (by rw [hm1, hm]; simp) ⟨Rec.make r.type r.data v, by simp, hnc⟩ h
      · exact absurd hr hnc

theorem content_bof {c : Content} (h : c.type ∈ bofTypes) : ∃ b, c = .bof b := by
  cases c with
  | bof b => exact ⟨b, rfl⟩
  | _ => exact absurd h (by simp [Content.type, bofTypes])

/-- The walk through a workbook stream that ends without an error lists a record the program interprets as what it
says, behind the records listed for those before it. -/
theorem content_listed {abi : Abi} {fmt : Fmt} {fuel : Nat} {before after : List Record} {c : Content} {tail : Bytes} {e : Eng}
    (hv : ∀ r ∈ before ++ c.record :: after, r.Valid ∧ r.type ≠ filePassType)
    (hb : ∃ b, (before ++ c.record :: after).head? = some b ∧ b.type ∈ bofTypes ∧ 2 ≤ b.data.length ∧ bofVersion b.data = 0x0600)
    (hlen : (stream (before ++ c.record :: after) ++ tail).length + 4 ≤ 2 ^ 32) (ht : 0 < tail.length ∧ tail.length ≤ 4)
    (hc : c.Valid) (hr : ReadsAll abi c) (hfuel : c.data.length < fuel)
    (hnc : ∀ r ∈ after.takeWhile (·.type ∈ interpreted), r.type ≠ continueType)
    (h : ParseStream abi fmt fuel (stream (before ++ c.record :: after) ++ tail) = (e, .ok ())) :
    ∃ a b kept, e.master = a ++ Rec.make c.type c.data (Content.view c) :: b ∧ kept.Sublist before ∧
      (before.filter fun r => r.type ∉ interpreted).Sublist kept ∧ kept.length = a.length := by
  unfold ParseStream at h
  obtain ⟨k, hk, hall⟩ := walk_inv hlen ht _ (fun r hr => (hv r hr).1) (fun r hr => (hv r hr).2) fuel {} e (.ok ()) [] rfl rfl h
  rw [hall rfl, List.take_length, doRecords_append] at hk
  obtain ⟨e1, h1, hk⟩ := bind_ok_inv hk
  rw [doRecords] at hk
  obtain ⟨e2, h2, h3⟩ := bind_ok_inv hk
  obtain ⟨kept, k1, k2, k3⟩ := doRecords_shows before {} e1 [] .nil h1
  have hparse : ParseRecord abi fmt fuel { e1 with index := u32 (e1.index + 4) } c.type c.data =
      .ok (some (e1.master, Rec.make c.type c.data (Content.view c))) := by
    cases before with
    | nil =>
      cases h1
      obtain ⟨b, hb0, hb1, _⟩ := hb
      injection hb0 with hb0
      subst hb0
      have hct : c.type ∈ bofTypes := hb1
      obtain ⟨b, rfl⟩ := content_bof hct
      exact parse_bof_view abi fmt fuel _ b.data rfl
    | cons b0 before =>
      obtain ⟨b, hb0, hb1, hb2, hb3⟩ := hb
      injection hb0 with hb0
      subst hb0
      rw [doRecords] at h1
      obtain ⟨e0, h0, h1⟩ := bind_ok_inv h1
      obtain ⟨e0', h0', p1, i1⟩ := first_step (abi := abi) (fmt := fmt) (fuel := fuel)
        (max := (stream (b0 :: before ++ c.record :: after) ++ tail).length) hb1 hb2 (hv b0 (by simp)).1.2
      rw [h0'] at h0
      injection h0 with h0
      subst h0
      have hl : b0.bytes.length + (stream before).length < 2 ^ 32 := by
        rw [List.cons_append, stream_cons, stream_append] at hlen
        simp only [List.length_append] at hlen
        omega
      obtain ⟨v1, _, _⟩ := doRecords_version before (fun r hr => (hv r (by simp [hr])).2) e0' e1 p1.moved (by omega) h1
      exact content_parse fmt hc hr hfuel (show e1.version = 1536 by rw [v1, p1.version, hb3])
  rcases doRecord_inv h2 with ⟨_, hp⟩ | ⟨m, v, _, _, hp, _, _, _, hm1, _⟩
  · exfalso
    have : (c.record).type = c.type := rfl
    rw [show (c.record).type = c.type from rfl, show (c.record).data = c.data from rfl, hparse] at hp
    cases hp
  · rw [show (c.record).type = c.type from rfl, show (c.record).data = c.data from rfl, hparse] at hp
    injection hp with hp
    injection hp with hp
    injection hp with hp1 hp2
    rw [show (c.record).type = c.type from rfl, show (c.record).data = c.data from rfl, ← hp1, ← hp2] at hm1
    obtain ⟨a, b, hab, hlen'⟩ := doRecords_keeps after e2 e e1.master _ hnc hm1 h3
    exact ⟨a, b, kept, hab, k1, k2, by rw [hlen', Report.Pointwise_length k3]; rfl⟩

end Fileid.Excel

namespace Fileid.Report

open Common Spec Spec.Biff Spec.Report Excel

theorem content_fields (abi : Abi) (fmt : Fmt) {c : Content} (hv : c.Valid) :
    ∃ l, (Rec.make c.type c.data (Content.view c)).fields abi fmt = .ok l := by
  cases c with
  | bof b => exact ⟨_, bof_fields hv⟩
  | sheet d => exact ⟨_, sheet_fields d⟩
  | label l formula => exact ⟨_, lbl_fields hv⟩
  | _ => exact ⟨_, rfl⟩

theorem content_reads {abi : Abi} {c : Content} (h : c.Narrow ∨ abi.wcharBytes = 2) : ReadsAll abi c := by
  cases c with
  | sharedStrings total l =>
    intro t ht hw
    rcases h with h | h
    · rw [h t ht] at hw; cases hw
    · exact h
  | sheet d => exact h
  | _ => trivial

theorem content_toJson {abi : Abi} {fmt : Fmt} {c : Content} (hv : c.Valid) (hh : ∀ b, c = .bof b → b.highest < 2) (hj : c.InJson) :
    ∃ t, (Rec.make c.type c.data (Content.view c)).toJson abi fmt = .ok t ∧ JClosed t (c.json) := by
  obtain ⟨l, hl, hr⟩ := content_json (abi := abi) (fmt := fmt) hv hh hj
  refine ⟨objJson ((Rec.make c.type c.data (Content.view c)).baseFields ++ l), by unfold Rec.toJson; rw [hl]; rfl, ?_⟩
  have h1 : FieldReads (.text b!"Type" (GetRecordTypeStr c.type)) (b!"Type", .text c.typeName) := by
    rw [← typeName_eq]; exact text_reads rfl (clear_recordType _)
  exact obj_fields (.cons h1 (.cons (numF_reads rfl) hr))

theorem content_toXml {abi : Abi} {fmt : Fmt} {c : Content} (hv : c.Valid) (hh : ∀ b, c = .bof b → b.highest < 2) (hx : c.InXml)
    {l : List Field} (hl : (Rec.make c.type c.data (Content.view c)).fields abi fmt = .ok l) :
    ∃ t, (Rec.make c.type c.data (Content.view c)).toXml abi fmt = .ok t ∧ XReads t [c.xml] ∧
      xmlDocument t = some (c.xml).events := by
  have hr := content_xml (abi := abi) (fmt := fmt) hv hh hx hl
  have h1 : FieldReadsX (.text b!"Type" (GetRecordTypeStr c.type)) (.leaf b!"Type" c.typeName) := by
    rw [← typeName_eq]; exact textX_reads rfl (clear_recordType _)
  have h2 : XReads (objXml ((Rec.make c.type c.data (Content.view c)).baseFields ++ l))
      ([.leaf b!"Type" c.typeName, .leaf b!"Length" (dec c.data.length)] ++ c.facts.map fun p => p.2.xml p.1) :=
    objX_fields (.cons h1 (.cons (numFX_reads (by decide)) hr))
  have he : (Rec.make c.type c.data (Content.view c)).toXml abi fmt =
      .ok (elemText b!"Record" (objXml ((Rec.make c.type c.data (Content.view c)).baseFields ++ l))) := by
    unfold Rec.toXml
    rw [hl, Res.bind_ok]
    simp only [elemText, List.append_assoc, List.cons_append, List.nil_append]
  exact ⟨_, he, xreads_elem (by decide) h2, xmlDocument_elem (by decide) h2⟩

end Fileid.Report
