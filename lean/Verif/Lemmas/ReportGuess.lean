import Verif.Lemmas.Report
import Verif.Lemmas.OlessGuess

/-!
# Lemmas about the texts of the results for a compound file
-/

namespace Fileid.Report

open Common Spec Spec.Report Oless Pole Vba

theorem clear_nil : Clear [] := fun c hc => absurd hc (by simp)

theorem mk_clear {a b c d : Bytes} {v : Nat} (h1 : Clear a) (h2 : Clear b) (h3 : Clear c) (h4 : Clear d) :
    ClearInfo { Extension := a, Name := b, SubType := c, Version := v, VersionName := d } := ⟨h1, h2, h3, h4⟩

instance (e : ExtInfo) : Decidable (ClearInfo e) :=
  decidable_of_iff (Clear e.Extension ∧ Clear e.Name ∧ Clear e.SubType ∧ Clear e.VersionName)
    ⟨fun h => ⟨h.1, h.2.1, h.2.2.1, h.2.2.2⟩, fun h => ⟨h.ext, h.name, h.sub, h.vname⟩⟩

/-- The result's texts are clear, and a workbook was made from some content. -/
def Made (abi : Abi) (env : Oless.Env) (r : Result) : Prop :=
  ClearInfo r.base ∧ ∀ i x, r = .excel i x → ∃ c, Excel.Detailer abi env.fmt env.what env.fuel c = .ok i

theorem table_clear : ∀ i ∈ table, Clear i.Extension ∧ Clear i.Name ∧ Clear i.SubType ∧ Clear i.Version := by
  decide +kernel

theorem clear_versions : (∀ e ∈ Tables.wordVersions, Clear e.2) ∧ (∀ e ∈ Tables.publisherVersions, Clear e.2) ∧
    (∀ e ∈ Tables.visioVersions, Clear e.2) ∧ (∀ e ∈ Tables.pptVersions, Clear e.2) := by
  decide +kernel

theorem clear_excelVersion (v : Nat) : Clear (Excel.GetVersion_Excel v) := by
  unfold Excel.GetVersion_Excel
  repeat' split
  all_goals exact clear_lit _ (by decide)

theorem clear_ppt (v : Nat) : Clear (Office.GetVersion_Powerpoint v) := by
  unfold Office.GetVersion_Powerpoint
  split
  · exact clear_lit _ (by decide)
  · cases h : Tables.pptVersions.find? fun e => Office.withinCheck v e.1 10 with
    | none => exact clear_lit _ (by decide)
    | some e => exact clear_versions.2.2.2 e (List.mem_of_find?_eq_some h)

theorem entryResult_made {abi : Abi} {env : Oless.Env} {io : StorageIO} {full : WStr} {i : OlessInfo} {r : Result}
    (hi : i ∈ table) (h : entryResult abi env io full i = .ok r) : Made abi env r := by
  obtain ⟨c1, c2, c3, c4⟩ := table_clear i hi
  have unk : Clear b!"Unknown" := clear_lit _ (by decide)
  unfold entryResult at h
  dsimp only at h
  by_cases hf : i.extraFunc = .none
  · rw [if_pos hf] at h
    cases h
    exact ⟨⟨c1, c2, c3, c4⟩, fun _ _ h => by cases h⟩
  · rw [if_neg hf] at h
    obtain ⟨c, _, h⟩ := bind_eq_ok h
    unfold detail at h
    cases hfn : i.extraFunc with
    | none => exact absurd hfn hf
    | word =>
      rw [hfn] at h
      obtain ⟨e, he, h⟩ := bind_eq_ok h
      cases h
      unfold Office.wordDetailer at he
      obtain ⟨_, _, he⟩ := bind_eq_ok he
      cases he
      exact ⟨⟨c1, c2, c3, clear_lookup clear_versions.1 _ unk⟩, fun _ _ h => by cases h⟩
    | pub =>
      rw [hfn] at h
      obtain ⟨e, he, h⟩ := bind_eq_ok h
      cases h
      unfold Office.pubDetailer at he
      obtain ⟨_, _, he⟩ := bind_eq_ok he
      cases he
      exact ⟨⟨c1, c2, c3, clear_lookup clear_versions.2.1 _ unk⟩, fun _ _ h => by cases h⟩
    | visio =>
      rw [hfn] at h
      obtain ⟨e, he, h⟩ := bind_eq_ok h
      cases h
      unfold Office.visioDetailer at he
      obtain ⟨_, _, he⟩ := bind_eq_ok he
      cases he
      exact ⟨⟨c1, c2, c3, clear_lookup clear_versions.2.2.1 _ unk⟩, fun _ _ h => by cases h⟩
    | ppt =>
      rw [hfn] at h
      obtain ⟨u, _, h⟩ := bind_eq_ok h
      obtain ⟨e, he, h⟩ := bind_eq_ok h
      cases h
      unfold Office.pptDetailer at he
      obtain ⟨_, _, he⟩ := bind_eq_ok he
      cases he
      exact ⟨⟨c1, c2, c3, clear_ppt _⟩, fun _ _ h => by cases h⟩
    | msi =>
      rw [hfn] at h
      cases h
      refine ⟨?_, fun _ _ h => by cases h⟩
      unfold Office.msiDetailer
      simp only [Result.base]
      split
      · exact mk_clear (clear_lit _ (by decide)) (clear_lit _ (by decide)) c3 c4
      · split
        · exact ⟨c1, c2, c3, c4⟩
        · split
          · exact mk_clear (clear_lit _ (by decide)) (clear_lit _ (by decide)) c3 c4
          · exact ⟨c1, c2, c3, c4⟩
    | excel =>
      rw [hfn] at h
      obtain ⟨e, he, h⟩ := bind_eq_ok h
      cases h
      refine ⟨?_, fun i x h => by cases h; exact ⟨c, he⟩⟩
      unfold Excel.Detailer at he
      dsimp only at he
      obtain ⟨_, _, he⟩ := bind_eq_ok he
      split at he
      · cases he
      · cases he
        exact mk_clear (clear_lit _ (by decide)) (clear_lit _ (by decide)) (clear_excelVersion _) (clear_excelVersion _)
    | wp =>
      rw [hfn] at h
      cases h
      exact ⟨mk_clear (clear_lit _ (by decide)) clear_nil clear_nil (clear_lit _ (by decide)), fun _ _ h => by cases h⟩

theorem parse_base {abi : Abi} {b : Bytes} {len : Nat} {code : WStr → Nat → Res Bytes} {info v : VbaInfo}
    (h : parseDir abi b len code info = .ok v) : v.base = info.base := by
  unfold parseDir at h
  obtain ⟨p, hp, h⟩ := bind_eq_ok h
  obtain ⟨_, _, h⟩ := bind_eq_ok h
  obtain ⟨_, _, h⟩ := bind_eq_ok h
  cases h
  unfold projectRecords at hp
  obtain ⟨_, _, hp⟩ := bind_eq_ok hp
  obtain ⟨_, _, hp⟩ := bind_eq_ok hp
  obtain ⟨_, _, hp⟩ := bind_eq_ok hp
  obtain ⟨_, _, hp⟩ := bind_eq_ok hp
  obtain ⟨_, _, hp⟩ := bind_eq_ok hp
  dsimp only at hp
  obtain ⟨_, _, hp⟩ := bind_eq_ok hp
  obtain ⟨_, _, hp⟩ := bind_eq_ok hp
  obtain ⟨_, _, hp⟩ := bind_eq_ok hp
  obtain ⟨_, _, hp⟩ := bind_eq_ok hp
  cases hp
  rfl

theorem analyze_parses {abi : Abi} {io : StorageIO} {p : WStr} {v : VbaInfo} (h : Analyze abi io p = .ok v) :
    ∃ b len n, parseDir abi b len (fun name offset => GetCode abi io (p ++ wide b!"/VBA/" ++ name) offset)
      { base := { Extension := b!"vba", Name := b!"Visual Basic for Applications", Version := n } } = .ok v := by
  unfold Analyze at h
  obtain ⟨_, _, h⟩ := bind_eq_ok h
  obtain ⟨_, _, h⟩ := bind_eq_ok h
  obtain ⟨n, _, h⟩ := bind_eq_ok h
  obtain ⟨d, _, h⟩ := bind_eq_ok h
  exact ⟨d.2, d.1, n, h⟩

theorem analyze_base {abi : Abi} {io : StorageIO} {p : WStr} {v : VbaInfo} (h : Analyze abi io p = .ok v) :
    ∃ n, v.base = { Extension := b!"vba", Name := b!"Visual Basic for Applications", Version := n } := by
  obtain ⟨_, _, n, h⟩ := analyze_parses h
  exact ⟨n, parse_base h⟩

theorem vbaResult_made {env : Oless.Env} {abi : Abi} {io : StorageIO} {p : WStr} {r : Result}
    (h : vbaResult env (Analyze abi io p) = .ok r) : Made abi env r := by
  cases ha : Analyze abi io p with
  | ok v =>
    rw [ha] at h; cases h
    refine ⟨?_, fun _ _ h => by cases h⟩
    obtain ⟨n, hn⟩ := analyze_base ha
    simp only [Result.base, hn]
    exact mk_clear (clear_lit _ (by decide)) (clear_lit _ (by decide)) clear_nil clear_nil
  | throw x =>
    rw [ha] at h; cases h
    exact ⟨by simp only [Result.base]; decide, fun _ _ h => by cases h⟩
  | ub u => rw [ha] at h; cases h
  | fuel => rw [ha] at h; cases h

theorem tableLoop_made {abi : Abi} {env : Oless.Env} {io : StorageIO} {full : WStr} {list : List OlessInfo}
    (hl : ∀ i ∈ list, i ∈ table) {ei : Option Result} (he : ∀ r, ei = some r → Made abi env r) {o : Option Result}
    (h : tableLoop abi env io full list ei = .ok o) : ∀ r, o = some r → Made abi env r := by
  induction list generalizing ei with
  | nil => cases h; exact he
  | cons i rest ih =>
    rw [tableLoop] at h
    split at h
    · obtain ⟨r, hr, h⟩ := bind_eq_ok h
      refine ih (fun i hi => hl i (by simp [hi])) ?_ h
      intro r' hr'
      cases hr'
      exact entryResult_made (hl i (by simp)) hr
    · exact ih (fun i hi => hl i (by simp [hi])) he h

theorem step_made {abi : Abi} {env : Oless.Env} {list : List OlessInfo} {io : StorageIO} {st st' : St} {name full : WStr}
    (hl : ∀ i ∈ list, i ∈ table) (hs : ∀ r ∈ st.results, Made abi env r)
    (h : guessStreamInfo abi env list io st name full = .ok st') : ∀ r ∈ st'.results, Made abi env r := by
  have push : ∀ o : Option Result, (∀ r, o = some r → Made abi env r) → ∀ r ∈ (pushResult st o).results, Made abi env r := by
    intro o ho r hr
    cases o with
    | none => exact hs r hr
    | some r' =>
      simp only [pushResult, List.mem_append, List.mem_singleton] at hr
      rcases hr with hr | rfl
      · exact hs r hr
      · exact ho _ rfl
  unfold guessStreamInfo at h
  obtain ⟨d, _, h⟩ := bind_eq_ok h
  split at h
  · split at h
    · obtain ⟨r, hr, h⟩ := bind_eq_ok h
      cases h
      exact push _ fun r' hr' => by cases hr'; exact vbaResult_made hr
    · cases h; exact hs
  · split at h
    · unfold addProperties at h
      split at h <;> cases h
      · exact hs
      · exact hs
    · obtain ⟨ei, hei, h⟩ := bind_eq_ok h
      cases h
      exact push _ (tableLoop_made hl (fun _ h => by cases h) hei)

theorem foldRes_inv {α σ : Type} {f : σ → α → Res σ} {P : σ → Prop} (hf : ∀ s a s', P s → f s a = .ok s' → P s')
    {as : List α} {s s' : σ} (h0 : P s) (h : foldRes f s as = .ok s') : P s' := by
  induction as generalizing s with
  | nil => cases h; exact h0
  | cons a as ih =>
    rw [foldRes] at h
    obtain ⟨t, ht, h⟩ := bind_eq_ok h
    exact ih (hf _ _ _ h0 ht) h

theorem recurse_inv {σ : Type} {abi : Abi} {io : StorageIO} {push : σ → WStr → σ} {callback : σ → WStr → WStr → Res σ}
    {P : σ → Prop} (hp : ∀ s p, P s → P (push s p)) (hc : ∀ s n p s', P s → callback s n p = .ok s' → P s') :
    ∀ (depth : Nat) (path : WStr) (s s' : σ), P s → recurse abi io push callback depth path s = .ok s' → P s' := by
  intro depth
  induction depth with
  | zero => intro path s s' _ h; cases h
  | succ depth ih =>
    intro path s s' hs h
    rw [recurse] at h
    obtain ⟨entries, _, h⟩ := bind_eq_ok h
    refine foldRes_inv ?_ (hp _ _ hs) h
    intro s a s' hs h
    obtain ⟨t, ht, h⟩ := bind_eq_ok h
    obtain ⟨d, _, h⟩ := bind_eq_ok h
    have := hc _ _ _ _ hs ht
    split at h
    · exact ih _ _ _ this h
    · cases h; exact hp _ _ this

theorem giveExtra_made {abi : Abi} {env : Oless.Env} (x : Extra) (rs : List Result) (h : ∀ r ∈ rs, Made abi env r) :
    ∀ r ∈ giveExtra x rs, Made abi env r := by
  induction rs with
  | nil => intro r hr; cases hr
  | cons r rest ih =>
    have h0 := h r (by simp)
    have hrest : ∀ r ∈ rest, Made abi env r := fun r hr => h r (by simp [hr])
    intro q hq
    cases r with
    | ole e y =>
      rcases List.mem_cons.1 hq with rfl | hq
      · exact ⟨h0.1, fun _ _ h => by cases h⟩
      · exact hrest q hq
    | excel i y =>
      rcases List.mem_cons.1 hq with rfl | hq
      · exact ⟨h0.1, fun j z h => by cases h; exact h0.2 i y rfl⟩
      · exact hrest q hq
    | wp e =>
      rcases List.mem_cons.1 hq with rfl | hq
      · exact h0
      · exact ih hrest q hq
    | vba v =>
      rcases List.mem_cons.1 hq with rfl | hq
      · exact h0
      · exact ih hrest q hq

theorem finish_made {abi : Abi} {env : Oless.Env} (st : St) (h : ∀ r ∈ st.results, Made abi env r) :
    ∀ r ∈ finish st, Made abi env r := by
  unfold finish
  dsimp only
  split
  · intro r hr
    rw [List.mem_singleton] at hr
    subst hr
    exact ⟨mk_clear (clear_lit _ (by decide)) clear_nil clear_nil (clear_lit _ (by decide)), fun _ _ h => by cases h⟩
  · exact giveExtra_made _ _ h

theorem guess_made {abi : Abi} {env : Oless.Env} {list : List OlessInfo} (hl : ∀ i ∈ list, i ∈ table) {depth : Nat}
    {file : File} {rs : List Result} (h : Guess abi env list depth file = .ok rs) : ∀ r ∈ rs, Made abi env r := by
  unfold Guess at h
  obtain ⟨o, _, h⟩ := bind_eq_ok h
  split at h
  · obtain ⟨st, hst, h⟩ := bind_eq_ok h
    cases h
    refine finish_made st ?_
    exact recurse_inv (P := fun st : St => ∀ r ∈ st.results, Made abi env r) (push := St.pushPath) (fun s p hs => hs)
      (fun s n p s' hs hc => step_made hl hs hc) depth _ _ _ (fun r hr => absurd hr (List.not_mem_nil)) hst
  · cases h
    exact finish_made {} (fun r hr => absurd hr (List.not_mem_nil))

end Fileid.Report
