import Verif.Model.ExcelEngine
import Verif.Spec.Excel
import Verif.Lemmas.Formats
import Verif.Lemmas.Identify
import Verif.Lemmas.Digits
import Verif.Lemmas.Pole
import Verif.Lemmas.Read

/-!
# Lemmas about the workbook model
-/

namespace Fileid.Excel

open Common Spec

/-! ## Column names -/

theorem colLoop_append (f n : Nat) (acc : Bytes) : colLoop f n acc = colLoop f n [] ++ acc := by
  induction f generalizing n acc with
  | zero => rfl
  | succ f ih =>
    unfold colLoop
    split
    · rw [ih, ih (acc := [_])]; simp
    · rfl

theorem colLoop_fuel (f g n : Nat) (hf : n ≤ f) (hg : n ≤ g) : colLoop f n [] = colLoop g n [] := by
  induction f generalizing n g with
  | zero =>
    have : n = 0 := by omega
    subst this
    cases g <;> rfl
  | succ f ih =>
    cases g with
    | zero => have : n = 0 := by omega
              subst this; rfl
    | succ g =>
      unfold colLoop
      split
      · rw [colLoop_append, colLoop_append g, ih g _ (by omega) (by omega)]
      · rfl

theorem ColNumToName_zero : ColNumToName 0 = [] := rfl

theorem ColNumToName_pos {n : Nat} (h : 0 < n) :
    ColNumToName n = ColNumToName ((n - 1) / 26) ++ [UInt8.ofNat (65 + (n - 1) % 26)] := by
  unfold ColNumToName
  obtain ⟨m, rfl⟩ : ∃ m, n = m + 1 := ⟨n - 1, by omega⟩
  rw [colLoop, if_pos (by omega), colLoop_append, colLoop_fuel m ((m + 1 - 1) / 26) _ (by omega) (by omega)]

theorem ColNumToName_spec (n : Nat) : (∀ c ∈ ColNumToName n, 65 ≤ c ∧ c ≤ 90) ∧ columnNumber (ColNumToName n) = n := by
  induction n using Nat.strongRecOn with
  | _ n ih =>
    by_cases h : n = 0
    · subst h; simp [ColNumToName_zero, columnNumber]
    · rw [ColNumToName_pos (by omega)]
      obtain ⟨h1, h2⟩ := ih ((n - 1) / 26) (by omega)
      have hm : (n - 1) % 26 < 26 := Nat.mod_lt _ (by decide)
      have hb : (UInt8.ofNat (65 + (n - 1) % 26)).toNat = 65 + (n - 1) % 26 := by
        rw [UInt8.toNat_ofNat']; omega
      constructor
      · intro c hc
        rcases List.mem_append.1 hc with h | h
        · exact h1 c h
        · have : c = UInt8.ofNat (65 + (n - 1) % 26) := by simpa using h
          subst this
          rw [UInt8.le_iff_toNat_le, UInt8.le_iff_toNat_le, hb]
          constructor
          · show 65 ≤ _; omega
          · show _ ≤ 90; omega
      · unfold columnNumber at h2 ⊢
        rw [List.foldl_append, h2]
        simp only [List.foldl_cons, List.foldl_nil, hb]
        omega

theorem columnNumber_snoc (s : Bytes) (c : UInt8) : columnNumber (s ++ [c]) = columnNumber s * 26 + (c.toNat - 64) := by
  simp [columnNumber]

/-- A word of letters is determined by its number. -/
theorem columnNumber_unique (s : Bytes) (h : ∀ c ∈ s, 65 ≤ c ∧ c ≤ 90) : ColNumToName (columnNumber s) = s := by
  have key : ∀ (k : Nat) (s : Bytes), s.length = k → (∀ c ∈ s, 65 ≤ c ∧ c ≤ 90) → ColNumToName (columnNumber s) = s := by
    intro k
    induction k with
    | zero => intro s hs _; rw [List.length_eq_zero_iff.1 hs]; rfl
    | succ k ih =>
      intro s hs hc
      have hne : s ≠ [] := by intro e; rw [e] at hs; simp at hs
      have e := List.dropLast_concat_getLast hne
      rw [← e] at hc ⊢
      have hi := ih s.dropLast (by simp [hs]) (fun c h => hc c (List.mem_append_left _ h))
      have hl := hc (s.getLast hne) (by simp)
      have h1 : 65 ≤ (s.getLast hne).toNat := UInt8.le_iff_toNat_le.1 hl.1
      have h2 : (s.getLast hne).toNat ≤ 90 := UInt8.le_iff_toNat_le.1 hl.2
      rw [columnNumber_snoc, ColNumToName_pos (by omega)]
      congr 1
      · rw [show (columnNumber s.dropLast * 26 + ((s.getLast hne).toNat - 64) - 1) / 26 = columnNumber s.dropLast by omega]
        exact hi
      · rw [show 65 + (columnNumber s.dropLast * 26 + ((s.getLast hne).toNat - 64) - 1) % 26 =
          (s.getLast hne).toNat by omega, UInt8.ofNat_toNat]
  exact key s.length s rfl h

theorem ColNumToName_ne_nil {n : Nat} (h : 0 < n) : ColNumToName n ≠ [] := by
  rw [ColNumToName_pos h]; simp

theorem cellRef_names {row col : Nat} (hc : col < 65535) : NamesCell (cellRef row col) row col := by
  have e : u16 (col + 1) = col + 1 := by unfold u16; omega
  refine ⟨_, rfl, ?_, ?_⟩
  · rw [e]; exact ⟨ColNumToName_ne_nil (by omega), (ColNumToName_spec _).1⟩
  · rw [e]; exact (ColNumToName_spec _).2

/-! ## Members of printed records -/

theorem occurs_append_left {p s : Bytes} (t : Bytes) (h : Occurs p s) : Occurs p (t ++ s) := by
  obtain ⟨o, pre, post, e, hl⟩ := h
  exact ⟨t.length + o, t ++ pre, post, by rw [e]; simp, by simp [hl]⟩

theorem occurs_append_right {p s : Bytes} (t : Bytes) (h : Occurs p s) : Occurs p (s ++ t) := by
  obtain ⟨o, pre, post, e, hl⟩ := h
  exact ⟨o, pre, post ++ t, by rw [e]; simp, hl⟩

theorem occurs_self (p : Bytes) : Occurs p p := ⟨0, [], [], by simp, rfl⟩

theorem occurs_flatten {l : List Bytes} {x : Bytes} (h : x ∈ l) : Occurs x l.flatten := by
  induction l with
  | nil => simp at h
  | cons y ys ih =>
    rw [List.flatten_cons]
    rcases List.mem_cons.1 h with e | e
    · subst e; exact occurs_append_right _ (occurs_self _)
    · exact occurs_append_left _ (ih e)

theorem occurs_join {l : List Bytes} {x : Bytes} (h : x ∈ l) (stop : Bytes) (first : Bool) :
    ∃ t, (t = b!"," ∨ t = stop) ∧ Occurs (x ++ t) (vectorJoinLoop b!"," false first l ++ stop) := by
  induction l generalizing first with
  | nil => simp at h
  | cons y ys ih =>
    unfold vectorJoinLoop
    rcases List.mem_cons.1 h with e | e
    · subst e
      cases ys with
      | nil =>
        refine ⟨stop, Or.inr rfl, ?_⟩
        simp only [vectorJoinLoop, Bool.false_eq_true, ↓reduceIte, List.append_nil]
        rw [List.append_assoc]
        exact occurs_append_left _ (occurs_self _)
      | cons z zs =>
        refine ⟨b!",", Or.inl rfl, ?_⟩
        simp only [vectorJoinLoop, Bool.false_eq_true, ↓reduceIte]
        rw [show (if first = true then [] else b!",") ++ x ++ (b!"," ++ z ++ vectorJoinLoop b!"," false false zs) ++ stop =
          (if first = true then [] else b!",") ++ ((x ++ b!",") ++ (z ++ vectorJoinLoop b!"," false false zs ++ stop)) by
            simp only [List.append_assoc]]
        exact occurs_append_left _ (occurs_append_right _ (occurs_self _))
    · obtain ⟨t, ht, ho⟩ := ih e false
      refine ⟨t, ht, ?_⟩
      rw [List.append_assoc]
      exact occurs_append_left _ ho

theorem field_json {l : List Field} {f : Field} (h : f ∈ l) :
    ∃ t, (t = b!"," ∨ t = b!"}") ∧ Occurs (f.toJson ++ t) (objJson l) := by
  obtain ⟨t, ht, ho⟩ := occurs_join (List.mem_map_of_mem (f := Field.toJson) h) b!"}" true
  refine ⟨t, ht, ?_⟩
  unfold objJson vectorJoin
  rw [List.append_assoc]
  exact occurs_append_left _ ho

theorem field_xml {l : List Field} {f : Field} (h : f ∈ l) : Occurs f.toXml (objXml l) :=
  occurs_flatten (List.mem_map_of_mem h)

theorem occurs_prefix {p q s : Bytes} (h : Occurs (p ++ q) s) : Occurs p s := by
  obtain ⟨o, pre, post, e, hl⟩ := h
  exact ⟨o, pre, q ++ post, by rw [e]; simp, hl⟩

/-- A record whose fields are known is printed with each of them. -/
theorem printed {abi : Abi} {fmt : Fmt} {r : Rec} {l : List Field} (h : r.fields abi fmt = .ok l) :
    ∃ json xml, r.toJson abi fmt = .ok json ∧ r.toXml abi fmt = .ok xml ∧
      (∀ k v, Field.text k v ∈ l → ShowsText json xml k v) ∧ (∀ k v, Field.num k v ∈ l → ShowsNum json xml k v) ∧
      (∀ k v, Field.esc k v ∈ l → Occurs (b!"\"" ++ k ++ b!"\":\"" ++ JsonEscape v ++ b!"\"") json ∧
        Occurs (b!"<" ++ k ++ b!">" ++ XmlEscape v ++ b!"</" ++ k ++ b!">") xml) ∧
      (∀ j x, Field.raw j x ∈ l → Occurs j json ∧ Occurs x xml) := by
  refine ⟨objJson (r.baseFields ++ l), b!"<Record>" ++ objXml (r.baseFields ++ l) ++ b!"</Record>", ?_, ?_, ?_⟩
  · unfold Rec.toJson; rw [h]; rfl
  · unfold Rec.toXml; rw [h]; rfl
  · have hx : ∀ f ∈ l, Occurs f.toXml (b!"<Record>" ++ objXml (r.baseFields ++ l) ++ b!"</Record>") :=
      fun f hf => occurs_append_right _ (occurs_append_left _ (field_xml (List.mem_append_right _ hf)))
    have hj : ∀ f ∈ l, ∃ t, (t = b!"," ∨ t = b!"}") ∧ Occurs (f.toJson ++ t) (objJson (r.baseFields ++ l)) :=
      fun f hf => field_json (List.mem_append_right _ hf)
    refine ⟨fun k v hf => ?_, fun k v hf => ⟨hj _ hf, hx _ hf⟩, fun k v hf => ?_, fun j x hf => ?_⟩
    all_goals
      obtain ⟨t, _, ho⟩ := hj _ hf
      exact ⟨occurs_prefix ho, hx _ hf⟩

end Fileid.Excel
