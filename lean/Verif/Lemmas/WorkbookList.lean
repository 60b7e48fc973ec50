import Verif.Lemmas.Workbook

/-!
# The list of records after a walk
-/

namespace Fileid.Excel

open Common Spec Spec.Biff ExcelTables

/-! ## `contents` -/

theorem continuation_split {q : Record} (hq : q.type ≠ continueType) (a t : List Record) :
    continuation (a ++ q :: t) = continuation a := by
  induction a with
  | nil => rw [List.nil_append, continuation, continuation, if_neg hq]
  | cons r a ih => rw [List.cons_append, continuation, continuation, ih]

theorem contents_split {q : Record} (hq : q.type ≠ continueType) (a t : List Record) :
    contents (a ++ q :: t) = contents a ++ contents (q :: t) := by
  induction a with
  | nil => rfl
  | cons r a ih => rw [List.cons_append, contents, contents, ih, continuation_split hq, List.cons_append]

theorem contents_length (rs : List Record) : (contents rs).length = rs.length := by
  induction rs with
  | nil => rfl
  | cons r rs ih => rw [contents, List.length_cons, List.length_cons, ih]

/-- What a record contributes of itself. -/
def own (r : Record) : Nat × Nat × Bytes := (r.type, r.data.length, r.data)

theorem contents_continue {cs : List Record} (h : ∀ r ∈ cs, r.type = continueType) : contents cs = cs.map own := by
  induction cs with
  | nil => rfl
  | cons r cs ih =>
    rw [contents, if_pos (h r (by simp)), ih fun q hq => h q (by simp [hq])]
    rfl

theorem continuation_continue {cs : List Record} (h : ∀ r ∈ cs, r.type = continueType) :
    continuation cs = (cs.map Record.data).flatten := by
  induction cs with
  | nil => rfl
  | cons r cs ih =>
    rw [continuation, if_pos (h r (by simp)), ih fun q hq => h q (by simp [hq])]
    rfl

theorem contents_snoc {r : Record} (h : r.type ≠ continueType) (rs : List Record) :
    contents (rs ++ [r]) = contents rs ++ [own r] := by
  rw [contents_split h]
  simp [contents, continuation, own, h]

/-- A list with a record that is no `Continue` record has a last one. -/
theorem last_split {rs : List Record} (h : ∃ r ∈ rs, r.type ≠ continueType) :
    ∃ a q cs, rs = a ++ q :: cs ∧ q.type ≠ continueType ∧ ∀ r ∈ cs, r.type = continueType := by
  induction rs with
  | nil => simp at h
  | cons r rs ih =>
    by_cases h' : ∃ r ∈ rs, r.type ≠ continueType
    · obtain ⟨a, q, cs, rfl, h1, h2⟩ := ih h'
      exact ⟨r :: a, q, cs, rfl, h1, h2⟩
    · refine ⟨[], r, rs, rfl, ?_, fun q hq => ?_⟩
      · obtain ⟨q, hq, hn⟩ := h
        rcases List.mem_cons.1 hq with rfl | hq
        · exact hn
        · exact absurd ⟨q, hq, hn⟩ h'
      · exact Decidable.byContradiction fun hn => h' ⟨q, hq, hn⟩

theorem contents_snoc_continue {r q : Record} {a cs : List Record} (hr : r.type = continueType) (hq : q.type ≠ continueType)
    (hc : ∀ r ∈ cs, r.type = continueType) :
    contents (a ++ q :: cs) = contents a ++ (q.type, q.data.length, q.data ++ continuation cs) :: contents cs ∧
    contents ((a ++ q :: cs) ++ [r]) =
      contents a ++ (q.type, q.data.length, (q.data ++ continuation cs) ++ r.data) :: (contents cs ++ [own r]) := by
  have hc' : ∀ x ∈ cs ++ [r], x.type = continueType := by
    intro x hx
    rcases List.mem_append.1 hx with hx | hx
    · exact hc x hx
    · simp only [List.mem_singleton] at hx; rw [hx]; exact hr
  constructor
  · rw [contents_split hq, contents, if_neg hq]
  · rw [List.append_assoc, List.cons_append, contents_split hq, contents, if_neg hq, contents_continue hc',
      continuation_continue hc', contents_continue hc, continuation_continue hc]
    simp

/-! ## Positions -/

theorem findIdx?_append_cons {α : Type} {p : α → Bool} {a : List α} {x : α} (ha : ∀ y ∈ a, p y = false) (hx : p x = true) (b : List α) :
    (a ++ x :: b).findIdx? p = some a.length := by
  induction a with
  | nil => rw [List.nil_append, List.findIdx?_cons, if_pos hx]; rfl
  | cons y a ih =>
    rw [List.cons_append, List.findIdx?_cons, if_neg (by rw [ha y (by simp)]; decide), ih fun z hz => ha z (by simp [hz])]
    rfl

theorem lastIdx_split {p : Rec → Bool} {a b : List Rec} {x : Rec} (hx : p x = true) (hb : ∀ y ∈ b, p y = false) :
    lastIdx p (a ++ x :: b) = some a.length := by
  unfold lastIdx
  rw [List.reverse_append, List.reverse_cons, List.append_assoc, List.singleton_append,
    findIdx?_append_cons (fun y hy => hb y (List.mem_reverse.1 hy)) hx]
  simp

theorem modify_split {α : Type} (f : α → α) (a : List α) (x : α) (b : List α) :
    (a ++ x :: b).modify a.length f = a ++ f x :: b := by
  induction a with
  | nil => rfl
  | cons y a ih => rw [List.cons_append, List.length_cons, List.modify_succ_cons, ih]; rfl

/-- A record object's type, length and data. -/
def Rec.key (q : Rec) : Nat × Nat × Bytes := (q.type, q.length, q.data)

theorem append_key (q : Rec) (data : Bytes) : (q.append data).key = (q.type, q.length, q.data ++ data) := by
  unfold Rec.append
  split
  · rename_i h; rw [h, List.append_nil]; rfl
  · rfl

theorem make_key (r : Record) (v : View) : (Rec.make r.type r.data v).key = own r := rfl

/-- A `Continue` record extends the last other record. -/
theorem continue_master {master : List Rec} {rs : List Record} {r : Record} (h : master.map Rec.key = contents rs)
    (hr : r.type = continueType) (hrs : ∃ r ∈ rs, r.type ≠ continueType) :
    ∃ i, lastIdx (fun q => q.type != r.type) master = some i ∧
      (master.modify i (fun q => q.append r.data)).map Rec.key ++ [own r] = contents (rs ++ [r]) := by
  obtain ⟨a, q, cs, rfl, hq, hc⟩ := last_split hrs
  obtain ⟨c1, c2⟩ := contents_snoc_continue (a := a) hr hq hc
  rw [c1] at h
  obtain ⟨A, B, rfl, hA, hB⟩ := List.map_eq_append_iff.1 h
  obtain ⟨x, C, rfl, hx, hC⟩ := List.map_eq_cons_iff.1 hB
  have hxt : x.type = q.type := by unfold Rec.key at hx; exact congrArg (·.1) hx
  refine ⟨A.length, lastIdx_split ?_ ?_, ?_⟩
  · rw [hxt, hr]; simpa using hq
  · intro y hy
    rw [contents_continue hc] at hC
    have : y.key ∈ cs.map own := by rw [← hC]; exact List.mem_map_of_mem hy
    obtain ⟨z, hz, hzy⟩ := List.mem_map.1 this
    have : y.type = z.type := (congrArg (·.1) hzy).symm
    rw [this, hc z hz, hr]
    simp
  · rw [modify_split, c2, List.map_append, hA, List.map_cons, append_key, hC]
    unfold Rec.key at hx
    simp only [Prod.mk.injEq] at hx
    rw [hx.1, hx.2.1, hx.2.2]
    simp

end Fileid.Excel

namespace Fileid.Excel

open Common Spec Spec.Biff ExcelTables

/-! ## What one record does to the list -/

theorem addRecord_master {e e' : Eng} {q : Rec} (h : addRecord e q = .ok e') : e'.master = e.master ++ [q] := by
  unfold addRecord at h
  split at h
  · cases h
  · cases h; rfl
  · cases h; rfl

theorem effect_master {e e' : Eng} {max : Nat} {q : Rec} (h : effect e max q = .ok e') : e'.master = e.master := by
  unfold effect at h
  split at h
  · split at h
    · unfold globalBof at h
      split at h
      · cases h
      · obtain ⟨_, _, h⟩ := bind_ok_inv h
        cases h; rfl
    · cases h
      unfold subStreamBof
      dsimp only
      repeat' split
      all_goals rfl
  · split at h
    · unfold boundSheet at h
      split at h
      · obtain ⟨_, _, h⟩ := bind_ok_inv h
        cases h; rfl
      · split at h <;> (cases h; rfl)
    · split at h <;> (cases h; rfl)

theorem doRecord_inv {abi : Abi} {fmt : Fmt} {fuel max : Nat} {r : Record} {e e' : Eng}
    (h : doRecord abi fmt fuel max r e = .ok e') :
    (e' = { e with index := u32 (u32 (e.index + 4) + r.data.length) } ∧
      ParseRecord abi fmt fuel { e with index := u32 (e.index + 4) } r.type r.data = .ok none) ∨
    ∃ m v e1 e2, ParseRecord abi fmt fuel { e with index := u32 (e.index + 4) } r.type r.data =
        .ok (some (m, Rec.make r.type r.data v)) ∧
      effect { e with index := u32 (e.index + 4), master := m } max (Rec.make r.type r.data v) = .ok e1 ∧
      addRecord e1 (Rec.make r.type r.data v) = .ok e2 ∧ e' = { e2 with index := u32 (e2.index + r.data.length) } ∧
      e'.master = m ++ [Rec.make r.type r.data v] ∧
      (m = e.master ∨ r.type = continueType ∧ ∃ i, lastIdx (fun q => q.type != r.type) e.master = some i ∧
        m = e.master.modify i (fun q => q.append r.data)) := by
  unfold doRecord at h
  obtain ⟨x, hx, h⟩ := bind_ok_inv h
  split at h
  · cases h
    exact Or.inl ⟨rfl, hx⟩
  · rename_i m q
    obtain ⟨e1, h1, h'⟩ := bind_ok_inv h
    obtain ⟨e2, h2, h''⟩ := bind_ok_inv h'
    obtain ⟨⟨v, rfl⟩, hm⟩ := ParseRecord_made hx
    cases h''
    refine Or.inr ⟨m, v, e1, e2, hx, h1, h2, rfl, ?_, hm⟩
    show e2.master = _
    rw [addRecord_master h2, effect_master h1]

/-- A record object shows a record: its type, its length, and its data, possibly with continuations. -/
def Shows (q : Rec) (r : Record) : Prop := q.type = r.type ∧ q.length = r.data.length ∧ r.data <+: q.data

theorem pointwise_snoc {α β : Type} {R : α → β → Prop} {as : List α} {bs : List β} {a : α} {b : β} (h : Pointwise R as bs)
    (hab : R a b) : Pointwise R (as ++ [a]) (bs ++ [b]) := by
  induction h with
  | nil => exact .cons hab .nil
  | cons h _ ih => exact .cons h ih

theorem pointwise_modify {α β : Type} {R : α → β → Prop} {f : α → α} (hf : ∀ a b, R a b → R (f a) b) {as : List α} {bs : List β}
    (h : Pointwise R as bs) (i : Nat) : Pointwise R (as.modify i f) bs := by
  induction h generalizing i with
  | nil => cases i <;> exact .nil
  | cons h hs ih =>
    cases i with
    | zero => exact .cons (hf _ _ h) hs
    | succ i => exact .cons h (ih i)

theorem append_shows {q : Rec} {r : Record} (data : Bytes) (h : Shows q r) : Shows (q.append data) r := by
  unfold Rec.append
  split
  · exact h
  · exact ⟨h.1, h.2.1, h.2.2.trans (List.prefix_append _ _)⟩

theorem doRecords_shows {abi : Abi} {fmt : Fmt} {fuel max : Nat} (rs : List Record) : ∀ (e e' : Eng) (seen : List Record),
    Pointwise Shows e.master seen → doRecords abi fmt fuel max rs e = .ok e' →
    ∃ kept, kept.Sublist rs ∧ (rs.filter fun r => r.type ∉ interpreted).Sublist kept ∧
      Pointwise Shows e'.master (seen ++ kept) := by
  induction rs with
  | nil =>
    intro e e' seen hs h
    cases h
    exact ⟨[], .slnil, .slnil, by rw [List.append_nil]; exact hs⟩
  | cons r rs ih =>
    intro e e' seen hs h
    rw [doRecords] at h
    obtain ⟨e1, h1, h⟩ := bind_ok_inv h
    rcases doRecord_inv h1 with ⟨he, hp⟩ | ⟨m, v, _, _, hp, _, _, _, hm, hmm⟩
    · have hi : r.type ∈ interpreted := Decidable.byContradiction fun hn => by
        obtain ⟨v, hv⟩ := ParseRecord_plain abi fmt fuel { e with index := u32 (e.index + 4) } r.data hn
        rw [hp] at hv
        cases hv
      subst he
      obtain ⟨kept, k1, k2, k3⟩ := ih _ e' seen (show Pointwise Shows (Eng.master { e with index := u32 (u32 (e.index + 4) + r.data.length) }) seen from hs) h
      refine ⟨kept, k1.cons r, ?_, k3⟩
      rw [List.filter_cons_of_neg (by simpa using hi)]
      exact k2
    · have hm' : Pointwise Shows m seen := by
        rcases hmm with rfl | ⟨_, i, _, rfl⟩
        · exact hs
        · exact pointwise_modify (fun _ _ => append_shows _) hs i
      have hs1 : Pointwise Shows e1.master (seen ++ [r]) := by
        rw [hm]
        exact pointwise_snoc hm' ⟨rfl, rfl, List.prefix_refl _⟩
      obtain ⟨kept, k1, k2, k3⟩ := ih e1 e' (seen ++ [r]) hs1 h
      refine ⟨r :: kept, k1.cons_cons r, ?_, by rw [← List.append_cons] at k3; exact k3⟩
      rw [List.filter_cons]
      split
      · exact k2.cons_cons r
      · exact k2.cons r

/-! ## Workbooks without sheets -/

/-- The engine when no sheet has been declared: all records are in the global list. -/
structure Plainly (V : Nat) (done : List Record) (e : Eng) : Prop where
  master : e.master.map Rec.key = contents done
  global : e.global = List.range done.length
  sheets : e.sheets = []
  lookup : e.lookup = []
  current : e.current = none
  version : e.version = V
  Version : e.Version = some V
  first : ∃ r ∈ done, r.type ≠ continueType
  moved : 4 ≤ e.index

/-- The records that are listed whatever they contain: those not interpreted, those beginning a substream, and, in
BIFF8, continuations. -/
def Simple (V : Nat) (r : Record) : Prop :=
  r.type ∉ interpreted ∨ r.type = bofType ∨ r.type = continueType ∧ V = 1536

theorem parse_bof (abi : Abi) (fmt : Fmt) (fuel : Nat) (e : Eng) {type : Nat} (data : Bytes) (h : type = bofType) :
    ∃ v, ParseRecord abi fmt fuel e type data = .ok (some (e.master, Rec.make type data v)) := by
  subst h
  have hc : (Tables.lookup biff8Classes bofType).getD [] = b!"BOF" := by decide +kernel
  have hs : ∀ d, simpleView abi fuel b!"BOF" d = .ok .bof := fun _ => rfl
  have hp : parseBiff8 abi fmt fuel e bofType data = fresh e bofType data (.ok .bof) := by
    unfold parseBiff8
    dsimp only
    rw [hc, hs]
    rfl
  unfold ParseRecord parseVersioned
  rw [hp]
  repeat' split
  all_goals first
    | exact ⟨_, rfl⟩
    | (rename_i h1; cases h1)

theorem parse_continue (abi : Abi) (fmt : Fmt) (fuel : Nat) (e : Eng) {type : Nat} (data : Bytes) (h : type = continueType)
    (hv : e.version = 1536) {i : Nat} (hi : lastIdx (fun q => q.type != type) e.master = some i) :
    ParseRecord abi fmt fuel e type data =
      .ok (some (e.master.modify i (fun q => q.append data), Rec.make type data .plain)) := by
  have hne : e.master ≠ [] := fun hn => by rw [hn] at hi; cases hi
  have hc : (Tables.lookup biff8Classes type).getD [] = b!"Continue" := by rw [h]; decide +kernel
  unfold ParseRecord parseVersioned parseBiff8
  rw [if_pos hv, hc, if_neg (by decide), if_neg (by decide), if_neg (by decide), if_pos rfl]
  unfold freshContinue mkContinue Eng.prevNotOfType
  rw [if_neg hne, hi]
  rfl

theorem isBof_cases {t : Nat} (h : isBofType t = true) : t ∈ bofTypes := by
  unfold isBofType at h
  simp only [Bool.or_eq_true, beq_iff_eq] at h
  simp only [bofTypes, List.mem_cons, List.not_mem_nil, or_false]
  omega

theorem subStreamBof_plain {e : Eng} (h1 : e.lookup = []) (h2 : e.sheets = []) (h3 : e.current = none) :
    ∃ si, subStreamBof e = { e with sheetIndex := si } := by
  obtain ⟨index, version, Version, master, global, sheets, cap, lookup, current, sheetIndex⟩ := e
  simp only at h1 h2 h3
  subst h1 h2 h3
  unfold subStreamBof
  by_cases h : version = 1536
  · exact ⟨sheetIndex, by simp [h]⟩
  · by_cases h' : version = 1280
    · exact ⟨0, by simp [h']⟩
    · exact ⟨sheetIndex, by simp [h, h']⟩

theorem simple_step {abi : Abi} {fmt : Fmt} {fuel max V : Nat} {done : List Record} {e : Eng} {r : Record} (he : Plainly V done e)
    (hr : Simple V r) (hi : e.index + r.bytes.length < 2 ^ 32) :
    ∃ e', doRecord abi fmt fuel max r e = .ok e' ∧ Plainly V (done ++ [r]) e' ∧ e'.index = e.index + r.bytes.length := by
  rw [Record.bytes_length] at hi
  have hu4 : u32 (e.index + 4) = e.index + 4 := Nat.mod_eq_of_lt (by omega)
  have key : ∃ m v, ParseRecord abi fmt fuel { e with index := u32 (e.index + 4) } r.type r.data =
        .ok (some (m, Rec.make r.type r.data v)) ∧ (m.map Rec.key) ++ [own r] = contents (done ++ [r]) := by
    rcases hr with h | h | ⟨h, hv⟩
    · obtain ⟨v, hp⟩ := ParseRecord_plain abi fmt fuel { e with index := u32 (e.index + 4) } r.data h
      refine ⟨_, v, hp, ?_⟩
      rw [contents_snoc (fun hc => h (by rw [hc]; decide))]
      exact congrArg (· ++ [own r]) he.master
    · obtain ⟨v, hp⟩ := parse_bof abi fmt fuel { e with index := u32 (e.index + 4) } r.data h
      refine ⟨_, v, hp, ?_⟩
      rw [contents_snoc (by rw [h]; decide)]
      exact congrArg (· ++ [own r]) he.master
    · obtain ⟨i, hl, hm⟩ := continue_master he.master h he.first
      exact ⟨_, _, parse_continue abi fmt fuel { e with index := u32 (e.index + 4) } r.data h (he.version.trans hv) hl, hm⟩
  obtain ⟨m, v, hp, hm⟩ := key
  have hlen : m.length = done.length := by
    have := congrArg List.length hm
    simpa [contents_length] using this
  have h85 : r.type ≠ 0x85 := by
    rcases hr with h | h | ⟨h, _⟩
    · exact fun h' => h (by rw [h']; decide)
    · rw [h]; decide
    · rw [h]; decide
  have h2F : r.type ≠ 0x2F := by
    rcases hr with h | h | ⟨h, _⟩
    · exact fun h' => h (by rw [h']; decide)
    · rw [h]; decide
    · rw [h]; decide
  -- the effect leaves everything of importance alone
  have heff : ∃ si, effect { e with index := u32 (e.index + 4), master := m } max (Rec.make r.type r.data v) =
      .ok { e with index := u32 (e.index + 4), master := m, sheetIndex := si } := by
    unfold effect
    rw [show (Rec.make r.type r.data v).type = r.type from rfl]
    by_cases hb : isBofType r.type = true
    · rw [if_pos hb, if_neg (by have := he.moved; dsimp only; omega)]
      obtain ⟨si, hsi⟩ := subStreamBof_plain (e := { e with index := u32 (e.index + 4), master := m }) he.lookup he.sheets he.current
      exact ⟨si, by rw [hsi]⟩
    · rw [if_neg hb, if_neg h85, if_neg h2F]
      exact ⟨_, rfl⟩
  obtain ⟨si, heff⟩ := heff
  refine ⟨{ e with index := u32 (u32 (e.index + 4) + r.data.length), master := m ++ [Rec.make r.type r.data v], sheetIndex := si, global := e.global ++ [m.length] }, ?_, ?_, ?_⟩
  · unfold doRecord
    rw [hp, Res.bind_ok]
    dsimp only
    rw [heff, Res.bind_ok]
    unfold addRecord
    dsimp only
    rw [he.current]
    rfl
  · refine ⟨?_, ?_, he.sheets, he.lookup, he.current, he.version, he.Version, ?_, ?_⟩
    · show (m ++ [_]).map Rec.key = _
      rw [List.map_append, ← hm]
      rfl
    · show e.global ++ [m.length] = _
      rw [he.global, hlen, List.length_append, List.length_singleton, List.range_succ]
    · obtain ⟨q, hq, hn⟩ := he.first
      exact ⟨q, List.mem_append_left _ hq, hn⟩
    · show 4 ≤ u32 (u32 (e.index + 4) + r.data.length)
      rw [hu4]; unfold u32; omega
  · rw [Record.bytes_length]
    show u32 (u32 (e.index + 4) + r.data.length) = _
    rw [hu4]; unfold u32; omega

theorem simple_steps {abi : Abi} {fmt : Fmt} {fuel max V : Nat} (rs : List Record) : ∀ (done : List Record) (e : Eng),
    Plainly V done e → (∀ r ∈ rs, Simple V r) → e.index + (stream rs).length < 2 ^ 32 →
    ∃ e', doRecords abi fmt fuel max rs e = .ok e' ∧ Plainly V (done ++ rs) e' ∧ e'.index = e.index + (stream rs).length := by
  induction rs with
  | nil => intro done e he _ _; exact ⟨e, rfl, by rw [List.append_nil]; exact he, rfl⟩
  | cons r rs ih =>
    intro done e he hs hi
    rw [stream_cons, List.length_append] at hi ⊢
    obtain ⟨e1, h1, hp1, hi1⟩ := simple_step (abi := abi) (fmt := fmt) (fuel := fuel) (max := max) he (hs r (by simp)) (by omega)
    obtain ⟨e2, h2, hp2, hi2⟩ := ih (done ++ [r]) e1 hp1 (fun q hq => hs q (by simp [hq])) (by rw [hi1]; omega)
    refine ⟨e2, by rw [doRecords, h1, Res.bind_ok, h2], ?_, by rw [hi2, hi1]; omega⟩
    rw [List.append_assoc, List.singleton_append] at hp2
    exact hp2

/-- The first record of a workbook. -/
theorem first_step {abi : Abi} {fmt : Fmt} {fuel max : Nat} {b : Record} (hb : b.type ∈ bofTypes)
    (hd : 2 ≤ b.data.length) (hi : b.data.length < 2 ^ 16) :
    ∃ e', doRecord abi fmt fuel max b {} = .ok e' ∧ Plainly (bofVersion b.data) [b] e' ∧ e'.index = b.bytes.length := by
  rw [Record.bytes_length]
  have hbof : isBofType b.type = true := by
    simp only [bofTypes, List.mem_cons, List.not_mem_nil, or_false] at hb
    rcases hb with h | h | h | h <;> rw [h] <;> rfl
  have hp : ParseRecord abi fmt fuel { ({} : Eng) with index := u32 (0 + 4) } b.type b.data =
      .ok (some ([], Rec.make b.type b.data .bof)) := by
    unfold ParseRecord parseVersioned
    rw [if_neg (by decide), if_neg (by decide), if_neg (by decide), if_neg (by decide), if_neg (by decide), if_pos hbof]
    rfl
  have hr : rdRange b.data 0 2 = .ok (b.data.take 2) := by unfold rdRange; rw [if_pos (by omega)]; rfl
  have hne : b.data ≠ [] := fun h => by rw [h] at hd; simp at hd
  have hver : leVal (b.data.take 2) = bofVersion b.data := by rw [leVal_eq]; rfl
  refine ⟨{ ({} : Eng) with
      index := u32 (u32 (0 + 4) + b.data.length), master := [Rec.make b.type b.data .bof], global := [0]
      version := bofVersion b.data, Version := some (bofVersion b.data) }, ?_, ?_, ?_⟩
  · unfold doRecord
    rw [hp, Res.bind_ok]
    dsimp only
    unfold effect globalBof
    rw [show (Rec.make b.type b.data .bof).type = b.type from rfl, if_pos hbof, if_pos (by decide),
      show (Rec.make b.type b.data .bof).data = b.data from rfl, if_neg hne, hr]
    simp only [Res.bind_ok, addRecord, hver]
    rfl
  · refine ⟨?_, rfl, rfl, rfl, rfl, rfl, rfl, ⟨b, by simp, ?_⟩, ?_⟩
    · simp only [List.map_cons, List.map_nil, contents, continuation, List.append_nil, ite_self]
      rfl
    · intro h
      rw [h] at hbof
      cases hbof
    · show 4 ≤ u32 (u32 (0 + 4) + b.data.length)
      unfold u32; omega
  · show u32 (u32 (0 + 4) + b.data.length) = _
    unfold u32; omega

end Fileid.Excel

namespace Fileid.Excel

open Common Spec Spec.Biff ExcelTables

/-- The body of the loop at a record with data right before the end of the stream. -/
theorem stepEngine_last {abi : Abi} {fmt : Fmt} {fuel : Nat} {buffer : Bytes} {e e1 : Eng} {r : Record} (hv : r.Valid)
    (h : At buffer e.index r.bytes) (hb : buffer.length < 2 ^ 32) (hm : e.index + r.bytes.length = buffer.length)
    (hr : r.type ≠ filePassType) (h1 : doRecord abi fmt fuel buffer.length ⟨r.type, []⟩ e = .ok e1) :
    stepEngine abi fmt fuel buffer e = .ok { e1 with index := buffer.length } := by
  rw [Record.bytes_length] at hm
  unfold Record.bytes at h
  rw [List.append_assoc] at h
  obtain ⟨h2, h3⟩ := at_append h
  obtain ⟨h3, h4⟩ := at_append h3
  rw [leBytes_length] at h3
  have e2 : u32 (e.index + 2) = e.index + 2 := Nat.mod_eq_of_lt (by omega)
  have e4 : u32 (e.index + 4) = e.index + 4 := Nat.mod_eq_of_lt (by omega)
  have hmax : u32 (u32 (e.index + 4) + r.data.length) = buffer.length := by rw [e4]; unfold u32; omega
  unfold stepEngine
  rw [Asf.ushort_at h2 hv.1 hb, Res.bind_ok, e2, Asf.ushort_at h3 hv.2 hb, Res.bind_ok]
  unfold stepRecord
  have hd : recordData buffer (u32 (e.index + 4)) r.data.length = [] := by
    unfold recordData
    rw [hmax, if_neg (by omega)]
  dsimp only
  rw [hd]
  rcases doRecord_inv h1 with ⟨rfl, hp⟩ | ⟨m, v, ea, eb, hp, h5, h6, rfl, _, _⟩
  · rw [hp, Res.bind_ok]
    dsimp only
    rw [hmax]
  · rw [hp, Res.bind_ok]
    dsimp only
    rw [h5, Res.bind_ok, h6, Res.bind_ok]
    have hi : eb.index = u32 (e.index + 4) := by rw [addRecord_index h6, effect_index hr h5]
    rw [hi, hmax]

end Fileid.Excel
