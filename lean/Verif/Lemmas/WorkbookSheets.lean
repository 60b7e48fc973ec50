import Verif.Lemmas.WorkbookList

/-!
# Which sheet the records of a workbook go to
-/

namespace Fileid.Excel

open Common Spec Spec.Biff ExcelTables

/-- The records at the given positions are, in order, records of the list with their type, length and data; those with
the property are not missing. -/
def Lists (P : Record → Prop) (master : List Rec) (ids : List Nat) (rs : List Record) : Prop :=
  ∃ kept, kept.Sublist rs ∧ (∀ sub : List Record, sub.Sublist rs → (∀ r ∈ sub, P r) → sub.Sublist kept) ∧
    Pointwise (fun i r => ∃ q, master[i]? = some q ∧ Shows q r) ids kept

theorem lists_nil (P : Record → Prop) (m : List Rec) : Lists P m [] [] := ⟨[], .slnil, fun _ h _ => h, .nil⟩

/-- Records with the property are not lost in BIFF8, behind a record that is no `Continue` record. -/
def Sure (abi : Abi) (fmt : Fmt) (fuel : Nat) (P : Record → Prop) : Prop :=
  ∀ (e : Eng) (r : Record), e.version = 1536 → (∃ q ∈ e.master, q.type ≠ continueType) → P r →
    ParseRecord abi fmt fuel e r.type r.data ≠ .ok none

variable {P : Record → Prop}

theorem pointwise_mono {α β : Type} {R S : α → β → Prop} (h : ∀ a b, R a b → S a b) {as : List α} {bs : List β}
    (hp : Pointwise R as bs) : Pointwise S as bs := by
  induction hp with
  | nil => exact .nil
  | cons h1 _ ih => exact .cons (h _ _ h1) ih

/-- The list of records has only been added to. -/
def Grown (m m' : List Rec) : Prop := ∀ (i : Nat) (r : Record) (q : Rec), m[i]? = some q → Shows q r → ∃ q', m'[i]? = some q' ∧ Shows q' r

theorem Lists.mono {m m' : List Rec} {ids : List Nat} {rs : List Record} (hg : Grown m m') (h : Lists P m ids rs) : Lists P m' ids rs := by
  obtain ⟨k, h1, h2, h3⟩ := h
  exact ⟨k, h1, h2, pointwise_mono (fun i r ⟨q, hq, hs⟩ => hg i r q hq hs) h3⟩

theorem Lists.keep {m : List Rec} {ids : List Nat} {rs : List Record} {r : Record} {i : Nat} {q : Rec} (h : Lists P m ids rs)
    (hi : m[i]? = some q) (hq : Shows q r) : Lists P m (ids ++ [i]) (rs ++ [r]) := by
  obtain ⟨k, h1, h2, h3⟩ := h
  refine ⟨k ++ [r], h1.append (List.Sublist.refl _), ?_, pointwise_snoc h3 ⟨q, hi, hq⟩⟩
  intro sub hs hp
  obtain ⟨a, b, rfl, ha, hb⟩ := List.sublist_append_iff.1 hs
  exact (h2 a ha fun x hx => hp x (List.mem_append_left _ hx)).append hb

theorem Lists.drop {m : List Rec} {ids : List Nat} {rs : List Record} {r : Record} (h : Lists P m ids rs) (hr : ¬ P r) :
    Lists P m ids (rs ++ [r]) := by
  obtain ⟨k, h1, h2, h3⟩ := h
  refine ⟨k, h1.trans (List.sublist_append_left _ _), ?_, h3⟩
  intro sub hs hp
  obtain ⟨a, b, rfl, ha, hb⟩ := List.sublist_append_iff.1 hs
  have hb' : b = [] := by
    cases b with
    | nil => rfl
    | cons x b =>
      have : x = r := List.mem_singleton.1 (hb.subset (by simp))
      exact absurd (this ▸ hp x (by simp)) hr
  subst hb'
  rw [List.append_nil]
  exact h2 a ha fun x hx => hp x (List.mem_append_left _ hx)

theorem grown_made {e : Eng} {m : List Rec} {r : Record} {q : Rec}
    (hm : m = e.master ∨ r.type = continueType ∧ ∃ i, lastIdx (fun q => q.type != r.type) e.master = some i ∧
        m = e.master.modify i (fun q => q.append r.data)) : Grown e.master (m ++ [q]) := by
  intro i r' q' hi hs
  have hlt : i < e.master.length := (List.getElem?_eq_some_iff.1 hi).1
  rcases hm with rfl | ⟨_, j, _, rfl⟩
  · exact ⟨q', by rw [List.getElem?_append_left hlt, hi], hs⟩
  · rw [List.getElem?_append_left (by rw [List.length_modify]; exact hlt), List.getElem?_modify, hi]
    split
    · exact ⟨_, rfl, append_shows _ hs⟩
    · exact ⟨_, rfl, hs⟩

/-- There still is a record that is no `Continue` record. -/
theorem first_made {e : Eng} {m : List Rec} {r : Record} {q : Rec} (h : ∃ q ∈ e.master, q.type ≠ continueType)
    (hm : m = e.master ∨ r.type = continueType ∧ ∃ i, lastIdx (fun q => q.type != r.type) e.master = some i ∧
        m = e.master.modify i (fun q => q.append r.data)) : ∃ x ∈ m ++ [q], x.type ≠ continueType := by
  obtain ⟨x, hx, ht⟩ := h
  rcases hm with rfl | ⟨_, j, _, rfl⟩
  · exact ⟨x, List.mem_append_left _ hx, ht⟩
  · obtain ⟨i, hi⟩ := List.mem_iff_getElem?.1 hx
    have hg : (e.master.modify j (fun q => q.append r.data))[i]? = some (if j = i then x.append r.data else x) := by
      rw [List.getElem?_modify, hi]
      split <;> rfl
    refine ⟨_, List.mem_append_left _ (List.mem_of_getElem? hg), ?_⟩
    split
    · have : (x.append r.data).type = x.type := congrArg (·.1) (append_key x r.data)
      rw [this]
      exact ht
    · exact ht

/-- What a sheet shows of its declaration. -/
def Sheet.head (s : Sheet) : Bytes × Nat × Nat × Nat := (s.Name, s.kind, s.Visiblity, s.Offset)

def declHead (d : SheetDecl) : Bytes × Nat × Nat × Nat := (d.name.text, d.kind.toNat, d.state.toNat % 4, d.offset)

/-! ## Globals -/

/-- The engine while the workbook's description is read. -/
structure InGlobals (P : Record → Prop) (G : List Record) (ds : List SheetDecl) (e : Eng) : Prop where
  version : e.version = 1536
  Version : e.Version = some 1536
  sheets : e.sheets = ds.map fun d => { Name := d.name.text, kind := d.kind.toNat, Visiblity := d.state.toNat % 4, Offset := d.offset }
  lookup : e.lookup = (ds.zipIdx.map fun p => (p.1.offset, p.2)).reverse
  current : e.current = none
  glob : Lists P e.master e.global G
  first : ∃ q ∈ e.master, q.type ≠ continueType
  index : 4 ≤ e.index

theorem globals_other {P : Record → Prop} {abi : Abi} {fmt : Fmt} {fuel max : Nat} (hP : Sure abi fmt fuel P) {G : List Record} {ds : List SheetDecl} {e e' : Eng} {r : Record}
    (he : InGlobals P G ds e) (hb : r.type ∉ bofTypes) (hs : r.type ≠ boundSheetType) (hf : r.type ≠ filePassType)
    (hi : e.index + r.bytes.length < 2 ^ 32) (h : doRecord abi fmt fuel max r e = .ok e') : InGlobals P (G ++ [r]) ds e' := by
  have hidx := doRecord_index hf hi h
  have h4 : 4 ≤ e'.index := by rw [hidx]; have := he.index; omega
  rcases doRecord_inv h with ⟨rfl, hp⟩ | ⟨m, v, e1, e2, hp, h1, h2, rfl, hm, hmm⟩
  · have hin : ¬ P r := fun hr => hP { e with index := u32 (e.index + 4) } r he.version he.first hr hp
    exact ⟨he.version, he.Version, he.sheets, he.lookup, he.current, he.glob.drop hin, he.first, h4⟩
  · have hnb : ¬ isBofType r.type = true := fun h => hb (isBof_cases h)
    unfold effect at h1
    rw [show (Rec.make r.type r.data v).type = r.type from rfl, if_neg hnb, if_neg (show ¬ r.type = 0x85 from hs),
      if_neg (show ¬ r.type = 0x2F from hf)] at h1
    cases h1
    unfold addRecord at h2
    dsimp only at h2
    rw [he.current] at h2
    cases h2
    refine ⟨he.version, he.Version, he.sheets, he.lookup, rfl, ?_, first_made he.first hmm, h4⟩
    have hg : Grown e.master (m ++ [Rec.make r.type r.data v]) := grown_made hmm
    exact (he.glob.mono hg).keep (q := Rec.make r.type r.data v) (by simp) ⟨rfl, rfl, List.prefix_refl _⟩

theorem decl_data (d : SheetDecl) : d.record.data =
    leBytes 4 d.offset ++ [d.state, d.kind, UInt8.ofNat d.name.count, d.name.flags] ++ d.name.stored := rfl

/-- The model's encoding of a character is Lean's. -/
theorem utf8_char (c : Char) : utf8 c.toNat = String.utf8EncodeChar c := by
  have hc : c.toNat < 0x110000 := by
    have := c.valid
    rcases this with h | h
    · exact Nat.lt_trans h (by decide)
    · exact h.2
  unfold utf8 String.utf8EncodeChar
  have hv : c.val.toNat = c.toNat := rfl
  simp only [hv]
  generalize c.toNat = v at *
  split
  · rw [if_pos (by omega)]
  split
  · rw [if_neg (by omega), if_pos (by omega), Nat.add_comm 0xC0, Nat.add_comm 0x80, Nat.mod_eq_of_lt (a := v / 64) (b := 32) (by omega)]
  split
  · rw [if_neg (by omega), if_neg (by omega), if_pos (by omega), Nat.add_comm 0xE0, Nat.add_comm 0x80, Nat.add_comm 0x80,
      Nat.mod_eq_of_lt (a := v / 4096) (b := 16) (by omega)]
  · rw [if_neg (by omega), if_neg (by omega), if_neg (by omega), Nat.add_comm 0xF0, Nat.add_comm 0x80, Nat.add_comm 0x80,
      Nat.add_comm 0x80, Nat.mod_eq_of_lt (a := v / 262144) (b := 8) (by omega)]

theorem units_chars (cs : List Char) (h : ∀ c ∈ cs, c.toNat < 2 ^ 16) :
    units 2 cs.length (cs.flatMap fun c => leBytes 2 c.toNat) = cs.map Char.toNat := by
  induction cs with
  | nil => rfl
  | cons c cs ih =>
    rw [List.flatMap_cons, List.length_cons, units]
    have h2 := leBytes_length 2 c.toNat
    rw [List.take_left' h2, List.drop_left' h2, leVal_leBytes, ih fun x hx => h x (List.mem_cons_of_mem _ hx),
      Nat.mod_eq_of_lt (h c List.mem_cons_self)]
    rfl

theorem convert_chars (abi : Abi) (hw : abi.wcharBytes = 2) (cs : List Char) :
    convert abi (cs.map Char.toNat) = .ok (cs.flatMap String.utf8EncodeChar) := by
  induction cs with
  | nil => rfl
  | cons c cs ih =>
    have hc : ¬ c.toNat > 0x10FFFF := by
      rcases c.valid with h | h
      · have : c.toNat < 0xd800 := h
        omega
      · have : c.toNat < 0x110000 := h.2
        omega
    rw [List.map_cons, convert, if_neg hc, if_neg (by omega), ih, Res.bind_ok, utf8_char]
    rfl

theorem chars_length (cs : List Char) : (cs.flatMap fun c => leBytes 2 c.toNat).length = 2 * cs.length := by
  induction cs with
  | nil => rfl
  | cons c cs ih => rw [List.flatMap_cons, List.length_append, ih, leBytes_length, List.length_cons]; omega

theorem mkBoundSheet_decl (abi : Abi) {d : SheetDecl} (hd : d.Valid) (hw : d.Narrow ∨ abi.wcharBytes = 2) :
    mkBoundSheet8 abi d.record.data = .ok (.boundSheet8 d.name.text) := by
  obtain ⟨a, b, c, x, h4⟩ := length_four (leBytes_length 4 d.offset)
  have hdata : d.record.data =
      a :: b :: c :: x :: d.state :: d.kind :: UInt8.ofNat d.name.count :: d.name.flags :: d.name.stored := by
    rw [decl_data, h4]; rfl
  have hn : (UInt8.ofNat d.name.count).toNat = d.name.count := by
    rw [UInt8.toNat_ofNat']
    exact Nat.mod_eq_of_lt (by have := hd.2.1; omega)
  have r1 : rd d.record.data 6 = .ok (UInt8.ofNat d.name.count) := by rw [hdata]; rfl
  have r2 : rd d.record.data (u32 (6 + 1)) = .ok d.name.flags := by rw [hdata]; rfl
  have r3 : rdRange d.record.data (u32 (6 + 2)) d.name.stored.length = .ok d.name.stored := by
    unfold rdRange
    rw [show u32 (6 + 2) = 8 from rfl, hdata, if_pos (by simp only [List.length_cons]; omega)]
    simp
  unfold mkBoundSheet8 ShortXLUnicodeString
  rw [r1, Res.bind_ok, r2, Res.bind_ok, hn]
  cases hname : d.name with
  | narrow bs =>
    have hx : ExtractBits 0 1 1 = .ok 0 := by decide
    rw [hname] at r3
    simp only [SheetName.flags, SheetName.count, SheetName.stored] at r3 ⊢
    rw [hx, Res.bind_ok, if_pos rfl, r3]
    rfl
  | wide cs =>
    have hx : ExtractBits 1 1 1 = .ok 1 := by decide
    have hwin : abi.wcharBytes = 2 := by
      rcases hw with ⟨bs, hb⟩ | hw
      · rw [hname] at hb; cases hb
      · exact hw
    rw [hname] at r3
    simp only [SheetName.flags, SheetName.count, SheetName.stored] at r3 ⊢
    rw [chars_length, Nat.mul_comm] at r3
    unfold wideString
    rw [hx, Res.bind_ok, if_neg (by decide), hwin, r3, Res.bind_ok, units_chars cs (hd.2.2 cs hname), convert_chars abi hwin]
    rfl

theorem parse_decl (abi : Abi) (fmt : Fmt) (fuel : Nat) (e : Eng) {d : SheetDecl} (hd : d.Valid)
    (hw : d.Narrow ∨ abi.wcharBytes = 2) (hv : e.version = 1536) :
    ParseRecord abi fmt fuel e d.record.type d.record.data =
      .ok (some (e.master, Rec.make d.record.type d.record.data (.boundSheet8 d.name.text))) := by
  have hc : (Tables.lookup biff8Classes d.record.type).getD [] = b!"BoundSheet8" := by
    show (Tables.lookup biff8Classes boundSheetType).getD [] = _
    decide +kernel
  have hs : ∀ data, simpleView abi fuel b!"BoundSheet8" data = mkBoundSheet8 abi data := fun _ => rfl
  unfold ParseRecord parseVersioned parseBiff8
  rw [if_pos hv, hc, if_neg (by decide), if_neg (by decide), if_neg (by decide), if_neg (by decide), hs,
    mkBoundSheet_decl abi hd hw]
  rfl

theorem globals_sheet {P : Record → Prop} {abi : Abi} {fmt : Fmt} {fuel max : Nat} {G : List Record} {ds : List SheetDecl} {e e' : Eng} {d : SheetDecl}
    (he : InGlobals P G ds e) (hd : d.Valid) (hw : d.Narrow ∨ abi.wcharBytes = 2) (hi : e.index + d.record.bytes.length < 2 ^ 32)
    (h : doRecord abi fmt fuel max d.record e = .ok e') : InGlobals P (G ++ [d.record]) (ds ++ [d]) e' := by
  have hidx := doRecord_index (r := d.record) (by show boundSheetType ≠ _; decide) hi h
  have h4 : 4 ≤ e'.index := by rw [hidx]; have := he.index; omega
  obtain ⟨a, b, c, x, hl4⟩ := length_four (leBytes_length 4 d.offset)
  have hdata : d.record.data =
      a :: b :: c :: x :: d.state :: d.kind :: UInt8.ofNat d.name.count :: d.name.flags :: d.name.stored := by
    rw [decl_data, hl4]; rfl
  unfold doRecord at h
  rw [parse_decl abi fmt fuel { e with index := u32 (e.index + 4) } hd hw he.version, Res.bind_ok] at h
  dsimp only at h
  obtain ⟨e1, h1, h'⟩ := bind_ok_inv h
  obtain ⟨e2, h2, h''⟩ := bind_ok_inv h'
  clear h h'
  unfold effect boundSheet at h1
  rw [show (Rec.make d.record.type d.record.data (.boundSheet8 d.name.text)).type = 0x85 from rfl, if_neg (by decide), if_pos rfl,
    if_pos he.version] at h1
  have hr : rdRange d.record.data 0 6 = .ok [a, b, c, x, d.state, d.kind] := by rw [hdata]; rfl
  rw [show (Rec.make d.record.type d.record.data (.boundSheet8 d.name.text)).data = d.record.data from rfl, hr, Res.bind_ok] at h1
  have hoff : leVal ([a, b, c, x, d.state, d.kind].take 4) = d.offset := by
    show leVal [a, b, c, x] = _
    rw [← hl4, leVal_leBytes, Nat.mod_eq_of_lt hd.1]
  rw [hoff] at h1
  cases h1
  unfold addRecord at h2
  dsimp only [pushSheet] at h2
  rw [he.current] at h2
  have hcur : (if e.sheets.length < e.cap then (none : Option (Nat × Bool)) else
      (none : Option (Nat × Bool)).map (fun c => (c.1, true))) = none := by
    split <;> rfl
  rw [hcur] at h2
  dsimp only at h2
  cases h2
  cases h''
  refine ⟨he.version, he.Version, ?_, ?_, rfl, ?_, first_made (r := d.record) he.first (Or.inl rfl), h4⟩
  · show e.sheets ++ [_] = _
    rw [he.sheets, List.map_append, List.map_cons, List.map_nil]
    simp only [List.getD_cons_succ, List.getD_cons_zero, bits, Nat.pow_zero, Nat.div_one]
    rfl
  · show (d.offset, e.sheets.length) :: e.lookup = _
    rw [he.lookup, he.sheets, List.zipIdx_append, List.map_append, List.reverse_append]
    simp
  · have hg : Grown e.master (e.master ++ [Rec.make d.record.type d.record.data (.boundSheet8 d.name.text)]) :=
      grown_made (r := d.record) (Or.inl rfl)
    exact (he.glob.mono hg).keep (q := Rec.make d.record.type d.record.data (.boundSheet8 d.name.text)) (by simp)
      ⟨rfl, rfl, List.prefix_refl _⟩

theorem declared_append (a b : List GlobalRec) : declared (a ++ b) = declared a ++ declared b := by
  induction a with
  | nil => rfl
  | cons g a ih => cases g <;> simp [declared, ih]

theorem globals_run {P : Record → Prop} {abi : Abi} {fmt : Fmt} {fuel max : Nat} (hP : Sure abi fmt fuel P) (gs : List GlobalRec) : ∀ (G : List Record) (ds : List SheetDecl) (e e' : Eng),
    InGlobals P G ds e → (∀ d, GlobalRec.sheet d ∈ gs → d.Valid ∧ (d.Narrow ∨ abi.wcharBytes = 2)) →
    (∀ r, GlobalRec.other r ∈ gs → r.type ∉ bofTypes ∧ r.type ≠ boundSheetType ∧ r.type ≠ filePassType) →
    e.index + (stream (gs.map GlobalRec.record)).length < 2 ^ 32 →
    doRecords abi fmt fuel max (gs.map GlobalRec.record) e = .ok e' →
    InGlobals P (G ++ gs.map GlobalRec.record) (ds ++ declared gs) e' ∧
      e'.index = e.index + (stream (gs.map GlobalRec.record)).length := by
  induction gs with
  | nil =>
    intro G ds e e' he _ _ _ h
    cases h
    exact ⟨by simpa [declared] using he, rfl⟩
  | cons g gs ih =>
    intro G ds e e' he hd ho hi h
    rw [List.map_cons, stream_cons, List.length_append] at hi ⊢
    rw [List.map_cons, doRecords] at h
    obtain ⟨e1, h1, h'⟩ := bind_ok_inv h
    cases g with
    | sheet d =>
      have hx := doRecord_index (r := d.record) (by show boundSheetType ≠ _; decide) (by dsimp only [GlobalRec.record] at hi; omega) h1
      have p1 := globals_sheet he (hd d (by simp)).1 (hd d (by simp)).2 (by dsimp only [GlobalRec.record] at hi; omega) h1
      obtain ⟨p2, i2⟩ := ih _ _ e1 e' p1 (fun d' hd' => hd d' (by simp [hd'])) (fun r hr => ho r (by simp [hr]))
        (by rw [hx]; dsimp only [GlobalRec.record] at hi; omega) h'
      refine ⟨?_, by rw [i2, hx]; dsimp only [GlobalRec.record]; omega⟩
      simpa [declared, GlobalRec.record] using p2
    | other r =>
      obtain ⟨o1, o2, o3⟩ := ho r (by simp)
      have hx := doRecord_index (r := r) o3 (by dsimp only [GlobalRec.record] at hi; omega) h1
      have p1 := globals_other hP he o1 o2 o3 (by dsimp only [GlobalRec.record] at hi; omega) h1
      obtain ⟨p2, i2⟩ := ih _ _ e1 e' p1 (fun d' hd' => hd d' (by simp [hd'])) (fun r hr => ho r (by simp [hr]))
        (by rw [hx]; dsimp only [GlobalRec.record] at hi; omega) h'
      refine ⟨?_, by rw [i2, hx]; dsimp only [GlobalRec.record]; omega⟩
      simpa [declared, GlobalRec.record] using p2

end Fileid.Excel

namespace Fileid.Excel

open Common Spec Spec.Biff ExcelTables

/-! ## Sheets -/

theorem lookup_iff_mem {β : Type} {l : List (Nat × β)} (h : (l.map Prod.fst).Nodup) (k : Nat) (v : β) :
    l.lookup k = some v ↔ (k, v) ∈ l := by
  induction l with
  | nil => simp
  | cons x l ih =>
    obtain ⟨a, b⟩ := x
    rw [List.map_cons, List.nodup_cons] at h
    rw [List.lookup_cons, List.mem_cons]
    by_cases hk : k = a
    · subst hk
      simp only [BEq.rfl, Option.some.injEq, Prod.mk.injEq, true_and]
      constructor
      · intro e; exact Or.inl e.symm
      · rintro (e | e)
        · exact e.symm
        · exact absurd (List.mem_map_of_mem (f := Prod.fst) e) h.1
    · rw [show (k == a) = false by simpa using hk]
      simp only [Prod.mk.injEq, hk, false_and, false_or]
      exact ih h.2

/-- The sheets' offsets as the engine keeps them. -/
def lookupOf (ds : List SheetDecl) : List (Nat × Nat) := (ds.zipIdx.map fun p => (p.1.offset, p.2)).reverse

theorem lookupOf_iff {ds : List SheetDecl} (h : (ds.map SheetDecl.offset).Nodup) (p i : Nat) :
    (lookupOf ds).lookup p = some i ↔ ∃ d, ds[i]? = some d ∧ d.offset = p := by
  have hk : ((lookupOf ds).map Prod.fst).Nodup := by
    unfold lookupOf
    rw [List.map_reverse, List.map_map]
    have : (Prod.fst ∘ fun p : SheetDecl × Nat => (p.1.offset, p.2)) = SheetDecl.offset ∘ Prod.fst := rfl
    rw [this, ← List.map_map, List.zipIdx_map_fst]
    exact List.pairwise_reverse.2 (h.imp fun hab => hab.symm)
  rw [lookup_iff_mem hk]
  unfold lookupOf
  rw [List.mem_reverse, List.mem_map]
  constructor
  · rintro ⟨⟨d, j⟩, hm, he⟩
    simp only [Prod.mk.injEq] at he
    rw [List.mem_zipIdx_iff_getElem?] at hm
    exact ⟨d, by rw [← he.2]; exact hm, he.1⟩
  · rintro ⟨d, hm, he⟩
    exact ⟨(d, i), by rw [List.mem_zipIdx_iff_getElem?]; exact hm, by rw [he]⟩

/-- The engine while the substreams of the sheets are read: `C i` has been read of sheet `i`. -/
structure InSheets (P : Record → Prop) (G : List Record) (ds : List SheetDecl) (C : Nat → List Record) (cur : Option Nat) (e : Eng) : Prop where
  version : e.version = 1536
  Version : e.Version = some 1536
  heads : e.sheets.map Sheet.head = ds.map declHead
  lookup : e.lookup = lookupOf ds
  current : e.current = cur.map fun i => (i, false)
  glob : Lists P e.master e.global G
  first : ∃ q ∈ e.master, q.type ≠ continueType
  kids : ∀ (i : Nat) s, e.sheets[i]? = some s → Lists P e.master s.children (C i)
  index : 4 ≤ e.index

theorem InGlobals.inSheets {P : Record → Prop} {G : List Record} {ds : List SheetDecl} {e : Eng} (h : InGlobals P G ds e) :
    InSheets P G ds (fun _ => []) none e := by
  refine ⟨h.version, h.Version, ?_, h.lookup, h.current, h.glob, h.first, ?_, h.index⟩
  · rw [h.sheets, List.map_map]; rfl
  · intro i s hs
    rw [h.sheets, List.getElem?_map] at hs
    obtain ⟨d, _, rfl⟩ := Option.map_eq_some_iff.1 hs
    exact lists_nil _ _

/-- A record added to what has been read of a sheet. -/
def added (C : Nat → List Record) (i : Nat) (rs : List Record) : Nat → List Record := fun j => if j = i then C j ++ rs else C j

theorem added_added (C : Nat → List Record) (i : Nat) (a b : List Record) : added (added C i a) i b = added C i (a ++ b) := by
  funext j
  unfold added
  split
  · rw [List.append_assoc]
  · rfl

theorem added_nil (C : Nat → List Record) (i : Nat) : added C i [] = C := by
  funext j
  unfold added
  split
  · rw [List.append_nil]
  · rfl

theorem bof_parsed {abi : Abi} {fmt : Fmt} {fuel : Nat} {e : Eng} {type : Nat} {data : Bytes} (h : isBofType type = true) :
    ParseRecord abi fmt fuel e type data ≠ .ok none := by
  intro hp
  by_cases hb : type = bofType
  · obtain ⟨v, hv⟩ := parse_bof abi fmt fuel e data hb
    rw [hp] at hv
    cases hv
  · have hn : type ∉ interpreted := by
      have := isBof_cases h
      simp only [bofTypes, List.mem_cons, List.not_mem_nil, or_false] at this
      rcases this with h | h | h | h
      · rw [h]; decide
      · rw [h]; decide
      · rw [h]; decide
      · exact absurd h hb
    obtain ⟨v, hv⟩ := ParseRecord_plain abi fmt fuel e data hn
    rw [hp] at hv
    cases hv

theorem sheet_record {P : Record → Prop} {abi : Abi} {fmt : Fmt} {fuel max : Nat} (hP : Sure abi fmt fuel P) {G : List Record} {ds : List SheetDecl} {C : Nat → List Record}
    {cur : Option Nat} {e e' : Eng} {r : Record} {i : Nat} (he : InSheets P G ds C cur e) (hs : r.type ≠ boundSheetType)
    (hf : r.type ≠ filePassType) (hi : e.index + r.bytes.length < 2 ^ 32)
    (hc : isBofType r.type = true ∧ (lookupOf ds).lookup e.index = some i ∨
      (isBofType r.type = true → (lookupOf ds).lookup e.index = none) ∧ cur = some i)
    (h : doRecord abi fmt fuel max r e = .ok e') : InSheets P G ds (added C i [r]) (some i) e' := by
  have hidx := doRecord_index hf hi h
  have h4 : 4 ≤ e'.index := by rw [hidx]; have := he.index; omega
  rw [Record.bytes_length] at hi
  rcases doRecord_inv h with ⟨rfl, hp⟩ | ⟨m, v, e1, e2, hp, h1, h2, rfl, hm, hmm⟩
  · have hin : ¬ P r := fun hr => hP { e with index := u32 (e.index + 4) } r he.version he.first hr hp
    have hcur : cur = some i := by
      rcases hc with ⟨hb, _⟩ | ⟨_, hc⟩
      · exact absurd hp (bof_parsed hb)
      · exact hc
    subst hcur
    refine ⟨he.version, he.Version, he.heads, he.lookup, he.current, he.glob, he.first, ?_, h4⟩
    intro j s hj
    unfold added
    split
    · exact (he.kids j s hj).drop hin
    · exact he.kids j s hj
  · have h1' : e1 = { e with index := u32 (e.index + 4), master := m, current := some (i, false) } := by
      unfold effect at h1
      rw [show (Rec.make r.type r.data v).type = r.type from rfl] at h1
      by_cases hb : isBofType r.type = true
      · rw [if_pos hb, if_neg (by have := he.index; dsimp only; unfold u32; omega)] at h1
        injection h1 with h1
        rw [← h1]
        unfold subStreamBof
        have hsub : sub32 (u32 (e.index + 4)) 4 = e.index := by unfold sub32 u32; omega
        dsimp only
        rw [if_pos he.version, hsub, he.lookup]
        rcases hc with ⟨_, hl⟩ | ⟨hl, hcur⟩
        · rw [hl]
        · rw [hl hb]
          dsimp only
          rw [← he.lookup, he.current, hcur]
          rfl
      · rw [if_neg hb, if_neg (show ¬ r.type = 0x85 from hs), if_neg (show ¬ r.type = 0x2F from hf)] at h1
        injection h1 with h1
        rw [← h1]
        rcases hc with ⟨hb', _⟩ | ⟨_, hcur⟩
        · exact absurd hb' hb
        · rw [he.current, hcur]
          rfl
    subst h1'
    unfold addRecord at h2
    dsimp only at h2
    cases h2
    have hg : Grown e.master (m ++ [Rec.make r.type r.data v]) := grown_made hmm
    refine ⟨he.version, he.Version, ?_, he.lookup, rfl, he.glob.mono hg, first_made he.first hmm, ?_, h4⟩
    · show (addToSheet e.sheets i m.length).map Sheet.head = _
      rw [← he.heads]
      unfold addToSheet
      apply List.ext_getElem?
      intro j
      rw [List.getElem?_map, List.getElem?_map, List.getElem?_modify]
      cases e.sheets[j]? with
      | none => rfl
      | some s =>
        simp only [Option.map_some]
        split <;> rfl
    · intro j s hj
      have hj' : (addToSheet e.sheets i m.length)[j]? = some s := hj
      unfold addToSheet at hj'
      rw [List.getElem?_modify] at hj'
      obtain ⟨s0, hs0, hs1⟩ := Option.map_eq_some_iff.1 hj'
      have hk := (he.kids j s0 hs0).mono hg
      unfold added
      by_cases hji : j = i
      · rw [if_pos hji]
        rw [if_pos hji.symm] at hs1
        subst hs1
        exact hk.keep (q := Rec.make r.type r.data v) (by simp) ⟨rfl, rfl, List.prefix_refl _⟩
      · rw [if_neg hji]
        rw [if_neg (fun h => hji h.symm)] at hs1
        subst hs1
        exact hk

theorem sheet_body {P : Record → Prop} {abi : Abi} {fmt : Fmt} {fuel max : Nat} (hP : Sure abi fmt fuel P) {G : List Record} {ds : List SheetDecl} {i : Nat} (body : List Record) :
    ∀ (C : Nat → List Record) (e e' : Eng), InSheets P G ds C (some i) e →
    (∀ r ∈ body, r.type ≠ boundSheetType ∧ r.type ≠ filePassType) → e.index + (stream body).length < 2 ^ 32 →
    (∀ q, e.index ≤ q → q < e.index + (stream body).length → (lookupOf ds).lookup q = none) →
    doRecords abi fmt fuel max body e = .ok e' →
    InSheets P G ds (added C i body) (some i) e' ∧ e'.index = e.index + (stream body).length := by
  induction body with
  | nil =>
    intro C e e' he _ _ _ h
    cases h
    exact ⟨by rw [added_nil]; exact he, rfl⟩
  | cons r body ih =>
    intro C e e' he ht hi hl h
    rw [stream_cons, List.length_append] at hi hl ⊢
    rw [doRecords] at h
    obtain ⟨e1, h1, h'⟩ := bind_ok_inv h
    have hr := ht r (by simp)
    have hx := doRecord_index hr.2 (by omega) h1
    have hlen := Record.bytes_length r
    have p1 := sheet_record hP he hr.1 hr.2 (by omega) (Or.inr ⟨fun _ => hl _ (Nat.le_refl _) (by omega), rfl⟩) h1
    obtain ⟨p2, i2⟩ := ih _ e1 e' p1 (fun q hq => ht q (by simp [hq])) (by omega) (fun q h1 h2 => hl q (by omega) (by omega)) h'
    rw [added_added] at p2
    exact ⟨p2, by omega⟩

theorem starts_le {p : Nat} {ss : List (List Record)} {x : Nat × List Record} (h : x ∈ starts p ss) : p ≤ x.1 := by
  induction ss generalizing p with
  | nil => cases h
  | cons s ss ih =>
    rcases List.mem_cons.1 h with rfl | h
    · exact Nat.le_refl _
    · have := ih h; omega

theorem sheets_run {P : Record → Prop} {abi : Abi} {fmt : Fmt} {fuel max : Nat} (hP : Sure abi fmt fuel P) {G : List Record} {ds : List SheetDecl}
    (hnd : (ds.map SheetDecl.offset).Nodup) (ss : List (List Record)) :
    ∀ (C : Nat → List Record) (cur : Option Nat) (e e' : Eng), InSheets P G ds C cur e →
    (∀ s ∈ ss, ∃ b body, s = b :: body ∧ b.type = bofType) →
    (∀ s ∈ ss, ∀ r ∈ s, r.type ≠ boundSheetType ∧ r.type ≠ filePassType) →
    (∀ x ∈ starts e.index ss, ∃ d ∈ ds, d.offset = x.1) →
    (∀ d ∈ ds, e.index ≤ d.offset → ∃ s, (d.offset, s) ∈ starts e.index ss) →
    e.index + (stream ss.flatten).length < 2 ^ 32 →
    doRecords abi fmt fuel max ss.flatten e = .ok e' →
    ∃ C' cur', InSheets P G ds C' cur' e' ∧ e'.index = e.index + (stream ss.flatten).length ∧
      ∀ (i : Nat) d, ds[i]? = some d → (∀ s, (d.offset, s) ∈ starts e.index ss → C' i = C i ++ s) ∧
        ((∀ s, (d.offset, s) ∉ starts e.index ss) → C' i = C i) := by
  induction ss with
  | nil =>
    intro C cur e e' he _ _ _ _ _ h
    cases h
    exact ⟨C, cur, he, rfl, fun i d _ => ⟨fun s hs => (by cases hs), fun _ => rfl⟩⟩
  | cons s ss ih =>
    intro C cur e e' he hb ht hf hm hi h
    obtain ⟨b, body, rfl, hbt⟩ := hb s (by simp)
    have hbof : isBofType b.type = true := by rw [hbt]; rfl
    rw [List.flatten_cons, stream_append, List.length_append] at hi ⊢
    rw [List.flatten_cons, doRecords_append] at h
    obtain ⟨e2, h2, h'⟩ := bind_ok_inv h
    rw [doRecords] at h2
    obtain ⟨e1, h1, h2'⟩ := bind_ok_inv h2
    -- the sheet that begins here
    obtain ⟨d, hd, hoff⟩ := hf (e.index, b :: body) (by simp [starts])
    obtain ⟨i, hid⟩ := List.mem_iff_getElem?.1 hd
    have hlook : (lookupOf ds).lookup e.index = some i := (lookupOf_iff hnd _ _).2 ⟨d, hid, hoff⟩
    have htb := ht (b :: body) (by simp)
    have hslen : (stream (b :: body)).length = b.bytes.length + (stream body).length := by
      rw [stream_cons, List.length_append]
    have hlen := Record.bytes_length b
    have hx := doRecord_index (htb b (by simp)).2 (by omega) h1
    have p1 := sheet_record hP he (htb b (by simp)).1 (htb b (by simp)).2 (by omega) (Or.inl ⟨hbof, hlook⟩) h1
    -- no other sheet begins within it
    have hin : ∀ q, e1.index ≤ q → q < e1.index + (stream body).length → (lookupOf ds).lookup q = none := by
      intro q hq1 hq2
      cases hl : (lookupOf ds).lookup q with
      | none => rfl
      | some j =>
        obtain ⟨d', hd', hoff'⟩ := (lookupOf_iff hnd _ _).1 hl
        obtain ⟨s', hs'⟩ := hm d' (List.mem_of_getElem? hd') (by omega)
        rcases List.mem_cons.1 hs' with heq | hmem
        · simp only [Prod.mk.injEq] at heq
          omega
        · have := starts_le hmem
          dsimp only at this
          omega
    obtain ⟨p2, i2⟩ := sheet_body hP body _ e1 e2 p1 (fun r hr => htb r (by simp [hr])) (by omega) hin h2'
    rw [added_added, List.singleton_append] at p2
    have hie : e2.index = e.index + (stream (b :: body)).length := by omega
    obtain ⟨C', cur', p3, i3, hC⟩ := ih _ _ e2 e' p2 (fun s hs => hb s (by simp [hs])) (fun s hs => ht s (by simp [hs]))
      (fun x hx => hf x (by rw [hie] at hx; simp [starts, hx]))
      (fun d' hd' hle => by
        obtain ⟨s', hs'⟩ := hm d' hd' (by omega)
        rcases List.mem_cons.1 hs' with heq | hmem
        · simp only [Prod.mk.injEq] at heq
          omega
        · exact ⟨s', by rw [hie]; exact hmem⟩)
      (by omega) h'
    refine ⟨C', cur', p3, by omega, ?_⟩
    intro j dj hj
    obtain ⟨c1, c2⟩ := hC j dj hj
    rw [hie] at c1 c2
    have hne : ∀ t, (e.index, t) ∉ starts (e.index + (stream (b :: body)).length) ss := by
      intro t hmem
      have := starts_le hmem
      dsimp only at this
      omega
    constructor
    · intro t hmem
      rcases List.mem_cons.1 hmem with heq | hmem
      · simp only [Prod.mk.injEq] at heq
        have hji : j = i := by
          have e1 := (lookupOf_iff hnd _ _).2 ⟨dj, hj, heq.1⟩
          rw [hlook] at e1
          injection e1 with e1
          exact e1.symm
        rw [c2 (by rw [heq.1]; exact hne), hji, heq.2]
        unfold added
        rw [if_pos rfl]
      · rw [c1 t hmem]
        have hji : j ≠ i := by
          intro hji
          rw [hji, hid] at hj
          injection hj with hj
          rw [← hj, hoff] at hmem
          exact hne t hmem
        unfold added
        rw [if_neg hji]
    · intro hnot
      have hji : j ≠ i := by
        intro hji
        rw [hji, hid] at hj
        injection hj with hj
        rw [← hj, hoff] at hnot
        exact hnot (b :: body) (by simp [starts])
      rw [c2 fun t hmem => hnot t (List.mem_cons_of_mem _ hmem)]
      unfold added
      rw [if_neg hji]

end Fileid.Excel
