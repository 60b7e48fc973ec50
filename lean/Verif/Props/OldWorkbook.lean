import Verif.Lemmas.OldWorkbook

/-!
# C108: workbooks of older versions of Excel
-/

namespace Fileid.Props

open Common Spec Spec.Biff Excel

/-- The records shown at the given places in the program's list: type, length and data of each. -/
abbrev ShownAs (m : List Rec) (ids : List Nat) (rs : List Record) : Prop :=
  Pointwise (fun i r => ∃ q, m[i]? = some q ∧ (q.type, q.length, q.data) = (r.type, r.data.length, r.data)) ids rs

theorem olds_bof {V : Nat} {done : List Record} {i : Nat} {q : Rec} (hi : 0 < i) (h : (olds V done)[i]? = some q) :
    q.view = .bof ↔ q.type ∈ beginsIn V := by
  cases done with
  | nil => cases h
  | cons b rs =>
    obtain ⟨j, rfl⟩ : ∃ j, i = j + 1 := ⟨i - 1, by omega⟩
    rw [olds, List.getElem?_cons_succ, List.getElem?_map, Option.map_eq_some_iff] at h
    obtain ⟨r, _, rfl⟩ := h
    show oldView V r = .bof ↔ r.type ∈ beginsIn V
    unfold oldView
    by_cases hm : r.type ∈ beginsIn V
    · simp [hm]
    · rw [if_neg hm]
      split <;> simp [hm]

theorem old_book_walk (abi : Abi) (fmt : Fmt) (fuel : Nat) (w : OldBook) (tail : Bytes) (hw : w.Valid) (hflat : w.Flat)
    (hsome : oldDeclared w.globals ≠ [])
    (hlen : (stream w.records ++ tail).length + 4 ≤ 2 ^ 32) (ht : 0 < tail.length ∧ tail.length ≤ 4)
    (hfuel : w.records.length < fuel) :
    ∃ e cur, ParseStream abi fmt fuel (stream w.records ++ tail) = (e, .ok ()) ∧
      Old 1280 ((oldDeclared w.globals).map OldDecl.name) w.records
        (Places.deal ((oldDeclared w.globals).map OldDecl.name).length
          (Places.add (fun k => if k = none then [w.bof] else []) none (w.globals.map OldGlobal.record)) 0 w.sheets) cur e := by
  have hlen' : (stream w.head).length + (stream w.sheets.flatten).length < 2 ^ 32 := by
    unfold OldBook.records at hlen
    rw [List.length_append, stream_append, List.length_append] at hlen
    omega
  have hhead : (stream w.head).length = w.bof.bytes.length + (stream (w.globals.map OldGlobal.record)).length := by
    unfold OldBook.head
    rw [stream_cons, List.length_append]
  have hbv := (hw.records w.bof (by simp [OldBook.records, OldBook.head])).1
  obtain ⟨e1, h1, p1, i1⟩ := old_first (abi := abi) (fmt := fmt) (fuel := fuel) (max := (stream w.records ++ tail).length) hw.bof.1 hw.bof.2.1 hbv.2
  rw [hw.bof.2.2] at p1
  obtain ⟨e2, h2, p2, i2, _⟩ := old_globals (abi := abi) (fmt := fmt) (fuel := fuel) (max := (stream w.records ++ tail).length)
    w.globals _ _ _ e1 p1 (fun i => if_neg (by simp)) hw.decls
    (fun r hr => ⟨(hw.others r hr).1, (hw.others r hr).2, (hw.records r (by
      unfold OldBook.records OldBook.head
      exact List.mem_append_left _ (List.mem_cons_of_mem _ (List.mem_map.2 ⟨_, hr, rfl⟩)))).2⟩) (by rw [i1]; omega)
  rw [List.nil_append] at p2
  have hpos : 0 < ((oldDeclared w.globals).map OldDecl.name).length := by
    rw [List.length_map]
    exact List.length_pos_iff.2 hsome
  obtain ⟨e3, cur, h3, p3, i3⟩ := old_substreams (abi := abi) (fmt := fmt) (fuel := fuel) (max := (stream w.records ++ tail).length) hpos
    w.sheets _ _ e2 0 (by rw [if_pos rfl]; exact p2) (fun h => absurd rfl h)
    (by
      intro s hs
      obtain ⟨b, body, rfl, hb⟩ := hw.begins s hs
      refine ⟨b, body, rfl, hb, fun r hr => ⟨hflat _ hs r hr, hw.sheets _ hs r (List.mem_cons_of_mem _ hr), (hw.records r ?_).2⟩⟩
      unfold OldBook.records
      exact List.mem_append_right _ (List.mem_flatten.2 ⟨_, hs, List.mem_cons_of_mem _ hr⟩)) (by rw [i2, i1]; omega) (Nat.zero_le _)
  have hdo : doRecords abi fmt fuel (stream w.records ++ tail).length w.records {} = .ok e3 := by
    show doRecords _ _ _ _ (w.bof :: (w.globals.map OldGlobal.record ++ w.sheets.flatten)) {} = _
    rw [doRecords, h1, Res.bind_ok, doRecords_append, h2, Res.bind_ok, h3]
  refine ⟨e3, cur, ?_, p3⟩
  · unfold ParseStream
    refine walk_ok hlen ht w.records (fun r hr => (hw.records r hr).1) (fun r hr => (hw.records r hr).2) fuel {} e3 [] hfuel rfl rfl hdo ?_
    rw [i3, i2, i1]
    unfold OldBook.records
    rw [stream_append, List.length_append, hhead, List.length_nil]
    omega

/-- What becomes of a workbook of BIFF5 that declares sheets, with one to four bytes behind it: the walk ends without an
error. The sheets are those declared, in their order, each with its name and with nothing else of its declaration. All
records are listed in their order, those of the type that begins a substream as such. Those that describe the workbook are listed under it. The substreams are dealt out to
the sheets one after the other, the last sheet getting all that are left. -/
theorem C108_dealt (abi : Abi) (fmt : Fmt) (fuel : Nat) (w : OldBook) (tail : Bytes) (hw : w.Valid) (hflat : w.Flat)
    (hsome : oldDeclared w.globals ≠ [])
    (hlen : (stream w.records ++ tail).length + 4 ≤ 2 ^ 32) (ht : 0 < tail.length ∧ tail.length ≤ 4)
    (hfuel : w.records.length < fuel) :
    ∃ e, ParseStream abi fmt fuel (stream w.records ++ tail) = (e, .ok ()) ∧
      e.sheets.map (fun s => (s.Name, s.kind, s.Visiblity, s.Offset)) = (oldDeclared w.globals).map (fun d => (d.name, 0, 0, 0)) ∧
      e.master.map (fun q => (q.type, q.length, q.data)) = w.records.map (fun r => (r.type, r.data.length, r.data)) ∧
      (∀ i q, 0 < i → e.master[i]? = some q → (q.view = .bof ↔ q.type ∈ beginsIn 0x0500)) ∧
      ShownAs e.master e.global w.head ∧
      ∀ (i : Nat) s, e.sheets[i]? = some s → ShownAs e.master s.children (dealt (oldDeclared w.globals).length i 0 w.sheets) := by
  obtain ⟨e3, cur, hp, p3⟩ := old_book_walk abi fmt fuel w tail hw hflat hsome hlen ht hfuel
  refine ⟨e3, hp, ?_, ?_, ?_, ?_, ?_⟩
  · have := p3.names
    rw [List.map_map] at this
    exact this
  · have := olds_key 1280 w.records
    have hm : e3.master = olds 1280 w.records := p3.master
    rw [← hm] at this
    exact this
  · have hm : e3.master = olds 1280 w.records := p3.master
    rw [hm]
    exact fun i q => olds_bof
  · have := p3.glob
    rw [Places.deal_none] at this
    exact this
  · intro i s hs
    have := p3.kids i s hs
    rw [Places.deal_some, List.length_map] at this
    exact this

/-- A sheet that gets one substream. -/
theorem dealt_inOrder (n i : Nat) (ss : List (List Record)) : ∀ j, j + ss.length ≤ n → j ≤ i →
    dealt n i j ss = (ss[i - j]?).getD [] := by
  induction ss with
  | nil => intro j _ _; simp [dealt]
  | cons s ss ih =>
    intro j hj hi
    rw [List.length_cons] at hj
    rw [dealt]
    rcases Nat.eq_or_lt_of_le hi with rfl | hlt
    · rw [if_pos (by omega), Nat.sub_self]
      have : ∀ (ss : List (List Record)) (k : Nat), j < k → k + ss.length ≤ n → dealt n j k ss = [] := by
        intro ss
        induction ss with
        | nil => intros; rfl
        | cons t ts ih2 =>
          intro k hk hl
          rw [List.length_cons] at hl
          rw [dealt, if_neg (by omega), ih2 (k + 1) (by omega) (by omega)]
          rfl
      rw [this ss (j + 1) (by omega) (by omega)]
      simp
    · rw [if_neg (by omega), ih (j + 1) (by omega) (by omega), List.nil_append]
      rw [show i - j = (i - (j + 1)) + 1 by omega, List.getElem?_cons_succ]

theorem starts_length (p : Nat) (ss : List (List Record)) : (starts p ss).length = ss.length := by
  induction ss generalizing p with
  | nil => rfl
  | cons s ss ih => simp [starts, ih]

theorem starts_snd (ss : List (List Record)) : ∀ p, (starts p ss).map Prod.snd = ss := by
  induction ss with
  | nil => intro p; rfl
  | cons s ss ih => intro p; simp [starts, ih]

theorem starts_later {p : Nat} {ss : List (List Record)} {i : Nat} {x : Nat × List Record} (h : (starts p ss)[i]? = some x) :
    p + i ≤ x.1 ∨ ∃ s ∈ ss, s = [] := by
  induction ss generalizing p i with
  | nil => cases h
  | cons s ss ih =>
    cases i with
    | zero =>
      simp only [starts, List.getElem?_cons_zero, Option.some.injEq] at h
      subst h
      exact Or.inl (Nat.le_refl _)
    | succ i =>
      simp only [starts, List.getElem?_cons_succ] at h
      cases s with
      | nil => exact Or.inr ⟨[], by simp, rfl⟩
      | cons r s =>
        have hl : 4 ≤ (stream (r :: s)).length := by
          rw [stream_cons, List.length_append, Record.bytes_length]; omega
        rcases ih h with h' | ⟨t, ht, h'⟩
        · left; omega
        · exact Or.inr ⟨t, by simp [ht], h'⟩

/-- Substreams begin at different places. -/
theorem starts_inj {ss : List (List Record)} (hne : ∀ s ∈ ss, s ≠ []) : ∀ (p i j : Nat) (q : Nat) (a b : List Record),
    (starts p ss)[i]? = some (q, a) → (starts p ss)[j]? = some (q, b) → i = j := by
  induction ss with
  | nil => intro p i j q a b h; cases h
  | cons s ss ih =>
    have hl : 4 ≤ (stream s).length := by
      cases s with
      | nil => exact absurd rfl (hne [] (by simp))
      | cons r s => rw [stream_cons, List.length_append, Record.bytes_length]; omega
    have hne' : ∀ t ∈ ss, t ≠ [] := fun t ht => hne t (by simp [ht])
    have later : ∀ {p' k : Nat} {x : Nat × List Record}, (starts p' ss)[k]? = some x → p' ≤ x.1 := by
      intro p' k x h
      rcases starts_later h with h' | ⟨t, ht, h'⟩
      · omega
      · exact absurd h' (hne' t ht)
    intro p i j q a b hi hj
    cases i with
    | zero =>
      cases j with
      | zero => rfl
      | succ j =>
        simp only [starts, List.getElem?_cons_zero, List.getElem?_cons_succ, Option.some.injEq, Prod.mk.injEq] at hi hj
        have := later hj
        omega
    | succ i =>
      cases j with
      | zero =>
        simp only [starts, List.getElem?_cons_zero, List.getElem?_cons_succ, Option.some.injEq, Prod.mk.injEq] at hi hj
        have := later hi
        omega
      | succ j =>
        simp only [starts, List.getElem?_cons_succ] at hi hj
        rw [ih hne' _ i j q a b hi hj]

/-- C108 for workbooks of BIFF5 without embedded charts whose sheets are stored in the order of their declarations: the
sheets are those declared, in their order, with their names; the records that describe the workbook are listed under it
and the records of each sheet's substream under that sheet, every one, in their order, with type, length and data.
Missing is what the declarations say besides the name (`C108_described_wrong`), and other workbooks
(`C108_order_wrong`, `C108_embedded_wrong`). -/
theorem C108_sheets_partial (abi : Abi) (fmt : Fmt) (fuel : Nat) (w : OldBook) (tail : Bytes) (hw : w.Valid) (hflat : w.Flat)
    (hord : w.InOrder) (hsome : oldDeclared w.globals ≠ [])
    (hlen : (stream w.records ++ tail).length + 4 ≤ 2 ^ 32) (ht : 0 < tail.length ∧ tail.length ≤ 4)
    (hfuel : w.records.length < fuel) :
    ∃ e, ParseStream abi fmt fuel (stream w.records ++ tail) = (e, .ok ()) ∧
      e.sheets.map (fun s => s.Name) = (oldDeclared w.globals).map (fun d => d.name) ∧
      ShownAs e.master e.global w.head ∧
      ∀ (i : Nat) d s rs, (oldDeclared w.globals)[i]? = some d → e.sheets[i]? = some s → (d.offset, rs) ∈ w.starts →
        ShownAs e.master s.children rs := by
  obtain ⟨e, h1, h2, _, _, h4, h5⟩ := C108_dealt abi fmt fuel w tail hw hflat hsome hlen ht hfuel
  refine ⟨e, h1, ?_, h4, ?_⟩
  · have := congrArg (List.map Prod.fst) h2
    simpa [List.map_map, Function.comp_def] using this
  · intro i d s rs hd hs hmem
    have hne : ∀ s ∈ w.sheets, s ≠ [] := fun s hs => by
      obtain ⟨b, body, rfl, _⟩ := hw.begins s hs
      simp
    have hn : (oldDeclared w.globals).length = w.sheets.length := by
      have := congrArg List.length hord
      simpa [OldBook.starts, starts_length] using this
    have := h5 i s hs
    rw [dealt_inOrder _ i w.sheets 0 (by omega) (Nat.zero_le _), Nat.sub_zero] at this
    obtain ⟨j, hj⟩ := List.mem_iff_getElem?.1 hmem
    have hio : (w.starts.map Prod.fst)[i]? = some d.offset := by
      rw [← hord, List.getElem?_map, hd]; rfl
    rw [List.getElem?_map, Option.map_eq_some_iff] at hio
    obtain ⟨⟨q, a⟩, ha, rfl⟩ := hio
    have hij := starts_inj hne _ _ _ _ _ _ hj ha
    subst hij
    have hrs : w.sheets[j]? = some rs := by
      have h := starts_snd w.sheets (stream w.head).length
      rw [← h, List.getElem?_map]
      show (w.starts[j]?).map Prod.snd = _
      rw [hj]; rfl
    rw [hrs] at this
    exact this

/-- Whatever is declared of a sheet besides its name is not shown: each is a visible worksheet at the beginning of the
stream, also one that is hidden, or a chart or a macro sheet. -/
theorem C108_described_wrong (abi : Abi) (fmt : Fmt) (fuel : Nat) (w : OldBook) (tail : Bytes) (hw : w.Valid) (hflat : w.Flat)
    (hlen : (stream w.records ++ tail).length + 4 ≤ 2 ^ 32) (ht : 0 < tail.length ∧ tail.length ≤ 4)
    (hfuel : w.records.length < fuel) (d : OldDecl) (hd : d ∈ oldDeclared w.globals)
    (h : d.state.toNat % 4 ≠ 0 ∨ d.kind.toNat ≠ 0 ∨ d.offset ≠ 0) :
    ∃ e, ParseStream abi fmt fuel (stream w.records ++ tail) = (e, .ok ()) ∧
      e.sheets.map (fun s => (s.Name, s.kind, s.Visiblity, s.Offset)) ≠
        (oldDeclared w.globals).map (fun d => (d.name, d.kind.toNat, d.state.toNat % 4, d.offset)) ∧
      ∀ s ∈ e.sheets, s.kind = 0 ∧ s.Visiblity = 0 ∧ s.Offset = 0 := by
  obtain ⟨e, h1, h2, _⟩ := C108_dealt abi fmt fuel w tail hw hflat (fun h => by rw [h] at hd; cases hd) hlen ht hfuel
  refine ⟨e, h1, fun heq => ?_, fun s hs => ?_⟩
  · rw [h2] at heq
    have hp := List.map_inj_left.1 heq d hd
    simp only [Prod.mk.injEq, true_and] at hp
    omega
  · have : (s.Name, s.kind, s.Visiblity, s.Offset) ∈ (oldDeclared w.globals).map (fun d => (d.name, 0, 0, 0)) := by
      rw [← h2]
      exact List.mem_map.2 ⟨s, hs, rfl⟩
    obtain ⟨x, _, hx⟩ := List.mem_map.1 this
    simp only [Prod.mk.injEq] at hx
    exact ⟨hx.2.1.symm, hx.2.2.1.symm, hx.2.2.2.symm⟩

theorem old_single_walk (abi : Abi) (fmt : Fmt) (fuel : Nat) (b : Record) (rs : List Record) (tail : Bytes)
    (hb : b.type ∈ bofTypes ∧ 2 ≤ b.data.length ∧ bofVersion b.data ≠ 0x0600)
    (hv : ∀ r ∈ b :: rs, r.Valid ∧ r.type ≠ boundSheetType ∧ r.type ≠ filePassType)
    (hlen : (stream (b :: rs) ++ tail).length + 4 ≤ 2 ^ 32) (ht : 0 < tail.length ∧ tail.length ≤ 4)
    (hfuel : (b :: rs).length < fuel) :
    ∃ e, ParseStream abi fmt fuel (stream (b :: rs) ++ tail) = (e, .ok ()) ∧
      Old (bofVersion b.data) [] (b :: rs) (Places.add (fun k => if k = none then [b] else []) none rs) none e := by
  have hl : b.bytes.length + (stream rs).length < 2 ^ 32 := by
    rw [stream_cons, List.length_append, List.length_append] at hlen
    omega
  obtain ⟨e1, h1, p1, i1⟩ := old_first (abi := abi) (fmt := fmt) (fuel := fuel) (max := (stream (b :: rs) ++ tail).length) hb.1 hb.2.1
    (hv b (by simp)).1.2
  obtain ⟨e2, h2, p2, i2⟩ := old_singles (abi := abi) (fmt := fmt) (fuel := fuel) (max := (stream (b :: rs) ++ tail).length) hb.2.2 rs _ _ e1 p1
    (fun r hr => (hv r (by simp [hr])).2) (by omega)
  refine ⟨e2, ?_, p2⟩
  · unfold ParseStream
    refine walk_ok hlen ht (b :: rs) (fun r hr => (hv r hr).1) (fun r hr => (hv r hr).2.2) fuel {} e2 [] hfuel rfl rfl ?_ ?_
    · rw [doRecords, h1, Res.bind_ok, h2]
    · rw [i2, i1, stream_cons, List.length_append, List.length_nil]
      omega

/-- Workbooks of the versions before BIFF5, which have no declarations (and those of BIFF5, or of versions unknown to
the program, that declare no sheets): the walk ends without an error and lists all records under the workbook, every
one, in their order, with type, length and data, those of the type that begins a substream as such. -/
theorem C108_single (abi : Abi) (fmt : Fmt) (fuel : Nat) (b : Record) (rs : List Record) (tail : Bytes)
    (hb : b.type ∈ bofTypes ∧ 2 ≤ b.data.length ∧ bofVersion b.data ≠ 0x0600)
    (hv : ∀ r ∈ b :: rs, r.Valid ∧ r.type ≠ boundSheetType ∧ r.type ≠ filePassType)
    (hlen : (stream (b :: rs) ++ tail).length + 4 ≤ 2 ^ 32) (ht : 0 < tail.length ∧ tail.length ≤ 4)
    (hfuel : (b :: rs).length < fuel) :
    ∃ e, ParseStream abi fmt fuel (stream (b :: rs) ++ tail) = (e, .ok ()) ∧ e.sheets = [] ∧ e.Version = some (bofVersion b.data) ∧
      e.master.map (fun q => (q.type, q.length, q.data)) = (b :: rs).map (fun r => (r.type, r.data.length, r.data)) ∧
      (∀ i q, 0 < i → e.master[i]? = some q → (q.view = .bof ↔ q.type ∈ beginsIn (bofVersion b.data))) ∧
      ShownAs e.master e.global (b :: rs) := by
  obtain ⟨e2, hp, p2⟩ := old_single_walk abi fmt fuel b rs tail hb hv hlen ht hfuel
  have hm : e2.master = olds (bofVersion b.data) (b :: rs) := p2.master
  refine ⟨e2, hp, ?_, p2.Version, by rw [hm]; exact olds_key _ _, by rw [hm]; exact fun i q => olds_bof, ?_⟩
  · have := p2.names
    exact List.map_eq_nil_iff.1 this
  · have := p2.glob
    exact this

/-! ## Where C108 is false -/

theorem record_ext {a b : Record} (h1 : a.type = b.type) (h2 : a.data = b.data) : a = b := by
  cases a; cases b
  simp only at h1 h2
  rw [h1, h2]

theorem shownAs_unique {m : List Rec} {ids : List Nat} {as bs : List Record} (ha : ShownAs m ids as) (hb : ShownAs m ids bs) : as = bs := by
  induction ha generalizing bs with
  | nil => cases hb; rfl
  | cons h _ ih =>
    cases hb with
    | cons h' hb' =>
      rw [ih hb']
      obtain ⟨q, hq, hk⟩ := h
      obtain ⟨q', hq', hk'⟩ := h'
      rw [hq] at hq'
      cases hq'
      rw [hk] at hk'
      simp only [Prod.mk.injEq] at hk'
      congr 1
      exact record_ext hk'.1 hk'.2.2

theorem dealt_none {n i : Nat} (ss : List (List Record)) : ∀ k, i < k → i + 1 < n → dealt n i k ss = [] := by
  induction ss with
  | nil => intros; rfl
  | cons t ts ih =>
    intro k hk hl
    rw [dealt, if_neg (by omega), ih (k + 1) (by omega) hl]
    rfl

/-- The places declared are not looked at: a sheet is not shown with the records of its substream if that is not the one
whose turn it is. -/
theorem C108_order_wrong (abi : Abi) (fmt : Fmt) (fuel : Nat) (w : OldBook) (tail : Bytes) (hw : w.Valid) (hflat : w.Flat)
    (hlen : (stream w.records ++ tail).length + 4 ≤ 2 ^ 32) (ht : 0 < tail.length ∧ tail.length ≤ 4)
    (hfuel : w.records.length < fuel) (hn : w.sheets.length ≤ (oldDeclared w.globals).length)
    (i : Nat) (d : OldDecl) (rs : List Record) (hd : (oldDeclared w.globals)[i]? = some d) (hrs : (d.offset, rs) ∈ w.starts)
    (hother : w.sheets[i]? ≠ some rs) (hne : rs ≠ []) :
    ∃ e s, ParseStream abi fmt fuel (stream w.records ++ tail) = (e, .ok ()) ∧ e.sheets[i]? = some s ∧ s.Name = d.name ∧
      ¬ ShownAs e.master s.children rs := by
  obtain ⟨e, h1, h2, _, _, _, h5⟩ := C108_dealt abi fmt fuel w tail hw hflat (fun h => by rw [h] at hd; cases hd) hlen ht hfuel
  have hi := congrArg (fun l => l[i]?) h2
  simp only [List.getElem?_map, hd] at hi
  rw [Option.map_some, Option.map_eq_some_iff] at hi
  obtain ⟨s, hs, hsd⟩ := hi
  refine ⟨e, s, h1, hs, congrArg Prod.fst hsd, fun hsh => ?_⟩
  have := h5 i s hs
  rw [dealt_inOrder _ i w.sheets 0 (by omega) (Nat.zero_le _), Nat.sub_zero] at this
  have heq := shownAs_unique hsh this
  cases hw : w.sheets[i]? with
  | none => rw [hw] at heq; exact hne heq
  | some x =>
    rw [hw] at heq
    exact hother (by rw [hw, heq]; rfl)

/-- The substream of a chart embedded into a sheet is taken for that of the next sheet: the first of several sheets is
shown with its records up to the chart only. -/
theorem C108_embedded_wrong (abi : Abi) (fmt : Fmt) (fuel : Nat) (bof : Record) (globals : List OldGlobal) (a c : List Record)
    (rest : List (List Record)) (tail : Bytes) (hw : (⟨bof, globals, a :: c :: rest⟩ : OldBook).Valid)
    (hflat : (⟨bof, globals, a :: c :: rest⟩ : OldBook).Flat) (hn : 2 ≤ (oldDeclared globals).length)
    (hlen : (stream (⟨bof, globals, (a ++ c) :: rest⟩ : OldBook).records ++ tail).length + 4 ≤ 2 ^ 32)
    (ht : 0 < tail.length ∧ tail.length ≤ 4) (hfuel : (⟨bof, globals, (a ++ c) :: rest⟩ : OldBook).records.length < fuel) :
    ∃ e s, ParseStream abi fmt fuel (stream (⟨bof, globals, (a ++ c) :: rest⟩ : OldBook).records ++ tail) = (e, .ok ()) ∧
      e.sheets[0]? = some s ∧ ShownAs e.master s.children a ∧ ¬ ShownAs e.master s.children (a ++ c) := by
  have hrec : (⟨bof, globals, (a ++ c) :: rest⟩ : OldBook).records = (⟨bof, globals, a :: c :: rest⟩ : OldBook).records := by
    simp [OldBook.records, OldBook.head]
  rw [hrec] at hlen hfuel ⊢
  obtain ⟨e, h1, h2, _, _, _, h5⟩ := C108_dealt abi fmt fuel _ tail hw hflat (fun h => by
    have h' : oldDeclared globals = [] := h
    rw [h'] at hn; simp at hn) hlen ht hfuel
  have hl := congrArg List.length h2
  simp only [List.length_map] at hl
  obtain ⟨s, hs⟩ : ∃ s, e.sheets[0]? = some s := by
    cases h : e.sheets with
    | nil => rw [h] at hl; simp at hl; omega
    | cons s t => exact ⟨s, rfl⟩
  have hA : ShownAs e.master s.children a := by
    have := h5 0 s hs
    rw [show (⟨bof, globals, a :: c :: rest⟩ : OldBook).sheets = a :: c :: rest from rfl, dealt, if_pos (by simp),
      dealt_none _ (0 + 1) (by omega) (by show 0 + 1 < (oldDeclared globals).length; omega), List.append_nil] at this
    exact this
  refine ⟨e, s, h1, hs, hA, fun h => ?_⟩
  have := shownAs_unique hA h
  obtain ⟨b, body, hc, _⟩ := hw.begins c (by simp)
  have hl := congrArg List.length this
  rw [List.length_append, hc, List.length_cons] at hl
  omega

/-- The report cannot be printed if the workbook's first record is shorter than that of BIFF8. -/
theorem old_report {V : Nat} {names : List Bytes} {b : Record} {rs : List Record} {L : Places} {cur : Option Nat} {e : Eng}
    (he : Old V names (b :: rs) L cur e) (hb : 2 ≤ b.data.length ∧ b.data.length < 14) (abi : Abi) (fmt : Fmt) (info : ExtInfo) (err base : Bytes) :
    (ExcelInfo.mk info e err).toJson abi fmt base = .ub .oobRead ∧ (ExcelInfo.mk info e err).toXml abi fmt base = .ub .oobRead := by
  have h0 := he.zero
  obtain ⟨t, ht⟩ : ∃ t, e.global = 0 :: t := by
    cases hg : e.global with
    | nil => rw [hg] at h0; cases h0
    | cons x t =>
      rw [hg] at h0
      simp only [List.head?_cons, Option.some.injEq] at h0
      exact ⟨t, by rw [h0]⟩
  have hm : e.master[0]? = some (Rec.make b.type b.data .bof) := by rw [he.master]; rfl
  have hf : (Rec.make b.type b.data .bof).fields abi fmt = .ub .oobRead := by
    have hne : b.data ≠ [] := fun h => by rw [h] at hb; simp at hb
    show bofFields b.data = _
    unfold bofFields rdRange
    rw [if_neg hne, if_neg (by omega)]
    rfl
  constructor
  · unfold ExcelInfo.toJson substreamJson
    dsimp only
    rw [ht, printAll, hm]
    dsimp only
    unfold Rec.toJson
    rw [hf]
    rfl
  · unfold ExcelInfo.toXml substreamXml
    dsimp only
    rw [ht, printAll, hm]
    dsimp only
    unfold Rec.toXml
    rw [hf]
    rfl

/-- The `BOF` record of a workbook older than BIFF8 has four to eight bytes. Of every such workbook without declared
sheets, the report in JSON or XML reads behind the end of the data of that record: the layout of BIFF8, which is longer,
is taken for granted. -/
theorem C108_report_wrong (abi : Abi) (fmt : Fmt) (what : What) (fuel : Nat) (b : Record) (rs : List Record) (tail base : Bytes)
    (hb : b.type ∈ bofTypes ∧ 2 ≤ b.data.length ∧ bofVersion b.data ≠ 0x0600) (hshort : b.data.length < 14)
    (hv : ∀ r ∈ b :: rs, r.Valid ∧ r.type ≠ boundSheetType ∧ r.type ≠ filePassType)
    (hlen : (stream (b :: rs) ++ tail).length + 4 ≤ 2 ^ 32) (ht : 0 < tail.length ∧ tail.length ≤ 4)
    (hfuel : (b :: rs).length < fuel) :
    ∃ x, Excel.Detailer abi fmt what fuel (stream (b :: rs) ++ tail) = .ok x ∧
      x.toJson abi fmt base = .ub .oobRead ∧ x.toXml abi fmt base = .ub .oobRead := by
  obtain ⟨e, h1, h2⟩ := old_single_walk abi fmt fuel b rs tail hb hv hlen ht hfuel
  have hd : ∃ info, Excel.Detailer abi fmt what fuel (stream (b :: rs) ++ tail) = .ok ⟨info, e, []⟩ := by
    unfold Excel.Detailer
    rw [h1]
    dsimp only [errorText]
    rw [Res.bind_ok, h2.Version]
    exact ⟨_, rfl⟩
  obtain ⟨info, hd⟩ := hd
  exact ⟨_, hd, old_report h2 ⟨hb.2.1, hshort⟩ abi fmt info [] base⟩

/-- The same of workbooks of BIFF5 with declared sheets. -/
theorem C108_sheets_report_wrong (abi : Abi) (fmt : Fmt) (what : What) (fuel : Nat) (w : OldBook) (tail base : Bytes) (hw : w.Valid)
    (hflat : w.Flat) (hsome : oldDeclared w.globals ≠ []) (hshort : w.bof.data.length < 14)
    (hlen : (stream w.records ++ tail).length + 4 ≤ 2 ^ 32) (ht : 0 < tail.length ∧ tail.length ≤ 4)
    (hfuel : w.records.length < fuel) :
    ∃ x, Excel.Detailer abi fmt what fuel (stream w.records ++ tail) = .ok x ∧
      x.toJson abi fmt base = .ub .oobRead ∧ x.toXml abi fmt base = .ub .oobRead := by
  obtain ⟨e, cur, h1, h2⟩ := old_book_walk abi fmt fuel w tail hw hflat hsome hlen ht hfuel
  have hd : ∃ info, Excel.Detailer abi fmt what fuel (stream w.records ++ tail) = .ok ⟨info, e, []⟩ := by
    unfold Excel.Detailer
    rw [h1]
    dsimp only [errorText]
    rw [Res.bind_ok, h2.Version]
    exact ⟨_, rfl⟩
  obtain ⟨info, hd⟩ := hd
  exact ⟨_, hd, old_report (b := w.bof) (rs := w.globals.map OldGlobal.record ++ w.sheets.flatten) h2 ⟨hw.bof.2.1, hshort⟩ abi fmt info [] base⟩

/-! ## Workbooks of which these theorems speak -/

/-- Two sheets, the second a hidden chart; their substreams in the order of the declarations. -/
def oldBook : OldBook :=
  { bof := ⟨bofType, [0, 5, 5, 0]⟩
    globals := [.sheet ⟨36, 0, 0, b!"A"⟩, .sheet ⟨51, 1, 2, b!"B"⟩, .other ⟨0x000A, []⟩]
    sheets := [[⟨bofType, [0, 5]⟩, ⟨0x0031, [7]⟩, ⟨0x000A, []⟩], [⟨bofType, [0, 5]⟩, ⟨0x00E5, [3, 4]⟩]] }

theorem oldBook_valid : oldBook.Valid := by
  constructor
  · unfold Record.Valid; decide
  · decide
  · intro d hd
    simp only [oldBook, List.mem_cons, reduceCtorEq, false_or, OldGlobal.sheet.injEq, List.not_mem_nil, or_false] at hd
    rcases hd with rfl | rfl <;> decide
  · intro r hr
    simp only [oldBook, List.mem_cons, reduceCtorEq, false_or, OldGlobal.other.injEq, List.not_mem_nil, or_false] at hr
    subst hr
    decide
  · intro s hs
    simp only [oldBook, List.mem_cons, List.not_mem_nil, or_false] at hs
    rcases hs with rfl | rfl <;> exact ⟨_, _, rfl, by decide⟩
  · decide

example : oldBook.Flat ∧ oldBook.InOrder ∧ oldDeclared oldBook.globals ≠ [] ∧
    (ParseStream Abi.linux Fmt.zero 99 (stream oldBook.records ++ [0])).2 = .ok () ∧
    (ParseStream Abi.linux Fmt.zero 99 (stream oldBook.records ++ [0])).1.sheets.map (fun s => (s.Name, s.Visiblity, s.children)) =
      [(b!"A", 0, [4, 5, 6]), (b!"B", 0, [7, 8])] := by
  refine ⟨?_, ?_, ?_, ?_, ?_⟩
  · unfold OldBook.Flat; decide
  · unfold OldBook.InOrder; decide
  · decide
  · decide +kernel
  · decide +kernel

/-- The hidden chart is one of which `C108_described_wrong` speaks. -/
example : (⟨51, 1, 2, b!"B"⟩ : OldDecl) ∈ oldDeclared oldBook.globals := by decide

/-- The same sheets, declared in the other order. -/
def oldSwapped : OldBook :=
  { oldBook with globals := [.sheet ⟨51, 1, 2, b!"B"⟩, .sheet ⟨36, 0, 0, b!"A"⟩, .other ⟨0x000A, []⟩] }

theorem oldSwapped_valid : oldSwapped.Valid := by
  constructor
  · unfold Record.Valid; decide
  · decide
  · intro d hd
    simp only [oldSwapped, List.mem_cons, reduceCtorEq, false_or, OldGlobal.sheet.injEq, List.not_mem_nil, or_false] at hd
    rcases hd with rfl | rfl <;> decide
  · intro r hr
    simp only [oldSwapped, List.mem_cons, reduceCtorEq, false_or, OldGlobal.other.injEq, List.not_mem_nil, or_false] at hr
    subst hr
    decide
  · exact oldBook_valid.begins
  · exact oldBook_valid.sheets

/-- Sheet `B`, declared first, is shown with the records of `A`. -/
example (abi : Abi) (fmt : Fmt) : ∃ e s, ParseStream abi fmt 99 (stream oldSwapped.records ++ [0]) = (e, .ok ()) ∧
    e.sheets[0]? = some s ∧ s.Name = b!"B" ∧ ¬ ShownAs e.master s.children [⟨bofType, [0, 5]⟩, ⟨0x00E5, [3, 4]⟩] :=
  C108_order_wrong abi fmt 99 oldSwapped [0] oldSwapped_valid (by unfold OldBook.Flat; decide) (by decide) (by decide) (by decide)
    (by decide) 0 ⟨51, 1, 2, b!"B"⟩ _ rfl (by decide) (by decide) (by decide)

/-- The two substreams of `oldBook` taken as one with an embedded chart. -/
example (abi : Abi) (fmt : Fmt) : ∃ e s, ParseStream abi fmt 99 (stream oldBook.records ++ [0]) = (e, .ok ()) ∧
    e.sheets[0]? = some s ∧ ¬ ShownAs e.master s.children oldBook.sheets.flatten := by
  obtain ⟨e, s, h1, h2, _, h4⟩ := C108_embedded_wrong abi fmt 99 oldBook.bof oldBook.globals
    [⟨bofType, [0, 5]⟩, ⟨0x0031, [7]⟩, ⟨0x000A, []⟩] [⟨bofType, [0, 5]⟩, ⟨0x00E5, [3, 4]⟩] [] [0] oldBook_valid
    (by unfold OldBook.Flat; decide) (by decide) (by decide) (by decide) (by decide)
  exact ⟨e, s, h1, h2, h4⟩

/-- A worksheet of BIFF3. -/
example : (ParseStream Abi.linux Fmt.zero 99 (stream [⟨0x0209, [0, 3, 0x10, 0, 0, 0]⟩, ⟨0x0203, [1, 0, 0, 0]⟩, ⟨0x000A, []⟩] ++ [0])).1.global = [0, 1, 2] ∧
    bofVersion [0, 3, 0x10, 0, 0, 0] ≠ 0x0600 := by decide +kernel

end Fileid.Props
