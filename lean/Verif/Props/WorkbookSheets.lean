import Verif.Lemmas.RecordsSure
import Verif.Props.Workbook

/-!
# C88: the sheets of a workbook and their records
-/

namespace Fileid.Props

open Common Spec Spec.Biff Excel ExcelTables

theorem declared_mem {gs : List GlobalRec} {d : SheetDecl} (h : d ∈ declared gs) : GlobalRec.sheet d ∈ gs := by
  induction gs with
  | nil => cases h
  | cons g gs ih =>
    cases g with
    | sheet d' =>
      rcases List.mem_cons.1 h with rfl | h
      · simp
      · exact List.mem_cons_of_mem _ (ih h)
    | other r => exact List.mem_cons_of_mem _ (ih h)

theorem mem_declared {gs : List GlobalRec} {d : SheetDecl} (h : GlobalRec.sheet d ∈ gs) : d ∈ declared gs := by
  induction gs with
  | nil => cases h
  | cons g gs ih =>
    rcases List.mem_cons.1 h with rfl | h'
    · exact List.mem_cons_self
    · cases g with
      | sheet d' => exact List.mem_cons_of_mem _ (ih h')
      | other r => exact ih h'

/-- The substreams do not begin at the very beginning. -/
theorem first_inGlobals {P : Record → Prop} {abi : Abi} {fmt : Fmt} {fuel max : Nat} {b : Record} {e : Eng} (hb : b.type ∈ bofTypes)
    (hd : 2 ≤ b.data.length) (hi : b.data.length < 2 ^ 16) (hv : bofVersion b.data = 1536)
    (h : doRecord abi fmt fuel max b {} = .ok e) : InGlobals P [b] [] e ∧ e.index = b.bytes.length := by
  obtain ⟨e', h', p, i⟩ := first_step (abi := abi) (fmt := fmt) (fuel := fuel) (max := max) hb hd hi
  rw [h'] at h
  injection h with h
  subst h
  refine ⟨⟨p.version.trans hv, by rw [p.Version, hv], p.sheets, p.lookup, p.current, ?_, ?_, p.moved⟩, i⟩
  all_goals
    have hm := p.master
    simp only [contents, continuation, List.append_nil, ite_self] at hm
    obtain ⟨q, t, hq, hqk, ht⟩ := List.map_eq_cons_iff.1 hm
    have hk := hqk
    unfold Rec.key at hk
    simp only [Prod.mk.injEq] at hk
  · rw [p.global]
    show Lists P e'.master ([] ++ [0]) ([] ++ [b])
    refine (lists_nil _ _).keep (q := q) (by rw [hq]; rfl) ⟨hk.1, hk.2.1, by rw [hk.2.2]; exact List.prefix_refl _⟩
  · refine ⟨q, by rw [hq]; simp, ?_⟩
    rw [hk.1]
    intro hc
    rw [hc] at hb
    revert hb
    decide

theorem lists_imp {P Q : Record → Prop} {m : List Rec} {ids : List Nat} {rs : List Record} (h : ∀ r ∈ rs, Q r → P r) (hl : Lists P m ids rs) :
    Lists Q m ids rs := by
  obtain ⟨k, h1, h2, h3⟩ := hl
  exact ⟨k, h1, fun sub hs hp => h2 sub hs fun r hr => h r (hs.subset hr) (hp r hr), h3⟩

theorem mem_starts {p q : Nat} {ss : List (List Record)} {s : List Record} (h : (q, s) ∈ starts p ss) : s ∈ ss := by
  induction ss generalizing p with
  | nil => cases h
  | cons t ss ih =>
    rcases List.mem_cons.1 h with h' | h'
    · cases h'; simp
    · exact List.mem_cons_of_mem _ (ih h')

/-- C88 for BIFF8 workbooks as described by `Workbook.Valid`, followed by one to four further bytes, with wide names
only where a wide character has two bytes (Windows): if the walk ends
without an error, the sheets are exactly the declared ones, in their order, with name, kind, visibility and offset as
declared; the records that describe the workbook are listed under it, and the records of each sheet's substream under
that sheet, in their order, with type, length and data. Records can be missing only if they do not have the data their
kind needs. -/
theorem C88_sheets_partial (abi : Abi) (fmt : Fmt) (fuel : Nat) (w : Workbook) (tail : Bytes) (e : Eng) (hw : w.Valid)
    (hn : ∀ d ∈ declared w.globals, d.Narrow ∨ abi.wcharBytes = 2)
    (hlen : (stream w.records ++ tail).length + 4 ≤ 2 ^ 32) (ht : 0 < tail.length ∧ tail.length ≤ 4)
    (hfuel : 2 ^ 16 ≤ fuel) (h : ParseStream abi fmt fuel (stream w.records ++ tail) = (e, .ok ())) :
    e.sheets.map (fun s => (s.Name, s.kind, s.Visiblity, s.Offset)) =
      (declared w.globals).map (fun d => (d.name.text, d.kind.toNat, d.state.toNat % 4, d.offset)) ∧
    Lists (Whole (abi.wcharBytes = 2)) e.master e.global w.head ∧
    ∀ (i : Nat) d s rs, (declared w.globals)[i]? = some d → e.sheets[i]? = some s → (d.offset, rs) ∈ w.starts →
      Lists (Whole (abi.wcharBytes = 2)) e.master s.children rs := by
  unfold ParseStream at h
  obtain ⟨k, hk, hall⟩ := walk_inv hlen ht w.records (fun r hr => (hw.records r hr).1) (fun r hr => (hw.records r hr).2)
    fuel {} e (.ok ()) [] rfl rfl h
  rw [hall rfl, List.take_length] at hk
  have hlen' : (stream w.head).length + (stream w.sheets.flatten).length < 2 ^ 32 := by
    unfold Workbook.records at hlen
    rw [List.length_append, stream_append, List.length_append] at hlen
    omega
  have hhead : (stream w.head).length = w.bof.bytes.length + (stream (w.globals.map GlobalRec.record)).length := by
    unfold Workbook.head
    rw [stream_cons, List.length_append]
  unfold Workbook.records Workbook.head at hk
  rw [List.cons_append, doRecords] at hk
  obtain ⟨e1, h1, hk'⟩ := bind_ok_inv hk
  rw [doRecords_append] at hk'
  obtain ⟨e2, h2, h3⟩ := bind_ok_inv hk'
  have hbv := (hw.records w.bof (by simp [Workbook.records, Workbook.head])).1
  obtain ⟨p1, i1⟩ := first_inGlobals hw.bof.1 hw.bof.2.1 hbv.2 hw.bof.2.2 h1
  obtain ⟨p2, i2⟩ := globals_run (whole_sure hfuel) w.globals _ _ e1 e2 p1 (fun d hd => ⟨hw.decls d hd, hn d (mem_declared hd)⟩)
    (fun r hr => ⟨(hw.others r hr).1, (hw.others r hr).2,
      (hw.records r (by
        unfold Workbook.records Workbook.head
        refine List.mem_append_left _ (List.mem_cons_of_mem _ ?_)
        exact List.mem_map.2 ⟨_, hr, rfl⟩)).2⟩) (by rw [i1]; omega) h2
  have hi2 : e2.index = (stream w.head).length := by rw [i2, i1, hhead]
  rw [List.nil_append] at p2
  obtain ⟨C', cur', p3, _, hC⟩ := sheets_run (whole_sure hfuel) hw.distinct w.sheets _ _ e2 e p2.inSheets hw.begins
    (fun s hs r hr => ⟨hw.sheets s hs r hr, (hw.records r (by
      unfold Workbook.records
      exact List.mem_append_right _ (List.mem_flatten.2 ⟨s, hs, hr⟩))).2⟩)
    (by rw [hi2]; exact hw.found) (by rw [hi2]; exact fun d hd _ => hw.meant d hd) (by rw [hi2]; exact hlen') h3
  refine ⟨p3.heads, lists_imp (fun r hr h => ⟨h, (hw.records r (List.mem_append_left _ hr)).1.2⟩) p3.glob, ?_⟩
  intro i d s rs hd hs hmem
  have := p3.kids i s hs
  rw [(hC i d hd).1 rs (by rw [hi2]; exact hmem), List.nil_append] at this
  exact lists_imp (fun r hr h => ⟨h, (hw.records r (List.mem_append_right _ (List.mem_flatten.2 ⟨rs, mem_starts hmem, hr⟩))).1.2⟩) this

/-- What `Lists` says, without its name. -/
theorem Lists_def (P : Record → Prop) (m : List Rec) (ids : List Nat) (rs : List Record) : Lists P m ids rs ↔
    ∃ kept, kept.Sublist rs ∧ (∀ sub : List Record, sub.Sublist rs → (∀ r ∈ sub, P r) → sub.Sublist kept) ∧
      Pointwise (fun i r => ∃ q, m[i]? = some q ∧ q.type = r.type ∧ q.length = r.data.length ∧ r.data <+: q.data) ids kept :=
  Iff.rfl

theorem lists_all {P : Record → Prop} {m : List Rec} {ids : List Nat} {rs : List Record} (h : Lists P m ids rs) (hp : ∀ r ∈ rs, P r) :
    Pointwise (fun i r => ∃ q, m[i]? = some q ∧ q.type = r.type ∧ q.length = r.data.length ∧ r.data <+: q.data) ids rs := by
  obtain ⟨kept, h1, h2, h3⟩ := h
  rw [h1.eq_of_length_le (h2 rs (List.Sublist.refl _) hp).length_le] at h3
  exact h3

theorem bof_whole {wide : Prop} {r : Record} (h : r.type ∈ bofTypes) : Whole wide r := by
  by_cases hb : r.type = bofType
  · exact .bof hb
  · refine .other ?_
    simp only [bofTypes, List.mem_cons, List.not_mem_nil, or_false] at h
    rcases h with h | h | h | h
    · rw [h]; decide
    · rw [h]; decide
    · rw [h]; decide
    · exact absurd h hb

/-- C88 for BIFF8 workbooks as described by `Workbook.Valid` whose records all have the data their kind needs, followed
by one to four further bytes: the walk ends without an error; the sheets are the declared ones; the records that
describe the workbook are listed under it, and the records of each sheet's substream under that sheet, every one, in
their order, with type, length and data; and all records together are listed with their continuations. -/
theorem C88_complete_partial (abi : Abi) (fmt : Fmt) (fuel : Nat) (w : Workbook) (tail : Bytes) (hw : w.Valid)
    (hn : ∀ d ∈ declared w.globals, d.Narrow ∨ abi.wcharBytes = 2)
    (hg : ∀ r, GlobalRec.other r ∈ w.globals → Whole (abi.wcharBytes = 2) r)
    (hs : ∀ s ∈ w.sheets, ∀ r ∈ s, Whole (abi.wcharBytes = 2) r)
    (hlen : (stream w.records ++ tail).length + 4 ≤ 2 ^ 32) (ht : 0 < tail.length ∧ tail.length ≤ 4)
    (hfuel : w.records.length < fuel ∧ 2 ^ 16 ≤ fuel) :
    ∃ e, ParseStream abi fmt fuel (stream w.records ++ tail) = (e, .ok ()) ∧
      e.sheets.map (fun s => (s.Name, s.kind, s.Visiblity, s.Offset)) =
        (declared w.globals).map (fun d => (d.name.text, d.kind.toNat, d.state.toNat % 4, d.offset)) ∧
      Pointwise (fun i r => ∃ q, e.master[i]? = some q ∧ q.type = r.type ∧ q.length = r.data.length ∧ r.data <+: q.data)
        e.global w.head ∧
      (∀ (i : Nat) d s rs, (declared w.globals)[i]? = some d → e.sheets[i]? = some s → (d.offset, rs) ∈ w.starts →
        Pointwise (fun i r => ∃ q, e.master[i]? = some q ∧ q.type = r.type ∧ q.length = r.data.length ∧ r.data <+: q.data)
          s.children rs) ∧
      e.master.map (fun q => (q.type, q.length, q.data)) = contents w.records := by
  have hwg : ∀ r ∈ w.globals.map GlobalRec.record, Whole (abi.wcharBytes = 2) r ∧ r.type ∉ bofTypes := by
    intro r hr
    obtain ⟨g, hgm, rfl⟩ := List.mem_map.1 hr
    cases g with
    | sheet d =>
      have hd := hw.decls d hgm
      have hv := (hw.records d.record (List.mem_append_left _ (List.mem_cons_of_mem _ hr))).1.2
      exact ⟨Whole.content (c := .sheet d) ⟨hv, hd⟩ (hn d (mem_declared hgm)), by show boundSheetType ∉ bofTypes; decide⟩
    | other r => exact ⟨hg r hgm, (hw.others r hgm).1⟩
  have hws : ∀ r ∈ w.sheets.flatten, Whole (abi.wcharBytes = 2) r ∧ r.type ≠ boundSheetType := by
    intro r hr
    obtain ⟨s, hsm, hr'⟩ := List.mem_flatten.1 hr
    exact ⟨hs s hsm r hr', hw.sheets s hsm r hr'⟩
  obtain ⟨e, he, hgo⟩ := whole_walk (abi := abi) (fmt := fmt) (fuel := fuel) (b := w.bof) (globals := w.globals.map GlobalRec.record)
    (rest := w.sheets.flatten) (tail := tail) hw.bof.1 hw.bof.2.1 hw.bof.2.2 hw.records
    (fun r hr => (List.mem_append.1 hr).elim (fun h => (hwg r h).1) (fun h => (hws r h).1)) (fun r hr => (hwg r hr).2)
    (fun r hr => (hws r hr).2) hlen ht hfuel
  obtain ⟨c1, c2, c3⟩ := C88_sheets_partial abi fmt fuel w tail e hw hn hlen ht hfuel.2 he
  refine ⟨e, he, c1, lists_all c2 ?_, ?_, hgo.master⟩
  · intro r hr
    rcases List.mem_cons.1 hr with rfl | hr
    · exact bof_whole hw.bof.1
    · exact (hwg r hr).1
  · intro i d s rs h1 h2 h3
    exact lists_all (c3 i d s rs h1 h2 h3) (hs rs (mem_starts h3))

/-! ## A workbook with two sheets -/

/-- Two sheets whose declarations stand in the other order than their substreams; the first substream contains an
embedded chart with a substream of its own. -/
def twoSheets : Workbook :=
  { bof := ⟨bofType, [0, 6, 5, 0]⟩
    globals := [.other ⟨0x00E1, [1]⟩, .sheet ⟨65, 0, 0, .narrow b!"Beta"⟩, .sheet ⟨46, 2, 2, .narrow b!"A"⟩, .other ⟨0x000A, []⟩]
    sheets := [[⟨bofType, [0, 6]⟩, ⟨bofType, []⟩, ⟨0x0031, [7]⟩, ⟨0x000A, []⟩], [⟨bofType, [1]⟩, ⟨0x00E5, [3, 4]⟩]] }

theorem twoSheets_valid : twoSheets.Valid := by
  constructor
  · unfold Record.Valid; decide
  · decide
  · intro d hd
    simp only [twoSheets, List.mem_cons, reduceCtorEq, false_or, GlobalRec.sheet.injEq, List.not_mem_nil, or_false] at hd
    rcases hd with rfl | rfl <;> exact ⟨by decide, by decide, fun cs h => by cases h⟩
  · intro r hr
    simp only [twoSheets, List.mem_cons, reduceCtorEq, false_or, GlobalRec.other.injEq, List.not_mem_nil, or_false] at hr
    rcases hr with rfl | rfl <;> decide
  · intro s hs
    simp only [twoSheets, List.mem_cons, List.not_mem_nil, or_false] at hs
    rcases hs with rfl | rfl <;> exact ⟨_, _, rfl, rfl⟩
  · decide
  · decide
  · decide
  · intro d hd
    have hd' : d = ⟨65, 0, 0, .narrow b!"Beta"⟩ ∨ d = ⟨46, 2, 2, .narrow b!"A"⟩ := by simpa [twoSheets, declared] using hd
    rcases hd' with rfl | rfl
    · exact ⟨[⟨bofType, [1]⟩, ⟨0x00E5, [3, 4]⟩], by decide⟩
    · exact ⟨[⟨bofType, [0, 6]⟩, ⟨bofType, []⟩, ⟨0x0031, [7]⟩, ⟨0x000A, []⟩], by decide⟩

/-- The walk through it ends without an error, so that C88 speaks of it. -/
example : (ParseStream Abi.linux Fmt.zero 99 (stream twoSheets.records ++ [0])).2 = .ok () ∧
    (ParseStream Abi.linux Fmt.zero 99 (stream twoSheets.records ++ [0])).1.sheets.map (fun s => (s.Name, s.children)) =
      [(b!"Beta", [9, 10]), (b!"A", [5, 6, 7, 8])] ∧
    (ParseStream Abi.linux Fmt.zero 99 (stream twoSheets.records ++ [0])).1.global = [0, 1, 2, 3, 4] := by decide +kernel

/-- All its records have the data they need, so that the walk is known to end. -/
example (fmt : Fmt) : ∃ e, ParseStream Abi.linux fmt 70000 (stream twoSheets.records ++ [0]) = (e, .ok ()) ∧
    e.master.map (fun q => (q.type, q.length, q.data)) = contents twoSheets.records := by
  obtain ⟨e, h1, _, _, _, h2⟩ := C88_complete_partial Abi.linux fmt 70000 twoSheets [0] twoSheets_valid
    (by
      intro d hd
      have hd' : d = ⟨65, 0, 0, .narrow b!"Beta"⟩ ∨ d = ⟨46, 2, 2, .narrow b!"A"⟩ := by simpa [twoSheets, declared] using hd
      rcases hd' with rfl | rfl <;> exact Or.inl ⟨_, rfl⟩)
    (by
      intro r hr
      simp only [twoSheets, List.mem_cons, reduceCtorEq, false_or, GlobalRec.other.injEq, List.not_mem_nil, or_false] at hr
      rcases hr with rfl | rfl <;> exact .other (by decide))
    (by
      intro s hs r hr
      simp only [twoSheets, List.mem_cons, List.not_mem_nil, or_false] at hs
      rcases hs with rfl | rfl
      · simp only [List.mem_cons, List.not_mem_nil, or_false] at hr
        rcases hr with rfl | rfl | rfl | rfl
        · exact .bof rfl
        · exact .bof rfl
        · exact .other (by decide)
        · exact .other (by decide)
      · simp only [List.mem_cons, List.not_mem_nil, or_false] at hr
        rcases hr with rfl | rfl
        · exact .bof rfl
        · exact .other (by decide))
    (by decide) (by decide) (by decide)
  exact ⟨e, h1, h2⟩

/-- A workbook with a sheet whose name is Russian, on Windows. -/
def russian : SheetDecl := ⟨29, 0, 0, .wide ['Л', 'и', 'с', 'т']⟩

example : russian.Valid ∧ ¬ russian.Narrow ∧
    (ParseStream Abi.windows Fmt.zero 99 (stream [⟨bofType, [0, 6, 5, 0]⟩, russian.record, ⟨0x000A, []⟩,
      ⟨bofType, [0, 6]⟩] ++ [0])).2 = .ok () := by
  refine ⟨⟨by decide, by decide, fun cs h => ?_⟩, ?_, by decide +kernel⟩
  · cases h; decide
  · rintro ⟨bs, h⟩; cases h

/-! ## Where C88 is false -/

/-- The steps of a walk up to a record at which it fails. -/
theorem walk_ub {abi : Abi} {fmt : Fmt} {fuel : Nat} {rest : Bytes} {rs : List Record} {r : Record} {e : Eng} {u : UB}
    (hb : (stream rs ++ (r.bytes ++ rest)).length + 4 ≤ 2 ^ 32) (ht : 0 < rest.length) (hv : ∀ q ∈ rs, q.Valid) (hr : r.Valid)
    (hf : ∀ q ∈ rs, q.type ≠ filePassType) (hn : rs.length < fuel)
    (h : doRecords abi fmt fuel (stream rs ++ (r.bytes ++ rest)).length rs {} = .ok e) (hi : e.index = (stream rs).length)
    (hu : doRecord abi fmt fuel (stream rs ++ (r.bytes ++ rest)).length r e = .ub u) :
    ParseStream abi fmt fuel (stream rs ++ (r.bytes ++ rest)) = (e, .ub u) := by
  obtain ⟨k, hk⟩ : ∃ k, fuel = rs.length + (k + 1) := ⟨fuel - rs.length - 1, by omega⟩
  have hlen := Record.bytes_length r
  have hl := hb
  rw [List.length_append, List.length_append] at hl
  have hw := walk_append (abi := abi) (fmt := fmt) (fuel := fuel) (rest := r.bytes ++ rest) (pre := []) hb
    (by rw [List.length_append]; omega) rs hv hf (k + 1) {} e rfl rfl h
  unfold ParseStream
  rw [← hk] at hw
  rw [hw, walk, if_pos (by rw [hi, List.length_append, List.length_append]; unfold u32; omega),
    stepEngine_at hr (r := r) ⟨stream rs, rest, (List.append_assoc _ _ _).symm, hi.symm⟩ (by omega)
      (by rw [hi, List.length_append, List.length_append]; omega), hu]

/-- C88 is false on Linux of sheets whose names are stored with two bytes for each character, as those with letters
other than Latin ones are: a wide character is four bytes there, and the name is read behind the end of the record. -/
theorem C88_wide_name_wrong (fmt : Fmt) (fuel : Nat) (b r : Record) (offset : Nat) (state kind : UInt8) (name rest : Bytes)
    (n : Nat) (hn : 0 < n ∧ n < 256) (hname : name.length = 2 * n)
    (hr : r = ⟨boundSheetType, leBytes 4 offset ++ [state, kind, UInt8.ofNat n, 1] ++ name⟩)
    (hb : b.type ∈ bofTypes ∧ 2 ≤ b.data.length ∧ bofVersion b.data = 1536) (hbv : b.Valid)
    (hlen : (stream [b] ++ (r.bytes ++ rest)).length + 4 ≤ 2 ^ 32) (ht : 0 < rest.length) (hfuel : 1 < fuel) :
    (ParseStream Abi.linux fmt fuel (stream [b] ++ (r.bytes ++ rest))).2 = .ub .oobRead := by
  obtain ⟨e, h1, p, i⟩ := first_step (abi := Abi.linux) (fmt := fmt) (fuel := fuel)
    (max := (stream [b] ++ (r.bytes ++ rest)).length) hb.1 hb.2.1 hbv.2
  obtain ⟨a1, a2, a3, a4, h4⟩ := length_four (leBytes_length 4 offset)
  have hdata : r.data = a1 :: a2 :: a3 :: a4 :: state :: kind :: UInt8.ofNat n :: 1 :: name := by
    rw [hr, h4]; rfl
  have hval : r.Valid := by
    refine ⟨by rw [hr]; show boundSheetType < _; decide, ?_⟩
    rw [hdata]
    simp only [List.length_cons]
    omega
  rw [walk_ub (u := .oobRead) (e := e) hlen ht (fun q hq => by rw [List.mem_singleton.1 hq]; exact hbv) hval
    (fun q hq => by
      rw [List.mem_singleton.1 hq]
      intro h
      have := hb.1
      rw [h] at this
      revert this
      decide) hfuel (by rw [doRecords, h1, Res.bind_ok]; rfl) (by rw [i]; simp [stream]) ?_]
  have hu : mkBoundSheet8 Abi.linux r.data = .ub .oobRead := by
    have hx : ExtractBits 1 1 1 = .ok 1 := by decide
    have hnn : (UInt8.ofNat n).toNat = n := by rw [UInt8.toNat_ofNat']; exact Nat.mod_eq_of_lt (by omega)
    unfold mkBoundSheet8 ShortXLUnicodeString wideString
    rw [hdata]
    have r1 : rd (a1 :: a2 :: a3 :: a4 :: state :: kind :: UInt8.ofNat n :: 1 :: name) 6 = .ok (UInt8.ofNat n) := rfl
    have r2 : rd (a1 :: a2 :: a3 :: a4 :: state :: kind :: UInt8.ofNat n :: 1 :: name) (u32 (6 + 1)) = .ok 1 := rfl
    have r3 : rdRange (a1 :: a2 :: a3 :: a4 :: state :: kind :: UInt8.ofNat n :: 1 :: name) (u32 (6 + 2)) (n * Abi.linux.wcharBytes) =
        .ub .oobRead := by
      unfold rdRange
      rw [show u32 (6 + 2) = 8 from rfl, show Abi.linux.wcharBytes = 4 from rfl, if_neg (by simp only [List.length_cons]; omega)]
    rw [r1, Res.bind_ok, r2, Res.bind_ok, hx, Res.bind_ok, if_neg (by decide), hnn, r3]
    rfl
  have hc : (Tables.lookup biff8Classes r.type).getD [] = b!"BoundSheet8" := by
    rw [hr]
    show (Tables.lookup biff8Classes boundSheetType).getD [] = _
    decide +kernel
  have hs : ∀ data, simpleView Abi.linux fuel b!"BoundSheet8" data = mkBoundSheet8 Abi.linux data := fun _ => rfl
  unfold doRecord ParseRecord parseVersioned parseBiff8
  rw [if_pos (p.version.trans hb.2.2), hc, if_neg (by decide), if_neg (by decide), if_neg (by decide), if_neg (by decide),
    hs, hu]
  rfl

example : (⟨boundSheetType, leBytes 4 51 ++ [0, 0, UInt8.ofNat 2, 1] ++ [0x53, 4, 0x54, 4]⟩ : Record).data.length = 12 := by
  decide +kernel

/-- C88 is false of workbooks in which a sheet is declared after the substream of another has begun: the record is
added to a sheet that has been moved away (undefined behaviour). -/
theorem C88_late_declaration_wrong : (ParseStream Abi.linux Fmt.zero 99 (stream [⟨bofType, [0, 6]⟩,
    (⟨19, 0, 0, .narrow b!"A"⟩ : SheetDecl).record, ⟨bofType, [0, 6]⟩, (⟨99, 0, 0, .narrow b!"B"⟩ : SheetDecl).record] ++ [0])).2 =
      .ub .dangling := by decide +kernel

end Fileid.Props
