import Verif.Lemmas.RecordsWalk

/-!
# Which records of a workbook are listed in any case
-/

namespace Fileid.Excel

open Common Spec Spec.Biff ExcelTables

/-- The call returns. -/
def Ends {α : Type} (x : Res α) : Prop := ∃ a, x = .ok a

theorem Ends.bind {α β : Type} {x : Res α} {f : α → Res β} (hx : Ends x) (hf : ∀ a, x = .ok a → Ends (f a)) : Ends (x >>= f) := by
  obtain ⟨a, rfl⟩ := hx
  exact hf a rfl

theorem ends_ok {α : Type} (a : α) : Ends (.ok a) := ⟨a, rfl⟩

theorem ends_rd {b : Bytes} {i : Nat} (h : i < b.length) : Ends (rd b i) := ⟨_, rd_lt h⟩

theorem ends_range {b : Bytes} {i n : Nat} (h : i + n ≤ b.length) : Ends (rdRange b i n) := ⟨_, rdRange_ok h⟩

theorem ends_ushort {b : Bytes} {off : Nat} {e : Bool} (h : off + 2 ≤ b.length) (h32 : b.length < 2 ^ 16) :
    Ends (ReadUShort b b.length off e) := by
  have e1 : u32 (off + 1) = off + 1 := Nat.mod_eq_of_lt (by omega)
  unfold ReadUShort
  rw [e1, if_neg (by omega)]
  cases e
  · exact (ends_rd (by omega)).bind fun _ _ => (ends_rd (by omega)).bind fun _ _ => ends_ok _
  · exact (ends_rd (by omega)).bind fun _ _ => (ends_rd (by omega)).bind fun _ _ => ends_ok _

theorem ends_uint {b : Bytes} {off : Nat} {e : Bool} (h : off + 4 ≤ b.length) (h32 : b.length < 2 ^ 16) :
    Ends (ReadUInt b b.length off e) := by
  have e1 : u32 (off + 1) = off + 1 := Nat.mod_eq_of_lt (by omega)
  have e2 : u32 (off + 2) = off + 2 := Nat.mod_eq_of_lt (by omega)
  have e3 : u32 (off + 3) = off + 3 := Nat.mod_eq_of_lt (by omega)
  unfold ReadUInt
  rw [e1, e2, e3, if_neg (by omega)]
  refine (ends_rd (by omega)).bind fun _ _ => (ends_rd (by omega)).bind fun _ _ => (ends_rd (by omega)).bind fun _ _ =>
    (ends_rd (by omega)).bind fun _ _ => ?_
  cases e <;> exact ends_ok _

/-- Goes through a constructor. -/
macro "ends" : tactic =>
  `(tactic| (repeat' first
      | exact ends_ok _
      | (refine Ends.bind (ends_rd (by omega)) fun _ _ => ?_)
      | (refine Ends.bind (ends_range (by omega)) fun _ _ => ?_)
      | (refine Ends.bind (ends_ushort (by omega) (by assumption)) fun _ _ => ?_)
      | (refine Ends.bind (ends_uint (by omega) (by assumption)) fun _ _ => ?_)))

variable {d : Bytes}

theorem ends_winProtect (h : 2 ≤ d.length) (hd : d.length < 2 ^ 16) : Ends (mkWinProtect d) := by unfold mkWinProtect; ends
theorem ends_row (h : 16 ≤ d.length) (hd : d.length < 2 ^ 16) : Ends (mkRow d) := by unfold mkRow; dsimp only; ends
theorem ends_rk (h : 10 ≤ d.length) (hd : d.length < 2 ^ 16) : Ends (mkRK d) := by unfold mkRK; ends
theorem ends_areaFormat (h : 16 ≤ d.length) (hd : d.length < 2 ^ 16) : Ends (mkAreaFormat d) := by unfold mkAreaFormat; dsimp only; ends
theorem ends_blank (h : 6 ≤ d.length) : Ends (mkBlank d) := by unfold mkBlank; rw [if_neg (by omega)]; ends
theorem ends_boolErr (h : 8 ≤ d.length) : Ends (mkBoolErr d) := by
  unfold mkBoolErr
  rw [if_neg (by omega), if_neg (by omega)]
  refine Ends.bind (ends_rd (by omega)) fun _ _ => ?_
  rw [if_neg (by omega)]
  ends
theorem ends_labelSst (h : 10 ≤ d.length) (hd : d.length < 2 ^ 16) (r : Option Rec) : Ends (mkLabelSst d r) := by unfold mkLabelSst; ends

theorem ends_mulBlankLoop (hd : d.length < 2 ^ 16) : ∀ (n i : Nat), i + 2 * n ≤ d.length → Ends (mulBlankLoop d n i) := by
  intro n
  induction n with
  | zero => intro i _; exact ends_ok _
  | succ n ih =>
    intro i h
    unfold mulBlankLoop
    refine Ends.bind (ends_ushort (by omega) hd) fun _ _ => ?_
    rw [show u32 (i + 2) = i + 2 from Nat.mod_eq_of_lt (by omega)]
    exact Ends.bind (ih _ (by omega)) fun _ _ => ends_ok _

theorem ends_alRunsLoop (hd : d.length < 2 ^ 16) : ∀ (n i : Nat), i + 4 * n ≤ d.length → Ends (alRunsLoop d n i) := by
  intro n
  induction n with
  | zero => intro i _; exact ends_ok _
  | succ n ih =>
    intro i h
    unfold alRunsLoop
    refine Ends.bind (ends_ushort (by omega) hd) fun _ _ => ?_
    rw [show u32 (i + 2) = i + 2 from Nat.mod_eq_of_lt (by omega), show u32 (i + 4) = i + 4 from Nat.mod_eq_of_lt (by omega)]
    exact Ends.bind (ends_ushort (by omega) hd) fun _ _ => ih _ (by omega)

theorem flatMap_length {α : Type} {f : α → Bytes} {k : Nat} (hf : ∀ x, (f x).length = k) (l : List α) : (l.flatMap f).length = k * l.length := by
  induction l with
  | nil => simp
  | cons x l ih => rw [List.flatMap_cons, List.length_append, hf, ih, List.length_cons, Nat.mul_add]; omega

theorem ushort_self {a b : Bytes} {v : Nat} (hv : v < 2 ^ 16) (hd : (a ++ (leBytes 2 v ++ b)).length < 2 ^ 16) :
    ReadUShort (a ++ (leBytes 2 v ++ b)) (a ++ (leBytes 2 v ++ b)).length a.length = .ok v :=
  Asf.ushort_at ⟨a, b, by simp, rfl⟩ hv (by omega)

theorem ends_mulBlank {row column : Nat} {formats : List Nat} (h0 : 0 < formats.length) (h1 : column + formats.length < 2 ^ 16)
    (hd : (leBytes 2 row ++ leBytes 2 column ++ formats.flatMap (leBytes 2) ++ leBytes 2 (column + formats.length - 1)).length < 2 ^ 16) :
    Ends (mkMulBlank (leBytes 2 row ++ leBytes 2 column ++ formats.flatMap (leBytes 2) ++ leBytes 2 (column + formats.length - 1))) := by
  have hl : (leBytes 2 row ++ leBytes 2 column ++ formats.flatMap (leBytes 2) ++ leBytes 2 (column + formats.length - 1)).length =
      6 + 2 * formats.length := by
    simp only [List.length_append, leBytes_length, flatMap_length (k := 2) (fun x => leBytes_length 2 x)]
    omega
  have hc : At (leBytes 2 row ++ leBytes 2 column ++ formats.flatMap (leBytes 2) ++ leBytes 2 (column + formats.length - 1)) 2
      (leBytes 2 column) := ⟨leBytes 2 row, formats.flatMap (leBytes 2) ++ leBytes 2 (column + formats.length - 1), by simp, by simp [leBytes_length]⟩
  have hlast : At (leBytes 2 row ++ leBytes 2 column ++ formats.flatMap (leBytes 2) ++ leBytes 2 (column + formats.length - 1))
      (4 + 2 * formats.length) (leBytes 2 (column + formats.length - 1)) :=
    ⟨leBytes 2 row ++ leBytes 2 column ++ formats.flatMap (leBytes 2), [], by simp,
      by simp only [List.length_append, leBytes_length, flatMap_length (k := 2) (fun x => leBytes_length 2 x)]⟩
  generalize leBytes 2 row ++ leBytes 2 column ++ formats.flatMap (leBytes 2) ++ leBytes 2 (column + formats.length - 1) = d at *
  unfold mkMulBlank mulBlankEntries
  refine Ends.bind (ends_ushort (by omega) hd) fun _ _ => ?_
  rw [Asf.ushort_at hc (by omega) (by omega), Res.bind_ok, show sub32 d.length 2 = 4 + 2 * formats.length by unfold sub32; omega,
    Asf.ushort_at hlast (by omega) (by omega), Res.bind_ok,
    show sub32 (column + formats.length - 1 + 1) column = formats.length by unfold sub32; omega]
  exact Ends.bind (ends_mulBlankLoop hd _ _ (by omega)) fun _ _ => ends_ok _

theorem ends_alRuns {runs : List (Nat × Nat)} (h : runs.length < 2 ^ 16)
    (hd : (leBytes 2 runs.length ++ runs.flatMap fun x => leBytes 2 x.1 ++ leBytes 2 x.2).length < 2 ^ 16) :
    Ends (mkAlRuns (leBytes 2 runs.length ++ runs.flatMap fun x => leBytes 2 x.1 ++ leBytes 2 x.2)) := by
  have hl : (leBytes 2 runs.length ++ runs.flatMap fun x => leBytes 2 x.1 ++ leBytes 2 x.2).length = 2 + 4 * runs.length := by
    rw [List.length_append, leBytes_length, flatMap_length (k := 4) (fun x => by simp [leBytes_length])]
  have hc : At (leBytes 2 runs.length ++ runs.flatMap fun x => leBytes 2 x.1 ++ leBytes 2 x.2) 0 (leBytes 2 runs.length) :=
    ⟨[], _, rfl, rfl⟩
  generalize (leBytes 2 runs.length ++ runs.flatMap fun x => leBytes 2 x.1 ++ leBytes 2 x.2) = d at *
  unfold mkAlRuns
  rw [Asf.ushort_at hc (by omega) (by omega), Res.bind_ok]
  exact Ends.bind (ends_alRunsLoop hd _ _ (by omega)) fun _ _ => ends_ok _

theorem ends_supBook {sheets cch : Nat} {rest : Bytes} (hc : cch < 2 ^ 16) (hd : (leBytes 2 sheets ++ leBytes 2 cch ++ rest).length < 2 ^ 16)
    (h : cch = 0x0401 ∧ rest = [] ∨ cch < 2 ^ 8 ∧ cch ≤ rest.length) : Ends (mkSupBook (leBytes 2 sheets ++ leBytes 2 cch ++ rest)) := by
  have hl : (leBytes 2 sheets ++ leBytes 2 cch ++ rest).length = 4 + rest.length := by
    simp only [List.length_append, leBytes_length]
  have hc2 : At (leBytes 2 sheets ++ leBytes 2 cch ++ rest) 2 (leBytes 2 cch) := ⟨leBytes 2 sheets, rest, by simp, by simp [leBytes_length]⟩
  generalize leBytes 2 sheets ++ leBytes 2 cch ++ rest = d at *
  unfold mkSupBook supBookPath
  refine Ends.bind (ends_ushort (by omega) hd) fun _ _ => ?_
  rw [Asf.ushort_at hc2 hc (by omega), Res.bind_ok]
  rcases h with ⟨rfl, rfl⟩ | ⟨h1, h2⟩
  · rw [if_neg (by omega), Res.bind_ok, if_neg (by dsimp only; simp at hl; omega)]
    exact ends_ok _
  · refine Ends.bind ?_ fun _ _ => ?_
    · split
      · refine Ends.bind ?_ fun _ _ => ends_ok _
        unfold ReadString
        rw [show u32 (4 + cch) = 4 + cch from Nat.mod_eq_of_lt (by omega), if_neg (by omega)]
        exact ends_range (by omega)
      · exact ends_ok _
    · rw [if_neg (by omega)]
      exact ends_ok _

theorem ends_externName {abi : Abi} {flags : Nat} {name rest : Bytes} (hn : name.length < 2 ^ 8) (last : Option Rec)
    (hd : (leBytes 2 flags ++ [0, 0, 0, 0, UInt8.ofNat name.length, 0] ++ name ++ rest).length < 2 ^ 16) :
    Ends (mkExternName abi (leBytes 2 flags ++ [0, 0, 0, 0, UInt8.ofNat name.length, 0] ++ name ++ rest) last) := by
  have hl : (leBytes 2 flags ++ [0, 0, 0, 0, UInt8.ofNat name.length, 0] ++ name ++ rest).length = 8 + name.length + rest.length := by
    simp only [List.length_append, leBytes_length, List.length_cons, List.length_nil]
  have h6 : At (leBytes 2 flags ++ [0, 0, 0, 0, UInt8.ofNat name.length, 0] ++ name ++ rest) 6 [UInt8.ofNat name.length, 0] :=
    ⟨leBytes 2 flags ++ [0, 0, 0, 0], name ++ rest, by simp, by simp [leBytes_length]⟩
  generalize leBytes 2 flags ++ [0, 0, 0, 0, UInt8.ofNat name.length, 0] ++ name ++ rest = d at *
  obtain ⟨r6, h7⟩ := at_cons h6
  obtain ⟨r7, -⟩ := at_cons h7
  have hnn : (UInt8.ofNat name.length).toNat = name.length := by
    rw [UInt8.toNat_ofNat']
    exact Nat.mod_eq_of_lt (by omega)
  unfold mkExternName
  repeat' split
  · refine Ends.bind (ends_uint (by omega) hd) fun _ _ => ?_
    refine Ends.bind ?_ fun _ _ => ends_ok _
    unfold ShortXLUnicodeString
    have hx : ExtractBits 0 1 1 = .ok 0 := by decide
    rw [r6, Res.bind_ok, show u32 (6 + 1) = 6 + 1 from rfl, r7, Res.bind_ok, hx, Res.bind_ok, if_pos rfl, hnn]
    exact Ends.bind (ends_range (by unfold u32; omega)) fun _ _ => ends_ok _
  · ends
  · ends

theorem ends_formula {abi : Abi} {fmt : Fmt} {fuel : Nat} {names : Nat → Nat → Option Bytes} {head formula : Bytes} (hh : head.length = 22)
    (hf : IsFormula formula) (hd : (head ++ formula).length < 2 ^ 16) (hfuel : (head ++ formula).length < fuel) :
    Ends (mkFormula abi fmt fuel names (head ++ formula)) := by
  have hform : At (head ++ formula) 22 formula := ⟨head, [], by simp, hh⟩
  have hl : (head ++ formula).length = 22 + formula.length := by rw [List.length_append, hh]
  generalize head ++ formula = d at *
  obtain ⟨num, names', toks, ht, hbs⟩ := hf
  have htoks : toks.length ≤ formula.length := by
    rw [hbs]
    clear hbs hform hl
    induction toks with
    | nil => simp
    | cons t ts ih =>
      rw [List.flatMap_cons, List.length_append, List.length_cons]
      have := token_length (ht t (by simp))
      have := ih fun q hq => ht q (by simp [hq])
      omega
  obtain ⟨ps, hp, -⟩ := rgceLoop_tokens (b := d) (max := d.length) abi ⟨num, fun _ => []⟩ names' (by omega) toks fuel
    22 [] ht (by rw [← hbs]; exact hform) (by rw [← hbs, hl]) (by omega)
  have hR : Rgce.Parse abi fuel d d.length 22 = .ok (ps, formula.length) := by
    unfold Rgce.Parse
    rw [hp, Res.bind_ok]
    dsimp only
    rw [List.nil_append, show sub32 d.length 22 = formula.length by unfold sub32; omega]
  unfold mkFormula
  dsimp only
  refine Ends.bind (ends_ushort (by omega) hd) fun _ _ => Ends.bind (ends_ushort (by omega) hd) fun _ _ =>
    Ends.bind (ends_ushort (by omega) hd) fun _ _ => Ends.bind (ends_range (by omega)) fun _ _ =>
    Ends.bind (ends_ushort (by omega) hd) fun _ _ => Ends.bind (ends_range (by omega)) fun _ _ =>
    Ends.bind (ends_range (by omega)) fun _ _ => Ends.bind (ends_ushort (by omega) hd) fun _ _ => ?_
  rw [hR, Res.bind_ok]
  dsimp only
  unfold RgbExtra
  rw [show u32 (22 + formula.length) = 22 + formula.length from Nat.mod_eq_of_lt (by omega), if_neg (by omega)]
  exact Ends.bind (Ends.bind (ends_range (by omega)) fun _ _ => ends_ok _) fun _ _ => ends_ok _

theorem parse_fresh {abi : Abi} {fmt : Fmt} {fuel type : Nat} {data : Bytes} {e : Eng} (he : e.version = 1536) {x : Res View} (hx : Ends x)
    (h : parseBiff8 abi fmt fuel e type data = fresh e type data x) :
    ∃ v, ParseRecord abi fmt fuel e type data = .ok (some (e.master, Rec.make type data v)) := by
  obtain ⟨v, rfl⟩ := hx
  unfold ParseRecord parseVersioned
  rw [if_pos he, h]
  exact ⟨v, rfl⟩

theorem parse_sized {abi : Abi} {fmt : Fmt} {fuel type n : Nat} {data : Bytes} {e : Eng} (he : e.version = 1536) (hm : e.master ≠ [])
    (h : (type, n) ∈ sizes) (hn : n ≤ data.length) (hd : data.length < 2 ^ 16) :
    ∃ v, ParseRecord abi fmt fuel e type data = .ok (some (e.master, Rec.make type data v)) := by
  simp only [sizes, List.mem_cons, Prod.mk.injEq, List.not_mem_nil, or_false] at h
  rcases h with ⟨rfl, rfl⟩ | ⟨rfl, rfl⟩ | ⟨rfl, rfl⟩ | ⟨rfl, rfl⟩ | ⟨rfl, rfl⟩ | ⟨rfl, rfl⟩ | ⟨rfl, rfl⟩
  · refine parse_fresh he (ends_winProtect hn hd) ?_
    unfold parseBiff8
    rw [show (Tables.lookup biff8Classes 0x0019).getD [] = b!"WinProtect" by decide +kernel]
    rfl
  · have hc : (Tables.lookup biff8Classes 0x00FD).getD [] = b!"LabelSst" := by decide +kernel
    refine parse_fresh he (ends_labelSst hn hd (e.master.reverse.find? (fun r => r.type == 0x00FC))) ?_
    unfold parseBiff8
    dsimp only
    rw [hc, if_neg (by decide), if_neg (by decide), if_pos rfl]
    unfold freshLabelSst Eng.prevOfType
    obtain ⟨v, hv⟩ := ends_uint (b := data) (off := 6) (e := true) (by omega) hd
    rw [hv, Res.bind_ok, if_neg hm]
    rfl
  · refine parse_fresh he (ends_blank hn) ?_
    unfold parseBiff8
    rw [show (Tables.lookup biff8Classes 0x0201).getD [] = b!"Blank" by decide +kernel]
    rfl
  · refine parse_fresh he (ends_boolErr hn) ?_
    unfold parseBiff8
    rw [show (Tables.lookup biff8Classes 0x0205).getD [] = b!"BoolErr" by decide +kernel]
    rfl
  · refine parse_fresh he (ends_row hn hd) ?_
    unfold parseBiff8
    rw [show (Tables.lookup biff8Classes 0x0208).getD [] = b!"Row" by decide +kernel]
    rfl
  · refine parse_fresh he (ends_rk hn hd) ?_
    unfold parseBiff8
    rw [show (Tables.lookup biff8Classes 0x027E).getD [] = b!"RK" by decide +kernel]
    rfl
  · refine parse_fresh he (ends_areaFormat hn hd) ?_
    unfold parseBiff8
    rw [show (Tables.lookup biff8Classes 0x100A).getD [] = b!"AreaFormat" by decide +kernel]
    rfl

/-- A complete record that is no `Continue` record is not lost. -/
theorem parse_whole {abi : Abi} {fmt : Fmt} {fuel : Nat} {r : Record} {e : Eng} (hr : Whole (abi.wcharBytes = 2) r) (hv : r.data.length < 2 ^ 16)
    (hfuel : r.data.length < fuel) (hc : r.type ≠ continueType) (he : e.version = 1536) (hm : e.master ≠ []) :
    ∃ v, ParseRecord abi fmt fuel e r.type r.data = .ok (some (e.master, Rec.make r.type r.data v)) := by
  cases hr with
  | other h => exact ParseRecord_plain abi fmt fuel e r.data h
  | bof h => exact parse_bof abi fmt fuel e r.data h
  | continuation h => exact absurd h hc
  | sized h hn => exact parse_sized he hm h hn hv
  | @formula head formula h20 hf =>
    refine parse_fresh he (ends_formula (abi := abi) (fmt := fmt) (fuel := fuel) (names := e.names) (head := head ++ leBytes 2 formula.length)
      (by rw [List.length_append, leBytes_length, h20]) hf hv hfuel) ?_
    unfold parseBiff8
    rw [show (Tables.lookup biff8Classes 0x0006).getD [] = b!"Formula" by decide +kernel]
    rfl
  | blanks h0 h1 =>
    refine parse_fresh he (ends_mulBlank h0 h1 hv) ?_
    unfold parseBiff8
    rw [show (Tables.lookup biff8Classes 0x00BE).getD [] = b!"MulBlank" by decide +kernel]
    rfl
  | runs h =>
    refine parse_fresh he (ends_alRuns h hv) ?_
    unfold parseBiff8
    rw [show (Tables.lookup biff8Classes 0x1050).getD [] = b!"AlRuns" by decide +kernel]
    rfl
  | @self sheets =>
    have := ends_supBook (sheets := sheets) (cch := 0x0401) (rest := []) (by decide) (by simpa using hv) (Or.inl ⟨rfl, rfl⟩)
    rw [List.append_nil] at this
    refine parse_fresh he this ?_
    unfold parseBiff8
    rw [show (Tables.lookup biff8Classes 0x01AE).getD [] = b!"SupBook" by decide +kernel]
    rfl
  | @book sheets path rest h0 h1 =>
    have := ends_supBook (sheets := sheets) (cch := path.length) (rest := [0] ++ path ++ rest) (by omega) (by simpa using hv)
      (Or.inr ⟨h1, by simp; omega⟩)
    rw [← List.append_assoc, ← List.append_assoc] at this
    refine parse_fresh he this ?_
    unfold parseBiff8
    rw [show (Tables.lookup biff8Classes 0x01AE).getD [] = b!"SupBook" by decide +kernel]
    rfl
  | @extern flags name rest hn =>
    refine parse_fresh he (ends_externName (abi := abi) hn (e.master.reverse.find? (fun r => r.type == 0x01AE)) hv) ?_
    have hcl : (Tables.lookup biff8Classes 0x0023).getD [] = b!"ExternName" := by decide +kernel
    unfold parseBiff8
    dsimp only
    rw [hcl, if_neg (by decide), if_pos rfl]
    unfold freshExternName Eng.prevOfType
    rw [if_neg hm]
    rfl
  | @content c hcv hn => exact ⟨_, content_parse fmt hcv (Report.content_reads hn) hfuel he⟩

theorem lastIdx_some {l : List Rec} {type : Nat} (h : ∃ q ∈ l, q.type ≠ type) : ∃ i, lastIdx (fun q => q.type != type) l = some i := by
  have key : ∃ l1 x l2, l = l1 ++ x :: l2 ∧ x.type ≠ type ∧ ∀ y ∈ l2, y.type = type := by
    induction l with
    | nil => obtain ⟨x, hx, _⟩ := h; cases hx
    | cons z l ihl =>
      by_cases hl : ∃ x ∈ l, x.type ≠ type
      · obtain ⟨l1, x, l2, rfl, h1, h2⟩ := ihl hl
        exact ⟨z :: l1, x, l2, rfl, h1, h2⟩
      · obtain ⟨x, hx, hxt⟩ := h
        rcases List.mem_cons.1 hx with rfl | hx
        · exact ⟨[], x, l, rfl, hxt, fun y hy => Decidable.byContradiction fun hn => hl ⟨y, hy, hn⟩⟩
        · exact absurd ⟨x, hx, hxt⟩ hl
  obtain ⟨l1, x, l2, rfl, h1, h2⟩ := key
  exact ⟨_, lastIdx_split (by simpa using h1) fun y hy => by rw [h2 y hy]; simp⟩

/-- Complete records are not lost. -/
theorem whole_sure {abi : Abi} {fmt : Fmt} {fuel : Nat} (hfuel : 2 ^ 16 ≤ fuel) :
    Sure abi fmt fuel (fun r => Whole (abi.wcharBytes = 2) r ∧ r.data.length < 2 ^ 16) := by
  intro e r he hm hr hp
  by_cases hc : r.type = continueType
  · obtain ⟨i, hi⟩ := lastIdx_some (type := r.type) (by rw [hc]; exact hm)
    rw [parse_continue abi fmt fuel e r.data hc he hi] at hp
    cases hp
  · obtain ⟨q, hq, _⟩ := hm
    obtain ⟨v, hv⟩ := parse_whole (fmt := fmt) (fuel := fuel) hr.1 hr.2 (by omega) hc he (List.ne_nil_of_mem hq)
    rw [hp] at hv
    cases hv

/-! ## Workbooks of complete records -/

/-- The engine behind complete records: all of them are listed, with their continuations. -/
structure Going (done : List Record) (e : Eng) : Prop where
  version : e.version = 1536
  Version : e.Version = some 1536
  master : e.master.map Rec.key = contents done
  first : ∃ r ∈ done, r.type ≠ continueType
  current : ∀ i, e.current ≠ some (i, true)
  index : 4 ≤ e.index

theorem whole_sheet {wide : Prop} {r : Record} (h : Whole wide r) (ht : r.type = boundSheetType) : 6 ≤ r.data.length := by
  cases h with
  | other h => exact absurd (by rw [ht]; decide) h
  | bof h => rw [h] at ht; cases ht
  | continuation h => rw [h] at ht; cases ht
  | sized h =>
    rw [ht] at h
    simp [sizes, boundSheetType] at h
  | @content c hv _ =>
    cases c with
    | sheet d =>
      show 6 ≤ d.record.data.length
      rw [decl_data]
      simp [leBytes_length]
      omega
    | _ => cases ht
  | _ => cases ht

theorem whole_step {abi : Abi} {fmt : Fmt} {fuel max : Nat} {done : List Record} {e : Eng} {r : Record} (he : Going done e)
    (hr : Whole (abi.wcharBytes = 2) r) (hv : r.Valid) (hf : r.type ≠ filePassType) (hfuel : 2 ^ 16 ≤ fuel)
    (hs : r.type = boundSheetType → e.current = none) (hi : e.index + r.bytes.length < 2 ^ 32) :
    ∃ e', doRecord abi fmt fuel max r e = .ok e' ∧ Going (done ++ [r]) e' ∧ e'.index = e.index + r.bytes.length ∧
      (r.type ∉ bofTypes → e.current = none → e'.current = none) := by
  have hi' := hi
  rw [Record.bytes_length] at hi'
  have hm : e.master ≠ [] := by
    intro hn
    obtain ⟨x, hx, _⟩ := he.first
    have := congrArg List.length he.master
    rw [hn, contents_length] at this
    rw [List.eq_nil_of_length_eq_zero this.symm] at hx
    cases hx
  have key : ∃ m v, ParseRecord abi fmt fuel { e with index := u32 (e.index + 4) } r.type r.data =
        .ok (some (m, Rec.make r.type r.data v)) ∧ (m.map Rec.key) ++ [own r] = contents (done ++ [r]) := by
    by_cases hc : r.type = continueType
    · obtain ⟨i, hl, hm⟩ := continue_master he.master hc he.first
      exact ⟨_, _, parse_continue abi fmt fuel { e with index := u32 (e.index + 4) } r.data hc he.version hl, hm⟩
    · obtain ⟨v, hp⟩ := parse_whole (fmt := fmt) (fuel := fuel) (e := { e with index := u32 (e.index + 4) }) hr hv.2
        (by have := hv.2; omega) hc he.version hm
      refine ⟨_, v, hp, ?_⟩
      rw [contents_snoc hc]
      exact congrArg (· ++ [own r]) he.master
  obtain ⟨m, v, hp, hmk⟩ := key
  -- what the record does
  have heff : ∃ e1, effect { e with index := u32 (e.index + 4), master := m } max (Rec.make r.type r.data v) = .ok e1 ∧
      (∀ i, e1.current ≠ some (i, true)) ∧ (r.type ∉ bofTypes → e.current = none → e1.current = none) := by
    unfold effect
    rw [show (Rec.make r.type r.data v).type = r.type from rfl]
    have h4 := he.index
    by_cases hb : isBofType r.type = true
    · rw [if_pos hb, if_neg (by dsimp only; unfold u32; omega)]
      refine ⟨_, rfl, ?_, fun h => absurd (isBof_cases hb) h⟩
      unfold subStreamBof
      rw [if_pos (show Eng.version { e with index := u32 (e.index + 4), master := m } = 1536 from he.version)]
      split
      · intro i h; cases h
      · exact he.current
    · rw [if_neg hb]
      by_cases h85 : r.type = 0x85
      · rw [if_pos h85]
        unfold boundSheet
        rw [if_pos (show Eng.version { e with index := u32 (e.index + 4), master := m } = 1536 from he.version),
          show (Rec.make r.type r.data v).data = r.data from rfl, rdRange_ok (by have := whole_sheet hr h85; omega), Res.bind_ok]
        have hn := hs h85
        refine ⟨_, rfl, ?_, ?_⟩
        · intro i
          unfold pushSheet
          dsimp only
          rw [hn]
          split <;> (intro h; cases h)
        · intro _ _
          unfold pushSheet
          dsimp only
          rw [hn]
          split <;> rfl
      · rw [if_neg h85, if_neg (show ¬ r.type = 0x2F from hf)]
        exact ⟨_, rfl, he.current, fun _ h => h⟩
  obtain ⟨e1, h1, hcur, hnone⟩ := heff
  have hadd : ∃ e2, addRecord e1 (Rec.make r.type r.data v) = .ok e2 ∧ e2.current = e1.current := by
    unfold addRecord
    cases hc : e1.current with
    | none => exact ⟨_, rfl, rfl⟩
    | some c =>
      obtain ⟨i, b⟩ := c
      cases b with
      | true => exact absurd hc (hcur i)
      | false => exact ⟨_, rfl, rfl⟩
  obtain ⟨e2, h2, hc2⟩ := hadd
  have hdo : doRecord abi fmt fuel max r e = .ok { e2 with index := u32 (e2.index + r.data.length) } := by
    unfold doRecord
    rw [hp, Res.bind_ok]
    dsimp only
    rw [h1, Res.bind_ok, h2, Res.bind_ok]
  have hidx := doRecord_index hf hi hdo
  obtain ⟨x1, x2⟩ := effect_version (by have := he.index; dsimp only; unfold u32; omega) h1
  obtain ⟨y1, y2⟩ := addRecord_version h2
  refine ⟨_, hdo, ⟨?_, ?_, ?_, ?_, ?_, ?_⟩, hidx, ?_⟩
  · exact y1.trans (x1.trans he.version)
  · exact y2.trans (x2.trans he.Version)
  · show e2.master.map Rec.key = _
    rw [addRecord_master h2, effect_master h1, List.map_append, ← hmk]
    rfl
  · obtain ⟨q, hq, hn⟩ := he.first
    exact ⟨q, List.mem_append_left _ hq, hn⟩
  · intro i
    show e2.current ≠ _
    rw [hc2]
    exact hcur i
  · rw [hidx]
    have := he.index
    omega
  · intro a b
    show e2.current = none
    rw [hc2]
    exact hnone a b

theorem whole_steps {abi : Abi} {fmt : Fmt} {fuel max : Nat} (hfuel : 2 ^ 16 ≤ fuel) (rs : List Record) : ∀ (done : List Record) (e : Eng),
    Going done e → (∀ r ∈ rs, Whole (abi.wcharBytes = 2) r ∧ r.Valid ∧ r.type ≠ filePassType) →
    ((∀ r ∈ rs, r.type ≠ boundSheetType) ∨ e.current = none ∧ ∀ r ∈ rs, r.type ∉ bofTypes) → e.index + (stream rs).length < 2 ^ 32 →
    ∃ e', doRecords abi fmt fuel max rs e = .ok e' ∧ Going (done ++ rs) e' ∧ e'.index = e.index + (stream rs).length := by
  induction rs with
  | nil => intro done e he _ _ _; exact ⟨e, rfl, by rw [List.append_nil]; exact he, rfl⟩
  | cons r rs ih =>
    intro done e he hs hc hi
    rw [stream_cons, List.length_append] at hi ⊢
    obtain ⟨w1, w2, w3⟩ := hs r (by simp)
    obtain ⟨e1, h1, p1, i1, c1⟩ := whole_step (fmt := fmt) (max := max) he w1 w2 w3 hfuel
      (fun ht => by
        rcases hc with hc | hc
        · exact absurd ht (hc r (by simp))
        · exact hc.1) (by omega)
    obtain ⟨e2, h2, p2, i2⟩ := ih (done ++ [r]) e1 p1 (fun q hq => hs q (by simp [hq]))
      (by
        rcases hc with hc | hc
        · exact Or.inl fun q hq => hc q (by simp [hq])
        · exact Or.inr ⟨c1 (hc.2 r (by simp)) hc.1, fun q hq => hc.2 q (by simp [hq])⟩) (by rw [i1]; omega)
    refine ⟨e2, by rw [doRecords, h1, Res.bind_ok, h2], ?_, by rw [i2, i1]; omega⟩
    rw [List.append_assoc, List.singleton_append] at p2
    exact p2

/-- The walk through a workbook of complete records. -/
theorem whole_walk {abi : Abi} {fmt : Fmt} {fuel : Nat} {b : Record} {globals rest : List Record} {tail : Bytes} (hb : b.type ∈ bofTypes)
    (hd : 2 ≤ b.data.length) (hver : bofVersion b.data = 0x0600) (hv : ∀ r ∈ b :: globals ++ rest, r.Valid ∧ r.type ≠ filePassType)
    (hw : ∀ r ∈ globals ++ rest, Whole (abi.wcharBytes = 2) r) (hg : ∀ r ∈ globals, r.type ∉ bofTypes)
    (hr : ∀ r ∈ rest, r.type ≠ boundSheetType) (hlen : (stream (b :: globals ++ rest) ++ tail).length + 4 ≤ 2 ^ 32)
    (ht : 0 < tail.length ∧ tail.length ≤ 4) (hfuel : (b :: globals ++ rest).length < fuel ∧ 2 ^ 16 ≤ fuel) :
    ∃ e, ParseStream abi fmt fuel (stream (b :: globals ++ rest) ++ tail) = (e, .ok ()) ∧ Going (b :: globals ++ rest) e := by
  have hl : b.bytes.length + (stream globals).length + (stream rest).length < 2 ^ 32 := by
    rw [List.length_append, List.cons_append, stream_cons, stream_append, List.length_append, List.length_append] at hlen
    omega
  obtain ⟨e1, h1, p1, i1⟩ := first_step (abi := abi) (fmt := fmt) (fuel := fuel)
    (max := (stream (b :: globals ++ rest) ++ tail).length) hb hd (hv b (by simp)).1.2
  have g1 : Going [b] e1 := ⟨p1.version.trans hver, by rw [p1.Version, hver], p1.master, p1.first, fun i => by rw [p1.current]; simp, p1.moved⟩
  obtain ⟨e2, h2, g2, i2⟩ := whole_steps (abi := abi) (fmt := fmt) (max := (stream (b :: globals ++ rest) ++ tail).length) hfuel.2 globals [b] e1 g1
    (fun r hr => ⟨hw r (by simp [hr]), hv r (by simp [hr])⟩) (Or.inr ⟨p1.current, hg⟩) (by rw [i1]; omega)
  obtain ⟨e3, h3, g3, i3⟩ := whole_steps (abi := abi) (fmt := fmt) (max := (stream (b :: globals ++ rest) ++ tail).length) hfuel.2 rest _ e2 g2
    (fun r hr => ⟨hw r (by simp [hr]), hv r (by simp [hr])⟩) (Or.inl hr) (by rw [i2, i1]; omega)
  have hrun : doRecords abi fmt fuel (stream (b :: globals ++ rest) ++ tail).length (b :: globals ++ rest) {} = .ok e3 := by
    rw [List.cons_append, doRecords, ← List.cons_append, h1, Res.bind_ok, doRecords_append, h2, Res.bind_ok, h3]
  refine ⟨e3, ?_, g3⟩
  exact walk_ok (pre := []) hlen ht _ (fun r hr => (hv r hr).1) (fun r hr => (hv r hr).2) fuel {} e3 hfuel.1 rfl rfl hrun
    (by rw [i3, i2, i1, List.cons_append, stream_cons, stream_append]; simp; omega)

end Fileid.Excel
