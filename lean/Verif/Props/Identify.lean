import Verif.Lemmas.Identify

/-!
# Identification (C01 - C07) and the format argument (C24)
-/

namespace Fileid.Props

open Common Spec Magic

/-! ## C01 signature match -/

/-- C01: the check answers yes exactly when the whole signature stands in the buffer at the offset; it
answers for every 32-bit offset, without leaving either buffer. -/
theorem C01_signature_match (buffer sig : Bytes) (offset : Nat) (hb : buffer.length < 2 ^ 63)
    (hoff : offset < 2 ^ 32) :
    (At buffer offset sig ↔ checkMagic buffer buffer.length sig sig.length offset = .ok true) ∧
    (¬ At buffer offset sig ↔ checkMagic buffer buffer.length sig sig.length offset = .ok false) := by
  rw [checkMagic_eq buffer sig offset hb hoff]
  simp

example : checkMagic b!"xxGIFyy" 7 b!"GIF" 3 2 = .ok true ∧ checkMagic b!"xxGI" 4 b!"GIF" 3 2 = .ok false ∧
    checkMagic b!"GI" 2 b!"GIF" 3 0 = .ok false := by decide

/-! ## C03 read-ahead window -/

/-- C03: for every argument in 1..2^31 the rounding helper returns the least power of two that is not below
the argument. -/
theorem C03_round_up_least (x : Nat) (h1 : 1 ≤ x) (h2 : x ≤ 2 ^ 31) :
    ∃ k, roundUpPowerOfTwo x = 2 ^ k ∧ x ≤ 2 ^ k ∧ ∀ j, x ≤ 2 ^ j → 2 ^ k ≤ 2 ^ j := by
  obtain ⟨k, hk, hx, hl, he⟩ := roundUp_eq x h1 (by omega)
  have hk31 : k ≤ 31 := by
    apply Classical.byContradiction
    intro hc
    have h32 : k = 31 + 1 := by omega
    have := hl 31 h32; omega
  have hp : 2 ^ k ≤ 2 ^ 31 := Nat.pow_le_pow_right (by omega) hk31
  refine ⟨k, ?_, hx, ?_⟩
  · rw [he]; unfold u32; omega
  · intro j hj
    apply Nat.pow_le_pow_right (by omega)
    apply Classical.byContradiction
    intro hc
    have h1 := hl (k - 1) (by omega)
    have : 2 ^ j ≤ 2 ^ (k - 1) := Nat.pow_le_pow_right (by omega) (by omega)
    omega

/-- C03, remaining 32-bit arguments: 0 and everything above 2^31 give 0. -/
theorem C03_round_up_rest (x : Nat) (h : x = 0 ∨ (2 ^ 31 < x ∧ x < 2 ^ 32)) : roundUpPowerOfTwo x = 0 := by
  rcases h with rfl | ⟨h1, h2⟩
  · decide
  · obtain ⟨k, hk, hx, hl, he⟩ := roundUp_eq x (by omega) (by omega)
    have : k = 32 := by
      apply Classical.byContradiction
      intro hc
      have : 2 ^ k ≤ 2 ^ 31 := Nat.pow_le_pow_right (by omega) (by omega)
      omega
    rw [he, this]; decide

/-- C03: whatever the signature table (entries ending at or below 2^31), the window is a power of two, at
least 512 bytes, and covers every entry; and it is the smallest such power of two. -/
theorem C03_window (list : List MagicInfo) (hend : ∀ mi ∈ list, mi.offset + mi.size ≤ 2 ^ 31) :
    ∃ k, getMinimumBufferSize list = 2 ^ k ∧ 512 ≤ 2 ^ k ∧ (∀ mi ∈ list, mi.offset + mi.size ≤ 2 ^ k) ∧
      (∀ j, 512 ≤ 2 ^ j → (∀ mi ∈ list, mi.offset + mi.size ≤ 2 ^ j) → 2 ^ k ≤ 2 ^ j) := by
  have hend' : ∀ mi ∈ list, mi.size + mi.offset < 2 ^ 32 := fun mi h => by have := hend mi h; omega
  obtain ⟨g1, g2, g3⟩ := foldl_max_spec list 512 hend'
  unfold getMinimumBufferSize
  simp only []
  generalize list.foldl (fun ans mi => if u32 (mi.size + mi.offset) > ans then u32 (mi.size + mi.offset)
    else ans) 512 = m at *
  have hm : m ≤ 2 ^ 31 := by
    rcases g3 with g3 | ⟨mi, hmi, g3⟩
    · omega
    · have := hend mi hmi; omega
  obtain ⟨k, e, hle, hleast⟩ := C03_round_up_least m (by omega) hm
  refine ⟨k, e, by omega, fun mi hmi => by have := g2 mi hmi; omega, ?_⟩
  intro j h512 hall
  apply hleast
  rcases g3 with g3 | ⟨mi, hmi, g3⟩
  · omega
  · have := hall mi hmi; omega

/-- C03 for the program's own table: the hypothesis holds, and the window is 65536 bytes. -/
theorem C03_window_table : (∀ mi ∈ table, mi.offset + mi.size ≤ 2 ^ 31) ∧
    getMinimumBufferSize table = 65536 := by
  constructor <;> decide +kernel

example : roundUpPowerOfTwo 513 = 1024 ∧ roundUpPowerOfTwo 512 = 512 := by decide

/-! ## C02 identification -/

/-- What one matching table row contributes to the report: the extractor's result if it names one, else one
item with the row's extension, name and version text. -/
def contribution (D : Dispatch) (file : File) (buffer : Bytes) (mi : MagicInfo) : Res (List Item) :=
  match mi.extraFunc with
  | some d => D d file buffer
  | none => .ok [Item.generic { Extension := mi.Extension, Name := mi.Name, SubType := mi.Version }]

/-- Runs the contributions in order and concatenates them; the first failure is the overall result. -/
def collect (D : Dispatch) (file : File) (buffer : Bytes) : List MagicInfo → Res (List Item)
  | [] => .ok []
  | mi :: rest => do
    let a ← contribution D file buffer mi
    let b ← collect D file buffer rest
    .ok (a ++ b)

/-- A table row is well-formed: its size field is the length of its signature, which is not empty, and it
ends inside the window. -/
def rowOk (window : Nat) (mi : MagicInfo) : Bool :=
  mi.size == mi.magic.length && 0 < mi.size && decide (mi.offset + mi.size ≤ window)

theorem table_rows_ok : ∀ mi ∈ table, rowOk 65536 mi = true := by decide +kernel

theorem guessLoop_eq (D : Dispatch) (file : File) (buffer : Bytes) (w : Nat) (hw : w ≤ 65536)
    (hbuf : buffer.length ≤ w) (list : List MagicInfo) (hrows : ∀ mi ∈ list, rowOk 65536 mi = true)
    (ans : List Item) :
    guessLoop D file buffer list ans =
      (collect D file buffer (list.filter fun mi => decide (At buffer mi.offset mi.magic)) >>= fun l =>
        .ok (ans ++ l)) := by
  induction list generalizing ans with
  | nil => simp [guessLoop, collect]
  | cons mi rest ih =>
    have hok := hrows mi (by simp)
    simp only [rowOk, Bool.and_eq_true, beq_iff_eq, decide_eq_true_eq] at hok
    obtain ⟨⟨hsz, _⟩, hend⟩ := hok
    have hu : u32 buffer.length = buffer.length := by unfold u32; omega
    rw [guessLoop, hu, hsz, checkMagic_eq buffer mi.magic mi.offset (by omega) (by omega), Res.bind_ok]
    have ihr := fun a => ih (fun mi h => hrows mi (by simp [h])) a
    by_cases hat : At buffer mi.offset mi.magic
    · rw [if_pos (by simpa using hat), List.filter_cons_of_pos (by simpa using hat), collect]
      unfold contribution
      cases hx : mi.extraFunc with
      | some d =>
        simp only []
        cases D d file buffer with
        | ok l =>
          simp only [Res.bind_ok, ihr]
          cases collect D file buffer (rest.filter _) <;> simp
        | throw e => simp
        | ub u => simp
        | fuel => simp
      | none =>
        simp only [Res.bind_ok, ihr]
        have hv : (if mi.Version.length > 0 then mi.Version else []) = mi.Version := by
          cases mi.Version <;> simp
        rw [hv]
        cases collect D file buffer (rest.filter _) <;> simp
    · rw [if_neg (by simpa using hat), List.filter_cons_of_neg (by simpa using hat), ihr]

/-- C02: for a readable file shorter than 4 GiB, the report of the first identification is, in table order,
the contributions of exactly those table rows whose signature stands in the file at the row's offset.
Extractors are arbitrary; they get the file and its first 65536 bytes. -/
theorem C02_identification (D : Dispatch) (content : Bytes) (hlen : content.length < 2 ^ 32) :
    (guessExtension D [] (some content)).2 =
      collect D (some content) (content.take 65536)
        (table.filter fun mi => decide (At content mi.offset mi.magic)) := by
  unfold guessExtension
  simp only [List.nil_append]
  rw [C03_window_table.2]
  have hrd : readFile (some content) 65536 = content.take 65536 := by
    unfold readFile u32
    simp only []
    split
    · rw [Nat.mod_eq_of_lt hlen, List.take_of_length_le (Nat.le_refl _), List.take_of_length_le (by omega)]
    · rfl
  rw [hrd]
  have hf : (table.filter fun mi => decide (At (content.take 65536) mi.offset mi.magic)) =
      table.filter fun mi => decide (At content mi.offset mi.magic) := by
    apply List.filter_congr
    intro mi hmi
    have hok := table_rows_ok mi hmi
    simp only [rowOk, Bool.and_eq_true, beq_iff_eq, decide_eq_true_eq] at hok
    rw [decide_eq_decide]
    exact at_take_iff _ _ _ _ (by omega)
  by_cases h0 : (content.take 65536).length > 0
  · rw [if_pos h0, guessLoop_eq D _ _ 65536 (by omega) (by rw [List.length_take]; omega) table table_rows_ok, hf]
    cases collect D (some content) (content.take 65536) _ <;> simp
  · rw [if_neg h0]
    have hc : content = [] := by
      cases content with
      | nil => rfl
      | cons x xs => simp at h0
    have : (table.filter fun mi => decide (At content mi.offset mi.magic)) = [] := by
      rw [List.filter_eq_nil_iff]
      intro mi hmi hat
      have hok := table_rows_ok mi hmi
      simp only [rowOk, Bool.and_eq_true, beq_iff_eq, decide_eq_true_eq] at hok
      have := (of_decide_eq_true hat).length_le
      rw [hc] at this
      simp at this
      simp [this] at hok
      omega
    rw [this]; rfl

example : (table.filter fun mi => decide (At b!"GIF89a..." mi.offset mi.magic)).map (·.Extension) = [b!"gif"] := by
  decide +kernel

/-- C02, item view: when all extractors answer normally, an item is reported if and only if some matching
row contributes it. -/
theorem C02_sound_and_complete (D : Dispatch) (content : Bytes) (hlen : content.length < 2 ^ 32)
    (items : List Item) (h : (guessExtension D [] (some content)).2 = .ok items) (it : Item) :
    it ∈ items ↔ ∃ mi ∈ table, At content mi.offset mi.magic ∧
      ∃ l, contribution D (some content) (content.take 65536) mi = .ok l ∧ it ∈ l := by
  rw [C02_identification D content hlen] at h
  have key : ∀ (ms : List MagicInfo) (items : List Item),
      collect D (some content) (content.take 65536) ms = .ok items →
      (it ∈ items ↔ ∃ mi ∈ ms, ∃ l, contribution D (some content) (content.take 65536) mi = .ok l ∧ it ∈ l) := by
    intro ms
    induction ms with
    | nil => intro items h; simp [collect] at h; simp [h]
    | cons m ms ih =>
      intro items h
      rw [collect] at h
      cases ha : contribution D (some content) (content.take 65536) m with
      | ok a =>
        cases hb : collect D (some content) (content.take 65536) ms with
        | ok b =>
          simp only [ha, hb, Res.bind_ok] at h
          injection h with h
          rw [← h, List.mem_append, ih b hb]
          constructor
          · rintro (h | ⟨mi, hmi, l, hl, hit⟩)
            · exact ⟨m, by simp, a, ha, h⟩
            · exact ⟨mi, by simp [hmi], l, hl, hit⟩
          · rintro ⟨mi, hmi, l, hl, hit⟩
            rcases List.mem_cons.1 hmi with rfl | hmi
            · rw [ha] at hl; injection hl with hl; left; rw [hl]; exact hit
            · right; exact ⟨mi, hmi, l, hl, hit⟩
        | throw e => simp [ha, hb] at h
        | ub u => simp [ha, hb] at h
        | fuel => simp [ha, hb] at h
      | throw e => simp [ha] at h
      | ub u => simp [ha] at h
      | fuel => simp [ha] at h
  rw [key _ _ h]
  constructor
  · rintro ⟨mi, hmi, l⟩
    rw [List.mem_filter] at hmi
    exact ⟨mi, hmi.1, of_decide_eq_true hmi.2, l⟩
  · rintro ⟨mi, hmi, hat, l⟩
    exact ⟨mi, List.mem_filter.2 ⟨hmi, decide_eq_true hat⟩, l⟩

/-! ## C04 at least one item -/

/-- C04: whatever the file and the extractors, a run that ends normally reports at least one item; the
fallback is reported exactly when identification found nothing, and then alone. -/
theorem C04_at_least_one (D : Dispatch) (file : File) (items : List Item)
    (h : reportItems D file = .ok items) :
    items ≠ [] ∧
    ∃ found, (guessExtension D [] file).2 = .ok found ∧
      (found = [] → items = [UnknownExtension file]) ∧ (found ≠ [] → items = found) := by
  unfold reportItems at h
  cases hg : (guessExtension D [] file).2 with
  | ok found =>
    rw [hg, Res.bind_ok] at h
    by_cases h0 : found.length = 0
    · rw [if_pos h0] at h
      injection h with h
      have : found = [] := List.eq_nil_of_length_eq_zero h0
      refine ⟨by rw [← h]; simp, found, rfl, fun _ => by rw [← h, this]; rfl, fun hn => absurd this hn⟩
    · rw [if_neg h0] at h
      injection h with h
      have hne : found ≠ [] := fun h' => h0 (by rw [h']; rfl)
      exact ⟨by rw [← h]; exact hne, found, rfl, fun h' => absurd h' hne, fun _ => h.symm⟩
  | throw e => rw [hg] at h; simp at h
  | ub u => rw [hg] at h; simp at h
  | fuel => rw [hg] at h; simp at h

/-- C04 on content: a readable non-empty file below 4 GiB in which no signature occurs gets exactly the
`unknown` item, with its first 512 bytes as sample. -/
theorem C04_unknown (D : Dispatch) (content : Bytes) (hlen : content.length < 2 ^ 32) (hne : content ≠ [])
    (hno : ∀ mi ∈ table, ¬ At content mi.offset mi.magic) :
    reportItems D (some content) = .ok [unknownItem (content.take 512)] := by
  have hf : (table.filter fun mi => decide (At content mi.offset mi.magic)) = [] := by
    rw [List.filter_eq_nil_iff]
    intro mi hmi hat
    exact hno mi hmi (of_decide_eq_true hat)
  have hg := C02_identification D content hlen
  rw [hf] at hg
  unfold reportItems
  rw [hg]
  have hrd : readFile (some content) 512 = content.take 512 := by
    unfold readFile u32
    simp only []
    split
    · rw [Nat.mod_eq_of_lt hlen, List.take_of_length_le (Nat.le_refl _), List.take_of_length_le (by omega)]
    · rfl
  have hpos : (content.take 512).length > 0 := by
    cases content with
    | nil => exact absurd rfl hne
    | cons x xs => simp
  simp [collect, UnknownExtension, hrd, hne]

/-- No signature occurs in this text, so the hypotheses of `C04_unknown` can be met. -/
example : ∀ mi ∈ table, ¬ At b!"no signature here" mi.offset mi.magic := by decide +kernel

/-! ## C05 empty files -/

/-- C05 for readable files below 4 GiB, provided no extractor itself reports the extension `empty`.
Missing: absent files and files of 4 GiB, for which it is false (`C05_absent_reported_empty`,
`C05_4GiB_reported_empty`). -/
theorem C05_empty_iff_partial (D : Dispatch)
    (hD : ∀ d f b l, D d f b = .ok l → ∀ it ∈ l, it.info.Extension ≠ b!"empty")
    (content : Bytes) (hlen : content.length < 2 ^ 32) (items : List Item)
    (h : reportItems D (some content) = .ok items) :
    (∃ it ∈ items, it.info.Extension = b!"empty") ↔ content = [] := by
  obtain ⟨hne, found, hg, h1, h2⟩ := C04_at_least_one D (some content) items h
  constructor
  · rintro ⟨it, hit, hext⟩
    by_cases hf : found = []
    · rw [h1 hf] at hit
      simp only [List.mem_singleton] at hit
      subst hit
      unfold UnknownExtension at hext
      simp only [] at hext
      by_cases h0 : (readFile (some content) 512).length > 0
      · rw [if_pos h0] at hext
        simp [unknownItem] at hext
      · cases content with
        | nil => rfl
        | cons x xs =>
          exfalso; apply h0
          unfold readFile u32
          simp only []
          rw [Nat.mod_eq_of_lt hlen]
          split <;> simp
    · exfalso
      rw [h2 hf] at hit
      obtain ⟨mi, hmi, _, l, hl, hitl⟩ := (C02_sound_and_complete D content hlen found hg it).1 hit
      unfold contribution at hl
      cases hx : mi.extraFunc with
      | some d => rw [hx] at hl; exact hD d _ _ l hl it hitl hext
      | none =>
        rw [hx] at hl
        injection hl with hl
        rw [← hl] at hitl
        simp only [List.mem_singleton] at hitl
        rw [hitl] at hext
        have : ∀ mi ∈ table, mi.Extension ≠ b!"empty" := by decide +kernel
        exact this mi hmi hext
  · rintro rfl
    have hg' := C02_identification D [] (by decide)
    have hn : (table.filter fun mi => decide (At [] mi.offset mi.magic)) = [] := by decide +kernel
    rw [hn, hg] at hg'
    simp only [collect, Res.ok.injEq] at hg'
    rw [h1 hg']
    exact ⟨emptyItem, by simp [UnknownExtension, readFile, u32], rfl⟩

/-- The hypothesis on extractors can be met. -/
example : ∃ D : Dispatch, ∀ d f b l, D d f b = .ok l → ∀ it ∈ l, it.info.Extension ≠ b!"empty" :=
  ⟨fun _ _ _ => .ok [], fun _ _ _ l h it hit => by injection h with h; rw [← h] at hit; simp at hit⟩

/-- C05 is false of the code: a path that cannot be opened is reported as an empty file. -/
theorem C05_absent_reported_empty (D : Dispatch) : reportItems D none = .ok [emptyItem] := by
  simp [reportItems, guessExtension, readFile, UnknownExtension]

/-- C05 is false of the code: every file of exactly 4 GiB is reported as an empty file. -/
theorem C05_4GiB_reported_empty (D : Dispatch) (content : Bytes) (h : content.length = 2 ^ 32) :
    reportItems D (some content) = .ok [emptyItem] := by
  simp [reportItems, guessExtension, readFile, UnknownExtension, u32, h, C03_window_table.2]

example : ∃ content : Bytes, content.length = 2 ^ 32 := ⟨List.replicate (2 ^ 32) 7, List.length_replicate⟩

/-! ## C06 reading a prefix -/

/-- C06 for files below 4 GiB, and for files that cannot be opened. Missing: files of 4 GiB and more, for
which it is false (`C06_4GiB_wrong`). -/
theorem C06_read_prefix_partial (f : File) (max : Nat) (hlen : ∀ c, f = some c → c.length < 2 ^ 32) :
    readFile f max = (match f with | none => [] | some c => c.take (min max c.length)) := by
  cases f with
  | none => rfl
  | some c =>
    have := hlen c rfl
    unfold readFile u32
    simp only []
    rw [Nat.mod_eq_of_lt this]
    split
    · rw [Nat.min_eq_right (by omega)]
    · rw [Nat.min_eq_left (by omega)]

example : readFile (some b!"abcdef") 4 = b!"abcd" := by decide

/-- C06, for every file: what is read is the prefix of length `min max (length mod 2^32)`. -/
theorem C06_read_prefix_modulo (c : Bytes) (max : Nat) :
    readFile (some c) max = c.take (min max (c.length % 2 ^ 32)) := by
  unfold readFile u32
  simp only []
  split
  · rw [Nat.min_eq_right (by omega)]
  · rw [Nat.min_eq_left (by omega)]

/-- C06 is false of the code for large files. -/
theorem C06_4GiB_wrong : ¬ ∀ (c : Bytes) (max : Nat), readFile (some c) max = c.take (min max c.length) := by
  intro h
  have h1 := h (List.replicate (2 ^ 32) 7) 1
  rw [C06_read_prefix_modulo, List.length_replicate] at h1
  have h2 := congrArg List.length h1
  rw [List.length_take, List.length_take, List.length_replicate] at h2
  omega

/-! ## C07 repeated identification -/

/-- The process state after identifying the given files one after the other. -/
def afterCalls (D : Dispatch) : List File → List MagicInfo → List MagicInfo
  | [], list => list
  | f :: fs, list => afterCalls D fs (guessExtension D list f).1

theorem afterCalls_eq (D : Dispatch) (fs : List File) (list : List MagicInfo) :
    afterCalls D fs list = list ++ (List.replicate fs.length table).flatten := by
  induction fs generalizing list with
  | nil => simp [afterCalls]
  | cons f fs ih =>
    rw [afterCalls, ih]
    simp [guessExtension, List.replicate_succ]

theorem window_copies (k : Nat) : getMinimumBufferSize ((List.replicate (k + 1) table).flatten) = 65536 := by
  have h1 : ∀ mi ∈ (List.replicate (k + 1) table).flatten, mi.offset + mi.size ≤ 2 ^ 31 := by
    intro mi hmi
    rw [List.mem_flatten] at hmi
    obtain ⟨l, hl, hmi⟩ := hmi
    rw [List.eq_of_mem_replicate hl] at hmi
    exact C03_window_table.1 mi hmi
  obtain ⟨a, ea, a1, a2, a3⟩ := C03_window _ h1
  obtain ⟨b, eb, b1, b2, b3⟩ := C03_window table C03_window_table.1
  rw [ea]
  rw [C03_window_table.2] at eb
  rw [eb]
  apply Nat.le_antisymm
  · apply a3 b b1
    intro mi hmi
    rw [List.mem_flatten] at hmi
    obtain ⟨l, hl, hmi⟩ := hmi
    rw [List.eq_of_mem_replicate hl] at hmi
    exact b2 mi hmi
  · apply b3 a a1
    intro mi hmi
    exact a2 mi (List.mem_flatten.2 ⟨table, by simp [List.replicate_succ], hmi⟩)

theorem collect_append (D : Dispatch) (file : File) (buffer : Bytes) (xs ys : List MagicInfo) :
    collect D file buffer (xs ++ ys) = (collect D file buffer xs >>= fun a =>
      collect D file buffer ys >>= fun b => .ok (a ++ b)) := by
  induction xs with
  | nil => simp only [List.nil_append, collect, Res.bind_ok]; cases collect D file buffer ys <;> simp
  | cons x xs ih =>
    rw [List.cons_append, collect, ih, collect]
    cases contribution D file buffer x <;> simp only [Res.bind_ok, Res.bind_throw, Res.bind_ub, Res.bind_fuel]
    cases collect D file buffer xs <;> simp only [Res.bind_ok, Res.bind_throw, Res.bind_ub, Res.bind_fuel]
    cases collect D file buffer ys <;> simp

/-- C07, what the code does: after `k` earlier identifications every item is reported `k + 1` times. (The
files of the earlier calls do not matter; the extractors are assumed to be functions of their arguments.) -/
theorem C07_repeated_reports (D : Dispatch) (earlier : List File) (content : Bytes)
    (hlen : content.length < 2 ^ 32) (items : List Item)
    (h : (guessExtension D [] (some content)).2 = .ok items) :
    (guessExtension D (afterCalls D earlier []) (some content)).2 =
      .ok (List.replicate (earlier.length + 1) items).flatten := by
  rw [C02_identification D content hlen] at h
  unfold guessExtension
  simp only []
  have hl : afterCalls D earlier [] ++ table = (List.replicate (earlier.length + 1) table).flatten := by
    rw [afterCalls_eq, List.nil_append, List.replicate_succ']
    simp
  rw [hl, window_copies]
  have hrd : readFile (some content) 65536 = content.take 65536 := by
    rw [C06_read_prefix_partial (some content) 65536 (fun c hc => by injection hc with hc; rw [← hc]; exact hlen)]
    simp only []
    rcases Nat.le_total 65536 content.length with h' | h'
    · rw [Nat.min_eq_left h']
    · rw [Nat.min_eq_right h', List.take_of_length_le (Nat.le_refl _), List.take_of_length_le h']
  rw [hrd]
  have hf : ∀ l : List MagicInfo, (∀ mi ∈ l, rowOk 65536 mi = true) →
      (l.filter fun mi => decide (At (content.take 65536) mi.offset mi.magic)) =
      l.filter fun mi => decide (At content mi.offset mi.magic) := by
    intro l hl
    apply List.filter_congr
    intro mi hmi
    have hok := hl mi hmi
    simp only [rowOk, Bool.and_eq_true, beq_iff_eq, decide_eq_true_eq] at hok
    rw [decide_eq_decide]
    exact at_take_iff _ _ _ _ (by omega)
  have hrows : ∀ mi ∈ (List.replicate (earlier.length + 1) table).flatten, rowOk 65536 mi = true := by
    intro mi hmi
    rw [List.mem_flatten] at hmi
    obtain ⟨l, hl, hmi⟩ := hmi
    rw [List.eq_of_mem_replicate hl] at hmi
    exact table_rows_ok mi hmi
  by_cases h0 : (content.take 65536).length > 0
  · rw [if_pos h0, guessLoop_eq D _ _ 65536 (by omega) (by rw [List.length_take]; omega) _ hrows, hf _ hrows]
    have hc : ∀ n, collect D (some content) (content.take 65536)
        ((List.replicate n table).flatten.filter fun mi => decide (At content mi.offset mi.magic)) =
        .ok (List.replicate n items).flatten := by
      intro n
      induction n with
      | zero => simp [collect]
      | succ n ih =>
        rw [List.replicate_succ, List.flatten_cons, List.filter_append, collect_append, h, ih]
        simp [List.replicate_succ]
    rw [hc]
    simp
  · rw [if_neg h0]
    have hc : content = [] := by
      cases content with
      | nil => rfl
      | cons x xs => simp at h0
    have hn : (table.filter fun mi => decide (At [] mi.offset mi.magic)) = [] := by decide +kernel
    rw [hc, hn] at h
    simp only [collect, Res.ok.injEq] at h
    rw [← h]
    congr 1
    symm
    rw [List.flatten_eq_nil_iff]
    intro l hl
    exact List.eq_of_mem_replicate hl

/-- C07 is false of the code: the second identification of a GIF file in one process reports it twice. -/
theorem C07_not_repeatable :
    ¬ ∀ (D : Dispatch) (earlier : List File) (content : Bytes), content.length < 2 ^ 32 →
      (guessExtension D (afterCalls D earlier []) (some content)).2 =
        (guessExtension D [] (some content)).2 := by
  intro h
  have h1 := h (fun _ _ _ => .ok []) [none] b!"GIF89a" (by decide)
  have h2 : (guessExtension (fun _ _ _ => .ok []) [] (some b!"GIF89a")).2 =
      .ok [Item.generic { Extension := b!"gif", Name := b!"GIF Image", SubType := b!"GIF89a" }] := by
    rw [C02_identification _ _ (by decide)]
    decide +kernel
  have h3 := C07_repeated_reports (fun _ _ _ => .ok []) [none] b!"GIF89a" (by decide) _ h2
  rw [h3, h2] at h1
  simp at h1

/-- C07 where it does hold: the first call in a process gives the result that depends on the file only, and
a file in which no signature occurs stays unidentified in every later call. -/
theorem C07_unidentified_partial (D : Dispatch) (earlier : List File) (content : Bytes)
    (hlen : content.length < 2 ^ 32) (h : (guessExtension D [] (some content)).2 = .ok []) :
    (guessExtension D (afterCalls D earlier []) (some content)).2 = .ok [] := by
  rw [C07_repeated_reports D earlier content hlen [] h]
  have : (List.replicate (earlier.length + 1) ([] : List Item)).flatten = [] := by
    rw [List.flatten_eq_nil_iff]
    intro l hl
    exact List.eq_of_mem_replicate hl
  rw [this]

/-! ## C24 output-format argument -/

/-- C24 for the lower-case names: `xml`, `csv`, `json` select their formats; every other argument,
including `txt` and `text`, selects text. -/
theorem C24_format_lower_partial (arg : Bytes) :
    (ParseOutputFormat arg = .xml ↔ arg = b!"xml") ∧ (ParseOutputFormat arg = .csv ↔ arg = b!"csv") ∧
    (ParseOutputFormat arg = .json ↔ arg = b!"json") ∧
    (ParseOutputFormat arg = .text ↔ arg ≠ b!"xml" ∧ arg ≠ b!"csv" ∧ arg ≠ b!"json") := by
  unfold ParseOutputFormat
  by_cases h1 : arg = b!"xml"
  · subst h1; decide
  by_cases h2 : arg = b!"csv"
  · subst h2; decide
  by_cases h3 : arg = b!"txt"
  · subst h3; decide
  by_cases h4 : arg = b!"json"
  · subst h4; decide
  simp [h1, h2, h3, h4]

/-- C24 is false of the code: the names as printed in the usage text are not recognised. -/
theorem C24_usage_names_ignored :
    ParseOutputFormat b!"CSV" = .text ∧ ParseOutputFormat b!"JSON" = .text ∧
    ParseOutputFormat b!"XML" = .text := by decide

end Fileid.Props
