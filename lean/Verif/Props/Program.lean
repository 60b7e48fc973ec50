import Verif.Model.Program
import Verif.Lemmas.Embed
import Verif.Props.Report
import Verif.Props.Identify
import Verif.Props.Media
import Verif.Props.Zip

/-!
# C93 - C95: the whole program
-/

namespace Fileid.Props

open Common Spec Spec.Report Magic Report

/-! ## C93 Identification with the extractors of the program -/

/-- What a matching signature adds: what its extractor finds, or the kind the signature tells. -/
def gives {α : Type} (inj : Item → α) (E : Detailer → File → Bytes → Res (List α)) (file : File) (buffer : Bytes)
    (mi : MagicInfo) : Res (List α) :=
  match mi.extraFunc with
  | some d => E d file buffer
  | none => .ok [inj (Item.generic { Extension := mi.Extension, Name := mi.Name, SubType := mi.Version })]

/-- What the signatures add, in order; the first failure is the overall result. -/
def gather {α : Type} (inj : Item → α) (E : Detailer → File → Bytes → Res (List α)) (file : File) (buffer : Bytes) :
    List MagicInfo → Res (List α)
  | [] => .ok []
  | mi :: rest => do
    let a ← gives inj E file buffer mi
    let b ← gather inj E file buffer rest
    .ok (a ++ b)

theorem identifyLoop_eq {α : Type} (inj : Item → α) (E : Detailer → File → Bytes → Res (List α)) (file : File)
    (buffer : Bytes) (w : Nat) (hw : w ≤ 65536) (hbuf : buffer.length ≤ w) (list : List MagicInfo)
    (hrows : ∀ mi ∈ list, rowOk 65536 mi = true) (ans : List α) :
    identifyLoop inj E file buffer list ans =
      (gather inj E file buffer (list.filter fun mi => decide (At buffer mi.offset mi.magic)) >>= fun l =>
        .ok (ans ++ l)) := by
  induction list generalizing ans with
  | nil => simp [identifyLoop, gather]
  | cons mi rest ih =>
    have hok := hrows mi (by simp)
    simp only [rowOk, Bool.and_eq_true, beq_iff_eq, decide_eq_true_eq] at hok
    obtain ⟨⟨hsz, _⟩, hend⟩ := hok
    have hu : u32 buffer.length = buffer.length := by unfold u32; omega
    rw [identifyLoop, hu, hsz, checkMagic_eq buffer mi.magic mi.offset (by omega) (by omega), Res.bind_ok]
    have ihr := fun a => ih (fun mi h => hrows mi (by simp [h])) a
    by_cases hat : At buffer mi.offset mi.magic
    · rw [if_pos (by simpa using hat), List.filter_cons_of_pos (by simpa using hat), gather]
      unfold gives
      cases hx : mi.extraFunc with
      | some d =>
        simp only []
        cases E d file buffer with
        | ok l =>
          simp only [Res.bind_ok, ihr]
          cases gather inj E file buffer (rest.filter _) <;> simp
        | throw e => simp
        | ub u => simp
        | fuel => simp
      | none =>
        simp only [Res.bind_ok, ihr]
        have hv : (if mi.Version.length > 0 then mi.Version else []) = mi.Version := by
          cases mi.Version <;> simp
        rw [hv]
        cases gather inj E file buffer (rest.filter _) <;> simp
    · rw [if_neg (by simpa using hat), List.filter_cons_of_neg (by simpa using hat), ihr]

/-- The loop the theorems about arbitrary extractors (C02 and others) are about is this loop. -/
theorem guessLoop_identifyLoop (D : Dispatch) (file : File) (buffer : Bytes) (list : List MagicInfo) (ans : List Item) :
    guessLoop D file buffer list ans = identifyLoop id D file buffer list ans := by
  induction list generalizing ans with
  | nil => rfl
  | cons mi rest ih =>
    rw [guessLoop, identifyLoop]
    congr 1
    funext hit
    split
    · cases mi.extraFunc with
      | some d => simp only []; congr 1; funext l; exact ih _
      | none => simp only [id]; exact ih _
    · exact ih _

/-- C93: for a readable file shorter than 4 GiB, the program finds, in table order, what the signatures that stand in
the file at their offsets add; nothing else is reported. -/
theorem C93_identified (w : World) (content : Bytes) (hlen : content.length < 2 ^ 32) :
    identify w (some content) = gather .item (extract w) (some content) (content.take 65536)
      (table.filter fun mi => decide (At content mi.offset mi.magic)) := by
  unfold identify
  rw [C03_window_table.2]
  have hrd : readFile (some content) 65536 = content.take 65536 := by
    unfold readFile u32
    simp only []
    split
    · rw [Nat.mod_eq_of_lt hlen, List.take_of_length_le (Nat.le_refl _), List.take_of_length_le (by omega)]
    · rfl
  rw [hrd]
  have hf : (table.filter fun mi => decide (At (content.take 65536) mi.offset mi.magic)) =
      table.filter fun mi => decide (At content mi.offset mi.magic) := by
    apply List.filter_congr
    intro mi hmi
    have hok := table_rows_ok mi hmi
    simp only [rowOk, Bool.and_eq_true, beq_iff_eq, decide_eq_true_eq] at hok
    rw [decide_eq_decide]
    exact at_take_iff _ _ _ _ (by omega)
  simp only []
  by_cases h0 : (content.take 65536).length > 0
  · rw [if_pos h0, identifyLoop_eq .item (extract w) _ _ 65536 (by omega) (by rw [List.length_take]; omega) table
      table_rows_ok, hf]
    cases gather .item (extract w) (some content) (content.take 65536) _ <;> simp
  · rw [if_neg h0]
    have hc : content = [] := by
      cases content with
      | nil => rfl
      | cons x xs => simp at h0
    have : (table.filter fun mi => decide (At content mi.offset mi.magic)) = [] := by
      rw [List.filter_eq_nil_iff]
      intro mi hmi hat
      have hok := table_rows_ok mi hmi
      simp only [rowOk, Bool.and_eq_true, beq_iff_eq, decide_eq_true_eq] at hok
      have := (of_decide_eq_true hat).length_le
      rw [hc] at this
      simp at this
      simp [this] at hok
      omega
    rw [this]
    rfl

theorem gather_mem {α : Type} {inj : Item → α} {E : Detailer → File → Bytes → Res (List α)} {file : File} {buffer : Bytes}
    {ms : List MagicInfo} {l : List α} (h : gather inj E file buffer ms = .ok l) :
    (∀ x ∈ l, ∃ mi ∈ ms, ∃ a, gives inj E file buffer mi = .ok a ∧ x ∈ a) ∧
    (∀ mi ∈ ms, ∃ a, gives inj E file buffer mi = .ok a ∧ ∀ x ∈ a, x ∈ l) := by
  induction ms generalizing l with
  | nil => injection h with h; subst h; simp
  | cons m ms ih =>
    rw [gather] at h
    obtain ⟨a, ha, h⟩ := Excel.bind_ok_inv h
    obtain ⟨b, hb, h⟩ := Excel.bind_ok_inv h
    injection h with h
    subst h
    obtain ⟨i1, i2⟩ := ih hb
    constructor
    · intro x hx
      rcases List.mem_append.1 hx with hx | hx
      · exact ⟨m, by simp, a, ha, hx⟩
      · obtain ⟨mi, hmi, a', h1, h2⟩ := i1 x hx
        exact ⟨mi, by simp [hmi], a', h1, h2⟩
    · intro mi hmi
      rcases List.mem_cons.1 hmi with rfl | hmi
      · exact ⟨a, ha, fun x hx => List.mem_append.2 (Or.inl hx)⟩
      · obtain ⟨a', h1, h2⟩ := i2 mi hmi
        exact ⟨a', h1, fun x hx => List.mem_append.2 (Or.inr (h2 x hx))⟩

/-! ## C94 WordPerfect -/

theorem mapRes_ok_mem {α β : Type} {f : α → Res β} {l : List α} {bs : List β} (h : Oless.mapRes f l = .ok bs) {a : α}
    (ha : a ∈ l) : ∃ b, f a = .ok b := by
  have hp := mapRes_pointwise h
  clear h
  induction hp with
  | nil => cases ha
  | cons h0 _ ih =>
    rcases List.mem_cons.1 ha with rfl | ha
    · exact ⟨_, h0⟩
    · exact ih ha

/-- The format the arguments after the file ask for. -/
def asked : List Bytes → OutputFormat
  | [] => .text
  | f :: _ => ParseOutputFormat f

theorem program_eq (w : World) (fs : Bytes → File) (path : Bytes) (rest : List Bytes) :
    program w fs (path :: rest) = (identify w (fs path) >>= fun found =>
      Oless.mapRes (fun x => x.print w (asked rest))
        (if found.length = 0 then found ++ [.item (UnknownExtension (fs path))] else found) >>= fun texts =>
      .ok (Output (asked rest) path b!"extensions" (texts.map fun t => ⟨{}, t, t, t, t⟩))) := by
  cases rest <;> rfl

theorem program_ok {w : World} {fs : Bytes → File} {path : Bytes} {rest : List Bytes} {t : Bytes}
    (h : program w fs (path :: rest) = .ok t) : ∃ found texts, identify w (fs path) = .ok found ∧
      Oless.mapRes (fun x => x.print w (asked rest))
        (if found.length = 0 then found ++ [.item (UnknownExtension (fs path))] else found) = .ok texts ∧
      t = Output (asked rest) path b!"extensions" (texts.map fun t => ⟨{}, t, t, t, t⟩) := by
  rw [program_eq] at h
  obtain ⟨found, hf, h⟩ := Excel.bind_ok_inv h
  obtain ⟨texts, ht, h⟩ := Excel.bind_ok_inv h
  injection h with h
  exact ⟨found, texts, hf, ht, h.symm⟩

/-- The signatures of WordPerfect documents, plain and encrypted. -/
def wpSignatures : List Bytes := [[0xFF, 0x57, 0x50, 0x43], [0xFF, 0xFF, 0x61, 0x61]]

theorem wp_rows : ∀ s ∈ wpSignatures, ∃ mi ∈ table, mi.offset = 0 ∧ mi.magic = s ∧
    mi.extraFunc = some .document_wp_Detailer := by
  decide +kernel

theorem identified_adds {w : World} {content : Bytes} (hlen : content.length < 2 ^ 32) {found : List Found}
    (h : identify w (some content) = .ok found) {mi : MagicInfo} (hm : mi ∈ table) (hat : At content mi.offset mi.magic)
    {d : Detailer} (hd : mi.extraFunc = some d) :
    ∃ l, extract w d (some content) (content.take 65536) = .ok l ∧ ∀ x ∈ l, x ∈ found := by
  rw [C93_identified w content hlen] at h
  obtain ⟨a, h1, h2⟩ := (gather_mem h).2 mi (List.mem_filter.2 ⟨hm, by simpa using hat⟩)
  unfold gives at h1
  rw [hd] at h1
  exact ⟨a, h1, h2⟩

/-- C94 is false of the code: for no file that begins with a WordPerfect signature does the program print a JSON or XML
report; the header the report is about is read after the memory that held it was given back. -/
theorem C94_header_false (w : World) (fs : Bytes → File) (path content : Bytes) (rest : List Bytes)
    (hfs : fs path = some content) (hlen : content.length < 2 ^ 32) (s : Bytes) (hs : s ∈ wpSignatures)
    (hat : At content 0 s) (hf : asked rest = .json ∨ asked rest = .xml) (t : Bytes) :
    program w fs (path :: rest) ≠ .ok t := by
  intro h
  obtain ⟨found, texts, h1, h2, _⟩ := program_ok h
  rw [hfs] at h1
  obtain ⟨mi, hm, ho, hg, hd⟩ := wp_rows s hs
  obtain ⟨l, h3, h4⟩ := identified_adds hlen h1 hm (by rw [ho, hg]; exact hat) hd
  injection h3 with h3
  subst h3
  have hmem := h4 (.ole (.wp { Extension := b!"wp", VersionName := b!"Word Perfect File" })) (by simp [wpDetailer])
  have hne : found.length ≠ 0 := by
    intro h0; rw [List.length_eq_zero_iff.1 h0] at hmem; cases hmem
  rw [if_neg hne] at h2
  obtain ⟨b, hb⟩ := mapRes_ok_mem h2 hmem
  rcases hf with hf | hf <;> (rw [hf] at hb; cases hb)

example : asked [b!"json"] = .json ∧ asked [b!"xml"] = .xml ∧ At ([0xFF, 0x57, 0x50, 0x43] ++ b!" document") 0 [0xFF, 0x57, 0x50, 0x43] := by
  decide +kernel

theorem only_rows {content : Bytes} {d : Detailer}
    (h : ∀ mi ∈ table, At content mi.offset mi.magic → mi.extraFunc = some d) :
    (table.filter fun mi => decide (At content mi.offset mi.magic)) =
      (table.filter fun mi => decide (mi.extraFunc = some d)).filter fun mi => decide (At content mi.offset mi.magic) := by
  rw [List.filter_filter]
  apply List.filter_congr
  intro mi hm
  by_cases hat : At content mi.offset mi.magic
  · simp [hat, h mi hm hat]
  · simp [hat]

/-- C94, text and CSV: a file that begins with a WordPerfect signature, and has no signature of another kind, is
reported as a WordPerfect document. Missing: the JSON and XML reports, see `C94_header_false`. -/
theorem C94_reported_partial (w : World) (fs : Bytes → File) (path content : Bytes) (rest : List Bytes)
    (hfs : fs path = some content) (hlen : content.length < 2 ^ 32) (s : Bytes) (hs : s ∈ wpSignatures)
    (hat : At content 0 s)
    (hother : ∀ mi ∈ table, At content mi.offset mi.magic → mi.offset = 0 ∧ mi.magic ∈ wpSignatures) :
    (asked rest = .text → program w fs (path :: rest) = .ok (path ++ b!"\n" ++ b!"\twp\tWord Perfect File\t0\n")) ∧
    (asked rest = .csv → program w fs (path :: rest) = .ok b!"wp,Word Perfect File,0\n") := by
  have hrows : ∀ mi ∈ table, mi.offset = 0 ∧ mi.magic ∈ wpSignatures → mi.extraFunc = some .document_wp_Detailer := by
    decide +kernel
  have hid : identify w (some content) = .ok (wpDetailer.map .ole) := by
    rw [C93_identified w content hlen, only_rows fun mi hm ha => hrows mi hm (hother mi hm ha)]
    have e : (table.filter fun mi => decide (mi.extraFunc = some .document_wp_Detailer)) =
        [⟨b!"wp5", b!"WordPerfect File", b!"5", 0, 4, [0xFF, 0x57, 0x50, 0x43], some .document_wp_Detailer⟩,
         ⟨b!"wp", b!"WordPerfect Encrypted File", b!"encrypted", 0, 4, [0xFF, 0xFF, 0x61, 0x61], some .document_wp_Detailer⟩] := by
      decide +kernel
    rw [e]
    have hs : s = [0xFF, 0x57, 0x50, 0x43] ∨ s = [0xFF, 0xFF, 0x61, 0x61] := by simpa [wpSignatures] using hs
    have excl : At content 0 [0xFF, 0x57, 0x50, 0x43] → At content 0 [0xFF, 0xFF, 0x61, 0x61] → False := by
      intro h1 h2
      obtain ⟨p1, q1, e1, l1⟩ := h1
      obtain ⟨p2, q2, e2, l2⟩ := h2
      rw [List.length_eq_zero_iff.1 l1] at e1
      rw [List.length_eq_zero_iff.1 l2, e1] at e2
      simp at e2
    rcases hs with rfl | rfl
    · have hn : ¬ At content 0 [0xFF, 0xFF, 0x61, 0x61] := fun h => excl hat h
      simp only [List.filter_cons, hat, hn, decide_true, decide_false, if_true, List.filter_nil]
      rfl
    · have hn : ¬ At content 0 [0xFF, 0x57, 0x50, 0x43] := fun h => excl h hat
      simp only [List.filter_cons, hat, hn, decide_true, decide_false, if_true, List.filter_nil]
      rfl
  have hp : program w fs (path :: rest) = (do
      let texts ← Oless.mapRes (fun x => x.print w (asked rest)) (wpDetailer.map Found.ole)
      .ok (Output (asked rest) path b!"extensions" (texts.map fun t => ⟨{}, t, t, t, t⟩))) := by
    rw [program_eq, hfs, hid]
    rfl
  constructor
  · intro h
    rw [hp, h]
    simp [wpDetailer, Oless.mapRes, Found.print, Oless.Result.print, Oless.Result.toText, Oless.oleText, Output, dec]
    rfl
  · intro h
    rw [hp, h]
    simp [wpDetailer, Oless.mapRes, Found.print, Oless.Result.print, Oless.Result.toCsv, Oless.oleCsv, Output, dec]
    rfl

/-- A file the theorem applies to. -/
def sampleWp : Bytes := [0xFF, 0x57, 0x50, 0x43] ++ b!"a document"

example : (∀ mi ∈ table, At sampleWp mi.offset mi.magic → mi.offset = 0 ∧ mi.magic ∈ wpSignatures) ∧
    At sampleWp 0 [0xFF, 0x57, 0x50, 0x43] ∧ asked [] = .text ∧ asked [b!"csv"] = .csv := by
  decide +kernel

/-! ## C95 Macros in Office Open XML packages -/

/-- The analysis of a compound file that was not opened reads memory nobody has written. -/
theorem analyze_unopened (abi : Abi) : Vba.Analyze abi unopened (Vba.wide b!"/") = .ub .uninit := rfl

theorem zipAnalyze_ub (w : World) (content : Bytes) : zipAnalyze w content = .ub .uninit := by
  unfold zipAnalyze
  rw [analyze_unopened]

theorem getVBA_binary (w : World) (a : Zip.Archive) (hbin : ∃ e ∈ a, ∃ stem, e.FullName = stem ++ b!"bin") (it : Item) :
    Zip.GetVBA (zipAnalyze w) a ≠ .ok it := by
  unfold Zip.GetVBA
  obtain ⟨e, he, stem, hs⟩ := hbin
  cases hf : (a.map (·.FullName)).filter fun f => Zip.hasEnding f b!"bin" with
  | nil =>
    rw [List.filter_eq_nil_iff] at hf
    refine absurd ?_ (hf e.FullName (List.mem_map.2 ⟨e, he, rfl⟩))
    rw [hs]
    unfold Zip.hasEnding
    rw [if_pos (by simp)]
    simp
  | cons f fs =>
    rw [Zip.vbaLoop]
    split
    · rw [zipAnalyze_ub]
      intro h; cases h
    · intro h; cases h

/-- Only archives without binary files get through, and then nothing is analysed. -/
theorem getVBA_ok {w : World} {a : Zip.Archive} {it : Item} (h : Zip.GetVBA (zipAnalyze w) a = .ok it) :
    it = Item.generic { Extension := b!"vba", Name := b!"Visual Basic For Applications" } := by
  by_cases hbin : ∃ e ∈ a, ∃ stem, e.FullName = stem ++ b!"bin"
  · exact absurd h (getVBA_binary w a hbin it)
  · rw [C64_vba_without_binary (zipAnalyze w) a (by
      intro e he hs; exact hbin ⟨e, he, hs⟩)] at h
    injection h with h
    exact h.symm

/-- C95 is false of the code: for no archive that declares a VBA project and has an entry whose name ends in `bin` does
the program report anything. The compound file in the entry is never opened, and the version of the project is read from
memory that was never written. -/
theorem C95_macros_false (w : World) (fs : Bytes → File) (path content : Bytes) (rest : List Bytes)
    (hfs : fs path = some content) (hlen : content.length < 2 ^ 32) (hat : At content 0 b!"PK")
    (a : Zip.Archive) (ha : w.zip (some content) = .ok a) (types : List Bytes) (ht : TakenTypes a types)
    (hv : vbaProjectType ∈ types) (hbin : ∃ e ∈ a, ∃ stem, e.FullName = stem ++ b!"bin")
    (t : Bytes) : program w fs (path :: rest) ≠ .ok t := by
  intro h
  obtain ⟨found, texts, h1, _, _⟩ := program_ok h
  rw [hfs] at h1
  have hrow : ∃ mi ∈ table, mi.offset = 0 ∧ mi.magic = b!"PK" ∧ mi.extraFunc = some .zip_Detailer := by decide +kernel
  obtain ⟨mi, hm, ho, hg, hd⟩ := hrow
  obtain ⟨l, h3, _⟩ := identified_adds hlen h1 hm (by rw [ho, hg]; exact hat) hd
  simp only [extract] at h3
  obtain ⟨items, h3, _⟩ := Excel.bind_ok_inv h3
  unfold zipDetailer at h3
  rw [ha, Res.bind_ok] at h3
  obtain ⟨r, h3, _⟩ := Excel.bind_ok_inv h3
  obtain ⟨it, h6⟩ := taken_vba ht h3 hv
  exact getVBA_binary w a hbin it h6

/-- C95, archives that declare a VBA project but have no binary file: the project is reported, like every other kind
the archive declares. Missing: archives with macros, see `C95_macros_false`. -/
theorem C95_declared_partial (w : World) (file : File) (a : Zip.Archive) (ha : w.zip file = .ok a) (types mime : List Bytes)
    (ht : DeclaredTypes a types) (hne : ∀ v ∈ types, v ≠ []) (hm : DeclaredMime a mime) (hv : vbaProjectType ∈ types)
    (hbin : ∀ e ∈ a, ¬ ∃ stem, e.FullName = stem ++ b!"bin") :
    ∃ items, zipDetailer w file = .ok items ∧ items.map kind = orZip (markerKinds a ++
      firstOfEach (declaredKinds (b!"vba", b!"Visual Basic For Applications") types mime)) ∧
      ∃ it ∈ items, it.info.Extension = b!"vba" := by
  obtain ⟨items, after, h1, h2, _⟩ := C64_archive_report_partial (zipAnalyze w) a types mime _ ht hne hm
    (fun _ => C64_vba_without_binary (zipAnalyze w) a hbin)
  have h3 : zipDetailer w file = .ok items := by
    unfold zipDetailer
    rw [ha, Res.bind_ok, h1, Res.bind_ok]
  refine ⟨items, h3, h2, ?_⟩
  have hmem : (b!"vba", b!"Visual Basic For Applications") ∈
      declaredKinds (b!"vba", b!"Visual Basic For Applications") types mime := by
    unfold declaredKinds
    refine List.mem_append_left _ (List.mem_flatMap.2 ⟨_, hv, List.mem_append_right _ ?_⟩)
    rw [if_pos rfl]
    exact List.mem_singleton.2 rfl
  obtain ⟨k, hk, hk1⟩ := List.mem_map.1 (firstOfEach_complete hmem)
  have hkm := List.mem_append_right (markerKinds a) hk
  have hin : k ∈ items.map kind := by
    rw [h2]
    unfold orZip
    rw [if_neg (fun h => by
      have hkm : k ∈ markerKinds a ++ firstOfEach (declaredKinds (b!"vba", b!"Visual Basic For Applications") types mime) := hkm
      have h : markerKinds a ++ firstOfEach (declaredKinds (b!"vba", b!"Visual Basic For Applications") types mime) = [] := h
      rw [h] at hkm
      cases hkm)]
    exact hkm
  obtain ⟨it, hi, rfl⟩ := List.mem_map.1 hin
  exact ⟨it, hi, hk1⟩

/-- A package that declares a VBA project, and the same with the part that stores it. -/
def sampleMacros (parts : List Zip.Entry) : Zip.Archive :=
  { FullName := b!"[Content_Types].xml", Data := some b!"<Override ContentType=\"application/vnd.ms-office.vbaProject\"/>" } :: parts

theorem sampleMacros_types (parts : List Zip.Entry) : DeclaredTypes (sampleMacros parts) [vbaProjectType] :=
  .present _ _ ⟨[], _, _, rfl, by simp, rfl, rfl⟩
    (.attr b!"<Override " vbaProjectType b!"/>" _ (not_occurs_of (by decide)) (by decide) (.done _ (not_occurs_of (by decide))))

/-- The program fails on such a package, whatever follows the signature in the file. -/
example (w : World) (tail t : Bytes) (hlen : tail.length < 1000)
    (ha : w.zip (some (b!"PK" ++ tail)) = .ok (sampleMacros [{ FullName := b!"word/vbaProject.bin" }])) :
    program w (fun _ => some (b!"PK" ++ tail)) [b!"a.docm", b!"json"] ≠ .ok t := by
  have hl : (b!"PK" ++ tail).length < 2 ^ 32 := by rw [List.length_append, List.length_cons, List.length_singleton]; omega
  have hat : At (b!"PK" ++ tail) 0 b!"PK" := ⟨[], tail, rfl, rfl⟩
  generalize b!"PK" ++ tail = content at *
  exact C95_macros_false w (fun _ => some content) b!"a.docm" content [b!"json"] rfl hl hat _ ha _
    (taken_of_declared (sampleMacros_types _) (by simp [vbaProjectType])) (by simp) ⟨{ FullName := b!"word/vbaProject.bin" }, by simp [sampleMacros], b!"word/vbaProject.", rfl⟩ t

example (w : World) (file : File) (ha : w.zip file = .ok (sampleMacros [])) :
    ∃ items, zipDetailer w file = .ok items ∧ items.map kind = [(b!"vba", b!"Visual Basic For Applications")] := by
  obtain ⟨items, h1, h2, _⟩ := C95_declared_partial w file _ ha _ [] (sampleMacros_types []) (by decide) (.absent (by decide))
    (by simp) (by
      intro e he
      rw [List.mem_singleton.1 he]
      rintro ⟨stem, h⟩
      have := congrArg (fun l => l.drop (l.length - 3)) h
      simp at this)
  exact ⟨items, h1, by rw [h2]; decide +kernel⟩

/-! ## C93 The documents the program prints -/

theorem scanLoop_keeps {σ : Type} {P : σ → Prop} {step : σ → Bytes → Res σ} {text : Bytes}
    (hs : ∀ st v st', P st → step st v = .ok st' → P st') {f : Nat} {start : Option Nat} {st st' : σ} (h0 : P st)
    (h : Zip.scanLoop step text f start st = .ok st') : P st' := by
  induction f generalizing start st with
  | zero => cases h
  | succ f ih =>
    cases start with
    | none => injection h with h; subst h; exact h0
    | some start =>
      rw [Zip.scanLoop] at h
      split at h
      · obtain ⟨st1, h1, h⟩ := Excel.bind_ok_inv h
        exact ih (hs _ _ _ h0 h1) h
      · injection h with h; subst h; exact h0

/-- An item that tells only extension and name, in characters that need no escaping. -/
def PlainKind (i : Item) : Prop :=
  ∃ ext name, i = Item.generic { Extension := ext, Name := name } ∧ plain ext = true ∧ plain name = true

theorem plainKind_add {st : Zip.St} {i : Item} (h : ∀ x ∈ st.ans, PlainKind x) (hi : PlainKind i) :
    ∀ x ∈ (Zip.addExtension st i).ans, PlainKind x := by
  unfold Zip.addExtension
  split
  · exact h
  · intro x hx
    rcases List.mem_append.1 hx with hx | hx
    · exact h x hx
    · rw [List.mem_singleton.1 hx]; exact hi

theorem plainKind_check {t : List (Bytes × Bytes × Bytes)} (ht : ∀ e ∈ t, plain e.2.1 = true ∧ plain e.2.2 = true)
    {st : Zip.St} (h : ∀ x ∈ st.ans, PlainKind x) (v : Bytes) : ∀ x ∈ (Zip.checkType t st v).ans, PlainKind x := by
  unfold Zip.checkType
  split
  · rename_i e he
    exact plainKind_add h ⟨_, _, rfl, (ht e (List.mem_of_find?_eq_some he)).1, (ht e (List.mem_of_find?_eq_some he)).2⟩
  · exact h

theorem zip_items {w : World} {file : File} {a : Zip.Archive} (ha : w.zip file = .ok a) {l : List Item}
    (h : zipDetailer w file = .ok l) : (∀ i ∈ l, PlainKind i) ∨ l = [Zip.zipItem (a.map Zip.childInfo)] := by
  unfold zipDetailer at h
  rw [ha, Res.bind_ok] at h
  obtain ⟨r, h1, h⟩ := Excel.bind_ok_inv h
  injection h with h
  unfold Zip.Detailer at h1
  have tc : ∀ e ∈ Tables.zipContentTypes, plain e.2.1 = true ∧ plain e.2.2 = true := by decide +kernel
  have tm : ∀ e ∈ Tables.zipMimeTypes, plain e.2.1 = true ∧ plain e.2.2 = true := by decide +kernel
  have tk : ∀ e ∈ Tables.zipMarkers, plain e.2.1 = true ∧ plain e.2.2 = true := by decide +kernel
  have hmark : ∀ (ms : List (Bytes × Bytes × Bytes)) (ans : List Item), (∀ e ∈ ms, plain e.2.1 = true ∧ plain e.2.2 = true) →
      (∀ x ∈ ans, PlainKind x) → ∀ x ∈ ms.foldl (Zip.CheckEntry a) ans, PlainKind x := by
    intro ms
    induction ms with
    | nil => intro ans _ h; exact h
    | cons m ms ih =>
      intro ans hm h
      rw [List.foldl_cons]
      refine ih _ (fun e he => hm e (by simp [he])) ?_
      unfold Zip.CheckEntry
      split
      · intro x hx
        rcases List.mem_append.1 hx with hx | hx
        · exact h x hx
        · rw [List.mem_singleton.1 hx]
          exact ⟨_, _, rfl, (hm m (by simp)).1, (hm m (by simp)).2⟩
      · exact h
  have h0 := hmark Tables.zipMarkers [] tk (by simp)
  obtain ⟨st, h2, h3⟩ := Excel.bind_ok_inv h1
  have hst : ∀ x ∈ st.ans, PlainKind x := by
    unfold Zip.ooxmlPart at h2
    split at h2
    · split at h2
      · refine scanLoop_keeps (P := fun st : Zip.St => ∀ x ∈ st.ans, PlainKind x) ?_ h0 h2
        intro st v st' hp hstep
        unfold Zip.scanStep at hstep
        have hc := plainKind_check tc hp v
        split at hstep
        · obtain ⟨it, h4, h5⟩ := Excel.bind_ok_inv hstep
          injection h5 with h5
          subst h5
          refine plainKind_add hc ?_
          rw [getVBA_ok h4]
          exact ⟨_, _, rfl, by decide, by decide⟩
        · injection hstep with hstep
          subst hstep
          exact hc
      · injection h2 with h2; subst h2; exact h0
    · injection h2 with h2; subst h2; exact h0
  have hod : ∀ x ∈ (Zip.odfPart a st).ans, PlainKind x := by
    unfold Zip.odfPart
    split
    · split
      · exact plainKind_check tm hst _
      · exact hst
    · exact hst
  dsimp only at h3
  split at h3
  · injection h3 with h3
    subst h3
    exact Or.inr h.symm
  · injection h3 with h3
    subst h3
    rw [← h]
    exact Or.inl hod

end Fileid.Props
