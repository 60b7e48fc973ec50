import Verif.Spec.Described
import Verif.Spec.Reader
import Verif.Props.Identify

/-!
# C98: a file is identified as the list of file types says
-/

namespace Fileid.Props

open Common Magic Spec

/-- The name of an extractor, as in the list. -/
def extractorName : Detailer → Bytes
  | .Exec_Detailer => b!"Exec::Detailer"
  | .Exec_MachO_Detailer => b!"Exec::MachO::Detailer"
  | .zip_Detailer => b!"zip::Detailer"
  | .media_jpeg_Detailer => b!"media::jpeg::Detailer"
  | .oless_Detailer => b!"oless::Detailer"
  | .document_dwg_DwgHelper => b!"document::dwg::DwgHelper"
  | .document_wp_Detailer => b!"document::wp::Detailer"
  | .media_mp4_Detailer => b!"media::mp4::Detailer"
  | .media_asf_Detailer => b!"media::asf::Detailer"
  | .media_riff_RIFFHelper => b!"media::riff::RIFFHelper"

/-- The row of the table says what the item of the list says. -/
def Row (mi : MagicInfo) (d : Described) : Prop :=
  mi.Extension = d.extension ∧ mi.Name = d.name ∧ mi.Version = d.version ∧ mi.offset = d.offset ∧ mi.magic = d.bytes ∧
    (mi.extraFunc.map extractorName).getD [] = d.extra

instance (mi : MagicInfo) (d : Described) : Decidable (Row mi d) := by unfold Row; infer_instance

/-- The table has a row for each item of the list, in the order of the list. -/
theorem table_described : (table.length = described.length) ∧ ∀ p ∈ table.zip described, Row p.1 p.2 := by
  decide +kernel

/-- What a file type of the list contributes to the report: the item it describes, or what its extractor finds. -/
def Contributes (D : Dispatch) (content : Bytes) (part : List Item) (d : Described) : Prop :=
  (d.extra = [] → part = [Item.generic { Extension := d.extension, Name := d.name, SubType := d.version }]) ∧
  (∀ x, extractorName x = d.extra → D x (some content) (content.take 65536) = .ok part)

theorem extractorName_ne (x : Detailer) : extractorName x ≠ [] := by cases x <;> decide

theorem extractorName_inj (x y : Detailer) (h : extractorName x = extractorName y) : x = y := by
  cases x <;> cases y <;> first | rfl | (exact absurd h (by decide))

theorem contribution_described (D : Dispatch) (content : Bytes) (mi : MagicInfo) (d : Described) (hr : Row mi d) (part : List Item)
    (h : contribution D (some content) (content.take 65536) mi = .ok part) : Contributes D content part d := by
  obtain ⟨h1, h2, h3, _, _, h6⟩ := hr
  unfold contribution at h
  cases hx : mi.extraFunc with
  | none =>
    rw [hx] at h h6
    injection h with h
    refine ⟨fun _ => by rw [← h, h1, h2, h3], fun x he => ?_⟩
    exact absurd (he.trans h6.symm) (extractorName_ne x)
  | some e =>
    rw [hx] at h h6
    refine ⟨fun he => absurd (h6.trans he) (extractorName_ne e), fun x he => ?_⟩
    rw [extractorName_inj x e (he.trans h6.symm)]
    exact h

theorem collect_described (D : Dispatch) (content : Bytes) (rows : List MagicInfo) (ds : List Described)
    (hl : rows.length = ds.length) (hr : ∀ p ∈ rows.zip ds, Row p.1 p.2) (items : List Item)
    (h : collect D (some content) (content.take 65536) (rows.filter fun mi => decide (At content mi.offset mi.magic)) = .ok items) :
    ∃ parts, items = parts.flatten ∧
      Pointwise (Contributes D content) parts (ds.filter fun d => decide (At content d.offset d.bytes)) := by
  induction rows generalizing ds items with
  | nil =>
    cases ds with
    | cons d ds => simp at hl
    | nil =>
      injection h with h
      exact ⟨[], by simp [← h], .nil⟩
  | cons mi rows ih =>
    cases ds with
    | nil => simp at hl
    | cons d ds =>
      have hrow : Row mi d := hr (mi, d) (by simp)
      have ih := fun i => ih ds (by simpa using hl) (fun p hp => hr p (by simp [hp])) i
      have hoff := hrow.2.2.2.1
      have hmag := hrow.2.2.2.2.1
      by_cases hat : At content d.offset d.bytes
      · rw [List.filter_cons_of_pos (by rw [hoff, hmag]; simpa using hat), collect] at h
        rw [List.filter_cons_of_pos (by simpa using hat)]
        cases ha : contribution D (some content) (content.take 65536) mi with
        | ok a =>
          rw [ha, Res.bind_ok] at h
          cases hb : collect D (some content) (content.take 65536) (rows.filter fun mi => decide (At content mi.offset mi.magic)) with
          | ok b =>
            rw [hb, Res.bind_ok] at h
            injection h with h
            obtain ⟨parts, e, hp⟩ := ih b hb
            exact ⟨a :: parts, by rw [← h, e]; rfl, .cons (contribution_described D content mi d hrow a ha) hp⟩
          | throw e => rw [hb] at h; cases h
          | ub u => rw [hb] at h; cases h
          | fuel => rw [hb] at h; cases h
        | throw e => rw [ha] at h; cases h
        | ub u => rw [ha] at h; cases h
        | fuel => rw [ha] at h; cases h
      · rw [List.filter_cons_of_neg (by rw [hoff, hmag]; simpa using hat)] at h
        rw [List.filter_cons_of_neg (by simpa using hat)]
        exact ih items h

/-- C98: for a readable file below 4 GiB, the report of the first identification consists of the contributions of those
file types of data.xml, in their order there, whose bytes stand in the file at the offset given there. The contribution of
a type is the item described, or what the extractor named there finds. -/
theorem C98_as_described (D : Dispatch) (content : Bytes) (hlen : content.length < 2 ^ 32) (items : List Item)
    (h : (guessExtension D [] (some content)).2 = .ok items) :
    ∃ parts, items = parts.flatten ∧
      Pointwise (Contributes D content) parts (described.filter fun d => decide (At content d.offset d.bytes)) := by
  rw [C02_identification D content hlen] at h
  exact collect_described D content table described table_described.1 table_described.2 items h

/-- C98: every type of data.xml that has no extractor is recognised: each file with its bytes is reported with its
extension, name and version. -/
theorem C98_recognised (D : Dispatch) (content : Bytes) (hlen : content.length < 2 ^ 32) (items : List Item)
    (h : (guessExtension D [] (some content)).2 = .ok items) (d : Described) (hd : d ∈ described) (hx : d.extra = [])
    (hat : At content d.offset d.bytes) :
    Item.generic { Extension := d.extension, Name := d.name, SubType := d.version } ∈ items := by
  obtain ⟨parts, rfl, hp⟩ := C98_as_described D content hlen items h
  have hm : d ∈ described.filter fun d => decide (At content d.offset d.bytes) := by
    rw [List.mem_filter]
    exact ⟨hd, by simpa using hat⟩
  clear h
  revert hm hp
  generalize described.filter _ = l
  intro hp hm
  induction hp with
  | nil => cases hm
  | @cons part e parts l h1 _ ih =>
    rw [List.flatten_cons, List.mem_append]
    rcases List.mem_cons.1 hm with rfl | hm
    · left
      rw [h1.1 hx]
      simp
    · exact .inr (ih hm)

/-- C98: every type of data.xml has a signature, and names an extractor that the program has, if any. -/
theorem C98_usable : ∀ d ∈ described, d.bytes ≠ [] ∧ (d.extra = [] ∨ ∃ x, extractorName x = d.extra) := by
  have h : ∀ d ∈ described, d.bytes ≠ [] ∧ (d.extra = [] ∨ d.extra ∈ [Detailer.Exec_Detailer, .Exec_MachO_Detailer, .zip_Detailer,
      .media_jpeg_Detailer, .oless_Detailer, .document_dwg_DwgHelper, .document_wp_Detailer, .media_mp4_Detailer, .media_asf_Detailer,
      .media_riff_RIFFHelper].map extractorName) := by decide +kernel
  intro d hd
  refine ⟨(h d hd).1, (h d hd).2.imp id fun hx => ?_⟩
  obtain ⟨x, _, hx⟩ := List.mem_map.1 hx
  exact ⟨x, hx⟩

/-- A tape archive, known by `ustar` at offset 257. -/
example : ∃ d ∈ described, d.name = b!"TAR Container" ∧ d.extra = [] ∧
    At (List.replicate 257 65 ++ b!"ustar  ") d.offset d.bytes ∧
    ∃ items, (guessExtension (fun _ _ _ => .fuel) [] (some (List.replicate 257 65 ++ b!"ustar  "))).2 = .ok items := by
  refine ⟨⟨b!"tar", b!"TAR Container", b!"", 257, b!"ustar", b!""⟩, ?_, rfl, rfl, ⟨List.replicate 257 65, b!"  ", ?_, ?_⟩, ?_⟩
  · exact of_decide_eq_true (by decide +kernel : decide (_ ∈ described) = true)
  · decide +kernel
  · decide +kernel
  · have h : (match (guessExtension (fun _ _ _ => .fuel) [] (some (List.replicate 257 65 ++ b!"ustar  "))).2 with
      | .ok _ => true | _ => false) = true := by decide +kernel
    revert h
    generalize (guessExtension (fun _ _ _ => .fuel) [] (some (List.replicate 257 65 ++ b!"ustar  "))).2 = r
    intro h
    cases r with
    | ok l => exact ⟨l, rfl⟩
    | throw e => cases h
    | ub u => cases h
    | fuel => cases h

end Fileid.Props
