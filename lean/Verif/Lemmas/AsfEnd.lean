import Verif.Lemmas.AsfParse
import Verif.Lemmas.Formula
import Verif.Lemmas.VbaProjectEnd

/-!
# Lemmas about the end of reading ASF files
-/

namespace Fileid.Asf

open Common Spec Spec.Asf
open Fileid.Props (bind_nf)

theorem throw_ne_fuel {α : Type} (e : Exc) : (Res.throw e : Res α) ≠ .fuel := by simp

theorem llong_nf (b : Bytes) (max off : Nat) : ReadULongLong b max off ≠ .fuel := by
  unfold ReadULongLong
  exact ite_ne_fuel (throw_ne_fuel _) (bind_nf (rdRange_ne_fuel _ _ _) fun _ _ => ok_ne_fuel _)

theorem ulong_nf (abi : Abi) (b : Bytes) (max off : Nat) : ReadULong abi b max off ≠ .fuel := by
  unfold ReadULong
  exact ite_ne_fuel (throw_ne_fuel _) (bind_nf (rdRange_ne_fuel _ _ _) fun _ _ => ok_ne_fuel _)

theorem readBuffer_nf (room : Nat) (b : Bytes) (off n : Nat) : readBuffer room b off n ≠ .fuel := by
  unfold readBuffer
  exact ite_ne_fuel (throw_ne_fuel _) (ite_ne_fuel (throw_ne_fuel _) (rdRange_ne_fuel _ _ _))

theorem wideText_nf (abi : Abi) (b : Bytes) (i n : Nat) : wideText abi b i n ≠ .fuel := by
  unfold wideText
  exact bind_nf (Excel.wideString_ne_fuel _ _ _ _) fun _ _ => ok_ne_fuel _

theorem verifyGuids_nf (a e : Bytes) : VerifyGuids a e ≠ .fuel := by
  unfold VerifyGuids
  have : ∀ n i ans, VerifyGuidsLoop a e n i ans ≠ .fuel := by
    intro n
    induction n with
    | zero => intro i ans; exact ok_ne_fuel _
    | succ n ih =>
      intro i ans
      rw [VerifyGuidsLoop]
      exact ite_ne_fuel (bind_nf (rd_ne_fuel _ _) fun _ _ => bind_nf (rd_ne_fuel _ _) fun _ _ => ih _ _) (ok_ne_fuel _)
  exact this 16 0 true

theorem fromGuid_nf (id : Bytes) : ASFTypeFromGuid id ≠ .fuel := by
  unfold ASFTypeFromGuid
  induction guidTable with
  | nil => exact ok_ne_fuel _
  | cons e t ih =>
    obtain ⟨g, y⟩ := e
    rw [typeFromGuidLoop]
    exact bind_nf (verifyGuids_nf _ _) fun _ _ => ite_ne_fuel (ok_ne_fuel _) ih

/-- Splits a sequence of reads. -/
macro "ends" : tactic => `(tactic| repeat' first
  | exact ok_ne_fuel _
  | exact rd_ne_fuel _ _
  | exact rdRange_ne_fuel _ _ _
  | exact ReadUShort_ne_fuel _ _ _ _
  | exact ReadUInt_ne_fuel _ _ _ _
  | exact llong_nf _ _ _
  | exact ulong_nf _ _ _ _
  | exact readBuffer_nf _ _ _ _
  | exact wideText_nf _ _ _ _
  | exact fromGuid_nf _
  | refine bind_nf ?_ fun _ _ => ?_
  | refine ite_ne_fuel ?_ ?_)

theorem fileProps_nf (abi : Abi) (d : Bytes) : FileProps.new abi d ≠ .fuel := by unfold FileProps.new; dsimp only; ends
theorem streamProps_nf (abi : Abi) (room : Nat) (d : Bytes) : StreamProps.new abi room d ≠ .fuel := by
  unfold StreamProps.new; dsimp only; ends
theorem contentDesc_nf (abi : Abi) (d : Bytes) : ContentDescription.new abi d ≠ .fuel := by
  unfold ContentDescription.new; dsimp only; ends
theorem descriptorValue_nf (abi : Abi) (t : Nat) (d : Bytes) : descriptorValue abi t d ≠ .fuel := by
  unfold descriptorValue; ends
theorem descriptor_nf (abi : Abi) (room : Nat) (b : Bytes) (max off : Nat) :
    ContentDescriptor.new abi room b max off ≠ .fuel := by
  unfold ContentDescriptor.new
  dsimp only
  repeat' first
  | exact descriptorValue_nf _ _ _
  | ends
theorem descriptors_nf (abi : Abi) (room : Nat) (b : Bytes) (max : Nat) : ∀ n off acc,
    descriptorLoop abi room b max n off acc ≠ .fuel := by
  intro n
  induction n with
  | zero => intro off acc; exact ok_ne_fuel _
  | succ n ih =>
    intro off acc
    rw [descriptorLoop]
    exact bind_nf (descriptor_nf _ _ _ _ _) fun _ _ => ih _ _
theorem codec_nf (abi : Abi) (room : Nat) (b : Bytes) (max off : Nat) : CodecEntry.new abi room b max off ≠ .fuel := by
  unfold CodecEntry.new; dsimp only; ends
theorem codecs_nf (abi : Abi) (room : Nat) (b : Bytes) (max : Nat) : ∀ n off acc,
    codecLoop abi room b max n off acc ≠ .fuel := by
  intro n
  induction n with
  | zero => intro off acc; exact ok_ne_fuel _
  | succ n ih =>
    intro off acc
    rw [codecLoop]
    exact bind_nf (codec_nf _ _ _ _ _) fun _ _ => ih _ _

/-- The constructors end, that of header extensions excepted. -/
theorem constructAs_nf {abi : Abi} {room fuel size : Nat} {parse : Bytes → Nat → Nat → Res (Option Obj)} {t : ASFType}
    {data : Bytes} (h : t ≠ .ASF_Header_Extension_Object) : constructAs abi room parse fuel t size data ≠ .fuel := by
  unfold constructAs
  split
  · unfold newHeader; ends
  · exact bind_nf (fileProps_nf _ _) fun _ _ => ok_ne_fuel _
  · exact bind_nf (streamProps_nf _ _ _) fun _ _ => ok_ne_fuel _
  · exact absurd rfl h
  · exact bind_nf (contentDesc_nf _ _) fun _ _ => ok_ne_fuel _
  · unfold newExtContent
    exact bind_nf (ReadUShort_ne_fuel _ _ _ _) fun _ _ => bind_nf (descriptors_nf _ _ _ _ _ _ _) fun _ _ => ok_ne_fuel _
  · unfold newCodecList
    exact bind_nf (rdRange_ne_fuel _ _ _) fun _ _ => bind_nf (fromGuid_nf _) fun _ _ => bind_nf (ulong_nf _ _ _ _) fun _ _ =>
      bind_nf (codecs_nf _ _ _ _ _ _ _) fun _ _ => ok_ne_fuel _
  · exact ok_ne_fuel _

theorem typeOf_ext {id : Bytes} (h : typeOf id = .ASF_Header_Extension_Object) : id = headerExtId := by
  rcases typeOf_cases id with ⟨e, he, rfl⟩ | ⟨h', _⟩
  · have key : ∀ e ∈ guidTable, typeOf e.1 = .ASF_Header_Extension_Object → e.1 = headerExtId := by decide +kernel
    exact key e he h
  · rw [h'] at h; cases h

/-- Reading an object ends if the identifier of header extensions does not occur. -/
theorem parse_nf {abi : Abi} {room fuel max off : Nat} {b : Bytes} (h : ¬ Occurs headerExtId b) :
    Parse abi room (fuel + 1) b max off ≠ .fuel := by
  rw [Parse]
  refine ite_ne_fuel (ok_ne_fuel _) (bind_nf (rdRange_ne_fuel _ _ _) fun guid hg => ?_)
  refine ite_ne_fuel (ok_ne_fuel _) (bind_nf (llong_nf _ _ _) fun size _ => ?_)
  refine ite_ne_fuel (ok_ne_fuel _) (bind_nf (readBuffer_nf _ _ _ _) fun data _ => bind_nf ?_ fun _ _ => ok_ne_fuel _)
  have hg' : off + 16 ≤ b.length ∧ guid = (b.drop off).take 16 := by
    unfold rdRange at hg
    split at hg
    · injection hg with hg
      exact ⟨by assumption, hg.symm⟩
    · cases hg
  have hl : guid.length = 16 := by
    rw [hg'.2, List.length_take, List.length_drop]; omega
  unfold construct
  rw [fromGuid_eq hl, Res.bind_ok]
  refine constructAs_nf fun ht => h ?_
  have he := typeOf_ext ht
  refine ⟨off, b.take off, b.drop (off + 16), ?_, by rw [List.length_take]; omega⟩
  rw [← he, hg'.2, List.append_assoc, ← List.drop_drop, List.take_append_drop, List.take_append_drop]

theorem headers_nf {parse : Nat → Res (Option Obj)} {size : Nat} (h : ∀ i, parse i ≠ .fuel) : ∀ n i info acc,
    headerLoop parse size n i info acc ≠ .fuel := by
  intro n
  induction n with
  | zero => intro i info acc; exact ok_ne_fuel _
  | succ n ih =>
    intro i info acc
    rw [headerLoop]
    refine ite_ne_fuel (bind_nf (h i) fun o _ => ?_) (ok_ne_fuel _)
    cases o with
    | none => exact ok_ne_fuel _
    | some o => exact ih _ _ _

theorem trim_nf (chars s : Bytes) : trim chars s ≠ .fuel := by
  unfold trim rtrim
  refine bind_nf ?_ fun _ _ => ?_
  · unfold erase; exact ite_ne_fuel (ok_ne_fuel _) (throw_ne_fuel _)
  · unfold ltrim erase; exact ite_ne_fuel (ok_ne_fuel _) (throw_ne_fuel _)

theorem mapRes_nf {α β : Type} {f : α → Res β} (h : ∀ a, f a ≠ .fuel) (l : List α) : mapRes f l ≠ .fuel := by
  induction l with
  | nil => exact ok_ne_fuel _
  | cons a l ih => rw [mapRes]; exact bind_nf (h a) fun _ _ => bind_nf ih fun _ _ => ok_ne_fuel _

mutual
theorem toJson_nf : ∀ o : Obj, o.toJson ≠ .fuel
  | .unknown .. => by rw [Obj.toJson]; exact ok_ne_fuel _
  | .header .. => by rw [Obj.toJson]; exact ok_ne_fuel _
  | .fileProps .. => by rw [Obj.toJson]; exact ok_ne_fuel _
  | .streamProps .. => by rw [Obj.toJson]; exact ok_ne_fuel _
  | .headerExt _ _ _ _ _ cs => by rw [Obj.toJson]; exact bind_nf (toJsons_nf cs) fun _ _ => ok_ne_fuel _
  | .contentDesc .. => by rw [Obj.toJson]; exact ok_ne_fuel _
  | .extContent _ _ c => by
    rw [Obj.toJson]
    refine bind_nf (mapRes_nf (fun a => ?_) c) fun _ _ => ok_ne_fuel _
    unfold ContentDescriptor.json
    exact bind_nf (trim_nf _ _) fun _ _ => bind_nf (trim_nf _ _) fun _ _ => ok_ne_fuel _
  | .codecList .. => by rw [Obj.toJson]; exact ok_ne_fuel _
theorem toJsons_nf : ∀ os : List Obj, Obj.toJsons os ≠ .fuel
  | [] => by rw [Obj.toJsons]; exact ok_ne_fuel _
  | o :: os => by
    rw [Obj.toJsons]
    exact bind_nf (toJson_nf o) fun _ _ => bind_nf (toJsons_nf os) fun _ _ => ok_ne_fuel _
end

mutual
theorem toXml_nf : ∀ o : Obj, o.toXml ≠ .fuel
  | .unknown .. => by rw [Obj.toXml]; exact ok_ne_fuel _
  | .header .. => by rw [Obj.toXml]; exact ok_ne_fuel _
  | .fileProps .. => by rw [Obj.toXml]; exact ok_ne_fuel _
  | .streamProps .. => by rw [Obj.toXml]; exact ok_ne_fuel _
  | .headerExt _ _ _ _ _ cs => by rw [Obj.toXml]; exact bind_nf (toXmls_nf cs) fun _ _ => ok_ne_fuel _
  | .contentDesc .. => by rw [Obj.toXml]; exact ok_ne_fuel _
  | .extContent _ _ c => by
    rw [Obj.toXml]
    refine bind_nf (mapRes_nf (fun a => ?_) c) fun _ _ => ok_ne_fuel _
    unfold ContentDescriptor.xml
    exact bind_nf (trim_nf _ _) fun _ _ => bind_nf (trim_nf _ _) fun _ _ => ok_ne_fuel _
  | .codecList .. => by rw [Obj.toXml]; exact ok_ne_fuel _
theorem toXmls_nf : ∀ os : List Obj, Obj.toXmls os ≠ .fuel
  | [] => by rw [Obj.toXmls]; exact ok_ne_fuel _
  | o :: os => by
    rw [Obj.toXmls]
    exact bind_nf (toXml_nf o) fun _ _ => bind_nf (toXmls_nf os) fun _ _ => ok_ne_fuel _
end

theorem toItem_nf (info : ExtInfo) (os : List Obj) : toItem info os ≠ .fuel := by
  unfold toItem
  exact bind_nf (toJsons_nf os) fun _ _ => bind_nf (toXmls_nf os) fun _ _ => ok_ne_fuel _

/-- Objects whose data are shorter than a frame are passed over without end. -/
theorem extLoop_stuck {parse : Nat → Res (Option Obj)} {size : Nat} (hs : 0 < size) (h : parse 0 = .ok none ∨ parse 0 = .fuel) :
    ∀ fuel, extLoop parse size fuel 0 [] = .fuel := by
  intro fuel
  induction fuel with
  | zero => rfl
  | succ fuel ih =>
    rw [extLoop, if_pos hs]
    rcases h with h | h <;> rw [h]
    · rw [Res.bind_ok]; exact ih
    · rfl

end Fileid.Asf
