import Verif.Lemmas.AsfEnd

/-!
# C54, C55, C85-C87: ASF files
-/

namespace Fileid.Props

open Common Spec Spec.Asf Fileid.Asf

/-! ## C54 identification -/

/-- C54 for all identifiers except that of compatibility objects: each is given its name, all others "Unknown". -/
theorem C54_identification_partial (id : Bytes) (h : id.length = 16) (hc : id ≠ compatibilityId) :
    (ASFTypeFromGuid id >>= fun t => Res.ok (ASFTypeToString t)) = .ok (typeName id) := by
  rw [fromGuid_eq h, Res.bind_ok, typeName_eq]
  show Res.ok (if id = compatibilityId then _ else _) = _
  rw [if_neg hc]

/-- The names are different for different identifiers. -/
theorem C54_names_distinct_partial (a b : Bytes) (ha : a.length = 16) (hb : b.length = 16) (hac : a ≠ compatibilityId)
    (hbc : b ≠ compatibilityId) (n : Bytes) (hn : n ≠ b!"Unknown")
    (h1 : (ASFTypeFromGuid a >>= fun t => Res.ok (ASFTypeToString t)) = .ok n)
    (h2 : (ASFTypeFromGuid b >>= fun t => Res.ok (ASFTypeToString t)) = .ok n) : a = b := by
  rw [C54_identification_partial a ha hac] at h1
  rw [C54_identification_partial b hb hbc] at h2
  injection h1 with h1
  injection h2 with h2
  have find : ∀ (l : List (Bytes × Bytes)) (k : Bytes), nameOf l b!"Unknown" k ≠ b!"Unknown" →
      (k, nameOf l b!"Unknown" k) ∈ l := by
    intro l k
    induction l with
    | nil => intro h; exact absurd rfl h
    | cons e l ih =>
      intro h
      rw [nameOf] at h ⊢
      split
      · rename_i he; subst he; simp
      · rename_i he
        rw [if_neg he] at h
        exact List.mem_cons_of_mem _ (ih h)
  have m1 := find byBytes a (by show typeName a ≠ _; rw [h1]; exact hn)
  have m2 := find byBytes b (by show typeName b ≠ _; rw [h2]; exact hn)
  have key : ∀ e ∈ byBytes, ∀ e' ∈ byBytes, e.2 = e'.2 → e.1 = e'.1 := by decide +kernel
  exact key _ m1 _ m2 (by show typeName a = typeName b; rw [h1, h2])

example : filePropsId.length = 16 ∧ filePropsId ≠ compatibilityId ∧ typeName filePropsId = b!"ASF_File_Properties_Object" ∧
    typeName (List.replicate 16 0) = b!"Unknown" := by decide +kernel

/-- C54 is false of the identifier of compatibility objects. -/
theorem C54_compatibility_wrong :
    (ASFTypeFromGuid compatibilityId >>= fun t => Res.ok (ASFTypeToString t)) = .ok b!"Unknown" ∧
      typeName compatibilityId = b!"ASF_Compatibility_Object" := by decide +kernel

/-! ## C55 the walk ends -/

/-- C55 for files in which the identifier of header extensions does not occur, on every platform: whatever else the
file contains, one step of nesting is enough. -/
theorem C55_walk_ends_partial (abi : Abi) (room fuel : Nat) (content : Bytes) (hl : content.length < 2 ^ 32)
    (h : ¬ Occurs headerExtId content) :
    Detailer abi room (fuel + 1) (some content) (content.take 65536) ≠ .fuel := by
  unfold Detailer
  dsimp only
  rw [used_buffer hl]
  have hbuf : ¬ Occurs headerExtId (content.take 65536) := by
    rintro ⟨off, pre, post, e, hpre⟩
    refine h ⟨off, pre, post ++ content.drop 65536, ?_, hpre⟩
    rw [← List.append_assoc, ← e, List.take_append_drop]
  generalize content.take 65536 = b at hbuf ⊢
  refine bind_nf (parse_nf hbuf) fun o _ => ?_
  split
  · exact bind_nf (toItem_nf _ _) fun _ _ => ok_ne_fuel _
  · refine bind_nf (headers_nf (fun i => parse_nf hbuf) _ _ _ _) fun r _ => ?_
    exact bind_nf (toItem_nf _ _) fun _ _ => ok_ne_fuel _
  · exact ub_ne_fuel _

/-- A header with two objects in which the identifier does not occur. -/
example : ¬ Occurs headerExtId (file [.other (List.replicate 16 3) b!"abc", .extContent [⟨⟨b!"n", 0⟩, .word 7⟩]] b!"data") := by
  rintro ⟨off, pre, post, e, _⟩
  have h1 : (0x5F : UInt8) ∉ file [.other (List.replicate 16 3) b!"abc", .extContent [⟨⟨b!"n", 0⟩, .word 7⟩]] b!"data" := by
    decide +kernel
  have h2 : (0x5F : UInt8) ∈ headerExtId := by decide +kernel
  exact h1 (by rw [e]; simp [h2])

/-- C55 is false: the walk does not end, with any number of steps, for a header that contains a header extension
whose content is too short for an object (here one to twenty-three bytes). -/
theorem C55_short_extension_wrong (room fuel : Nat) (clock tail rest : Bytes) (n : Nat) (hc : clock.length = 16)
    (hn : n < 2 ^ 16) (ht : 0 < tail.length ∧ tail.length < 24) (content : Bytes)
    (hcontent : content = frame headerId (leBytes 4 1 ++ [1, 2] ++
      frame headerExtId (clock ++ leBytes 2 n ++ leBytes 4 tail.length ++ tail)) ++ rest)
    (hl : content.length < 2 ^ 32) (hr : content.length ≤ room) :
    Detailer Abi.windows room fuel (some content) (content.take 65536) = .fuel := by
  have hid : headerId.length = 16 := ids_length (.ASF_Header_Object, headerId) (by simp [handled])
  have hie : headerExtId.length = 16 := ids_length (.ASF_Header_Extension_Object, headerExtId) (by simp [handled])
  rw [detailer_window hl]
  have hbound : content.take 65536 = frame headerId (leBytes 4 1 ++ [1, 2] ++
      frame headerExtId (clock ++ leBytes 2 n ++ leBytes 4 tail.length ++ tail)) ++
        rest.take (65536 - (76 + tail.length)) := by
    have hlen : (frame headerId (leBytes 4 1 ++ [1, 2] ++
        frame headerExtId (clock ++ leBytes 2 n ++ leBytes 4 tail.length ++ tail))).length = 76 + tail.length := by
      rw [frame_length hid]
      simp only [List.length_append, leBytes_length, frame_length hie, hc, List.length_cons, List.length_nil]
      omega
    rw [hcontent, List.take_append, List.take_of_length_le (by omega), hlen]
  have hshort : (content.take 65536).length ≤ content.length := by rw [List.length_take]; omega
  clear hcontent
  generalize content.take 65536 = window at hbound hshort ⊢
  generalize rest.take (65536 - (76 + tail.length)) = rest at hbound
  have hl : window.length < 2 ^ 32 := by omega
  have hr : window.length ≤ room := by omega
  clear hshort
  revert hbound hl hr
  generalize window = content
  intro hcontent hl hr
  have hbuf := used_buffer_whole hl
  have hat : At content 0 (frame headerId (leBytes 4 1 ++ [1, 2] ++
      frame headerExtId (clock ++ leBytes 2 n ++ leBytes 4 tail.length ++ tail))) := ⟨[], rest, hcontent, rfl⟩
  have hel : (clock ++ leBytes 2 n ++ leBytes 4 tail.length ++ tail).length = 22 + tail.length := by
    simp only [List.length_append, leBytes_length]; omega
  have hdl : (leBytes 4 1 ++ [1, 2] ++ frame headerExtId (clock ++ leBytes 2 n ++ leBytes 4 tail.length ++ tail)).length =
      52 + tail.length := by
    simp only [List.length_append, leBytes_length, frame_length hie, hel]; simp; omega
  have hle := hat.length_le
  rw [frame_length hid, hdl] at hle
  have hext : At content 30 (frame headerExtId (clock ++ leBytes 2 n ++ leBytes 4 tail.length ++ tail)) := by
    have h0 := hat
    conv at h0 => arg 3; unfold frame
    obtain ⟨_, h0⟩ := at_append h0
    rw [List.length_append, leBytes_length, hid] at h0
    obtain ⟨_, h0⟩ := at_append h0
    rw [List.length_append, leBytes_length] at h0
    exact h0
  cases fuel with
  | zero => rfl
  | succ f =>
    have t1 := typeOf_handled (.ASF_Header_Object, headerId) (by simp [handled])
    have t2 := typeOf_handled (.ASF_Header_Extension_Object, headerExtId) (by simp [handled])
    have p1 : Parse Abi.windows room (f + 1) content content.length 0 =
        .ok (some (.header (76 + tail.length) 1 1 2)) := by
      rw [parse_frame hid hat hl hr, construct_eq hid, t1]
      unfold constructAs newHeader
      dsimp only
      have hd := at_self (leBytes 4 1 ++ [1, 2] ++
        frame headerExtId (clock ++ leBytes 2 n ++ leBytes 4 tail.length ++ tail))
      obtain ⟨d0, d1⟩ := at_append (List.append_assoc _ _ _ ▸ hd)
      rw [← List.append_assoc] at d0
      rw [ulong_at d0 (by omega) (by omega), Res.bind_ok, hdl,
        show 24 + (52 + tail.length) = 76 + tail.length by omega]
      rfl
    have p2 : Parse Abi.windows room (f + 1) content content.length 30 = .fuel := by
      rw [parse_frame hie hext hl hr, construct_eq hie, t2]
      unfold constructAs newHeaderExt
      dsimp only
      have hd := at_self (clock ++ leBytes 2 n ++ leBytes 4 tail.length ++ tail)
      generalize hdata : clock ++ leBytes 2 n ++ leBytes 4 tail.length ++ tail = data at *
      have hd' : At data 0 (clock ++ (leBytes 2 n ++ (leBytes 4 tail.length ++ tail))) := by
        rw [← List.append_assoc, ← List.append_assoc, hdata]; exact hd
      obtain ⟨d0, d1⟩ := at_append hd'
      obtain ⟨d1, d2⟩ := at_append d1
      obtain ⟨d2, d3⟩ := at_append d2
      rw [leBytes_length] at d2
      rw [leBytes_length, leBytes_length] at d3
      rw [hc] at d1 d2 d3
      have hb : data.length < 2 ^ 32 := by omega
      rw [rdRange_of_at d0 hc.symm, Res.bind_ok, fromGuid_eq hc, Res.bind_ok, ushort_at d1 hn hb, Res.bind_ok,
        ulong_at d2 (by omega) hb, Res.bind_ok, readBuffer_at d3 rfl hb (by omega), Res.bind_ok]
      have hstuck : Parse Abi.windows room f tail tail.length 0 = .ok none ∨
          Parse Abi.windows room f tail tail.length 0 = .fuel := by
        cases f with
        | zero => exact Or.inr rfl
        | succ f =>
          refine Or.inl ?_
          rw [Parse]
          split
          · rfl
          · rename_i h16
            have h16 : 16 ≤ tail.length := by
              have e : u32 (0 + 16) = 16 := rfl
              rw [e] at h16; omega
            unfold rdRange
            rw [if_pos (by omega), Res.bind_ok]
            dsimp only
            rw [if_pos]
            show 24 > tail.length
            omega
      rw [extLoop_stuck ht.1 hstuck]
      rfl
    unfold Detailer
    dsimp only
    rw [hbuf, p1, Res.bind_ok]
    dsimp only
    rw [headerLoop, if_pos (by omega), p2]
    rfl

/-- Such a file. -/
example (fuel : Nat) : Detailer Abi.windows 1000 fuel
    (some (frame headerId (leBytes 4 1 ++ [1, 2] ++ frame headerExtId (List.replicate 16 5 ++ leBytes 2 6 ++ leBytes 4 1 ++ [0])) ++ []))
    ((frame headerId (leBytes 4 1 ++ [1, 2] ++ frame headerExtId (List.replicate 16 5 ++ leBytes 2 6 ++ leBytes 4 1 ++ [0])) ++ []).take 65536)
      = .fuel :=
  C55_short_extension_wrong 1000 fuel (List.replicate 16 5) [0] [] 6 rfl (by decide) (by decide) _ rfl (by decide +kernel)
    (by decide +kernel)

end Fileid.Props
