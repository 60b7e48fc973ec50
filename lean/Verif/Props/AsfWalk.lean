import Verif.Lemmas.AsfWalk

/-!
# C55: with which ASF files the walk comes to an end
-/

namespace Fileid.Props

open Common Spec Spec.Asf Fileid.Asf

theorem newHeader_back {abi : Abi} (habi : abi = Abi.linux ∨ abi = Abi.windows) {data : Bytes} {n : Nat} {obj : Obj}
    (h : newHeader abi data n = .ok obj) : 6 ≤ data.length ∧ abi.ulongBytes ≤ data.length ∧
      ∃ r1 r2, obj = .header n (littleEndian (data.take abi.ulongBytes)) r1 r2 := by
  unfold newHeader at h
  obtain ⟨num, hn, h⟩ := bind_back h
  obtain ⟨r1, _, h⟩ := bind_back h
  obtain ⟨r2, h5, h⟩ := bind_back h
  injection h with h
  obtain ⟨n1, n2⟩ := ulong_back habi hn
  have : 5 < data.length := by
    unfold rd at h5
    cases hd : data[5]? with
    | none => rw [hd] at h5; cases h5
    | some x => exact (List.getElem?_eq_some_iff.1 hd).1
  exact ⟨by omega, by omega, r1, r2, by rw [← h, n2, List.drop_zero]⟩

theorem not_header {abi : Abi} {room fuel size a b : Nat} {c d : UInt8} {parse : Bytes → Nat → Nat → Res (Option Obj)} {t : ASFType}
    {data : Bytes} (ht : t ≠ .ASF_Header_Object) : constructAs abi room parse fuel t size data ≠ .ok (.header a b c d) := by
  intro h
  unfold constructAs at h
  split at h
  · exact absurd rfl ht
  · obtain ⟨_, _, h⟩ := bind_back h; cases h
  · obtain ⟨_, _, h⟩ := bind_back h; cases h
  · unfold newHeaderExt at h
    dsimp only at h
    obtain ⟨_, _, h⟩ := bind_back h
    obtain ⟨_, _, h⟩ := bind_back h
    obtain ⟨_, _, h⟩ := bind_back h
    obtain ⟨_, _, h⟩ := bind_back h
    obtain ⟨_, _, h⟩ := bind_back h
    obtain ⟨_, _, h⟩ := bind_back h
    cases h
  · obtain ⟨_, _, h⟩ := bind_back h; cases h
  · unfold newExtContent at h
    obtain ⟨_, _, h⟩ := bind_back h
    obtain ⟨_, _, h⟩ := bind_back h
    cases h
  · unfold newCodecList at h
    obtain ⟨_, _, h⟩ := bind_back h
    obtain ⟨_, _, h⟩ := bind_back h
    obtain ⟨_, _, h⟩ := bind_back h
    obtain ⟨_, _, h⟩ := bind_back h
    cases h
  · cases h

/-- C55, Linux and Windows, every file: the walk ends, unless the header of the file leads to a header extension with which it comes to
a place that is no object. What the objects hold does not matter. -/
theorem C55_ends_partial (abi : Abi) (habi : abi = Abi.linux ∨ abi = Abi.windows) (room fuel : Nat) (content : Bytes)
    (hl : content.length < 2 ^ 32) (hr : content.length ≤ room) (hf : content.length < fuel) (h : ¬ StuckFile abi.ulongBytes content) :
    Detailer abi room fuel (some content) (content.take 65536) ≠ .fuel := by
  have hshort : (content.take 65536).length ≤ content.length := by rw [List.length_take]; omega
  have hmax : (content.take 65536).length ≤ 65536 := by rw [List.length_take]; omega
  obtain ⟨f, rfl⟩ : ∃ k, fuel = k + 1 := ⟨fuel - 1, by omega⟩
  unfold Detailer
  dsimp only
  rw [used_buffer hl]
  unfold StuckFile at h
  generalize content.take 65536 = b at *
  have none_end : ∀ {o : Option Obj}, o = none → (match o with
      | none => do
        let item ← toItem { Extension := b!"asf", Name := b!"Advanced Systems Format (ASF)" } []
        Res.ok [item]
      | some (.header size number r1 r2) => do
        let (info, headers) ← headerLoop (Parse abi room (f + 1) b b.length) size number 30
          { Extension := b!"asf", Name := b!"Advanced Systems Format (ASF)" } [.header size number r1 r2]
        let item ← toItem info headers
        Res.ok [item]
      | some _ => Res.ub .oobRead) ≠ Res.fuel := by
    intro o ho
    subst ho
    exact bind_nf (toItem_nf _ _) fun _ _ => ok_ne_fuel _
  rcases kinds b with rfl | ⟨_, h24⟩ | ⟨id, sz, data, rfl, hi, hs, hs'⟩ | ⟨id, sz, data, rfl, hi, hs⟩ | ⟨id, data, rest, rfl, hi⟩
  · have := parse_short (abi := abi) (room := room) (f := f) (pre := []) (tail := []) (by simp) (by simp)
    rw [List.nil_append] at this
    rw [show ([] : Bytes).length = 0 from rfl] at this ⊢
    rw [this, Res.bind_ok]
    exact none_end rfl
  · have := parse_short (abi := abi) (room := room) (f := f) (pre := []) h24 (by simpa using by omega)
    rw [List.nil_append, show ([] : Bytes).length = 0 from rfl] at this
    rw [this, Res.bind_ok]
    exact none_end rfl
  · rcases parse_cut (abi := abi) (room := room) (f := f) (pre := []) hi hs hs' (by rw [List.nil_append]; omega) with h1 | h1
    · rw [List.nil_append, show ([] : Bytes).length = 0 from rfl] at h1
      rw [h1, Res.bind_ok]
      exact none_end rfl
    · rw [List.nil_append, show ([] : Bytes).length = 0 from rfl] at h1
      rw [h1]; simp [Res.bind_throw]
  · have h1 := parse_small (abi := abi) (room := room) (f := f) (pre := []) (data := data) hi hs (by rw [List.nil_append]; omega)
    rw [List.nil_append, show ([] : Bytes).length = 0 from rfl] at h1
    rw [h1]; simp [Res.bind_throw]
  · have hlen : (frame id data ++ rest).length = 24 + data.length + rest.length := by rw [List.length_append, frame_length hi]
    have hat : At (frame id data ++ rest) 0 (frame id data) := ⟨[], rest, by simp, rfl⟩
    rw [parse_frame hi hat (by omega) (by omega), construct_eq hi]
    refine bind_nf (bind_nf (construct_ends habi (by omega) (by omega) (by omega) fun inner he hh => ?_) fun _ _ => ok_ne_fuel _) fun o ho => ?_
    · subst he
      exact ext_ends habi _ inner rfl fun hst => h (Or.inr ⟨data, inner, rest, rfl, hh, hst⟩)
    · obtain ⟨obj, ho', hs⟩ := bind_back ho
      injection hs with hs
      subst hs
      by_cases hh : id = headerId
      · subst hh
        rw [typeOf_handled (.ASF_Header_Object, headerId) (by simp [handled])] at ho'
        obtain ⟨h6, hw, r1, r2, rfl⟩ := newHeader_back habi ho'
        dsimp only
        have he : headerId ++ leBytes 8 (24 + data.length) ++ data.take 6 ++ (data.drop 6 ++ rest) = frame headerId data ++ rest := by
          rw [frame, List.append_assoc _ (data.take 6), ← List.append_assoc (data.take 6), List.take_append_drop]
          simp
        have hp : (headerId ++ leBytes 8 (24 + data.length) ++ data.take 6).length = 30 := by
          simp only [List.length_append, leBytes_length, List.length_take, hi]; omega
        have := header_ends habi (littleEndian (data.take abi.ulongBytes)) (data.drop 6 ++ rest)
          (headerId ++ leBytes 8 (24 + data.length) ++ data.take 6) (24 + data.length) room (f + 1)
        rw [he, hp, show 24 + data.length - 30 = data.length - 6 by omega] at this
        refine bind_nf (this (fun hst => h (Or.inl ⟨data, rest, rfl, h6, hw, hst⟩)) (by omega) (by omega)
          (by simp only [List.length_append, List.length_drop]; omega) _ _) fun _ _ => bind_nf (toItem_nf _ _) fun _ _ => ok_ne_fuel _
      · cases obj with
        | header a b c d =>
          exact absurd ho' (not_header fun ht => hh (typeOf_header ht))
        | _ => simp

/-- C55 is false of all other files: no such file is ever reported, however many steps are made. Either an object before that place is not
read to its end, or the walk does not end. -/
theorem C55_stuck_wrong (abi : Abi) (habi : abi = Abi.linux ∨ abi = Abi.windows) (room : Nat) (content : Bytes)
    (hl : content.length < 2 ^ 32) (hr : content.length ≤ room) (h : StuckFile abi.ulongBytes content) (fuel : Nat) (items : List Item) :
    Detailer abi room fuel (some content) (content.take 65536) ≠ .ok items := by
  have hshort : (content.take 65536).length ≤ content.length := by rw [List.length_take]; omega
  have hmax : (content.take 65536).length ≤ 65536 := by rw [List.length_take]; omega
  intro hok
  unfold Detailer at hok
  dsimp only at hok
  rw [used_buffer hl] at hok
  unfold StuckFile at h
  generalize content.take 65536 = b at *
  obtain ⟨o, ho, hok⟩ := bind_back hok
  cases fuel with
  | zero => cases ho
  | succ f =>
    rcases h with ⟨data, rest, rfl, h6, hw, hst⟩ | ⟨data, inner, rest, rfl, hh, hst⟩
    · have hi : headerId.length = 16 := ids_length (.ASF_Header_Object, headerId) (by simp [handled])
      have hlen : (frame headerId data ++ rest).length = 24 + data.length + rest.length := by rw [List.length_append, frame_length hi]
      have hat : At (frame headerId data ++ rest) 0 (frame headerId data) := ⟨[], rest, by simp, rfl⟩
      rw [parse_frame hi hat (by omega) (by omega), construct_eq hi, typeOf_handled (.ASF_Header_Object, headerId) (by simp [handled])] at ho
      obtain ⟨obj, ho', hs⟩ := bind_back ho
      injection hs with hs
      subst hs
      obtain ⟨_, _, r1, r2, rfl⟩ := newHeader_back habi ho'
      dsimp only at hok
      obtain ⟨r, hloop, _⟩ := bind_back hok
      have he : headerId ++ leBytes 8 (24 + data.length) ++ data.take 6 ++ (data.drop 6 ++ rest) = frame headerId data ++ rest := by
        rw [frame, List.append_assoc _ (data.take 6), ← List.append_assoc (data.take 6), List.take_append_drop]
        simp
      have hp : (headerId ++ leBytes 8 (24 + data.length) ++ data.take 6).length = 30 := by
        simp only [List.length_append, leBytes_length, List.length_take, hi]; omega
      have := header_stuck habi hst room (f + 1) (24 + data.length) (headerId ++ leBytes 8 (24 + data.length) ++ data.take 6)
      rw [he, hp] at this
      exact this (by omega) (by omega) (by omega) _ _ _ hloop
    · have hi : headerExtId.length = 16 := ids_length (.ASF_Header_Extension_Object, headerExtId) (by simp [handled])
      have hlen : (frame headerExtId data ++ rest).length = 24 + data.length + rest.length := by rw [List.length_append, frame_length hi]
      have hat : At (frame headerExtId data ++ rest) 0 (frame headerExtId data) := ⟨[], rest, by simp, rfl⟩
      have hle := hh.2.1
      rw [parse_frame hi hat (by omega) (by omega), construct_eq hi,
        typeOf_handled (.ASF_Header_Extension_Object, headerExtId) (by simp [handled])] at ho
      obtain ⟨obj, ho', _⟩ := bind_back ho
      exact newHeaderExt_never habi hh
        (fun l => ext_stuck habi hst room f [] (by simpa using by omega) (by simpa using by omega) f [] l) obj ho'

/-- A header that holds a header extension without objects, and another header. -/
def walkable : Bytes := frame headerId (leBytes 4 2 ++ [1, 2] ++ frame headerExtId (List.replicate 26 0) ++ frame headerId (List.replicate 16 0))

/-- The data of a header extension with one byte for objects. -/
def oneByte : Bytes := List.replicate 18 0 ++ [1] ++ List.replicate 9 0

/-- A header that holds this header extension. -/
def unwalkable : Bytes := frame headerId (leBytes 4 1 ++ [1, 2] ++ frame headerExtId oneByte)

/-- C55: the hypotheses of C55_ends_partial are met by a file with a header in its header. -/
example : walkable.length < 2 ^ 32 ∧ ¬ StuckFile Abi.windows.ulongBytes walkable := by
  refine ⟨by decide +kernel, fun h => ?_⟩
  have key : (match Detailer Abi.windows 1000 1000 (some walkable) (walkable.take 65536) with | .ok _ => true | _ => false) = true := by
    decide +kernel
  have := C55_stuck_wrong Abi.windows (Or.inr rfl) 1000 walkable (by decide +kernel) (by decide +kernel) h 1000
  split at key
  · rename_i items he
    exact this items he
  · cases key

/-- C55: the hypotheses of C55_stuck_wrong are met on both platforms. -/
example : unwalkable.length < 2 ^ 32 ∧ StuckFile Abi.linux.ulongBytes unwalkable ∧ StuckFile Abi.windows.ulongBytes unwalkable := by
  have key : ∀ w, w = 8 ∨ w = 4 → StuckFile w unwalkable := by
    intro w hw
    have hk : 0 < littleEndian ((leBytes 4 1 ++ [1, 2] ++ frame headerExtId oneByte).take w) := by
      rcases hw with rfl | rfl <;> decide +kernel
    have hh : Holds w oneByte [0] := by
      rcases hw with rfl | rfl <;> exact ⟨by decide +kernel, by decide +kernel, by decide +kernel, by decide +kernel⟩
    have := StuckHeader.here (k := littleEndian ((leBytes 4 1 ++ [1, 2] ++ frame headerExtId oneByte).take w) - 1)
      (left := (leBytes 4 1 ++ [1, 2] ++ frame headerExtId oneByte).length - 6) (rest := []) (by decide +kernel) hh
      (.short (by decide) (by decide))
    rw [Nat.sub_add_cancel hk] at this
    exact Or.inl ⟨leBytes 4 1 ++ [1, 2] ++ frame headerExtId oneByte, [], by decide +kernel, by decide +kernel,
      by rcases hw with rfl | rfl <;> decide +kernel, this⟩
  exact ⟨by decide +kernel, key 8 (Or.inl rfl), key 4 (Or.inr rfl)⟩

end Fileid.Props
