import Verif.Spec.AsfFramed
import Verif.Props.Asf

/-!
# C55: the walk through ASF files with header extensions
-/

namespace Fileid.Asf

open Common Spec Spec.Asf
open Fileid.Props (bind_nf)

theorem bind_back {α β : Type} {x : Res α} {f : α → Res β} {b : β} (h : (x >>= f) = .ok b) : ∃ a, x = .ok a ∧ f a = .ok b := by
  cases x with
  | ok a => exact ⟨a, rfl, h⟩
  | throw e => cases h
  | ub u => cases h
  | fuel => cases h

theorem typeOf_header {id : Bytes} (h : typeOf id = .ASF_Header_Object) : id = headerId := by
  rcases typeOf_cases id with ⟨e, he, rfl⟩ | ⟨h', _⟩
  · have key : ∀ e ∈ guidTable, typeOf e.1 = .ASF_Header_Object → e.1 = headerId := by decide +kernel
    exact key e he h
  · rw [h'] at h; cases h

/-- Objects other than headers keep their data. -/
theorem constructAs_data {abi : Abi} {room fuel size : Nat} {parse : Bytes → Nat → Nat → Res (Option Obj)} {t : ASFType}
    {data : Bytes} {obj : Obj} (ht : t ≠ .ASF_Header_Object) (h : constructAs abi room parse fuel t size data = .ok obj) :
    obj.data = data := by
  unfold constructAs at h
  split at h
  · exact absurd rfl ht
  · obtain ⟨_, _, h⟩ := bind_back h; injection h with h; rw [← h]; rfl
  · obtain ⟨_, _, h⟩ := bind_back h; injection h with h; rw [← h]; rfl
  · unfold newHeaderExt at h
    dsimp only at h
    obtain ⟨_, _, h⟩ := bind_back h
    obtain ⟨_, _, h⟩ := bind_back h
    obtain ⟨_, _, h⟩ := bind_back h
    obtain ⟨_, _, h⟩ := bind_back h
    obtain ⟨_, _, h⟩ := bind_back h
    obtain ⟨_, _, h⟩ := bind_back h
    injection h with h; rw [← h]; rfl
  · obtain ⟨_, _, h⟩ := bind_back h; injection h with h; rw [← h]; rfl
  · unfold newExtContent at h
    obtain ⟨_, _, h⟩ := bind_back h
    obtain ⟨_, _, h⟩ := bind_back h
    injection h with h; rw [← h]; rfl
  · unfold newCodecList at h
    obtain ⟨_, _, h⟩ := bind_back h
    obtain ⟨_, _, h⟩ := bind_back h
    obtain ⟨_, _, h⟩ := bind_back h
    obtain ⟨_, _, h⟩ := bind_back h
    injection h with h; rw [← h]; rfl
  · injection h with h; rw [← h]; rfl

/-- The walks from the beginning of `bs`, which lies at `off` in `b`, to its end. -/
def WalksEnd (bs : Bytes) : Prop := ∀ (room f : Nat) (b : Bytes) (off : Nat), At b off bs → b.length < 2 ^ 32 → b.length ≤ room →
  bs.length < f →
  (∀ g acc, bs.length < g → extLoop (Parse Abi.windows room f b b.length) (off + bs.length) g off acc ≠ .fuel) ∧
  ∀ n info acc, headerLoop (Parse Abi.windows room f b b.length) (off + bs.length) n off info acc ≠ .fuel

theorem walk_nil : WalksEnd [] := by
  intro room f b off _ _ _ _
  refine ⟨fun g acc hg => ?_, fun n info acc => ?_⟩
  · obtain ⟨g, rfl⟩ : ∃ k, g = k + 1 := ⟨g - 1, by simp at hg; omega⟩
    rw [extLoop, if_neg (by simp)]; exact ok_ne_fuel _
  · cases n with
    | zero => exact ok_ne_fuel _
    | succ n => rw [headerLoop, if_neg (by simp)]; exact ok_ne_fuel _

theorem walk_cons {id data rest : Bytes} (hi : id.length = 16) (hh : id ≠ headerId) (hrest : WalksEnd rest)
    (hc : ∀ room f, 24 + data.length < f + 1 → data.length < 2 ^ 32 → data.length ≤ room →
      constructAs Abi.windows room (Parse Abi.windows room f) f (typeOf id) (24 + data.length) data ≠ .fuel) :
    WalksEnd (frame id data ++ rest) := by
  intro room f b off hat hb hr hf
  have hle := hat.length_le
  obtain ⟨h1, h2⟩ := at_append hat
  rw [List.length_append, frame_length hi] at hf hle
  rw [frame_length hi] at h2
  obtain ⟨f, rfl⟩ : ∃ k, f = k + 1 := ⟨f - 1, by omega⟩
  have hp := parse_frame (abi := Abi.windows) (fuel := f) hi h1 hb hr
  rw [construct_eq hi] at hp
  have hnf := hc room f (by omega) (by omega) (by omega)
  have hstep : ∀ (obj : Obj), constructAs Abi.windows room (Parse Abi.windows room f) f (typeOf id) (24 + data.length) data = .ok obj →
      u32 (off + 24 + obj.data.length) = off + (24 + data.length) := by
    intro obj ho
    rw [constructAs_data (fun h => hh (typeOf_header h)) ho]
    unfold u32; omega
  have hend : off + (frame id data ++ rest).length = off + (24 + data.length) + rest.length := by
    rw [List.length_append, frame_length hi]; omega
  obtain ⟨r1, r2⟩ := hrest room (f + 1) b (off + (24 + data.length)) h2 hb hr (by omega)
  rw [hend]
  refine ⟨fun g acc hg => ?_, fun n info acc => ?_⟩
  · rw [List.length_append, frame_length hi] at hg
    obtain ⟨g, rfl⟩ : ∃ k, g = k + 1 := ⟨g - 1, by omega⟩
    rw [extLoop, if_pos (by omega), hp]
    refine bind_nf (bind_nf hnf fun _ _ => ok_ne_fuel _) fun o ho => ?_
    obtain ⟨obj, ho', hs⟩ := bind_back ho
    injection hs with hs
    subst hs
    dsimp only
    rw [hstep obj ho']
    exact r1 g _ (by omega)
  · cases n with
    | zero => exact ok_ne_fuel _
    | succ n =>
      rw [headerLoop, if_pos (by omega), hp]
      refine bind_nf (bind_nf hnf fun _ _ => ok_ne_fuel _) fun o ho => ?_
      obtain ⟨obj, ho', hs⟩ := bind_back ho
      injection hs with hs
      subst hs
      dsimp only
      rw [hstep obj ho']
      exact r2 n _ _

theorem walk_framed {bs : Bytes} (h : Framed bs) : WalksEnd bs := by
  induction h with
  | nil => exact walk_nil
  | @other id data rest hi he hh _ ih =>
    exact walk_cons hi hh ih fun room f _ _ _ => constructAs_nf fun h => he (typeOf_ext h)
  | @ext clock inner behind rest n hc _ _ ih1 ih2 =>
    have hie : headerExtId.length = 16 := ids_length (.ASF_Header_Extension_Object, headerExtId) (by simp [handled])
    refine walk_cons hie (by decide +kernel) ih2 fun room f hf hb hr => ?_
    rw [typeOf_handled (.ASF_Header_Extension_Object, headerExtId) (by simp [handled])]
    unfold constructAs newHeaderExt
    dsimp only
    have hd := at_self (clock ++ leBytes 2 n ++ leBytes 4 inner.length ++ inner ++ behind)
    have hl : (clock ++ leBytes 2 n ++ leBytes 4 inner.length ++ inner ++ behind).length = 22 + inner.length + behind.length := by
      simp only [List.length_append, leBytes_length]; omega
    generalize hdata : clock ++ leBytes 2 n ++ leBytes 4 inner.length ++ inner ++ behind = data at *
    have hd' : At data 0 (clock ++ (leBytes 2 n ++ (leBytes 4 inner.length ++ (inner ++ behind)))) := by
      rw [← List.append_assoc, ← List.append_assoc, ← List.append_assoc, hdata]; exact hd
    obtain ⟨d0, d1⟩ := at_append hd'
    obtain ⟨d1, d2⟩ := at_append d1
    obtain ⟨d2, d3⟩ := at_append d2
    obtain ⟨d3, _⟩ := at_append d3
    rw [leBytes_length] at d2
    rw [leBytes_length, leBytes_length] at d3
    rw [hc] at d1 d2 d3
    rw [rdRange_of_at d0 hc.symm, Res.bind_ok, fromGuid_eq hc, Res.bind_ok]
    refine bind_nf (ReadUShort_ne_fuel _ _ _ _) fun _ _ => ?_
    rw [ulong_at d2 (by omega) hb, Res.bind_ok, readBuffer_at d3 rfl hb (by omega), Res.bind_ok]
    have := (ih1 room f inner 0 (at_self inner) (by omega) (by omega) (by omega)).1 f [] (by omega)
    rw [Nat.zero_add] at this
    exact bind_nf this fun _ _ => ok_ne_fuel _

/-- The walk through the content of an extension gives no result. -/
def NeverDone (bs : Bytes) : Prop := ∀ (room f : Nat) (b : Bytes) (off : Nat), At b off bs → off + bs.length = b.length →
  b.length < 2 ^ 31 → b.length ≤ room → ∀ g acc l, extLoop (Parse Abi.windows room f b b.length) b.length g off acc ≠ .ok l

theorem stuck_at {parse : Nat → Res (Option Obj)} {size off : Nat} (hs : off < size) (h : ∀ o, parse off ≠ .ok (some o)) :
    ∀ g acc l, extLoop parse size g off acc ≠ .ok l := by
  intro g
  induction g with
  | zero => intro acc l h; cases h
  | succ g ih =>
    intro acc l hl
    rw [extLoop, if_pos hs] at hl
    obtain ⟨o, ho, hl⟩ := bind_back hl
    cases o with
    | some o => exact h o ho
    | none => exact ih acc l hl

/-- The data of an extension with such content are no object. -/
theorem ext_never {inner : Bytes} (hin : NeverDone inner) {clock behind : Bytes} {n : Nat} (hc : clock.length = 16) {room f size : Nat}
    (hb : (clock ++ leBytes 2 n ++ leBytes 4 inner.length ++ inner ++ behind).length < 2 ^ 31)
    (hr : (clock ++ leBytes 2 n ++ leBytes 4 inner.length ++ inner ++ behind).length ≤ room) (obj : Obj) :
    constructAs Abi.windows room (Parse Abi.windows room f) f (typeOf headerExtId) size
      (clock ++ leBytes 2 n ++ leBytes 4 inner.length ++ inner ++ behind) ≠ .ok obj := by
  rw [typeOf_handled (.ASF_Header_Extension_Object, headerExtId) (by simp [handled])]
  unfold constructAs newHeaderExt
  dsimp only
  have hd := at_self (clock ++ leBytes 2 n ++ leBytes 4 inner.length ++ inner ++ behind)
  have hl : (clock ++ leBytes 2 n ++ leBytes 4 inner.length ++ inner ++ behind).length = 22 + inner.length + behind.length := by
    simp only [List.length_append, leBytes_length]; omega
  generalize hdata : clock ++ leBytes 2 n ++ leBytes 4 inner.length ++ inner ++ behind = data at *
  have hd' : At data 0 (clock ++ (leBytes 2 n ++ (leBytes 4 inner.length ++ (inner ++ behind)))) := by
    rw [← List.append_assoc, ← List.append_assoc, ← List.append_assoc, hdata]; exact hd
  obtain ⟨d0, d1⟩ := at_append hd'
  obtain ⟨d1, d2⟩ := at_append d1
  obtain ⟨d2, d3⟩ := at_append d2
  obtain ⟨d3, _⟩ := at_append d3
  rw [leBytes_length] at d2
  rw [leBytes_length, leBytes_length] at d3
  rw [hc] at d1 d2 d3
  rw [rdRange_of_at d0 hc.symm, Res.bind_ok, fromGuid_eq hc, Res.bind_ok]
  intro h
  obtain ⟨_, _, h⟩ := bind_back h
  rw [ulong_at d2 (by omega) (by omega), Res.bind_ok, readBuffer_at d3 rfl (by omega) (by omega), Res.bind_ok] at h
  obtain ⟨l, hl', _⟩ := bind_back h
  exact hin room f inner 0 (at_self inner) (by simp) (by omega) (by omega) f [] l hl'

theorem broken_never {bs : Bytes} (h : Broken bs) : NeverDone bs := by
  induction h with
  | @short tail h0 h24 =>
    intro room f b off hat he hb hr
    refine stuck_at (by omega) fun o ho => ?_
    cases f with
    | zero => cases ho
    | succ f =>
      rw [Parse] at ho
      split at ho
      · cases ho
      · rename_i h16
        obtain ⟨guid, _, ho⟩ := bind_back ho
        dsimp only at ho
        rw [if_pos (by unfold u32 at h16 ⊢; omega)] at ho
        cases ho
  | @cut id data size hi hs hs' =>
    intro room f b off hat he hb hr
    have hlen : (id ++ leBytes 8 size ++ data).length = 24 + data.length := by
      simp only [List.length_append, leBytes_length]; omega
    rw [hlen] at he
    obtain ⟨a0, _⟩ := at_append hat
    obtain ⟨a0, a1⟩ := at_append a0
    rw [hi] at a1
    refine stuck_at (by omega) fun o ho => ?_
    cases f with
    | zero => cases ho
    | succ f =>
      rw [Parse, if_neg (by unfold u32; omega), rdRange_of_at a0 hi.symm, Res.bind_ok] at ho
      dsimp only at ho
      rw [if_neg (by unfold u32; omega), show u32 (off + 16) = off + 16 by unfold u32; omega, llong_at a1 hs' (by omega), Res.bind_ok] at ho
      split at ho
      · cases ho
      · rename_i hwrap
        obtain ⟨d, hd, _⟩ := bind_back ho
        unfold readBuffer at hd
        rw [if_pos] at hd
        · cases hd
        · unfold u32 sub64 u64 at *
          omega
  | @after id data rest hi hh _ ih =>
    intro room f b off hat he hb hr g acc l hl
    obtain ⟨h1, h2⟩ := at_append hat
    rw [List.length_append, frame_length hi] at he
    rw [frame_length hi] at h2
    cases g with
    | zero => cases hl
    | succ g =>
      rw [extLoop, if_pos (by omega)] at hl
      cases f with
      | zero => cases hl
      | succ f =>
        obtain ⟨o, ho, hl⟩ := bind_back hl
        have ho1 := ho
        rw [parse_frame hi h1 (by omega) hr, construct_eq hi] at ho1
        obtain ⟨obj, ho', hs⟩ := bind_back ho1
        injection hs with hs
        subst hs
        dsimp only at hl
        rw [constructAs_data (fun h => hh (typeOf_header h)) ho',
          show u32 (off + 24 + data.length) = off + (24 + data.length) by unfold u32; omega] at hl
        exact ih room (f + 1) b _ h2 (by omega) hb hr _ _ _ hl
  | @inside clock inner behind rest n hc _ ih =>
    intro room f b off hat he hb hr
    have hie : headerExtId.length = 16 := ids_length (.ASF_Header_Extension_Object, headerExtId) (by simp [handled])
    obtain ⟨h1, h2⟩ := at_append hat
    have hle := h1.length_le
    rw [List.length_append] at he
    rw [frame_length hie] at he hle
    refine stuck_at (by omega) fun o ho => ?_
    cases f with
    | zero => cases ho
    | succ f =>
      rw [parse_frame hie h1 (by omega) hr, construct_eq hie] at ho
      obtain ⟨obj, ho', _⟩ := bind_back ho
      exact ext_never ih hc (by omega) (by omega) obj ho'

theorem header_never {k : Nat} {bs : Bytes} (h : BrokenHeader k bs) : ∀ (room f : Nat) (b : Bytes) (off : Nat), At b off bs →
    b.length < 2 ^ 31 → b.length ≤ room → ∀ info acc r,
    headerLoop (Parse Abi.windows room f b b.length) (off + bs.length) k off info acc ≠ .ok r := by
  induction h with
  | @here clock inner behind rest n k hc hin =>
    intro room f b off hat hb hr info acc r hl
    have hie : headerExtId.length = 16 := ids_length (.ASF_Header_Extension_Object, headerExtId) (by simp [handled])
    obtain ⟨h1, h2⟩ := at_append hat
    have hle := h1.length_le
    rw [frame_length hie] at hle
    rw [headerLoop, if_pos (by rw [List.length_append, frame_length hie]; omega)] at hl
    obtain ⟨o, ho, _⟩ := bind_back hl
    cases f with
    | zero => cases ho
    | succ f =>
      rw [parse_frame hie h1 (by omega) hr, construct_eq hie] at ho
      obtain ⟨obj, ho', _⟩ := bind_back ho
      exact ext_never (broken_never hin) hc (by omega) (by omega) obj ho'
  | @later id data rest k hi hh _ ih =>
    intro room f b off hat hb hr info acc r hl
    obtain ⟨h1, h2⟩ := at_append hat
    have hle := hat.length_le
    rw [List.length_append, frame_length hi] at hl hle
    rw [frame_length hi] at h2
    rw [headerLoop, if_pos (by omega)] at hl
    cases f with
    | zero => cases hl
    | succ f =>
      obtain ⟨o, ho, hl⟩ := bind_back hl
      rw [parse_frame hi h1 (by omega) hr, construct_eq hi] at ho
      obtain ⟨obj, ho', hs⟩ := bind_back ho
      injection hs with hs
      subst hs
      dsimp only at hl
      rw [constructAs_data (fun h => hh (typeOf_header h)) ho',
        show u32 (off + 24 + data.length) = off + (24 + data.length) by unfold u32; omega,
        ← Nat.add_assoc off (24 + data.length)] at hl
      exact ih room (f + 1) b _ h2 hb hr _ _ _ hl

end Fileid.Asf

namespace Fileid.Props

open Common Spec Spec.Asf Fileid.Asf

/-- C55 for files whose header is a sequence of objects, with any identifiers and any data, as long as header extensions hold
sequences of objects again (to any depth): the walk ends. Whether the objects hold what they should does not matter. -/
theorem C55_framed_partial (room fuel count : Nat) (r1 r2 : UInt8) (body rest content : Bytes) (hbody : Framed body)
    (hcontent : content = frame headerId (leBytes 4 count ++ [r1, r2] ++ body) ++ rest)
    (hl : content.length < 2 ^ 32) (hr : content.length ≤ room) (hf : content.length < fuel) :
    Detailer Abi.windows room fuel (some content) (content.take 65536) ≠ .fuel := by
  have hid : headerId.length = 16 := ids_length (.ASF_Header_Object, headerId) (by simp [handled])
  have hdl : (leBytes 4 count ++ [r1, r2] ++ body).length = 6 + body.length := by
    simp only [List.length_append, leBytes_length]; simp
  have hfl := frame_length (data := leBytes 4 count ++ [r1, r2] ++ body) hid
  rw [hdl] at hfl
  have hshort : (content.take 65536).length ≤ content.length := by rw [List.length_take]; omega
  obtain ⟨f, rfl⟩ : ∃ k, fuel = k + 1 := ⟨fuel - 1, by omega⟩
  unfold Detailer
  dsimp only
  rw [used_buffer hl]
  by_cases hw : 30 + body.length ≤ 65536
  · have hbound : content.take 65536 = frame headerId (leBytes 4 count ++ [r1, r2] ++ body) ++ rest.take (65536 - (30 + body.length)) := by
      rw [hcontent, List.take_append, List.take_of_length_le (by omega), hfl, show 24 + (6 + body.length) = 30 + body.length by omega]
    generalize content.take 65536 = b at hbound hshort ⊢
    have hat : At b 0 (frame headerId (leBytes 4 count ++ [r1, r2] ++ body)) := ⟨[], _, hbound, rfl⟩
    have hbody' : At b 30 body := by
      have h0 := hat
      conv at h0 => arg 3; unfold frame
      obtain ⟨_, h0⟩ := at_append h0
      rw [List.length_append, leBytes_length, hid] at h0
      obtain ⟨_, h0⟩ := at_append h0
      rw [List.length_append, leBytes_length] at h0
      exact h0
    have hle := hat.length_le
    rw [hfl] at hle
    have t1 := typeOf_handled (.ASF_Header_Object, headerId) (by simp [handled])
    rw [parse_frame hid hat (by omega) (by omega), construct_eq hid, t1, hdl]
    refine bind_nf (bind_nf (constructAs_nf (by decide)) fun _ _ => ok_ne_fuel _) fun o ho => ?_
    obtain ⟨obj, ho', hs⟩ := bind_back ho
    injection hs with hs
    subst hs
    unfold constructAs newHeader at ho'
    dsimp only at ho'
    obtain ⟨num, _, ho'⟩ := bind_back ho'
    obtain ⟨_, _, ho'⟩ := bind_back ho'
    obtain ⟨_, _, ho'⟩ := bind_back ho'
    injection ho' with ho'
    subst ho'
    dsimp only
    have := (walk_framed hbody room (f + 1) b 30 hbody' (by omega) (by omega) (by omega)).2
    rw [show 24 + (6 + body.length) = 30 + body.length by omega]
    exact bind_nf (this _ _ _) fun _ _ => bind_nf (toItem_nf _ _) fun _ _ => ok_ne_fuel _
  · have hlen : (content.take 65536).length = 65536 := by
      rw [List.length_take, hcontent, List.length_append, hfl]; omega
    have hat : At (content.take 65536) 0 (headerId ++ leBytes 8 (30 + body.length)) := by
      refine ⟨[], (leBytes 4 count ++ [r1, r2] ++ body ++ rest).take (65536 - 24), ?_, rfl⟩
      have h24 : (headerId ++ leBytes 8 (30 + body.length)).length = 24 := by rw [List.length_append, leBytes_length, hid]
      rw [List.nil_append, hcontent, frame, hdl, List.append_assoc, List.append_assoc, ← List.append_assoc headerId,
        show 24 + (6 + body.length) = 30 + body.length by omega, List.take_append, h24,
        List.take_of_length_le (by omega)]
    obtain ⟨a0, a1⟩ := at_append hat
    rw [hid] at a1
    have hbl : 30 + body.length ≤ content.length := by
      rw [hcontent, List.length_append, hfl]; omega
    generalize content.take 65536 = b at *
    have p : Parse Abi.windows room (f + 1) b b.length 0 = .ok none := by
      rw [Parse, if_neg (by unfold u32; omega), rdRange_of_at a0 hid.symm, Res.bind_ok]
      dsimp only
      rw [if_neg (by unfold u32; omega), show u32 (0 + 16) = 0 + 16 from rfl, llong_at a1 (by omega) (by omega), Res.bind_ok,
        if_pos (by unfold u32 sub64 u64; omega)]
    rw [p, Res.bind_ok]
    exact bind_nf (toItem_nf _ _) fun _ _ => ok_ne_fuel _

/-- A header with an object that has no data and is therefore no valid stream description, and an extension in an extension. -/
example : Framed (frame streamPropsId [] ++
    (frame headerExtId (List.replicate 16 5 ++ leBytes 2 6 ++
      leBytes 4 (frame headerExtId (List.replicate 16 5 ++ leBytes 2 6 ++ leBytes 4 ([] : Bytes).length ++ [] ++ []) ++ []).length ++
      (frame headerExtId (List.replicate 16 5 ++ leBytes 2 6 ++ leBytes 4 ([] : Bytes).length ++ [] ++ []) ++ []) ++ b!"xy") ++ [])) :=
  .other (by decide +kernel) (by decide +kernel) (by decide +kernel) (.ext rfl (.ext rfl .nil .nil) .nil)

/-- C55 is false wherever the content of a header extension is not made of objects: no such file is ever reported, however many
steps are made. Either an object before that place is not read to its end, or the walk does not end. -/
theorem C55_broken_wrong (room count : Nat) (r1 r2 : UInt8) (body rest content : Bytes) (hcount : count < 2 ^ 32)
    (hbody : BrokenHeader count body) (hw : 30 + body.length ≤ 65536)
    (hcontent : content = frame headerId (leBytes 4 count ++ [r1, r2] ++ body) ++ rest)
    (hl : content.length < 2 ^ 32) (hr : content.length ≤ room) (fuel : Nat) (items : List Item) :
    Detailer Abi.windows room fuel (some content) (content.take 65536) ≠ .ok items := by
  have hid : headerId.length = 16 := ids_length (.ASF_Header_Object, headerId) (by simp [handled])
  have hdl : (leBytes 4 count ++ [r1, r2] ++ body).length = 6 + body.length := by
    simp only [List.length_append, leBytes_length]; simp
  have hfl := frame_length (data := leBytes 4 count ++ [r1, r2] ++ body) hid
  rw [hdl] at hfl
  have hshort : (content.take 65536).length ≤ content.length ∧ (content.take 65536).length ≤ 65536 := by rw [List.length_take]; omega
  unfold Detailer
  dsimp only
  rw [used_buffer hl]
  have hbound : content.take 65536 = frame headerId (leBytes 4 count ++ [r1, r2] ++ body) ++ rest.take (65536 - (30 + body.length)) := by
    rw [hcontent, List.take_append, List.take_of_length_le (by omega), hfl, show 24 + (6 + body.length) = 30 + body.length by omega]
  generalize content.take 65536 = b at hbound hshort ⊢
  have hat : At b 0 (frame headerId (leBytes 4 count ++ [r1, r2] ++ body)) := ⟨[], _, hbound, rfl⟩
  have hbody' : At b 30 body := by
    have h0 := hat
    conv at h0 => arg 3; unfold frame
    obtain ⟨_, h0⟩ := at_append h0
    rw [List.length_append, leBytes_length, hid] at h0
    obtain ⟨_, h0⟩ := at_append h0
    rw [List.length_append, leBytes_length] at h0
    exact h0
  have hle := hat.length_le
  rw [hfl] at hle
  have t1 := typeOf_handled (.ASF_Header_Object, headerId) (by simp [handled])
  intro h
  cases fuel with
  | zero => cases h
  | succ f =>
    rw [parse_frame hid hat (by omega) (by omega), construct_eq hid, t1, hdl] at h
    obtain ⟨o, ho, h⟩ := bind_back h
    obtain ⟨obj, ho', hs⟩ := bind_back ho
    injection hs with hs
    subst hs
    unfold constructAs newHeader at ho'
    dsimp only at ho'
    have hd := at_self (leBytes 4 count ++ [r1, r2] ++ body)
    obtain ⟨d0, d1⟩ := at_append (List.append_assoc _ _ _ ▸ hd)
    rw [← List.append_assoc] at d0
    rw [ulong_at d0 hcount (by omega), Res.bind_ok] at ho'
    obtain ⟨_, _, ho'⟩ := bind_back ho'
    obtain ⟨_, _, ho'⟩ := bind_back ho'
    injection ho' with ho'
    subst ho'
    dsimp only at h
    rw [show 24 + (6 + body.length) = 30 + body.length by omega] at h
    obtain ⟨r, hr', _⟩ := bind_back h
    exact header_never hbody room (f + 1) b 30 hbody' (by omega) (by omega) _ _ r hr'

/-- An extension behind another object, in which an object is cut off. -/
example : BrokenHeader 2 (frame (List.replicate 16 3) b!"abc" ++
    (frame headerExtId (List.replicate 16 5 ++ leBytes 2 6 ++ leBytes 4 (List.replicate 16 9 ++ leBytes 8 30 ++ b!"abc").length ++
      (List.replicate 16 9 ++ leBytes 8 30 ++ b!"abc") ++ []) ++ [])) :=
  .later rfl (by decide +kernel) (.here rfl (.cut rfl (by decide) (by decide)))

end Fileid.Props
