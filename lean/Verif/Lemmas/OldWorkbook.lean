import Verif.Spec.OldWorkbook
import Verif.Lemmas.WorkbookSheets

/-!
# The walk through a workbook of BIFF5
-/

namespace Fileid.Excel

open Common Spec Spec.Biff ExcelTables

/-- The records at the given positions are those of the list. -/
def Are (m : List Rec) (ids : List Nat) (rs : List Record) : Prop :=
  Pointwise (fun i r => ∃ q, m[i]? = some q ∧ q.key = own r) ids rs

theorem Are.grow {m : List Rec} {ids : List Nat} {rs : List Record} (h : Are m ids rs) (q : Rec) : Are (m ++ [q]) ids rs := by
  refine pointwise_mono (fun i r ⟨x, hx, hk⟩ => ⟨x, ?_, hk⟩) h
  rw [List.getElem?_append_left (List.getElem?_eq_some_iff.1 hx).1, hx]

theorem Are.snoc {m : List Rec} {ids : List Nat} {rs : List Record} (h : Are m ids rs) {q : Rec} {r : Record} (hq : q.key = own r) :
    Are (m ++ [q]) (ids ++ [m.length]) (rs ++ [r]) :=
  pointwise_snoc (h.grow q) ⟨q, by simp, hq⟩

/-- The object made of a record that is not the first one of a workbook of another version than BIFF8. -/
def oldView (V : Nat) (r : Record) : View :=
  if r.type ∈ beginsIn V then .bof
  else if V = 1280 ∧ r.type = boundSheetType then .boundSheet5 ((r.data.drop 7).take (r.data.getD 6 0).toNat)
  else .plain

def oldRec (V : Nat) (r : Record) : Rec := Rec.make r.type r.data (oldView V r)

/-- The list of records. -/
def olds (V : Nat) : List Record → List Rec
  | [] => []
  | b :: rs => Rec.make b.type b.data .bof :: rs.map (oldRec V)

theorem olds_snoc (V : Nat) {done : List Record} (h : done ≠ []) (r : Record) : olds V (done ++ [r]) = olds V done ++ [oldRec V r] := by
  cases done with
  | nil => exact absurd rfl h
  | cons b rs => simp [olds]

theorem olds_key (V : Nat) (done : List Record) : (olds V done).map Rec.key = done.map own := by
  cases done with
  | nil => rfl
  | cons b rs =>
    simp only [olds, List.map_cons, List.map_map]
    rfl

/-- The records of the workbook's description (`none`) and of the sheets. -/
abbrev Places := Option Nat → List Record

def Places.add (L : Places) (k : Option Nat) (rs : List Record) : Places := fun j => if j = k then L j ++ rs else L j

theorem Places.add_add (L : Places) (k : Option Nat) (a b : List Record) : (L.add k a).add k b = L.add k (a ++ b) := by
  funext j
  unfold Places.add
  split <;> simp

theorem Places.add_nil (L : Places) (k : Option Nat) : L.add k [] = L := by
  funext j
  unfold Places.add
  split <;> simp

/-- The engine within a workbook of another version than BIFF8. -/
structure Old (V : Nat) (names : List Bytes) (done : List Record) (L : Places) (cur : Option Nat) (e : Eng) : Prop where
  version : e.version = V
  Version : e.Version = Option.some V
  names : e.sheets.map Sheet.head = names.map fun n => (n, 0, 0, 0)
  some : done ≠ []
  master : e.master = olds V done
  zero : e.global.head? = Option.some 0
  glob : Are e.master e.global (L none)
  kids : ∀ (i : Nat) s, e.sheets[i]? = Option.some s → Are e.master s.children (L (Option.some i))
  current : e.current = cur.map fun i => (i, false)
  moved : 4 ≤ e.index

theorem old_parse {abi : Abi} {fmt : Fmt} {fuel V : Nat} {e : Eng} {r : Record} (hv : e.version = V) (h8 : V ≠ 1536)
    (h : r.type ≠ boundSheetType) :
    ParseRecord abi fmt fuel e r.type r.data = .ok (some (e.master, oldRec V r)) := by
  have h85 : ¬ r.type = 0x0085 := h
  unfold ParseRecord parseVersioned oldRec oldView beginsIn
  rw [hv, if_neg h8]
  by_cases h5 : V = 1280
  · subst h5
    by_cases ht : r.type = 0x0809
    · rw [if_pos rfl, if_pos ht, if_pos rfl, if_pos (by rw [ht]; decide)]; rfl
    · rw [if_pos rfl, if_neg ht, if_neg h85, if_pos rfl, if_neg (by simpa using ht), if_neg (fun h' => h85 h'.2)]; rfl
  · rw [if_neg h5, if_neg h5]
    have hno : ¬ (V = 1280 ∧ r.type = boundSheetType) := fun h' => h5 h'.1
    by_cases h4 : V = 1024
    · subst h4
      rw [if_pos rfl, if_pos rfl, if_neg hno]
      by_cases ht : r.type = 0x0409
      · rw [if_pos ht, if_pos (by rw [ht]; decide)]; rfl
      · rw [if_neg ht, if_neg (by simpa using ht)]; rfl
    · rw [if_neg h4, if_neg h4]
      by_cases h3 : V = 768
      · subst h3
        rw [if_pos rfl, if_pos rfl, if_neg hno]
        by_cases ht : r.type = 0x0209
        · rw [if_pos ht, if_pos (by rw [ht]; decide)]; rfl
        · rw [if_neg ht, if_neg (by simpa using ht)]; rfl
      · rw [if_neg h3, if_neg h3]
        by_cases h2 : V = 512
        · subst h2
          rw [if_pos rfl, if_pos rfl, if_neg hno]
          by_cases ht : r.type = 0x0009
          · rw [if_pos ht, if_pos (by rw [ht]; decide)]; rfl
          · rw [if_neg ht, if_neg (by simpa using ht)]; rfl
        · rw [if_neg h2, if_neg h2, if_neg hno]
          by_cases ht : isBofType r.type = true
          · rw [if_pos ht, if_pos (isBof_cases ht)]; rfl
          · rw [if_neg ht, if_neg (fun hm => ht (by
              simp only [bofTypes, List.mem_cons, List.not_mem_nil, or_false] at hm
              rcases hm with h | h | h | h <;> rw [h] <;> rfl))]
            rfl

/-- The record is added where it belongs. -/
theorem old_add {V : Nat} {names : List Bytes} {done : List Record} {L : Places} {cur : Option Nat} {e : Eng} {r : Record} {len : Nat}
    (he : Old V names done L cur e) (hi : e.index + len < 2 ^ 32) :
    ∃ e1, addRecord e (oldRec V r) = .ok e1 ∧
      Old V names (done ++ [r]) (L.add cur [r]) cur { e1 with index := u32 (e1.index + len) } ∧
      e1.index = e.index ∧ e1.sheetIndex = e.sheetIndex := by
  have hk : (oldRec V r).key = own r := rfl
  have hmod : 4 ≤ u32 (e.index + len) := by have := he.moved; unfold u32; omega
  have hm : e.master ++ [oldRec V r] = olds V (done ++ [r]) := by rw [he.master, olds_snoc V he.some]
  have hne : done ++ [r] ≠ [] := by simp
  unfold addRecord
  cases cur with
  | none =>
    rw [he.current]
    refine ⟨_, rfl, ⟨he.version, he.Version, he.names, hne, hm, ?_, ?_, ?_, ?_, hmod⟩, rfl, rfl⟩
    · have h0 := he.zero
      show (e.global ++ [_]).head? = _
      cases hg : e.global with
      | nil => rw [hg] at h0; cases h0
      | cons x t => rw [hg] at h0; exact h0
    · have : L.add none [r] none = L none ++ [r] := if_pos rfl
      rw [this]
      exact he.glob.snoc hk
    · intro i s hs
      have : L.add none [r] (some i) = L (some i) := if_neg (by simp)
      rw [this]
      exact (he.kids i s hs).grow _
    · rfl
  | some c =>
    rw [he.current]
    refine ⟨_, rfl, ⟨he.version, he.Version, ?_, hne, hm, he.zero, ?_, ?_, ?_, hmod⟩, rfl, rfl⟩
    · show (addToSheet e.sheets c _).map Sheet.head = _
      rw [← he.names]
      unfold addToSheet
      apply List.ext_getElem?
      intro i
      rw [List.getElem?_map, List.getElem?_map, List.getElem?_modify]
      cases e.sheets[i]? with
      | none => rfl
      | some s => by_cases h : c = i <;> simp [h, Sheet.head]
    · have : L.add (some c) [r] none = L none := if_neg (by simp)
      rw [this]
      exact he.glob.grow _
    · intro i s hs
      have hs' : (addToSheet e.sheets c e.master.length)[i]? = some s := hs
      unfold addToSheet at hs'
      rw [List.getElem?_modify] at hs'
      cases hx : e.sheets[i]? with
      | none => rw [hx] at hs'; cases hs'
      | some x =>
        rw [hx] at hs'
        simp only [Option.map_eq_map, Option.map_some] at hs'
        by_cases h : c = i
        · subst h
          rw [if_pos rfl] at hs'
          cases hs'
          have : L.add (some c) [r] (some c) = L (some c) ++ [r] := if_pos rfl
          rw [this]
          exact (he.kids c x hx).snoc hk
        · rw [if_neg h] at hs'
          simp only [Option.some.injEq] at hs'
          subst hs'
          have : L.add (some c) [r] (some i) = L (some i) := if_neg (by simp [Ne.symm h])
          rw [this]
          exact (he.kids i x hx).grow _
    · rfl

theorem Old.at {V : Nat} {names : List Bytes} {done : List Record} {L : Places} {cur : Option Nat} {e : Eng} (he : Old V names done L cur e)
    {i : Nat} (hi : 4 ≤ i) : Old V names done L cur { e with index := i } :=
  ⟨he.version, he.Version, he.names, he.some, he.master, he.zero, he.glob, he.kids, he.current, hi⟩

/-- A record that neither begins a substream nor declares a sheet. -/
theorem old_other {abi : Abi} {fmt : Fmt} {fuel max V : Nat} {names : List Bytes} {done : List Record} {L : Places} {cur : Option Nat} {e : Eng} {r : Record}
    (he : Old V names done L cur e) (h8 : V ≠ 1536) (hb : r.type ∉ bofTypes) (hs : r.type ≠ boundSheetType) (hf : r.type ≠ filePassType)
    (hi : e.index + r.bytes.length < 2 ^ 32) :
    ∃ e', doRecord abi fmt fuel max r e = .ok e' ∧ Old V names (done ++ [r]) (L.add cur [r]) cur e' ∧
      e'.index = e.index + r.bytes.length ∧ e'.sheetIndex = e.sheetIndex := by
  rw [Record.bytes_length] at hi
  have hu4 : u32 (e.index + 4) = e.index + 4 := Nat.mod_eq_of_lt (by omega)
  have hp := old_parse (abi := abi) (fmt := fmt) (fuel := fuel) (e := { e with index := u32 (e.index + 4) }) (r := r) he.version h8 hs
  have hnb : ¬ isBofType r.type = true := fun h => hb (isBof_cases h)
  obtain ⟨e1, h1, hO, hx, hsi⟩ := old_add (r := r) (len := r.data.length) (he.at (i := u32 (e.index + 4)) (by omega)) (by rw [hu4]; dsimp only; omega)
  refine ⟨_, ?_, hO, ?_, hsi⟩
  · unfold doRecord
    rw [hp, Res.bind_ok]
    dsimp only
    unfold effect
    rw [show (oldRec V r).type = r.type from rfl, if_neg hnb, if_neg (show ¬ r.type = 0x85 from hs),
      if_neg (show ¬ r.type = 0x2F from hf), Res.bind_ok]
    rw [h1, Res.bind_ok]
  · show u32 (e1.index + r.data.length) = _
    rw [Record.bytes_length, hx]
    dsimp only
    rw [hu4]
    unfold u32
    omega

theorem old_others {abi : Abi} {fmt : Fmt} {fuel max V : Nat} (h8 : V ≠ 1536) {names : List Bytes} {cur : Option Nat} (rs : List Record) :
    ∀ (done : List Record) (L : Places) (e : Eng), Old V names done L cur e →
    (∀ r ∈ rs, r.type ∉ bofTypes ∧ r.type ≠ boundSheetType ∧ r.type ≠ filePassType) → e.index + (stream rs).length < 2 ^ 32 →
    ∃ e', doRecords abi fmt fuel max rs e = .ok e' ∧ Old V names (done ++ rs) (L.add cur rs) cur e' ∧
      e'.index = e.index + (stream rs).length ∧ e'.sheetIndex = e.sheetIndex := by
  induction rs with
  | nil => intro done L e he _ _; exact ⟨e, rfl, by rw [List.append_nil, L.add_nil]; exact he, rfl, rfl⟩
  | cons r rs ih =>
    intro done L e he hs hi
    rw [stream_cons, List.length_append] at hi ⊢
    obtain ⟨e1, h1, hp1, hi1, hx1⟩ := old_other (abi := abi) (fmt := fmt) (fuel := fuel) (max := max) he h8
      (hs r (by simp)).1 (hs r (by simp)).2.1 (hs r (by simp)).2.2 (by omega)
    obtain ⟨e2, h2, hp2, hi2, hx2⟩ := ih _ _ e1 hp1 (fun q hq => hs q (by simp [hq])) (by rw [hi1]; omega)
    refine ⟨e2, by rw [doRecords, h1, Res.bind_ok, h2], ?_, by rw [hi2, hi1]; omega, hx2.trans hx1⟩
    rw [L.add_add, List.append_assoc, List.singleton_append] at hp2
    exact hp2

/-! ## BIFF5 -/

theorem old_decl_view {d : OldDecl} (hd : d.Valid) : mkBoundSheet5 d.record.data = .ok (.boundSheet5 d.name) := by
  obtain ⟨a1, a2, a3, a4, h4⟩ := length_four (leBytes_length 4 d.offset)
  have hdata : d.record.data = a1 :: a2 :: a3 :: a4 :: d.state :: d.kind :: UInt8.ofNat d.name.length :: d.name := by
    show leBytes 4 d.offset ++ [d.state, d.kind, UInt8.ofNat d.name.length] ++ d.name = _
    rw [h4]; rfl
  have hn : (UInt8.ofNat d.name.length).toNat = d.name.length := by rw [UInt8.toNat_ofNat']; exact Nat.mod_eq_of_lt hd.2
  unfold mkBoundSheet5
  rw [hdata]
  generalize hD : a1 :: a2 :: a3 :: a4 :: d.state :: d.kind :: UInt8.ofNat d.name.length :: d.name = D
  have hl : D.length = 7 + d.name.length := by rw [← hD]; simp only [List.length_cons]; omega
  have r1 : ∃ x, ReadUInt D D.length 0 true = .ok x := by
    rw [← hD]
    unfold ReadUInt
    simp only [rd, u32]
    rw [if_neg (by simp only [List.length_cons]; omega)]
    exact ⟨_, rfl⟩
  obtain ⟨x, r1⟩ := r1
  have r2 : rd D 4 = .ok d.state := by rw [← hD]; rfl
  have r3 : rd D 5 = .ok d.kind := by rw [← hD]; rfl
  have r4 : rd D 6 = .ok (UInt8.ofNat d.name.length) := by rw [← hD]; rfl
  have r5 : rdRange D 7 d.name.length = .ok d.name := by
    unfold rdRange
    rw [if_pos (by omega), ← hD]
    show Res.ok (d.name.take d.name.length) = _
    rw [List.take_length]
  rw [r1, Res.bind_ok, r2, Res.bind_ok, r3, Res.bind_ok, r4, Res.bind_ok, hn, r5]
  rfl

theorem old_decl_rec {d : OldDecl} (hd : d.Valid) : oldRec 1280 d.record = Rec.make boundSheetType d.record.data (.boundSheet5 d.name) := by
  obtain ⟨a1, a2, a3, a4, h4⟩ := length_four (leBytes_length 4 d.offset)
  have hdata : d.record.data = a1 :: a2 :: a3 :: a4 :: d.state :: d.kind :: UInt8.ofNat d.name.length :: d.name := by
    show leBytes 4 d.offset ++ [d.state, d.kind, UInt8.ofNat d.name.length] ++ d.name = _
    rw [h4]; rfl
  have hn : (UInt8.ofNat d.name.length).toNat = d.name.length := by rw [UInt8.toNat_ofNat']; exact Nat.mod_eq_of_lt hd.2
  unfold oldRec oldView
  rw [show d.record.type = boundSheetType from rfl, if_neg (by decide), if_pos ⟨rfl, rfl⟩, hdata]
  show Rec.make _ _ (.boundSheet5 (d.name.take (UInt8.ofNat d.name.length).toNat)) = _
  rw [hn, List.take_length]

/-- A sheet's declaration. -/
theorem old_sheet {abi : Abi} {fmt : Fmt} {fuel max : Nat} {names : List Bytes} {done : List Record} {L : Places} {e : Eng} {d : OldDecl}
    (he : Old 1280 names done L none e) (hL : ∀ i, names.length ≤ i → L (some i) = []) (hd : d.Valid) (hi : e.index + d.record.bytes.length < 2 ^ 32) :
    ∃ e', doRecord abi fmt fuel max d.record e = .ok e' ∧ Old 1280 (names ++ [d.name]) (done ++ [d.record]) (L.add none [d.record]) none e' ∧
      e'.index = e.index + d.record.bytes.length ∧ e'.sheetIndex = e.sheetIndex := by
  rw [Record.bytes_length] at hi
  have hu4 : u32 (e.index + 4) = e.index + 4 := Nat.mod_eq_of_lt (by omega)
  have hp : ParseRecord abi fmt fuel { e with index := u32 (e.index + 4) } d.record.type d.record.data =
      .ok (some (e.master, oldRec 1280 d.record)) := by
    unfold ParseRecord parseVersioned
    rw [show ({ e with index := u32 (e.index + 4) } : Eng).version = 1280 from he.version, if_neg (by decide), if_pos rfl,
      show d.record.type = 0x85 from rfl, if_neg (by decide), if_pos rfl, old_decl_view hd, old_decl_rec hd]
    rfl
  have hlen : e.sheets.length = names.length := by
    have := congrArg List.length he.names
    simpa using this
  have hO' : Old 1280 (names ++ [d.name]) done L none (pushSheet { e with index := u32 (e.index + 4) } { Name := d.name }) := by
    refine ⟨he.version, he.Version, ?_, he.some, he.master, he.zero, he.glob, ?_, ?_, by show 4 ≤ u32 _; omega⟩
    · show (e.sheets ++ [_]).map Sheet.head = _
      rw [List.map_append, he.names, List.map_append]
      rfl
    · intro i s hs
      have hs' : (e.sheets ++ [({ Name := d.name } : Sheet)])[i]? = some s := hs
      by_cases h : i < e.sheets.length
      · rw [List.getElem?_append_left h] at hs'
        exact he.kids i s hs'
      · rw [List.getElem?_append_right (by omega)] at hs'
        have h0 : i - e.sheets.length = 0 := by
          have := (List.getElem?_eq_some_iff.1 hs').1
          simp at this
          omega
        rw [h0] at hs'
        simp only [List.getElem?_cons_zero, Option.some.injEq] at hs'
        subst hs'
        rw [hL i (by omega)]
        exact .nil
    · show (if _ then e.current else e.current.map _) = _
      rw [he.current]
      split <;> rfl
  obtain ⟨e1, h1, hO, hx, hsi⟩ := old_add (r := d.record) (len := d.record.data.length) hO'
    (by show u32 (e.index + 4) + _ < _; rw [hu4]; omega)
  refine ⟨_, ?_, hO, ?_, hsi⟩
  · unfold doRecord
    rw [hp, Res.bind_ok]
    dsimp only
    unfold effect
    rw [show (oldRec 1280 d.record).type = 0x85 from rfl, if_neg (by decide), if_pos rfl]
    unfold boundSheet
    rw [show sheetName (oldRec 1280 d.record) = d.name by rw [old_decl_rec hd]; rfl]
    rw [if_neg (by rw [he.version]; decide), if_pos he.version, Res.bind_ok]
    have h1' := h1
    unfold pushSheet at h1'
    show addRecord (pushSheet { e with index := u32 (e.index + 4), master := e.master } { Name := d.name }) _ >>= _ = _
    have : ({ e with index := u32 (e.index + 4), master := e.master } : Eng) = { e with index := u32 (e.index + 4) } := rfl
    rw [this, h1, Res.bind_ok]
  · show u32 (e1.index + d.record.data.length) = _
    rw [Record.bytes_length, hx]
    show u32 (u32 (e.index + 4) + _) = _
    rw [hu4]
    unfold u32
    omega

theorem oldDeclared_append (a b : List OldGlobal) : oldDeclared (a ++ b) = oldDeclared a ++ oldDeclared b := by
  induction a with
  | nil => rfl
  | cons g a ih => cases g <;> simp [oldDeclared, ih]

theorem old_globals {abi : Abi} {fmt : Fmt} {fuel max : Nat} (gs : List OldGlobal) :
    ∀ (names : List Bytes) (done : List Record) (L : Places) (e : Eng), Old 1280 names done L none e → (∀ i, L (some i) = []) →
    (∀ d, OldGlobal.sheet d ∈ gs → d.Valid) →
    (∀ r, OldGlobal.other r ∈ gs → r.type ∉ bofTypes ∧ r.type ≠ boundSheetType ∧ r.type ≠ filePassType) →
    e.index + (stream (gs.map OldGlobal.record)).length < 2 ^ 32 →
    ∃ e', doRecords abi fmt fuel max (gs.map OldGlobal.record) e = .ok e' ∧
      Old 1280 (names ++ (oldDeclared gs).map OldDecl.name) (done ++ gs.map OldGlobal.record) (L.add none (gs.map OldGlobal.record)) none e' ∧
      e'.index = e.index + (stream (gs.map OldGlobal.record)).length ∧ e'.sheetIndex = e.sheetIndex := by
  induction gs with
  | nil =>
    intro names done L e he _ _ _ _
    refine ⟨e, rfl, ?_, rfl, rfl⟩
    simp only [oldDeclared, List.map_nil, List.append_nil]
    rw [L.add_nil]
    exact he
  | cons g gs ih =>
    intro names done L e he hL hd ho hi
    rw [List.map_cons, stream_cons, List.length_append] at hi ⊢
    have hL' : ∀ i, (L.add none [g.record]) (some i) = [] := fun i => by
      unfold Places.add
      rw [if_neg (by simp)]
      exact hL i
    have key : ∃ e1, doRecord abi fmt fuel max g.record e = .ok e1 ∧
        Old 1280 (names ++ (oldDeclared [g]).map OldDecl.name) (done ++ [g.record]) (L.add none [g.record]) none e1 ∧
        e1.index = e.index + g.record.bytes.length ∧ e1.sheetIndex = e.sheetIndex := by
      cases g with
      | sheet d => exact old_sheet he (fun i _ => hL i) (hd d (by simp)) (by show e.index + d.record.bytes.length < _; simp only [OldGlobal.record] at hi; omega)
      | other r =>
        simp only [oldDeclared, List.map_nil, List.append_nil]
        have h := ho r (by simp)
        exact old_other he (by decide) h.1 h.2.1 h.2.2 (by show e.index + r.bytes.length < _; simp only [OldGlobal.record] at hi; omega)
    obtain ⟨e1, h1, hp1, hi1, hx1⟩ := key
    obtain ⟨e2, h2, hp2, hi2, hx2⟩ := ih _ _ _ e1 hp1 hL' (fun d hm => hd d (by simp [hm])) (fun r hm => ho r (by simp [hm])) (by rw [hi1]; omega)
    refine ⟨e2, by rw [doRecords, h1, Res.bind_ok, h2], ?_, by rw [hi2, hi1]; omega, hx2.trans hx1⟩
    rw [L.add_add] at hp2
    have hD : oldDeclared (g :: gs) = oldDeclared [g] ++ oldDeclared gs := oldDeclared_append [g] gs
    rw [hD, List.map_append, ← List.append_assoc]
    simpa using hp2

/-- A substream's beginning: the next sheet is taken, if there is one. `k` substreams have begun so far. -/
theorem old_bof {abi : Abi} {fmt : Fmt} {fuel max : Nat} {names : List Bytes} {done : List Record} {L : Places} {e : Eng} {r : Record} {k : Nat}
    (he : Old 1280 names done L (if k = 0 then none else some (min (k - 1) (names.length - 1))) e) (hn : 0 < names.length)
    (hk : k ≠ 0 → e.sheetIndex = k - 1) (hb : r.type ∈ bofTypes) (hi : e.index + r.bytes.length < 2 ^ 32) (hk' : k + 1 < 2 ^ 32) :
    ∃ e', doRecord abi fmt fuel max r e = .ok e' ∧
      Old 1280 names (done ++ [r]) (L.add (some (min k (names.length - 1))) [r]) (some (min k (names.length - 1))) e' ∧
      e'.index = e.index + r.bytes.length ∧ e'.sheetIndex = k := by
  rw [Record.bytes_length] at hi
  have hu4 : u32 (e.index + 4) = e.index + 4 := Nat.mod_eq_of_lt (by omega)
  have hbof : isBofType r.type = true := by
    simp only [bofTypes, List.mem_cons, List.not_mem_nil, or_false] at hb
    rcases hb with h | h | h | h <;> rw [h] <;> rfl
  have hs : r.type ≠ boundSheetType := fun h => by rw [h] at hb; revert hb; decide
  have hp := old_parse (abi := abi) (fmt := fmt) (fuel := fuel) (e := { e with index := u32 (e.index + 4) }) (r := r) he.version (by decide) hs
  have hlen : e.sheets.length = names.length := by
    have := congrArg List.length he.names
    simpa using this
  -- what the effect is
  have hsub : subStreamBof { e with index := u32 (e.index + 4) } =
      { e with index := u32 (e.index + 4), sheetIndex := k, current := some (min k (names.length - 1), false) } := by
    unfold subStreamBof
    rw [if_neg (by show ¬ e.version = _; rw [he.version]; decide), if_pos he.version]
    have hsi : (if ({ e with index := u32 (e.index + 4) } : Eng).current = none then 0 else u32 (e.sheetIndex + 1)) = k := by
      show (if e.current = none then 0 else u32 (e.sheetIndex + 1)) = k
      rw [he.current]
      by_cases h0 : k = 0
      · rw [if_pos h0]; simp [h0]
      · rw [if_neg h0, if_neg (by simp), hk h0]
        unfold u32
        omega
    dsimp only at hsi ⊢
    rw [hsi]
    by_cases hlt : k < e.sheets.length
    · rw [if_pos hlt, Nat.min_eq_left (by omega)]
    · rw [if_neg hlt, Nat.min_eq_right (by omega)]
      have h0 : k ≠ 0 := by omega
      have hc := he.current
      rw [if_neg h0, Nat.min_eq_right (by omega)] at hc
      rw [← show e.current = some (names.length - 1, false) from hc]
  have hO' : Old 1280 names done L (some (min k (names.length - 1))) (subStreamBof { e with index := u32 (e.index + 4) }) := by
    rw [hsub]
    exact ⟨he.version, he.Version, he.names, he.some, he.master, he.zero, he.glob, he.kids, rfl, by show 4 ≤ u32 _; omega⟩
  have hidx : (subStreamBof { e with index := u32 (e.index + 4) }).index = u32 (e.index + 4) := by rw [hsub]
  obtain ⟨e1, h1, hO, hx, hsi⟩ := old_add (r := r) (len := r.data.length) hO' (by rw [hidx, hu4]; omega)
  refine ⟨_, ?_, hO, ?_, by show e1.sheetIndex = k; rw [hsi, hsub]⟩
  · unfold doRecord
    rw [hp, Res.bind_ok]
    dsimp only
    unfold effect
    rw [show (oldRec 1280 r).type = r.type from rfl, if_pos hbof, if_neg (by show ¬ u32 (e.index + 4) = 4; have := he.moved; omega), Res.bind_ok]
    have : ({ e with index := u32 (e.index + 4), master := e.master } : Eng) = { e with index := u32 (e.index + 4) } := rfl
    rw [this, h1, Res.bind_ok]
  · show u32 (e1.index + r.data.length) = _
    rw [Record.bytes_length, hx, hidx, hu4]
    unfold u32
    omega

/-- The places after some substreams have been dealt out. -/
def Places.deal (n : Nat) (L : Places) : Nat → List (List Record) → Places
  | _, [] => L
  | j, s :: ss => Places.deal n (L.add (some (min j (n - 1))) s) (j + 1) ss

theorem Places.deal_some (n : Nat) (i : Nat) (ss : List (List Record)) : ∀ (L : Places) (j : Nat),
    L.deal n j ss (some i) = L (some i) ++ dealt n i j ss := by
  induction ss with
  | nil => intro L j; simp [Places.deal, dealt]
  | cons s ss ih =>
    intro L j
    rw [Places.deal, ih, dealt]
    unfold Places.add
    by_cases h : min j (n - 1) = i
    · simp [h]
    · have h' : ¬ i = min j (n - 1) := fun h' => h h'.symm
      simp [h, h']

theorem Places.deal_none (n : Nat) (ss : List (List Record)) : ∀ (L : Places) (j : Nat), L.deal n j ss none = L none := by
  induction ss with
  | nil => intro L j; rfl
  | cons s ss ih =>
    intro L j
    rw [Places.deal, ih]
    unfold Places.add
    simp

theorem stream_flatten_le {s : List Record} {ss : List (List Record)} : (stream (s :: ss).flatten).length = (stream s).length + (stream ss.flatten).length := by
  rw [List.flatten_cons, stream_append, List.length_append]

theorem old_substreams {abi : Abi} {fmt : Fmt} {fuel max : Nat} {names : List Bytes} (hn : 0 < names.length) (ss : List (List Record)) :
    ∀ (done : List Record) (L : Places) (e : Eng) (k : Nat),
    Old 1280 names done L (if k = 0 then none else some (min (k - 1) (names.length - 1))) e → (k ≠ 0 → e.sheetIndex = k - 1) →
    (∀ s ∈ ss, ∃ b body, s = b :: body ∧ b.type ∈ bofTypes ∧ ∀ r ∈ body, r.type ∉ bofTypes ∧ r.type ≠ boundSheetType ∧ r.type ≠ filePassType) →
    e.index + (stream ss.flatten).length < 2 ^ 32 → k ≤ e.index →
    ∃ e' cur, doRecords abi fmt fuel max ss.flatten e = .ok e' ∧ Old 1280 names (done ++ ss.flatten) (L.deal names.length k ss) cur e' ∧
      e'.index = e.index + (stream ss.flatten).length := by
  induction ss with
  | nil =>
    intro done L e k he _ _ _ _
    exact ⟨e, _, rfl, by rw [List.flatten_nil, List.append_nil]; exact he, rfl⟩
  | cons s ss ih =>
    intro done L e k he hk hs hi hle
    obtain ⟨b, body, rfl, hb, hbody⟩ := hs s (by simp)
    rw [stream_flatten_le, stream_cons, List.length_append] at hi ⊢
    have hbl := Record.bytes_length b
    obtain ⟨e1, h1, hp1, hi1, hx1⟩ := old_bof (abi := abi) (fmt := fmt) (fuel := fuel) (max := max) he hn hk hb (by omega) (by omega)
    obtain ⟨e2, h2, hp2, hi2, hx2⟩ := old_others (abi := abi) (fmt := fmt) (fuel := fuel) (max := max) (by decide) body _ _ e1 hp1 hbody (by omega)
    rw [L.add_add] at hp2
    obtain ⟨e3, cur, h3, hp3, hi3⟩ := ih (done ++ [b] ++ body) _ e2 (k + 1) (by rw [if_neg (by omega), Nat.add_sub_cancel]; exact hp2)
      (fun _ => by rw [hx2, hx1, Nat.add_sub_cancel]) (fun t ht => hs t (by simp [ht])) (by omega) (by omega)
    refine ⟨e3, cur, ?_, ?_, by omega⟩
    · rw [List.flatten_cons, List.cons_append, doRecords, h1, Res.bind_ok, doRecords_append, h2, Res.bind_ok, h3]
    · rw [List.flatten_cons]
      have : done ++ (b :: body ++ ss.flatten) = done ++ [b] ++ body ++ ss.flatten := by simp
      rw [this]
      exact hp3

/-! ## Workbooks without declared sheets -/

theorem old_single {abi : Abi} {fmt : Fmt} {fuel max V : Nat} {done : List Record} {L : Places} {e : Eng} {r : Record}
    (he : Old V [] done L none e) (h8 : V ≠ 1536) (hs : r.type ≠ boundSheetType) (hf : r.type ≠ filePassType)
    (hi : e.index + r.bytes.length < 2 ^ 32) :
    ∃ e', doRecord abi fmt fuel max r e = .ok e' ∧ Old V [] (done ++ [r]) (L.add none [r]) none e' ∧
      e'.index = e.index + r.bytes.length := by
  by_cases hb : r.type ∈ bofTypes
  · rw [Record.bytes_length] at hi
    have hu4 : u32 (e.index + 4) = e.index + 4 := Nat.mod_eq_of_lt (by omega)
    have hbof : isBofType r.type = true := by
      simp only [bofTypes, List.mem_cons, List.not_mem_nil, or_false] at hb
      rcases hb with h | h | h | h <;> rw [h] <;> rfl
    have hp := old_parse (abi := abi) (fmt := fmt) (fuel := fuel) (e := { e with index := u32 (e.index + 4) }) (r := r) he.version h8 hs
    have hlen : e.sheets.length = 0 := by
      have := congrArg List.length he.names
      simpa using this
    have hsub : ∃ si, subStreamBof { e with index := u32 (e.index + 4) } = { e with index := u32 (e.index + 4), sheetIndex := si } := by
      unfold subStreamBof
      rw [if_neg (by show ¬ e.version = _; rw [he.version]; exact h8)]
      split
      · dsimp only
        rw [hlen, if_neg (by omega)]
        exact ⟨_, rfl⟩
      · refine ⟨e.sheetIndex, ?_⟩
        rw [← show e.current = none from he.current]
    obtain ⟨si, hsub⟩ := hsub
    have hO' : Old V [] done L none (subStreamBof { e with index := u32 (e.index + 4) }) := by
      rw [hsub]
      exact ⟨he.version, he.Version, he.names, he.some, he.master, he.zero, he.glob, he.kids, he.current, by show 4 ≤ u32 _; omega⟩
    have hidx : (subStreamBof { e with index := u32 (e.index + 4) }).index = u32 (e.index + 4) := by rw [hsub]
    obtain ⟨e1, h1, hO, hx, _⟩ := old_add (r := r) (len := r.data.length) hO' (by rw [hidx, hu4]; omega)
    refine ⟨_, ?_, hO, ?_⟩
    · unfold doRecord
      rw [hp, Res.bind_ok]
      dsimp only
      unfold effect
      rw [show (oldRec V r).type = r.type from rfl, if_pos hbof, if_neg (by show ¬ u32 (e.index + 4) = 4; have := he.moved; omega), Res.bind_ok]
      have : ({ e with index := u32 (e.index + 4), master := e.master } : Eng) = { e with index := u32 (e.index + 4) } := rfl
      rw [this, h1, Res.bind_ok]
    · show u32 (e1.index + r.data.length) = _
      rw [Record.bytes_length, hx, hidx, hu4]
      unfold u32
      omega
  · obtain ⟨e', h1, h2, h3, _⟩ := old_other (abi := abi) (fmt := fmt) (fuel := fuel) (max := max) he h8 hb hs hf hi
    exact ⟨e', h1, h2, h3⟩

theorem old_singles {abi : Abi} {fmt : Fmt} {fuel max V : Nat} (h8 : V ≠ 1536) (rs : List Record) :
    ∀ (done : List Record) (L : Places) (e : Eng), Old V [] done L none e →
    (∀ r ∈ rs, r.type ≠ boundSheetType ∧ r.type ≠ filePassType) → e.index + (stream rs).length < 2 ^ 32 →
    ∃ e', doRecords abi fmt fuel max rs e = .ok e' ∧ Old V [] (done ++ rs) (L.add none rs) none e' ∧
      e'.index = e.index + (stream rs).length := by
  induction rs with
  | nil => intro done L e he _ _; exact ⟨e, rfl, by rw [List.append_nil, L.add_nil]; exact he, rfl⟩
  | cons r rs ih =>
    intro done L e he hs hi
    rw [stream_cons, List.length_append] at hi ⊢
    obtain ⟨e1, h1, hp1, hi1⟩ := old_single (abi := abi) (fmt := fmt) (fuel := fuel) (max := max) he h8
      (hs r (by simp)).1 (hs r (by simp)).2 (by omega)
    obtain ⟨e2, h2, hp2, hi2⟩ := ih _ _ e1 hp1 (fun q hq => hs q (by simp [hq])) (by rw [hi1]; omega)
    refine ⟨e2, by rw [doRecords, h1, Res.bind_ok, h2], ?_, by rw [hi2, hi1]; omega⟩
    rw [L.add_add, List.append_assoc, List.singleton_append] at hp2
    exact hp2

/-- After the first record. -/
theorem old_first {abi : Abi} {fmt : Fmt} {fuel max : Nat} {b : Record} (hb : b.type ∈ bofTypes) (hd : 2 ≤ b.data.length) (hi : b.data.length < 2 ^ 16) :
    ∃ e, doRecord abi fmt fuel max b {} = .ok e ∧ Old (bofVersion b.data) [] [b] (fun k => if k = none then [b] else []) none e ∧
      e.index = b.bytes.length := by
  obtain ⟨e, h, p, i⟩ := first_step (abi := abi) (fmt := fmt) (fuel := fuel) (max := max) hb hd hi
  have hbof : isBofType b.type = true := by
    simp only [bofTypes, List.mem_cons, List.not_mem_nil, or_false] at hb
    rcases hb with h | h | h | h <;> rw [h] <;> rfl
  have hp : ParseRecord abi fmt fuel { ({} : Eng) with index := u32 (0 + 4) } b.type b.data =
      .ok (some ([], Rec.make b.type b.data .bof)) := by
    unfold ParseRecord parseVersioned
    rw [if_neg (by decide), if_neg (by decide), if_neg (by decide), if_neg (by decide), if_neg (by decide), if_pos hbof]
    rfl
  have hm : e.master = [Rec.make b.type b.data .bof] := by
    rcases doRecord_inv h with ⟨_, hp'⟩ | ⟨m, v, e1, e2, hp', _, _, _, hmm, _⟩
    · rw [hp] at hp'; cases hp'
    · rw [hp] at hp'
      simp only [Res.ok.injEq, Option.some.injEq, Prod.mk.injEq] at hp'
      rw [hmm, ← hp'.1, ← hp'.2]
      rfl
  refine ⟨e, h, ⟨p.version, p.Version, by rw [p.sheets]; rfl, by simp, hm, by rw [p.global]; rfl, ?_, ?_, p.current, p.moved⟩, i⟩
  · rw [p.global, hm, if_pos rfl]
    exact .cons ⟨_, rfl, rfl⟩ .nil
  · intro i s hs
    rw [p.sheets] at hs
    cases hs

end Fileid.Excel
