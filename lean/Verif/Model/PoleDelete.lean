import Verif.Model.PoleWrite

/-!
# Model of deleting in a compound file (`fileid/oless/pole.h`)
-/

namespace Fileid.Pole

/-- pole.h:1374-1387 `findSib`; the first argument bounds the depth. -/
def findSib (abi : Abi) (t : DirTree) (inIdx : Nat) : Nat → Nat → Res Nat
  | 0, _ => .fuel
  | f + 1, sibIdx =>
    match t[sibIdx]? with
    | none => .ok 0
    | some sib =>
      if ¬ sib.valid then .ok 0
      else if sib.next = inIdx ∨ sib.prev = inIdx then .ok sibIdx
      else
        match t[inIdx]? with
        | none => .ub .nullDeref
        | some target =>
          if sib.compare abi target.name > 0 then findSib abi t inIdx f sib.prev else findSib abi t inIdx f sib.next

/-- pole.h:1351-1363, the name of the parent: the full name without a slash at its end, up to its last slash; the root
for names directly below it. -/
def parentName (full : WStr) : WStr :=
  let l := if full.head? = some 47 then full else 47 :: full
  let p := if l.getLast? = some 47 then l.dropLast else l
  let dir := (p.reverse.dropWhile (· ≠ 47)).drop 1 |>.reverse
  if dir.length = 0 then [47] else dir

/-- pole.h:1345-1369 `findParentAndSib`: parent and sibling. -/
def findParentAndSib (abi : Abi) (t : DirTree) (inIdx : Nat) (full : WStr) : Res (Nat × Nat) :=
  if inIdx = 0 ∨ inIdx ≥ t.length ∨ full = [47] ∨ full = [] then .ok (0, 0)
  else do
    let p ← entryIdx abi t (parentName full)
    match p with
    | none => .ub .nullDeref
    | some p =>
      match t[p]? with
      | none => .ub .nullDeref
      | some parent2 =>
        if parent2.child = inIdx then .ok (p, 0)
        else do
          let sib ← findSib abi t inIdx (t.length + 1) parent2.child
          .ok (p, sib)

/-- pole.h:1410-1422: from entry `smlIdx` leftwards to the last but one entry and the last. The first argument bounds the steps. -/
def leftmost (t : DirTree) : Nat → Nat → Res (Nat × Nat)
  | 0, _ => .fuel
  | f + 1, smlIdx =>
    match t[leftOf t smlIdx]? with
    | none => .ub .nullDeref
    | some smlr =>
      if smlr.prev = 0 ∨ smlr.prev > t.length then .ok (smlIdx, leftOf t smlIdx)
      else leftmost t f (leftOf t smlIdx)

/-- pole.h:1396-1430, the first half of `deleteEntry`: what takes the place of entry `d` is put together from what is left and
what is right of it. The directory, the link to what takes the place, and the entries marked as changed. -/
def takeOut (t : DirTree) (d : DirEntry) : Res (DirTree × Nat × List Nat) :=
  if d.next = 0 ∨ d.next > t.length then .ok (t, d.prev, [])
  else match t[d.next]? with
    | none => .ub .nullDeref
    | some n =>
      if n.prev = 0 ∨ n.prev > t.length then
        .ok (t.modify d.next fun n => { n with prev := d.prev }, d.next, [d.next])
      else do
        let (sml, smlr) ← leftmost t (t.length + 1) d.next
        let t1 := t.modify sml fun e => { e with prev := rightOf t smlr }
        .ok (t1.modify smlr fun e => { e with prev := d.prev, next := d.next }, smlr, [sml, smlr])

/-- pole.h:1431-1445, the second half: the entry that pointed to `inIdx`, a sibling or the parent, points to `repl`. -/
def putIn (t : DirTree) (inIdx parentIdx sibIdx repl : Nat) : DirTree × Nat :=
  if sibIdx ≠ 0 then
    (t.modify sibIdx fun s => if s.next = inIdx then { s with next := repl } else { s with prev := repl }, sibIdx)
  else (t.modify parentIdx fun p => { p with child := repl }, parentIdx)

/-- pole.h:1389-1448 `deleteEntry`: the directory afterwards and the entries marked as changed. -/
def deleteEntry (abi : Abi) (t : DirTree) (inIdx : Nat) (full : WStr) : Res (DirTree × List Nat) := do
  let (parentIdx, sibIdx) ← findParentAndSib abi t inIdx full
  match t[inIdx]? with
  | none => .ub .nullDeref
  | some d => do
    let (t, repl, marked) ← takeOut t d
    let (t, marked2) := putIn t inIdx parentIdx sibIdx repl
    .ok (t.modify inIdx fun e => { e with valid := false }, marked ++ [marked2, inIdx])

/-- `deleteEntry` on the directory of a storage. -/
def Writer.deleteEntry (abi : Abi) (w : Writer) (idx : Nat) (full : WStr) : Res Writer := do
  let (t, marked) ← Pole.deleteEntry abi w.io.dirtree idx full
  .ok (marked.foldl Writer.markDir { w with io := { w.io with dirtree := t } })

/-- pole.h:1802-1825 `deleteLeaf`. The positions marked as changed are those in the chain, not the block numbers. -/
def Writer.deleteLeaf (abi : Abi) (w : Writer) (idx : Nat) (full : WStr) : Res Writer := do
  let e ← w.entryOf idx
  if e.size ≥ w.io.header.threshold then do
    let blocks ← w.io.bbat.follow e.start
    (blocks.zipIdx.foldl (fun (w : Writer) (x : Nat × Nat) => (w.setBig x.1 Avail).markBig x.2) w).deleteEntry abi idx full
  else do
    let blocks ← w.io.sbat.follow e.start
    (blocks.zipIdx.foldl (fun (w : Writer) (x : Nat × Nat) => (w.setSmall x.1 Avail).markSmall x.2) w).deleteEntry abi idx full

/-- pole.h:1781-1800 `deleteNode`; a round of the loop is a call with the same entry. The first argument bounds the
calls. The result of the code is always true. -/
def Writer.deleteNode (abi : Abi) : Nat → Writer → Nat → WStr → Res Writer
  | 0, _, _, _ => .fuel
  | f + 1, w, idx, full => do
    let e ← w.entryOf idx
    let lcl := if full.getLast? = some 47 then full else full ++ [47]
    if e.child ≠ 0 ∧ e.child < w.io.dirtree.length then do
      let c ← w.entryOf e.child
      let w ← if c.dir then Writer.deleteNode abi f w e.child (lcl ++ c.name)
        else w.deleteLeaf abi e.child (lcl ++ c.name)
      Writer.deleteNode abi f w idx full
    else w.deleteEntry abi idx full

/-- pole.h:1762-1779 `deleteByName` up to the call of `flush`, which writes tables and directory to the file. Whether
something was deleted, and the storage. -/
def Writer.deleteByName (abi : Abi) (w : Writer) (full : WStr) : Res (Writer × Bool) :=
  if full.length = 0 then .ok (w, false)
  else if ¬ w.writeable then .ok (w, false)
  else do
    let i ← entryIdx abi w.io.dirtree full
    match i with
    | none => .ok (w, false)
    | some i => do
      let e ← w.entryOf i
      let w ← if e.dir then Writer.deleteNode abi (2 * w.io.dirtree.length + 2) w i full else w.deleteLeaf abi i full
      .ok (w, true)

end Fileid.Pole
