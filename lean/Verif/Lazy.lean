import Verif.IntervalArray
/-! # Model of `memo/interval/lazy/tree.go`, the interval tree with shifts pushed down lazily

Nodes are values in a functional tree. The pointer returned by `Add` (an `*ivalues`) is the number `addr`;
it is part of the node that its field `node` points to, and moves with its intervals when `remove` puts them
into another node. The fields `parent` are the paths of the functional tree. `int` is `Int`. -/
namespace Gpeg.Lazy

/-- `memo/interval/lazy/tree.go:86-89` `shift`. -/
structure Shift where
  idx : Int
  amt : Int
deriving Repr, DecidableEq

/-- `memo/interval/lazy/tree.go:78-81` `ivalue`. -/
structure Ival (α : Type) where
  low : Int
  high : Int
  val : α
deriving Repr, DecidableEq

/-- `memo/interval/lazy/interval.go:24-26` `Overlaps`. -/
def Ival.overlaps {α : Type} (low high : Int) (i : Ival α) : Bool :=
  decide (i.low < high) && decide (i.high > low)

/-- `memo/interval/lazy/interval.go:13-18` `Shift`. -/
def Ival.shift {α : Type} (amt : Int) (i : Ival α) : Ival α :=
  { i with low := i.low + amt, high := i.high + amt }

/-- `memo/interval/lazy/tree.go:91-102` `node` without the children; `pos` and `id` are its `key`, `ivs` is
`iv.ivs` and `addr` names `iv`. -/
structure Nd (α : Type) where
  addr : Nat
  pos : Int
  id : Int
  mx : Int
  ivs : List (Ival α)
  shifts : List Shift
  h : Nat
deriving Repr, DecidableEq

/-- A `*node`. -/
inductive Tr (α : Type)
  | nil
  | node (d : Nd α) (l r : Tr α)
deriving Repr, DecidableEq

variable {α : Type}

/-- `memo/interval/lazy/tree.go:13-24` `compare` of the key `(pos, id)` with a key. -/
def compareKey (pos id : Int) (pos' id' : Int) : Ordering :=
  if pos < pos' then .lt
  else if pos > pos' then .gt
  else if id < id' then .lt
  else if id > id' then .gt
  else .eq

/-- `memo/interval/lazy/tree.go:104-110` `addShift`. -/
def Tr.addShift (sh : Shift) : Tr α → Tr α
  | .nil => .nil
  | .node d l r => .node { d with shifts := d.shifts ++ [sh] } l r

/-- What the loop of `applyShifts` does to the node itself (`memo/interval/lazy/tree.go:117-126`). -/
def applyShift (d : Nd α) (sh : Shift) : Nd α :=
  if d.mx ≥ sh.idx then
    let d := if d.pos ≥ sh.idx then { d with pos := d.pos + sh.amt, ivs := d.ivs.map (Ival.shift sh.amt) } else d
    { d with mx := d.mx + sh.amt }
  else d

/-- `memo/interval/lazy/tree.go:112-132` `applyShifts`. -/
def Tr.sync : Tr α → Tr α
  | .nil => .nil
  | .node d l r =>
    .node { d.shifts.foldl applyShift d with shifts := [] } (d.shifts.foldl (fun t sh => t.addShift sh) l)
      (d.shifts.foldl (fun t sh => t.addShift sh) r)

/-- The field `max` of a node. -/
def Tr.mx? : Tr α → Option Int
  | .nil => none
  | .node d _ _ => some d.mx

/-- `memo/interval/lazy/tree.go:172-180` `calcMax`. -/
def calcMax (ivs : List (Ival α)) : Int := ivs.foldl (fun m i => if i.high > m then i.high else m) 0

/-- `memo/interval/lazy/tree.go:182-192` `updateMax`; the last two arguments are the fields `max` of the
children. -/
def updateMax (d : Nd α) (lm rm : Option Int) : Nd α :=
  let m := match rm with
    | some x => max d.mx x
    | none => d.mx
  let m := match lm with
    | some x => max m x
    | none => m
  { d with mx := max m (calcMax d.ivs) }

/-- `memo/interval/lazy/tree.go:316-321` `getHeight`. -/
def Tr.height : Tr α → Nat
  | .nil => 0
  | .node d _ _ => d.h

/-- `memo/interval/lazy/tree.go:323-328` `getSize`. -/
def Tr.size : Tr α → Nat
  | .nil => 0
  | .node _ l r => l.size + r.size + 1

/-- `memo/interval/lazy/tree.go:330-333` `updateHeightAndMax` on the node `d` with the children `l`, `r`. -/
def mk (d : Nd α) (l r : Tr α) : Tr α :=
  .node (updateMax { d with h := 1 + max l.height r.height } l.mx? r.mx?) l r

/-- `memo/interval/lazy/tree.go:361-379` `rotateLeft`. With a nil right child the code would panic; it is
never called so (`rebalanceTree` looks at the heights). -/
def rotateLeft (t : Tr α) : Tr α :=
  match t.sync with
  | .nil => .nil
  | .node d l r =>
    match r.sync with
    | .nil => .node d l .nil
    | .node e rl rr => mk e (mk d l rl) rr

/-- `memo/interval/lazy/tree.go:382-400` `rotateRight`. -/
def rotateRight (t : Tr α) : Tr α :=
  match t.sync with
  | .nil => .nil
  | .node d l r =>
    match l.sync with
    | .nil => .node d .nil r
    | .node e ll lr => mk e ll (mk d lr r)

/-- The left child. -/
def Tr.left : Tr α → Tr α
  | .nil => .nil
  | .node _ l _ => l

/-- The right child. -/
def Tr.right : Tr α → Tr α
  | .nil => .nil
  | .node _ _ r => r

/-- `memo/interval/lazy/tree.go:336-358` `rebalanceTree` on the node `d` with the children `l`, `r`. -/
def rebalance (d : Nd α) (l r : Tr α) : Tr α :=
  let d := updateMax { d with h := 1 + max l.height r.height } l.mx? r.mx?
  if (l.height : Int) - r.height = -2 then
    let r := if r.left.height > r.right.height then rotateRight r else r
    rotateLeft (.node d l r)
  else if (l.height : Int) - r.height = 2 then
    let l := if l.right.height > l.left.height then rotateLeft l else l
    rotateRight (.node d l r)
  else .node d l r

/-- `memo/interval/lazy/tree.go:134-170` `add`: `a` is the address of the `ivalues` to be made if one is made.
Returns also the address of the `ivalues` holding the interval. The tree is synchronised where the recursion
passes. -/
def add (a : Nat) (pos id : Int) (v : Ival α) : (fuel : Nat) → Tr α → Tr α × Nat
  | 0, t => (t, a)
  | f + 1, t =>
    match t.sync with
    | .nil => (.node { addr := a, pos := pos, id := id, mx := v.high, ivs := [v], shifts := [], h := 1 } .nil .nil, a)
    | .node d l r =>
      match compareKey pos id d.pos d.id with
      | .lt => let (l', loc) := add a pos id v f l; (rebalance d l' r, loc)
      | .gt => let (r', loc) := add a pos id v f r; (rebalance d l r', loc)
      | .eq => (rebalance { d with ivs := d.ivs ++ [v] } l r, d.addr)

/-- `memo/interval/lazy/tree.go:403-410` `findSmallest` on the synchronised node `d` with children `l` and
`r`: the tree with the shifts applied on the way, and the node found. -/
def findSmallest : (fuel : Nat) → Nd α → Tr α → Tr α → Tr α × Nd α
  | 0, d, l, r => (.node d l r, d)
  | f + 1, d, l, r =>
    match l.sync with
    | .nil => (.node d .nil r, d)
    | .node e ll lr =>
      let (l', m) := findSmallest f e ll lr
      (.node d l' r, m)

/-- `memo/interval/lazy/tree.go:194-233` `remove`. The fuel bounds the depth of the recursion; the size of
the tree is enough. -/
def remove : (fuel : Nat) → Int → Int → Tr α → Tr α
  | 0, _, _, t => t
  | f + 1, pos, id, t =>
    match t.sync with
    | .nil => .nil
    | .node d l r =>
      match compareKey pos id d.pos d.id with
      | .lt => rebalance d (remove f pos id l) r
      | .gt => rebalance d l (remove f pos id r)
      | .eq =>
        match l.sync, r.sync with
        | .node e ll lr, .node g rl rr =>
          let (r', m) := findSmallest rl.size g rl rr
          rebalance { d with pos := m.pos, id := m.id, ivs := m.ivs, addr := m.addr, shifts := m.shifts }
            (.node e ll lr) (remove f m.pos m.id r')
        | .node e ll lr, .nil => rebalance e ll lr
        | .nil, .node g rl rr => rebalance g rl rr
        | .nil, .nil => .nil

/-- `memo/interval/lazy/tree.go:235-247` `search`: the tree with the shifts applied on the way, and the node
found. -/
def search (pos id : Int) : (fuel : Nat) → Tr α → Tr α × Option (Nd α)
  | 0, t => (t, none)
  | f + 1, t =>
    match t.sync with
    | .nil => (.nil, none)
    | .node d l r =>
      match compareKey pos id d.pos d.id with
      | .lt => let (l', n) := search pos id f l; (.node d l' r, n)
      | .gt => let (r', n) := search pos id f r; (.node d l r', n)
      | .eq => (.node d l r, some d)

/-- `memo/interval/lazy/tree.go:249-274` `overlaps`: the tree with the shifts applied on the way, and the
values found. -/
def overlaps (low high : Int) : (fuel : Nat) → Tr α → List α → Tr α × List α
  | 0, t, res => (t, res)
  | f + 1, t, res =>
    match t.sync with
    | .nil => (.nil, res)
    | .node d l r =>
      if low ≥ d.mx then (.node d l r, res)
      else
        let (l', res) := overlaps low high f l res
        let res := d.ivs.foldl (fun res i => if i.overlaps low high then res ++ [i.val] else res) res
        if high ≤ d.pos then (.node d l' r, res)
        else
          let (r', res) := overlaps low high f r res
          (.node d l' r', res)

/-- `memo/interval/lazy/tree.go:276-314` `removeOverlaps`. The fuel bounds the depth of the recursion; the
size of the tree is enough. -/
def removeOverlaps (low high : Int) : (fuel : Nat) → Tr α → Tr α
  | 0, t => t
  | f + 1, t =>
    match t.sync with
    | .nil => .nil
    | .node d l r =>
      if low ≥ d.mx then .node d l r
      else
        let l := removeOverlaps low high f l
        let d := { d with ivs := swapRemove (Ival.overlaps low high) d.ivs.length d.ivs }
        if d.ivs.isEmpty then
          let n := remove (Tr.node d l r).size d.pos d.id (.node d l r)
          if high > d.pos then removeOverlaps low high f n else n
        else if high ≤ d.pos then .node d l r
        else .node d l (removeOverlaps low high f r)

/-- The `ivalues` named `a` is in the tree. -/
def Tr.has (a : Nat) : Tr α → Bool
  | .nil => false
  | .node d l r => d.addr == a || l.has a || r.has a

/-- `memo/interval/lazy/tree.go:412-417` `applyAllShifts` on the node holding the `ivalues` named `a`: the
shifts of the nodes on the path from the root to it are applied, from the root down. -/
def Tr.touch (a : Nat) : (fuel : Nat) → Tr α → Tr α
  | 0, t => t
  | f + 1, t =>
    if t.has a then
      match t.sync with
      | .nil => .nil
      | .node d l r => if d.addr = a then .node d l r else .node d (l.touch a f) (r.touch a f)
    else t

/-- The node holding the `ivalues` named `a`. -/
def Tr.at? (a : Nat) : Tr α → Option (Nd α)
  | .nil => none
  | .node d l r => if d.addr = a then some d else (l.at? a).or (r.at? a)

/-- `memo/interval/lazy/tree.go:26-28` `Tree`; `next` is the next unused address. -/
structure Tree (α : Type) where
  root : Tr α := .nil
  next : Nat := 0
deriving Repr

namespace Tree

/-- `memo/interval/lazy/tree.go:32-35` `Add`: the tree and the location. -/
def add (T : Tree α) (id low high : Int) (v : α) : Tree α × Nat :=
  let (root, loc) := Lazy.add T.next low id ⟨low, high, v⟩ (T.root.size + 1) T.root
  (⟨root, T.next + 1⟩, loc)

/-- The loop of `FindLargest` (`memo/interval/lazy/tree.go:44-50`): `max` and the interval of index `maxi`. -/
def largest : List (Ival α) → Int → Ival α → Ival α
  | [], _, best => best
  | i :: is, mx, best => if i.high > mx then largest is i.high i else largest is mx best

/-- `memo/interval/lazy/tree.go:38-52` `FindLargest`. -/
def findLargest (T : Tree α) (id pos : Int) : Tree α × Option α :=
  let (root, n) := search pos id (T.root.size + 1) T.root
  ({ T with root := root },
    match n with
    | none => none
    | some d =>
      match d.ivs with
      | [] => none
      | i :: is => some (largest (i :: is) 0 i).val)

/-- `memo/interval/lazy/tree.go:56-61` `RemoveAndShift`. -/
def removeAndShift (T : Tree α) (low high amt : Int) : Tree α :=
  let root := removeOverlaps low high (T.root.size + 1) T.root
  { T with root := if amt ≠ 0 then root.addShift ⟨low, amt⟩ else root }

/-- `memo/interval/lazy/tree.go:64-66` `Size`. -/
def size (T : Tree α) : Nat := T.root.size

/-- `memo/interval/lazy/tree.go:73-76` `Pos` of the location `a`; only locations that are in the tree are
modelled, `none` for others. -/
def posOf (T : Tree α) (a : Nat) : Tree α × Option Int :=
  let root := T.root.touch a (T.root.size + 1)
  ({ T with root := root }, (root.at? a).map Nd.pos)

end Tree
end Gpeg.Lazy
