import Verif.IntervalArray
/-! # Model of `memo/interval/lazylog/{tree,interval}.go`, the interval tree used by the memo table

Nodes are values in a functional tree. The pointer returned by `Add` (a `*lazyInterval`, one per node for
the life of the node) is the number `addr`. The field `tree` is the argument `S` (the shifts of the tree);
`uint64` timestamps are natural numbers and `int` positions integers. -/
namespace Gpeg.LazyLog

/-- `memo/interval/lazylog/tree.go:42-46` `shift`. -/
structure Shift where
  idx : Int
  amt : Int
  tstamp : Nat
deriving Repr, DecidableEq

/-- `memo/interval/lazylog/interval.go:5-8` `interval`. -/
structure Ival (α : Type) where
  low : Int
  high : Int
  val : α
deriving Repr, DecidableEq

/-- `memo/interval/lazylog/interval.go:27-29` `overlaps`. -/
def Ival.overlaps {α : Type} (low high : Int) (i : Ival α) : Bool :=
  decide (i.low ≤ high) && decide (i.high ≥ low)

/-- `memo/interval/lazylog/tree.go:134-145` `node` without the children; `pos` and `id` are its `key`, `ins`
is `interval.ins`, `addr` names its `interval`. -/
structure Nd (α : Type) where
  addr : Nat
  pos : Int
  id : Int
  mx : Int
  ins : List (Ival α)
  t : Nat
  h : Nat
deriving Repr, DecidableEq

/-- A `*node`. -/
inductive Tr (α : Type)
  | nil
  | node (d : Nd α) (l r : Tr α)
deriving Repr, DecidableEq

variable {α : Type}

/-- `memo/interval/lazylog/tree.go:24-36` `compare` of the key `(pos, id)` with a key. -/
def compareKey (pos id : Int) (pos' id' : Int) : Ordering :=
  if pos < pos' then .lt
  else if pos > pos' then .gt
  else if id < id' then .lt
  else if id > id' then .gt
  else .eq

/-- `memo/interval/lazylog/tree.go:464-472` `(*lazyInterval).High`. -/
def highOf (ins : List (Ival α)) : Int :=
  ins.foldl (fun high i => if i.high > high then i.high else high) 0

/-- `memo/interval/lazylog/tree.go:474-479` `(*lazyInterval).Shift`. -/
def shiftIns (amt : Int) (ins : List (Ival α)) : List (Ival α) :=
  ins.map fun i => { i with low := i.low + amt, high := i.high + amt }

/-- The field `max` of a node. -/
def Tr.mx? : Tr α → Option Int
  | .nil => none
  | .node d _ _ => some d.mx

/-- `memo/interval/lazylog/tree.go:181-191` `updateMax`; the last two arguments are the fields `max` of the
children. -/
def updateMax (d : Nd α) (lm rm : Option Int) : Nd α :=
  let m := match rm with
    | some x => max d.mx x
    | none => d.mx
  let m := match lm with
    | some x => max m x
    | none => m
  { d with mx := max m (highOf d.ins) }

/-- `memo/interval/lazylog/tree.go:395-411` `applyShift`. -/
def applyShift (lm rm : Option Int) (d : Nd α) (s : Shift) : Nd α :=
  if d.t ≥ s.tstamp then d
  else
    let d := { d with t := s.tstamp }
    if d.mx < s.idx then d
    else
      let d := { d with mx := d.mx + s.amt }
      let d := if d.pos ≥ s.idx then { d with pos := d.pos + s.amt, ins := shiftIns s.amt d.ins } else d
      updateMax d lm rm

/-- The backwards search of `applyShifts` (`memo/interval/lazylog/tree.go:421-427`), from index `j` down. -/
def startIdx (S : List Shift) (t : Nat) : Nat → Nat
  | 0 => 0
  | j + 1 =>
    match S[j + 1]? with
    | some s => if t ≥ s.tstamp then j + 2 else startIdx S t j
    | none => startIdx S t j

/-- `memo/interval/lazylog/tree.go:413-431` `applyShifts`. -/
def applyShifts (S : List Shift) (lm rm : Option Int) (d : Nd α) : Nd α :=
  match S.getLast? with
  | none => d
  | some s =>
    if d.t ≥ s.tstamp then d
    else (S.drop (startIdx S d.t (S.length - 1))).foldl (applyShift lm rm) d

/-- `applyShifts` on a node that may be nil. -/
def Tr.sync (S : List Shift) : Tr α → Tr α
  | .nil => .nil
  | .node d l r => .node (applyShifts S l.mx? r.mx? d) l r

/-- `memo/interval/lazylog/tree.go:305-310` `getHeight`. -/
def Tr.height : Tr α → Nat
  | .nil => 0
  | .node d _ _ => d.h

/-- `memo/interval/lazylog/tree.go:312-317` `size`. -/
def Tr.size : Tr α → Nat
  | .nil => 0
  | .node _ l r => l.size + r.size + 1

/-- `memo/interval/lazylog/tree.go:319-321` `recalculateHeight`. -/
def recalc (d : Nd α) (l r : Tr α) : Nd α := { d with h := 1 + max l.height r.height }

/-- `recalculateHeight` followed by `updateMax`. -/
def mk (d : Nd α) (l r : Tr α) : Tr α := .node (updateMax (recalc d l r) l.mx? r.mx?) l r

/-- `memo/interval/lazylog/tree.go:350-365` `rotateLeft`. With a nil right child the code would panic; it is
never called so (`rebalance` checks the heights). -/
def rotateLeft (S : List Shift) : Tr α → Tr α
  | .node d l r =>
    let d := applyShifts S l.mx? r.mx? d
    match r.sync S with
    | .node e rl rr => mk e (mk d l rl) rr
    | .nil => .node d l .nil
  | .nil => .nil

/-- `memo/interval/lazylog/tree.go:368-383` `rotateRight`. -/
def rotateRight (S : List Shift) : Tr α → Tr α
  | .node d l r =>
    let d := applyShifts S l.mx? r.mx? d
    match l.sync S with
    | .node e ll lr => mk e ll (mk d lr r)
    | .nil => .node d .nil r
  | .nil => .nil

/-- The left child. -/
def Tr.left : Tr α → Tr α
  | .nil => .nil
  | .node _ l _ => l

/-- The right child. -/
def Tr.right : Tr α → Tr α
  | .nil => .nil
  | .node _ _ r => r

/-- `memo/interval/lazylog/tree.go:324-347` `rebalanceTree`. -/
def rebalance (S : List Shift) : Tr α → Tr α
  | .nil => .nil
  | .node d l r =>
    let d := updateMax (recalc d l r) l.mx? r.mx?
    if (l.height : Int) - r.height ≤ -2 then
      let r := if r.left.height > r.right.height then rotateRight S r else r
      rotateLeft S (.node d l r)
    else if (l.height : Int) - r.height ≥ 2 then
      let l := if l.right.height > l.left.height then rotateLeft S l else l
      rotateRight S (.node d l r)
    else .node d l r

/-- `memo/interval/lazylog/tree.go:148-178` `add`: `T` is the timestamp of the tree, `a` the address of the
node to be made if one is made. Returns also the address of the node holding the interval. -/
def add (S : List Shift) (T : Nat) (a : Nat) (pos id : Int) (v : Ival α) : Tr α → Tr α × Nat
  | .nil => (.node { addr := a, pos := pos, id := id, mx := v.high, ins := [v], t := T, h := 1 } .nil .nil, a)
  | .node d l r =>
    let d := applyShifts S l.mx? r.mx? d
    match compareKey pos id d.pos d.id with
    | .lt => let (l', loc) := add S T a pos id v l; (rebalance S (.node d l' r), loc)
    | .gt => let (r', loc) := add S T a pos id v r; (rebalance S (.node d l r'), loc)
    | .eq => (rebalance S (.node { d with ins := d.ins ++ [v], t := T } l r), d.addr)

/-- `memo/interval/lazylog/tree.go:386-393` `findSmallest` on the node `d` with children `l` and `r`: the
tree with the shifts applied on the way, and the node found. -/
def findSmallest (S : List Shift) (d : Nd α) : Tr α → Tr α → Tr α × Nd α
  | .nil, r => (.node d .nil r, d)
  | .node e ll lr, r =>
    let (l', m) := findSmallest S (applyShifts S ll.mx? lr.mx? e) ll lr
    (.node d l' r, m)

/-- The built-in `copy(dst, src)` as used in `memo/interval/lazylog/tree.go:212`: it overwrites elements and
does not change the length of `dst`. -/
def copyIns (dst src : List (Ival α)) : List (Ival α) := src.take dst.length ++ dst.drop src.length

/-- `memo/interval/lazylog/tree.go:194-233` `remove`. The fuel bounds the depth of the recursion; the size of
the tree is enough. -/
def remove (S : List Shift) : Nat → Int → Int → Tr α → Tr α
  | 0, _, _, t => t
  | _ + 1, _, _, .nil => .nil
  | f + 1, pos, id, .node d l r =>
    let d := applyShifts S l.mx? r.mx? d
    match compareKey pos id d.pos d.id with
    | .lt => rebalance S (.node d (remove S f pos id l) r)
    | .gt => rebalance S (.node d l (remove S f pos id r))
    | .eq =>
      match l, r with
      | .node e ll lr, .node g rl rr =>
        let (r', m) := findSmallest S (applyShifts S rl.mx? rr.mx? g) rl rr
        rebalance S (.node { d with pos := m.pos, id := m.id, ins := copyIns d.ins m.ins, t := m.t }
          (Tr.sync S (.node e ll lr)) (remove S f m.pos m.id r'))
      | .node e ll lr, .nil => rebalance S (Tr.sync S (.node e ll lr))
      | .nil, .node g rl rr => rebalance S (Tr.sync S (.node g rl rr))
      | .nil, .nil => .nil

/-- `memo/interval/lazylog/tree.go:236-248` `search`: the tree with the shifts applied on the way, and the
node found. -/
def search (S : List Shift) (pos id : Int) : Tr α → Tr α × Option (Nd α)
  | .nil => (.nil, none)
  | .node d l r =>
    let d := applyShifts S l.mx? r.mx? d
    match compareKey pos id d.pos d.id with
    | .lt => let (l', n) := search S pos id l; (.node d l' r, n)
    | .gt => let (r', n) := search S pos id r; (.node d l r', n)
    | .eq => (.node d l r, some d)

/-- `memo/interval/lazylog/tree.go:250-287` `removeOverlaps`. The fuel bounds the depth of the recursion; the
size of the tree is enough. -/
def removeOverlaps (S : List Shift) (low high : Int) : Nat → Tr α → Tr α
  | 0, t => t
  | _ + 1, .nil => .nil
  | f + 1, .node d l r =>
    let d := applyShifts S l.mx? r.mx? d
    if low > d.mx then .node d l r
    else
      let l := removeOverlaps S low high f l
      let d := { d with ins := swapRemove (Ival.overlaps low high) d.ins.length d.ins }
      if d.ins.isEmpty then
        let n := remove S (Tr.node d l r).size d.pos d.id (.node d l r)
        if high ≥ d.pos then removeOverlaps S low high f n else n
      else if high < d.pos then .node d l r
      else .node d l (removeOverlaps S low high f r)

/-- `memo/interval/lazylog/tree.go:289-303` `allvals`. -/
def Tr.allvals : Tr α → List α
  | .nil => []
  | .node d l r => l.allvals ++ d.ins.map Ival.val ++ r.allvals

/-- `memo/interval/lazylog/tree.go:459-462` `Pos` applies the shifts to the node `a`, wherever it is in the
tree. -/
def Tr.touch (S : List Shift) (a : Nat) : Tr α → Tr α
  | .nil => .nil
  | .node d l r =>
    if d.addr = a then .node (applyShifts S l.mx? r.mx? d) l r
    else .node d (l.touch S a) (r.touch S a)

/-- The node with address `a`. -/
def Tr.at? (a : Nat) : Tr α → Option (Nd α)
  | .nil => none
  | .node d l r => if d.addr = a then some d else (l.at? a).or (r.at? a)

/-- `memo/interval/lazylog/tree.go:48-52` `Tree`; `next` is the next unused address. -/
structure Tree (α : Type) where
  root : Tr α := .nil
  shifts : List Shift := []
  tstamp : Nat := 0
  next : Nat := 0
deriving Repr

namespace Tree

/-- `memo/interval/lazylog/tree.go:55-67` `Add`: the tree and the address of the node. -/
def add (T : Tree α) (id low high : Int) (v : α) : Tree α × Nat :=
  let (root, loc) := LazyLog.add T.shifts T.tstamp T.next low id ⟨low, high, v⟩ T.root
  ({ T with root := root, next := T.next + 1 }, loc)

/-- The loop of `FindLargest` (`memo/interval/lazylog/tree.go:80-85`): the interval of index `max`. -/
def largest : List (Ival α) → Ival α → Ival α
  | [], best => best
  | i :: is, best => if i.high - i.low > best.high - best.low then largest is i else largest is best

/-- `memo/interval/lazylog/tree.go:70-90` `FindLargest`. -/
def findLargest (T : Tree α) (id pos : Int) : Tree α × Option α :=
  let (root, n) := search T.shifts pos id T.root
  ({ T with root := root },
    match n with
    | none => none
    | some d =>
      match d.ins with
      | [] => none
      | i :: is => some (largest is i).val)

/-- `memo/interval/lazylog/tree.go:108-122` `shift`; `ShiftThreshold` is -1 (`:12`), so the shifts are never
applied all at once. -/
def shift (T : Tree α) (idx amt : Int) : Tree α :=
  if amt = 0 then T
  else { T with tstamp := T.tstamp + 1, shifts := T.shifts ++ [⟨idx, amt, T.tstamp + 1⟩] }

/-- `memo/interval/lazylog/tree.go:92-97` `RemoveAndShift`. -/
def removeAndShift (T : Tree α) (low high amt : Int) : Tree α :=
  let T := { T with root := removeOverlaps T.shifts low high T.root.size T.root }
  if amt ≠ 0 then T.shift low amt else T

/-- `memo/interval/lazylog/tree.go:99-102` `AllValues`. -/
def allValues (T : Tree α) : List α := T.root.allvals

/-- `memo/interval/lazylog/tree.go:130-132` `Size`. -/
def size (T : Tree α) : Nat := T.root.size

/-- `memo/interval/lazylog/tree.go:459-462` `Pos` of the node with address `a`; only nodes that are in the
tree are modelled, `none` for others. -/
def posOf (T : Tree α) (a : Nat) : Tree α × Option Int :=
  let root := T.root.touch T.shifts a
  ({ T with root := root }, (root.at? a).map Nd.pos)

end Tree
end Gpeg.LazyLog
