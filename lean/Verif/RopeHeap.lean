import Verif.Rope
/-!
# Model of `input/linerope`: byte slices that share memory

In `Rope` the bytes of a leaf are a list. Here they are a Go slice: a part of an array, with a capacity, and the arrays are in a heap.
`insert` and `remove` write into the array of a leaf if it has room (`rope.go:475-505`). Nodes are owned by one rope, as in `Rope`; ropes
whose nodes are shared (the rope passed to `SplitAt` at the border of a node, `rope.go:350`, or to `Join`) are not covered. `Rebuild` and
`Rebalance` are left out (C40). A range with `start > end` is not covered: for it `remove` panics without room and writes bytes twice with
room. Arrays that are no longer reachable stay in the heap.
-/
namespace Gpeg.Linerope

/-- The byte arrays. -/
abbrev Heap := List Bytes

/-- A slice: `len` bytes of the array `arr` from `off` on, with room for `cap`. -/
structure Sl where
  arr : Nat
  off : Nat
  len : Nat
  cap : Nat
deriving DecidableEq, Repr

namespace Heap

/-- The array. -/
def array (h : Heap) (a : Nat) : Bytes := h[a]?.getD []

/-- The bytes of a slice. -/
def read (h : Heap) (s : Sl) : Bytes := ((h.array s.arr).drop s.off).take s.len

/-- `make([]byte, len(b), cap)`, filled with `b`. -/
def alloc (h : Heap) (b : Bytes) (cap : Nat) : Heap × Sl := (h ++ [b ++ List.replicate (cap - b.length) 0], ⟨h.length, 0, b.length, cap⟩)

/-- Write `b` into the array `a` at `i`. -/
def write (h : Heap) (a i : Nat) (b : Bytes) : Heap := h.set a ((h.array a).take i ++ b ++ (h.array a).drop (i + b.length))

end Heap

/-- `rope.go:475-487` `insert`. The inserted bytes are a slice too: they are read after the bytes behind `k` have been moved. -/
def insertH (h : Heap) (s : Sl) (k : Int) (vs : Sl) : Option (Heap × Sl) :=
  if 0 ≤ k ∧ k ≤ s.len then
    if s.len + vs.len ≤ s.cap then
      let h1 := h.write s.arr (s.off + k.toNat + vs.len) ((h.read s).drop k.toNat)
      some (h1.write s.arr (s.off + k.toNat) (h1.read vs), { s with len := s.len + vs.len })
    else some (h.alloc ((h.read s).take k.toNat ++ h.read vs ++ (h.read s).drop k.toNat) (s.len + vs.len))
  else none

/-- `rope.go:496-505` `remove`. -/
def removeH (h : Heap) (s : Sl) (start stop : Int) : Option (Heap × Sl) :=
  if 0 ≤ start ∧ start ≤ stop ∧ stop ≤ s.len then
    if s.len = s.cap then some (h.alloc ((h.read s).take start.toNat ++ (h.read s).drop stop.toNat) s.cap)
    else some (h.write s.arr (s.off + start.toNat) ((h.read s).drop stop.toNat), { s with len := start.toNat + (s.len - stop.toNat) })
  else none

/-- `rope.go:39-46` `Node`. -/
inductive HRope where
  | leaf (o : Opts) (value : Sl) (length : Nat) (ll : Loc)
  | node (o : Opts) (length : Nat) (ll : Loc) (left right : HRope)
deriving DecidableEq, Repr

namespace HRope

def opts : HRope → Opts
  | leaf o _ _ _ | node o _ _ _ _ => o

/-- `rope.go:131-133` `Len`. -/
def len : HRope → Nat
  | leaf _ _ n _ | node _ n _ _ _ => n

/-- `rope.go:137-143` `LLen`. -/
def ll : HRope → Loc
  | leaf _ _ _ l | node _ _ l _ _ => l

/-- `rope.go:172-179` `Value`: the slice of a leaf itself, a new slice for other nodes (`concat`, `rope.go:489-494`). -/
def value : HRope → Heap → Heap × Sl
  | leaf _ s _ _, h => (h, s)
  | node _ _ _ l r, h =>
    let a := l.value h
    let b := r.value a.1
    b.1.alloc (b.1.read a.2 ++ b.1.read b.2) (a.2.len + b.2.len)

/-- A leaf with its cached lengths, as built at `rope.go:88-94`, `:103-109`, `:186-188`. -/
def mkLeaf (h : Heap) (o : Opts) (s : Sl) : HRope := leaf o s s.len (llen (h.read s) o.sep)

/-- A node with its cached lengths, as built at `rope.go:203-204`, `:362-369`. -/
def mkNode (o : Opts) (l r : HRope) : HRope := node o (l.len + r.len) (addlocs l.ll r.ll) l r

/-- `rope.go:157-166` `adjust` of a node. -/
def collapse (h : Heap) (n : HRope) : Heap × HRope :=
  if n.len < n.opts.join then ((n.value h).1, mkLeaf (n.value h).1 n.opts (n.value h).2) else (h, n)

/-- `rope.go:361-372` `join`. -/
def join (h : Heap) (l r : HRope) : Heap × HRope := collapse h (mkNode l.opts l r)

/-- `rope.go:117-121`. -/
def joinLast (h : Heap) : List HRope → Option (Heap × List HRope)
  | [a, b] => some ((join h a b).1, [(join h a b).2])
  | a :: rest => (joinLast h rest).map fun x => (x.1, a :: x.2)
  | [] => none

/-- `rope.go:123-126`. -/
def pairUp (h : Heap) : List HRope → Option (Heap × List HRope)
  | a :: b :: rest => (pairUp (join h a b).1 rest).map fun x => (x.1, (join h a b).2 :: x.2)
  | [_] => none
  | [] => some (h, [])

/-- `rope.go:113-128` `buildTree`. -/
def buildF : Nat → Heap → List HRope → Option (Heap × HRope)
  | _, h, [n] => some (h, n)
  | 0, _, _ => none
  | k + 1, h, ns =>
    (if ns.length % 2 ≠ 0 then joinLast h ns else some (h, ns)).bind fun x => (pairUp x.1 x.2).bind fun y => buildF k y.1 y.2

/-- `rope.go:83-94`: the slices of chunks are cut with their capacity (`b[j : j+chunksz : j+chunksz]`). -/
def chunk (h : Heap) (o : Opts) (s : Sl) (i : Nat) : HRope := mkLeaf h o ⟨s.arr, s.off + i * o.split, o.split, o.split⟩

/-- `rope.go:101-109`. -/
def rest (h : Heap) (o : Opts) (s : Sl) : HRope :=
  mkLeaf h o ⟨s.arr, s.off + s.len / o.split * o.split, s.len - s.len / o.split * o.split, s.len - s.len / o.split * o.split⟩

/-- `rope.go:56-111` `NewWithOpts`. -/
def newWithOpts (h : Heap) (s : Sl) (o : Opts) : Option (Heap × HRope) :=
  if o.split = 0 then none
  else
    let ns := (List.range (s.len / o.split)).map (chunk h o s) ++ [rest h o s]
    buildF ns.length h ns

/-- `rope.go:145-167` `adjust`; the cached length of a leaf is the length of its slice. -/
def adjust (h : Heap) : HRope → Option (Heap × HRope)
  | leaf o s n ll =>
    if n > o.split then
      (newWithOpts h ⟨s.arr, s.off, n / 2, s.cap⟩ o).bind fun l =>
      (newWithOpts l.1 ⟨s.arr, s.off + n / 2, s.len - n / 2, s.cap - n / 2⟩ o).bind fun r =>
      some (r.1, mkNode o l.2 r.2)
    else some (h, leaf o s n ll)
  | n => some (collapse h n)

/-- `rope.go:182-206` `Remove`. -/
def remove : HRope → Heap → Int → Int → Option (Heap × HRope)
  | leaf o s _ _, h, start, stop => (removeH h s start stop).bind fun x => adjust x.1 (mkLeaf x.1 o x.2)
  | node o _ _ l r, h, start, stop =>
    let leftStart := min start l.len
    let leftEnd := min stop l.len
    let rightStart := max 0 (min (start - l.len) r.len)
    let rightEnd := max 0 (min (stop - l.len) r.len)
    (if leftStart < l.len then l.remove h leftStart leftEnd else some (h, l)).bind fun x =>
    (if rightEnd > 0 then r.remove x.1 rightStart rightEnd else some (x.1, r)).bind fun y =>
    adjust y.1 (mkNode o x.2 y.2)

/-- `rope.go:209-227` `Insert`. -/
def insert : HRope → Heap → Int → Sl → Option (Heap × HRope)
  | leaf o s _ _, h, pos, vs => (insertH h s pos vs).bind fun x => adjust x.1 (mkLeaf x.1 o x.2)
  | node o _ _ l r, h, pos, vs =>
    if pos < l.len then (l.insert h pos vs).bind fun x => adjust x.1 (mkNode o x.2 r)
    else (r.insert h (pos - l.len) vs).bind fun x => adjust x.1 (mkNode o l x.2)

/-- The slice expression `s[lo:hi]`; it may reach into the capacity. -/
def cut (s : Sl) (lo hi : Int) : Option Sl :=
  if 0 ≤ lo ∧ lo ≤ hi ∧ hi ≤ s.cap then some ⟨s.arr, s.off + lo.toNat, hi.toNat - lo.toNat, s.cap - lo.toNat⟩ else none

/-- `rope.go:230-260` `slice`: a part of the slice of a leaf, or a new slice. -/
def slice : HRope → Heap → Int → Int → Option (Heap × Sl)
  | leaf _ s _ _, h, start, stop => if start ≥ stop then some (h.alloc [] 0) else (cut s start stop).map fun x => (h, x)
  | node _ _ _ l r, h, start, stop =>
    if start ≥ stop then some (h.alloc [] 0)
    else
      let leftStart := min start l.len
      let leftEnd := min stop l.len
      let rightStart := max 0 (min (start - l.len) r.len)
      let rightEnd := max 0 (min (stop - l.len) r.len)
      if leftStart ≠ leftEnd then
        if rightStart ≠ rightEnd then
          (l.slice h leftStart leftEnd).bind fun a => (r.slice a.1 rightStart rightEnd).bind fun b =>
          some (b.1.alloc (b.1.read a.2 ++ b.1.read b.2) (a.2.len + b.2.len))
        else l.slice h leftStart leftEnd
      else if rightStart ≠ rightEnd then r.slice h rightStart rightEnd
      else some (h.alloc [] 0)

/-- `rope.go:344-359` `SplitAt`. -/
def splitAt : HRope → Heap → Int → Option (Heap × HRope × HRope)
  | leaf o s _ _, h, i =>
    (cut s 0 i).bind fun a => (newWithOpts h a o).bind fun x =>
    (cut s i s.len).bind fun b => (newWithOpts x.1 b o).bind fun y => some (y.1, x.2, y.2)
  | node _ _ _ l r, h, i =>
    if i = l.len then some (h, l, r)
    else if i < l.len then (l.splitAt h i).bind fun x => some ((join x.1 x.2.2 r).1, x.2.1, (join x.1 x.2.2 r).2)
    else (r.splitAt h (i - l.len)).bind fun x => some ((join x.1 l x.2.1).1, (join x.1 l x.2.1).2, x.2.2)

/-- `rope.go:375-381` `Join`. -/
def joinMore (h : Heap) (s : HRope) : List HRope → Heap × HRope
  | [] => (h, s)
  | n :: more => joinMore (join h s n).1 (join h s n).2 more

def joinAll (h : Heap) (a b : HRope) (more : List HRope) : Heap × HRope := joinMore (join h a b).1 (join h a b).2 more

/-- The rope of `Rope`: every leaf with its bytes. -/
def val (h : Heap) : HRope → Rope
  | leaf o s n ll => .leaf o (h.read s) n ll
  | node o n ll l r => .node o n ll (l.val h) (r.val h)

/-- The slices of the leaves. -/
def slices : HRope → List Sl
  | leaf _ s _ _ => [s]
  | node _ _ _ l r => l.slices ++ r.slices

end HRope
end Gpeg.Linerope
