/-!
# Model of `input/linerope`

A rope is a value here; Go's methods `Insert`, `Remove`, `Rebuild`, `Rebalance` update nodes in
place, the model returns the updated rope. `none` is a run-time panic. Simplifications:

* Byte slices are immutable lists. The in-place branches of `insert` and `remove`
  (`rope.go:475-505`) are only entered for a leaf whose slice has spare capacity, which such a
  leaf got from a copy made by `remove` or `insert` for it alone (`NewWithOpts` cuts slices with
  their capacity, `rope.go:87,102`). `RopeHeap` has the slices; C69 is the proof that this is so.
* Ropes that share nodes after `SplitAt` (`rope.go:350`) are modelled as separate values: the model
  describes a client that stops using a rope once it has split or joined it.
* A leaf asked for a range outside `0 ≤ start ≤ end ≤ len` panics here. In Go a slice expression
  may reach into spare capacity instead.
* `RebalanceRatio` and the floating point comparison of `Rebalance` are a parameter.
-/
namespace Gpeg.Linerope

abbrev Bytes := List UInt8

/-- `rope.go:16-27` `Options`, without `RebalanceRatio`. -/
structure Opts where
  split : Nat
  join : Nat
  sep : Bytes
deriving DecidableEq, Repr

/-! ## `line.go`, `util.go` -/

/-- `line.go:7-10` `loc`. -/
structure Loc where
  line : Int
  col : Int
deriving DecidableEq, Repr

/-- `bytes.Index`. -/
def index (sep : Bytes) : Bytes → Option Nat
  | [] => if sep = [] then some 0 else none
  | b :: bs => if sep.isPrefixOf (b :: bs) then some 0 else (index sep bs).map (· + 1)

/-- `bytes.LastIndex`, for a nonempty separator. -/
def lastIndex (sep : Bytes) : Bytes → Option Nat
  | [] => none
  | b :: bs =>
    match lastIndex sep bs with
    | some i => some (i + 1)
    | none => if sep.isPrefixOf (b :: bs) then some 0 else none

/-- `bytes.Count` (non-overlapping occurrences), for a nonempty separator; the first argument
bounds the number of rounds. -/
def countF (sep : Bytes) : Nat → Bytes → Nat
  | 0, _ => 0
  | k + 1, b =>
    match index sep b with
    | none => 0
    | some i => countF sep k (b.drop (i + sep.length)) + 1

def count (sep b : Bytes) : Nat := countF sep b.length b

/-- `line.go:14-28` `llen`. -/
def llen (b sep : Bytes) : Loc :=
  let lines := count sep b
  if lines ≠ 0 then
    let last : Int := (match lastIndex sep b with | some i => (i : Int) | none => -1) + sep.length
    ⟨lines, b.length - last⟩
  else ⟨0, b.length⟩

/-- `line.go:30-51` `addlocs`. -/
def addlocs (a b : Loc) : Loc :=
  if a.line ≠ 0 ∧ b.line ≠ 0 then ⟨a.line + b.line, b.col⟩
  else if a.line ≠ 0 then ⟨a.line, b.col + a.col⟩
  else if b.line ≠ 0 then ⟨b.line, b.col⟩
  else ⟨0, a.col + b.col⟩

/-- `line.go:53-65` `sublocs`. -/
def sublocs (a b : Loc) : Loc :=
  if a.line = b.line then ⟨a.line - b.line, a.col - b.col⟩ else ⟨a.line - b.line, a.col⟩

/-- `line.go:67-79` `cmp`. -/
def Loc.cmp (l other : Loc) : Int :=
  if l.line = other.line then
    if l.col < other.col then -1 else if l.col > other.col then 1 else 0
  else if l.line < other.line then -1
  else 1

/-- `line.go:81-86` `minloc`. -/
def minloc (a b : Loc) : Loc := if a.cmp b < 0 then a else b

/-- `line.go:88-93` `maxloc`. -/
def maxloc (a b : Loc) : Loc := if a.cmp b > 0 then a else b

/-- The loop of `util.go:8-16`: `k` rounds to go, `idx` the last result of `bytes.Index`. -/
def indexNLoop (sep : Bytes) : Nat → Bytes → Int → Int → Int × Int
  | 0, _, acc, idx => (acc, idx)
  | k + 1, b, acc, _ =>
    match index sep b with
    | none => (acc, -1)
    | some i => indexNLoop sep k (b.drop (i + sep.length)) (acc + i) i

/-- `util.go:8-25` `indexN`. -/
def indexN (b sep : Bytes) (n : Int) : Int :=
  let r := indexNLoop sep n.toNat b 0 (-1)
  if r.2 = -1 then -1 else r.1 + (n - 1) * sep.length

/-- The loop of `util.go:28-40`; the first argument bounds the number of rounds, `none` if it is
not enough (only for an empty separator). -/
def lineColF (sep : Bytes) (pos : Int) : Nat → Bytes → Nat → Nat → Option Loc
  | 0, _, _, _ => none
  | k + 1, b, last, line =>
    match index sep (b.drop last) with
    | none => some ⟨line, pos - last⟩
    | some idx =>
      if (last + idx : Int) ≥ pos then some ⟨line, pos - last⟩
      else lineColF sep pos k b (last + idx + sep.length) (line + 1)

/-- `util.go:28-40` `lineCol`. -/
def lineCol (b sep : Bytes) (pos : Int) : Option Loc := lineColF sep pos (b.length + 1) b 0 0

/-- The slice expression `b[lo:hi]` on a slice without spare capacity. -/
def cut (b : Bytes) (lo hi : Int) : Option Bytes :=
  if 0 ≤ lo ∧ lo ≤ hi ∧ hi ≤ b.length then some ((b.take hi.toNat).drop lo.toNat) else none

/-- `line.go:95-99` `sliceloc`. -/
def sliceloc (b sep : Bytes) (start stop : Loc) : Option Bytes :=
  let soff := indexN b sep start.line + sep.length + start.col
  let eoff := indexN b sep stop.line + sep.length + stop.col
  cut b soff eoff

/-! ## Byte slices, `rope.go:475-505` -/

/-- `rope.go:475-487` `insert`. -/
def insertB (s : Bytes) (k : Int) (vs : Bytes) : Option Bytes :=
  if 0 ≤ k ∧ k ≤ s.length then some (s.take k.toNat ++ vs ++ s.drop k.toNat) else none

/-- `rope.go:496-505` `remove`. -/
def removeB (s : Bytes) (start stop : Int) : Option Bytes :=
  if 0 ≤ start ∧ start ≤ stop ∧ stop ≤ s.length then
    some (s.take start.toNat ++ s.drop stop.toNat)
  else none

/-! ## The rope -/

/-- `rope.go:39-46` `Node`. `broken` is a node of kind `tNode` whose children are nil: `Rebuild`
leaves such nodes behind. -/
inductive Rope where
  | leaf (o : Opts) (value : Bytes) (length : Nat) (ll : Loc)
  | node (o : Opts) (length : Nat) (ll : Loc) (left right : Rope)
  | broken (o : Opts) (value : Bytes) (length : Nat) (ll : Loc)
deriving DecidableEq, Repr

namespace Rope

def opts : Rope → Opts
  | leaf o _ _ _ | node o _ _ _ _ | broken o _ _ _ => o

/-- `rope.go:131-133` `Len`. -/
def len : Rope → Nat
  | leaf _ _ n _ | node _ n _ _ _ | broken _ _ n _ => n

/-- `rope.go:137-143` `LLen`, `NumLines`. -/
def ll : Rope → Loc
  | leaf _ _ _ l | node _ _ l _ _ | broken _ _ _ l => l

/-- `rope.go:172-179` `Value`. -/
def value : Rope → Option Bytes
  | leaf _ v _ _ => some v
  | node _ _ _ l r => do
    let a ← l.value
    let b ← r.value
    return a ++ b
  | broken _ _ _ _ => none

/-- A leaf with its cached lengths, as built at `rope.go:88-94`, `:103-109`, `:186-188`. -/
def mkLeaf (o : Opts) (v : Bytes) : Rope := leaf o v v.length (llen v o.sep)

/-- A node with its cached lengths, as built at `rope.go:203-204`, `:362-369`. -/
def mkNode (o : Opts) (l r : Rope) : Rope := node o (l.len + r.len) (addlocs l.ll r.ll) l r

/-- `rope.go:157-166` `adjust` of a node. -/
def collapse (n : Rope) : Option Rope :=
  if n.len < n.opts.join then (do return mkLeaf n.opts (← n.value)) else some n

/-- `rope.go:361-372` `join`. -/
def join (l r : Rope) : Option Rope := collapse (mkNode l.opts l r)

/-- `rope.go:117-121`: the last two nodes of an odd number of nodes are joined. -/
def joinLast : List Rope → Option (List Rope)
  | [a, b] => do return [← join a b]
  | a :: rest => do return a :: (← joinLast rest)
  | [] => none

/-- `rope.go:123-126`: join the nodes two by two. -/
def pairUp : List Rope → Option (List Rope)
  | a :: b :: rest => do
    let x ← join a b
    return x :: (← pairUp rest)
  | [_] => none
  | [] => some []

/-- `rope.go:113-128` `buildTree`; the first argument bounds the depth of the recursion. -/
def buildF : Nat → List Rope → Option Rope
  | _, [n] => some n
  | 0, _ => none
  | k + 1, ns =>
    (if ns.length % 2 ≠ 0 then joinLast ns else some ns).bind fun ns => do
      buildF k (← pairUp ns)

def buildTree (ns : List Rope) : Option Rope := buildF ns.length ns

/-- `rope.go:83-94`: the leaf of chunk `i`. -/
def chunk (o : Opts) (b : Bytes) (i : Nat) : Rope := mkLeaf o ((b.drop (i * o.split)).take o.split)

/-- `rope.go:101-109`: the leaf of the bytes behind the last full chunk. -/
def rest (o : Opts) (b : Bytes) : Rope := mkLeaf o (b.drop (b.length / o.split * o.split))

/-- `rope.go:56-111` `NewWithOpts`; the chunks are listed in order (C41 covers the goroutines). -/
def newWithOpts (b : Bytes) (o : Opts) : Option Rope :=
  if o.split = 0 then none
  else buildTree ((List.range (b.length / o.split)).map (chunk o b) ++ [rest o b])

/-- `rope.go:145-167` `adjust`. -/
def adjust : Rope → Option Rope
  | leaf o v n ll =>
    if n > o.split then do
      let divide := n / 2
      let l ← newWithOpts (← cut v 0 divide) o
      let r ← newWithOpts (← cut v divide v.length) o
      return mkNode o l r
    else some (leaf o v n ll)
  | n => collapse n

/-- `rope.go:182-206` `Remove`. -/
def remove : Rope → Int → Int → Option Rope
  | leaf o v _ _, start, stop => do adjust (mkLeaf o (← removeB v start stop))
  | node o _ _ l r, start, stop =>
    let leftStart := min start l.len
    let leftEnd := min stop l.len
    let rightStart := max 0 (min (start - l.len) r.len)
    let rightEnd := max 0 (min (stop - l.len) r.len)
    (if leftStart < l.len then l.remove leftStart leftEnd else some l).bind fun l' =>
    (if rightEnd > 0 then r.remove rightStart rightEnd else some r).bind fun r' =>
    adjust (mkNode o l' r')
  | broken _ _ _ _, _, _ => none

/-- `rope.go:209-227` `Insert`. -/
def insert : Rope → Int → Bytes → Option Rope
  | leaf o v _ _, pos, vs => do adjust (mkLeaf o (← insertB v pos vs))
  | node o _ _ l r, pos, vs => do
    if pos < l.len then
      adjust (mkNode o (← l.insert pos vs) r)
    else
      adjust (mkNode o l (← r.insert (pos - l.len) vs))
  | broken _ _ _ _, _, _ => none

/-- `rope.go:230-260` `slice`. -/
def slice : Rope → Int → Int → Option Bytes
  | leaf _ v _ _, start, stop => if start ≥ stop then some [] else cut v start stop
  | node _ _ _ l r, start, stop =>
    if start ≥ stop then some []
    else
      let leftStart := min start l.len
      let leftEnd := min stop l.len
      let rightStart := max 0 (min (start - l.len) r.len)
      let rightEnd := max 0 (min (stop - l.len) r.len)
      if leftStart ≠ leftEnd then
        if rightStart ≠ rightEnd then do
          return (← l.slice leftStart leftEnd) ++ (← r.slice rightStart rightEnd)
        else l.slice leftStart leftEnd
      else if rightStart ≠ rightEnd then r.slice rightStart rightEnd
      else some []
  | broken _ _ _ _, start, stop => if start ≥ stop then some [] else none

/-- `rope.go:263-277` `OffsetAt`. -/
def offsetAt : Rope → Int → Int → Option Int
  | leaf o v _ _, line, col => some (indexN v o.sep line + o.sep.length + col)
  | node _ _ _ l r, line, col =>
    if Loc.cmp ⟨line, col⟩ l.ll < 0 then l.offsetAt line col
    else do
      let p := sublocs ⟨line, col⟩ l.ll
      return l.len + (← r.offsetAt p.line p.col)
  | broken _ _ _ _, _, _ => none

/-- `rope.go:280-297` `LineColAt`, `lineColAt`. -/
def lineColAt : Rope → Int → Option Loc
  | leaf o v _ _, pos => lineCol v o.sep pos
  | node _ _ _ l r, pos =>
    if pos < l.len then l.lineColAt pos
    else do return addlocs l.ll (← r.lineColAt (pos - l.len))
  | broken _ _ _ _, _ => none

/-- `rope.go:300-334` `SliceLC`, `sliceLC`. -/
def sliceLC : Rope → Loc → Loc → Option Bytes
  | leaf o v _ _, start, stop => if start.cmp stop ≥ 0 then some [] else sliceloc v o.sep start stop
  | node _ _ _ l r, start, stop =>
    if start.cmp stop ≥ 0 then some []
    else
      let leftStart := minloc start l.ll
      let leftEnd := minloc stop l.ll
      let rightStart := maxloc ⟨0, 0⟩ (minloc (sublocs start l.ll) r.ll)
      let rightEnd := maxloc ⟨0, 0⟩ (minloc (sublocs stop l.ll) r.ll)
      if leftStart ≠ leftEnd then
        if rightStart ≠ rightEnd then do
          return (← l.sliceLC leftStart leftEnd) ++ (← r.sliceLC rightStart rightEnd)
        else l.sliceLC leftStart leftEnd
      else if rightStart ≠ rightEnd then r.sliceLC rightStart rightEnd
      else some []
  | broken _ _ _ _, start, stop => if start.cmp stop ≥ 0 then some [] else none

/-- `rope.go:337-340` `At`. -/
def at' (n : Rope) (pos : Int) : Option UInt8 := do (← n.slice pos (pos + 1)).head?

/-- `rope.go:344-359` `SplitAt`. -/
def splitAt : Rope → Int → Option (Rope × Rope)
  | leaf o v _ _, i => do
    return (← newWithOpts (← cut v 0 i) o, ← newWithOpts (← cut v i v.length) o)
  | node _ _ _ l r, i =>
    if i = l.len then some (l, r)
    else if i < l.len then do
      let (a, b) ← l.splitAt i
      return (a, ← join b r)
    else do
      let (a, b) ← r.splitAt (i - l.len)
      return (← join l a, b)
  | broken _ _ _ _, _ => none

/-- `rope.go:375-381` `Join`. -/
def joinAll (a b : Rope) (more : List Rope) : Option Rope := do
  more.foldlM (fun s n => join s n) (← join a b)

/-- `rope.go:384-392` `Rebuild`: the kind of the node stays `tNode`. -/
def rebuild : Rope → Option Rope
  | leaf o v n ll => some (leaf o v n ll)
  | node o n ll l r => do
    let a ← l.value
    let b ← r.value
    adjust (broken o (a ++ b) n ll)
  | broken _ _ _ _ => none

/-- `rope.go:395-407` `Rebalance`; `unb a b` decides the comparison of the ratios of the lengths
`a`, `b` with `RebalanceRatio`. -/
def rebalance (unb : Nat → Nat → Bool) : Rope → Option Rope
  | leaf o v n ll => some (leaf o v n ll)
  | node o n ll l r =>
    if unb l.len r.len then rebuild (node o n ll l r)
    else do
      let l' ← l.rebalance unb
      let r' ← r.rebalance unb
      return node o n ll l' r'
  | broken _ _ _ _ => none

/-- `rope.go:410-416` `Each`, with the state of the closure made explicit; the closure does not change nodes. A
node without children calls `Each` on nil, which panics. -/
def each {σ : Type} (fn : Rope → σ → σ) : Rope → σ → Option σ
  | leaf o v n ll, s => some (fn (leaf o v n ll) s)
  | node o n ll l r, s => do r.each fn (← l.each fn (fn (node o n ll l r) s))
  | broken _ _ _ _, _ => none

/-- `rope.go:419-429` `EachLeaf`, with the state of the closure made explicit. -/
def eachLeaf {σ : Type} (fn : Bytes → σ → Bool × σ) : Rope → σ → Option (Bool × σ)
  | leaf _ v _ _, s => some (fn v s)
  | node _ _ _ l r, s => do
    let (stop, s) ← l.eachLeaf fn s
    if stop then return (true, s) else r.eachLeaf fn s
  | broken _ _ _ _, _ => none

/-- `rope.go:432-445` `ReadAt` with `len(p) = n`: the bytes copied and whether `io.EOF` is
returned. -/
def readAt (r : Rope) (n : Nat) (off : Int) : Option (Bytes × Bool) :=
  if off > r.len then some ([], true)
  else do
    let stop := off + n
    let eof := decide (stop ≥ r.len)
    let stop := if stop ≥ r.len then (r.len : Int) else stop
    let b ← r.slice off stop
    return (b.take n, eof)

/-- An `io.Writer`: the bytes handed over and the state before give the number of bytes written,
whether an error is returned, and the state after. -/
abbrev Writer (σ : Type) := Bytes → σ → Nat × Bool × σ

/-- `rope.go:448-458` `WriteTo`: the total, whether an error is returned, the state of the writer. -/
def writeTo {σ : Type} (w : Writer σ) (r : Rope) (s : σ) : Option (Nat × Bool × σ) := do
  let res ← r.eachLeaf (σ := Nat × Bool × σ) (fun v (tot, _, s) =>
      let (n, err, s) := w v s
      (err, (tot + n, err, s))) (0, false, s)
  return res.2

end Rope

/-! ## The goroutines of `NewWithOpts`, `rope.go:71-99` -/

/-- State of the parallel part of `NewWithOpts`: the slice `nodes`, and for each goroutine the next
index and its end. -/
structure ParSt where
  nodes : List (Option Rope)
  pcs : List (Nat × Nat)

/-- `rope.go:76-80`: the bounds of goroutine `t` of `nthreads`. -/
def bounds (nchunks nthreads t : Nat) : Nat × Nat :=
  (t * (nchunks / nthreads),
   if t = nthreads - 1 then nchunks else t * (nchunks / nthreads) + nchunks / nthreads)

/-- `rope.go:68,71-76`: all goroutines started. -/
def ParSt.init (nchunks nthreads : Nat) : ParSt :=
  ⟨List.replicate nchunks none, (List.range nthreads).map (bounds nchunks nthreads)⟩

/-- `rope.go:82-95`: one round of the loop of goroutine `t`. -/
def ParSt.step (o : Opts) (b : Bytes) (s : ParSt) (t : Nat) : Option ParSt :=
  match s.pcs[t]? with
  | none => none
  | some (i, e) =>
    if i < e then some ⟨s.nodes.set i (some (Rope.chunk o b i)), s.pcs.set t (i + 1, e)⟩ else none

/-- `rope.go:99` `wg.Wait`: all goroutines are done. -/
def ParSt.Done (s : ParSt) : Prop := ∀ p ∈ s.pcs, p.2 ≤ p.1

end Gpeg.Linerope
