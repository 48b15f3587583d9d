import Verif.Encode
import Verif.Exec
import Verif.TreeTable
/-!
# The machine with Go slices

In `Verif/Vm.lean` the captures of a stack entry are a list. In the code they are a slice: a length and a capacity
on top of an array that other slices may use as well, and `append` writes into that array when there is room. This
module is the machine of `Verif/Vm.lean` with the arrays made explicit; everything that does not concern captures
is the same, line by line.

All slices of captures in the code start at the beginning of their array (nothing is ever re-sliced from below), so
a slice is an array, a length and a capacity. Positions of captures are absolute, as in `Verif/Capture.lean`: within
one run no entry moves.
-/
namespace Gpeg.Slice

/-- A Go slice of captures: array, length, capacity. The zero value is `nil`. -/
structure Sl where
  arr : Nat := 0
  len : Nat := 0
  cap : Nat := 0
deriving DecidableEq, Repr, Inhabited

/-- `memo/capture.go:13-43` `Capture`, with its children as a slice. Captures are shared by pointer; as nothing in
them changes during a run they are values here. -/
inductive SCap
  | node (id : Int) (start len : Nat) (children : Sl)
  | dummy (start len : Nat) (children : Sl)
deriving DecidableEq, Repr, Inhabited

/-- The arrays; cells at the end of an array that were never written are left out. -/
abbrev Heap := List (List SCap)

/-- The cells of an array. -/
def Heap.at (h : Heap) (a : Nat) : List SCap := h[a]?.getD []

/-- The elements of a slice. -/
def cells (h : Heap) (s : Sl) : List SCap := (h.at s.arr).take s.len

/-- The parameters of the model: `grow oldCap newLen` is the capacity that `append` gives to a new array, and `al`
says what `stackEntry.addCapt` stores for a slice it keeps (the code keeps the slice as it is). -/
structure Par where
  grow : Nat → Nat → Nat
  al : Sl → Sl

/-- Go's `append(s, ys...)`. -/
def append (grow : Nat → Nat → Nat) (h : Heap) (s : Sl) (ys : List SCap) : Heap × Sl :=
  let n := s.len + ys.length
  if ys.length = 0 then (h, s)
  else if n ≤ s.cap then
    (h.set s.arr ((h.at s.arr).take s.len ++ ys ++ (h.at s.arr).drop n), { s with len := n })
  else (h ++ [cells h s ++ ys], ⟨h.length, n, grow s.cap n⟩)

/-- The growth of Go's `append` for small slices (`runtime.growslice`): twice the capacity, or the length needed if
that is more. (The runtime rounds up to the next size class, which for slices of pointers leaves 1, 2, 3, 4, 6 and 8
as they are.) -/
def goGrow (old n : Nat) : Nat := if 2 * old < n then n else 2 * old

/-- The code as it is. -/
def code : Par := ⟨goGrow, id⟩

/-- The slice without its spare capacity, `s[:len(s):len(s)]`. -/
def clip (s : Sl) : Sl := { s with cap := s.len }

/-- `memo/entry.go:12-18` `Entry`. -/
structure SMEnt where
  length : Option Nat
  examined : Nat
  count : Nat
  captures : Sl
deriving Repr, Inhabited

/-- The part of `memo.Table` (`memo/table.go:7-25`) that is used during a run. -/
structure STab (τ : Type) where
  get : τ → Int → Nat → Option SMEnt × τ
  put : τ → (id : Int) → (start : Nat) → (length : Option Nat) → (examined count : Nat) → Sl → τ

/-- `memo/none.go:4-15` `NoneTable`. -/
def sNone : STab Unit where
  get _ _ _ := (none, ())
  put _ _ _ _ _ _ _ := ()

/-- `vm/stack.go:44-54` `stackEntry`. -/
structure SEntry where
  kind : EKind
  capt : Sl := {}
deriving Repr

/-- The machine state, see `VM`. -/
structure SVM (ι τ σ : Type) where
  ip : Nat
  stk : List SEntry
  capt : Sl
  src : ι
  tbl : τ
  errs : List PErr
  cst : σ
  rng : Interval
  heap : Heap

/-- Result of one step, see `Out`. -/
inductive SOut (ι τ σ : Type)
  | next (s : SVM ι τ σ)
  | halt (success : Bool) (capture : Option SCap) (s : SVM ι τ σ)
  | panic

/-- What a run is parametrised by, see `Cfg`. -/
structure SCfg (ι τ σ : Type) where
  par : Par
  inp : InputOps ι
  tab : STab τ
  chk : CheckFn σ
  intrvl : Option Interval := none

variable {ι τ σ : Type}

/-- `vm/stack.go:56-65` `stackEntry.addCapt`. -/
def addE (P : Par) (h : Heap) (se c : Sl) : Heap × Sl :=
  if c.len = 0 then (h, se)
  else if se.len = 0 then (h, P.al c)
  else append P.grow h se (cells h c)

/-- `vm/stack.go:12-18` `stack.addCapt`; a call with `c...` passes the slice itself. -/
def SVM.addCapt (P : Par) (s : SVM ι τ σ) (c : Sl) : SVM ι τ σ :=
  match s.stk with
  | [] =>
    let r := append P.grow s.heap s.capt (cells s.heap c)
    { s with heap := r.1, capt := r.2 }
  | e :: rest =>
    let r := addE P s.heap e.capt c
    { s with heap := r.1, stk := { e with capt := r.2 } :: rest }

/-- `stack.addCapt` of a single capture: the compiler makes a slice of length and capacity one. -/
def SVM.addCapt1 (P : Par) (s : SVM ι τ σ) (c : SCap) : SVM ι τ σ :=
  { s with heap := s.heap ++ [[c]] }.addCapt P ⟨s.heap.length, 1, 1⟩

/-- `vm/stack.go:95-97` and the `push*` functions. -/
def SVM.push (s : SVM ι τ σ) (k : EKind) : SVM ι τ σ := { s with stk := ⟨k, {}⟩ :: s.stk }

namespace SCfg
variable (c : SCfg ι τ σ)

/-- `vm/vm.go:75-81` the closure `memoize`. -/
def memoize (s : SVM ι τ σ) (id : Int) (pos : Nat) (mlen : Option Nat) (count : Nat) (capt : Sl) : SVM ι τ σ :=
  let capt := if c.intrvl.isSome then {} else capt
  let mexam := max (c.inp.furthest s.src) (c.inp.pos s.src) + 1 - pos
  { s with tbl := c.tab.put s.tbl id pos mlen mexam count capt }

/-- The `fail` section, `vm/vm.go:447-469`. -/
def doFail (c : SCfg ι τ σ) (s : SVM ι τ σ) : List SEntry → SOut ι τ σ
  | [] => .halt false none { s with stk := [] }
  | e :: rest =>
    match e.kind with
    | .btrack ip off => .next { s with ip := ip, stk := rest, src := c.inp.seekTo s.src off }
    | .memo id pos => doFail c (c.memoize s id pos none 0 {}) rest
    | .ret _ | .capt _ _ | .check _ _ _ => doFail c s rest
    | .memoTree _ _ _ => .next { s with stk := rest }

/-- `goto fail` from the current state. -/
def fail (s : SVM ι τ σ) : SOut ι τ σ := doFail c s s.stk

/-- `vm/vm.go:151-158` the loop of `opSpan`. -/
def spanLoop (c : SCfg ι τ σ) (cs : CSet) : Nat → ι → ι
  | 0, src => src
  | k + 1, src =>
    match c.inp.peek src with
    | (some b, src) => if cs.has b then spanLoop c cs k (c.inp.advance src 1).2 else src
    | (none, src) => src

/-- `vm/vm.go:350-352` the loop of `opMemoTreeClose`. -/
def treeClose (P : Par) (id : Int) : (l : List SEntry) → (s : SVM ι τ σ) → SVM ι τ σ
  | [], s => { s with stk := [] }
  | e :: rest, s =>
    match e.kind with
    | .memoTree id' _ _ =>
      if id' = id then
        -- pop(true)
        match rest with
        | [] => { s with stk := [] }.addCapt P e.capt
        | e' :: rest' =>
          let r := addE P s.heap e'.capt e.capt
          treeClose P id ({ e' with capt := r.2 } :: rest') { s with heap := r.1 }
      else { s with stk := e :: rest }
    | _ => { s with stk := e :: rest }
termination_by l => l.length

/-- `vm/vm.go:378-381`: pop the entries above `top` one after the other, each into the next. -/
def popInto (P : Par) (top : Sl) : Heap → List SEntry → Heap × Sl
  | h, [] => (h, top)
  | h, [e] => addE P h top e.capt
  | h, e :: e' :: rest =>
    let r := addE P h e'.capt e.capt
    popInto P top r.1 ({ e' with capt := r.2 } :: rest)
termination_by _ l => l.length

/-- `vm/vm.go:363-399` the loop of `opMemoTree`, see `Cfg.treeLoop`. -/
def treeLoop (c : SCfg ι τ σ) (s : SVM ι τ σ) (passed : List SEntry) (accum : Nat) (top : SEntry) :
    List SEntry → SVM ι τ σ
  | [] => { s with stk := passed ++ [top] }
  | nxt :: rest =>
    match top.kind, nxt.kind with
    | .memoTree _ tpos tcount, .memoTree nid npos ncount =>
      let accum := accum + tcount
      if accum < ncount then treeLoop c s (passed ++ [top]) accum nxt rest
      else
        let q := popInto c.par top.capt s.heap passed
        let p := c.inp.pos s.src
        let r : Heap × Sl :=
          if q.2.len > 0 then
            if c.intrvl.isNone then
              addE c.par (q.1 ++ [[.dummy tpos (p - tpos) q.2]]) nxt.capt ⟨q.1.length, 1, 1⟩
            else addE c.par q.1 nxt.capt q.2
          else (q.1, nxt.capt)
        let nxt' : SEntry := ⟨.memoTree nid npos (accum + ncount), r.2⟩
        let s := c.memoize { s with heap := r.1 } nid npos (some (p - npos)) (accum + ncount) r.2
        treeLoop c s [] 0 nxt' rest
    | _, _ => { s with stk := passed ++ top :: nxt :: rest }

/-- One iteration of the VM loop (`vm/vm.go:86-440`), see `Cfg.exec1`. -/
def exec1 (tgt : Nat → Nat) (insn : Insn) (nxt : Nat) (s : SVM ι τ σ) : SOut ι τ σ :=
  match insn with
  | .label _ | .nop => .next { s with ip := nxt }
  | .char b =>                                                        -- :90
    match c.inp.peek s.src with
    | (some b', src) =>
      if b = b' then .next { s with src := (c.inp.advance src 1).2, ip := nxt }
      else c.fail { s with src := src }
    | (none, src) => c.fail { s with src := src }
  | .jump l => .next { s with ip := tgt l }                           -- :99
  | .choice l =>                                                      -- :102
    .next { s.push (.btrack (tgt l) (c.inp.pos s.src)) with ip := nxt }
  | .call l => .next { s.push (.ret nxt) with ip := tgt l }           -- :106
  | .commit l =>                                                      -- :110
    match s.stk with
    | [] => .next { s with ip := tgt l }
    | e :: r => .next { ({ s with stk := r }.addCapt c.par e.capt) with ip := tgt l }
  | .ret =>                                                           -- :114
    match s.stk with
    | [] => .panic
    | e :: r =>
      match e.kind with
      | .ret ip => .next { ({ s with stk := r }.addCapt c.par e.capt) with ip := ip }
      | _ => .panic
  | .fail => c.fail s                                                 -- :121
  | .set cs =>                                                        -- :123
    match c.inp.peek s.src with
    | (some b, src) =>
      if cs.has b then .next { s with src := (c.inp.advance src 1).2, ip := nxt }
      else c.fail { s with src := src }
    | (none, src) => c.fail { s with src := src }
  | .any n =>                                                         -- :132
    match c.inp.advance s.src n.toNat with
    | (true, src) => .next { s with src := src, ip := nxt }
    | (false, src) => c.fail { s with src := src }
  | .partialCommit l =>                                               -- :140, propCapt
    match s.stk with
    | [] => .panic
    | e :: r =>
      match e.kind with
      | .btrack ip _ =>
        let s' := { s with stk := r }.addCapt c.par e.capt
        .next { s' with stk := ⟨.btrack ip (c.inp.pos s.src), {}⟩ :: s'.stk, ip := tgt l }
      | _ => .panic
  | .span cs =>                                                       -- :151
    .next { s with src := c.spanLoop cs ((c.inp.data s.src).length + 1) s.src, ip := nxt }
  | .backCommit l =>                                                  -- :159
    match s.stk with
    | [] => .panic
    | e :: r =>
      match e.kind with
      | .btrack _ off =>
        .next { ({ s with stk := r }.addCapt c.par e.capt) with
          src := c.inp.seekTo s.src off, ip := tgt l }
      | _ => .panic
  | .failTwice =>                                                     -- :168
    match s.stk with
    | [] => c.fail s
    | _ :: r => c.fail { s with stk := r }
  | .emptyOp op =>                                                    -- :171
    let b1 := c.inp.peekBefore s.src
    match c.inp.peek s.src with
    | (b2, src) =>
      if emptyOpContext b1 b2 &&& op ≠ 0 then .next { s with src := src, ip := nxt }
      else c.fail { s with src := src }
  | .testChar b l =>                                                  -- :189
    match c.inp.peek s.src with
    | (some b', src) =>
      if b' = b then
        .next { ({ s with src := src }.push (.btrack (tgt l) (c.inp.pos src))) with
          src := (c.inp.advance src 1).2, ip := nxt }
      else .next { s with src := src, ip := tgt l }
    | (none, src) => .next { s with src := src, ip := tgt l }
  | .testCharNC b l =>                                                -- :200
    match c.inp.peek s.src with
    | (some b', src) =>
      if b' = b then .next { s with src := (c.inp.advance src 1).2, ip := nxt }
      else .next { s with src := src, ip := tgt l }
    | (none, src) => .next { s with src := src, ip := tgt l }
  | .testSet cs l =>                                                  -- :210
    match c.inp.peek s.src with
    | (some b', src) =>
      if cs.has b' then
        .next { ({ s with src := src }.push (.btrack (tgt l) (c.inp.pos src))) with
          src := (c.inp.advance src 1).2, ip := nxt }
      else .next { s with src := src, ip := tgt l }
    | (none, src) => .next { s with src := src, ip := tgt l }
  | .testSetNC cs l =>                                                -- :221
    match c.inp.peek s.src with
    | (some b', src) =>
      if cs.has b' then .next { s with src := (c.inp.advance src 1).2, ip := nxt }
      else .next { s with src := src, ip := tgt l }
    | (none, src) => .next { s with src := src, ip := tgt l }
  | .testAny n l =>                                                   -- :231
    let p := c.inp.pos s.src
    match c.inp.advance s.src n.toNat with
    | (true, src) => .next { s.push (.btrack (tgt l) p) with src := src, ip := nxt }
    | (false, src) => .next { s with src := src, ip := tgt l }
  | .captureBegin id =>                                               -- :242
    .next { s.push (.capt id (c.inp.pos s.src)) with ip := nxt }
  | .captureLate back id =>                                           -- :249
    .next { s.push (.capt id (c.inp.pos s.src - back.toNat)) with ip := nxt }
  | .captureFull back id =>                                           -- :257
    let p := c.inp.pos s.src
    if overlapsIv c.intrvl (p - back.toNat) p then
      let s := { s with rng := ⟨min s.rng.low (p - back.toNat), max s.rng.high p⟩ }
      .next { s.addCapt1 c.par (.node id (p - back.toNat) back.toNat {}) with ip := nxt }
    else .next { s with ip := nxt }
  | .captureEnd =>                                                    -- :270
    match s.stk with
    | [] => .panic
    | e :: r =>
      match e.kind with
      | .capt id pos =>
        let p := c.inp.pos s.src
        let s := { s with stk := r }
        if overlapsIv c.intrvl pos p then
          let s := { s with rng := ⟨min s.rng.low pos, max s.rng.high p⟩ }
          .next { s.addCapt1 c.par (.node id pos (p - pos) e.capt) with ip := nxt }
        else .next { s with ip := nxt }
      | _ => .panic
  | .endI fl =>                                                       -- :285, :442-445
    let p := c.inp.pos s.src
    let dummy := match c.intrvl with
      | some _ => SCap.dummy s.rng.low (s.rng.high - s.rng.low) s.capt
      | none => SCap.dummy 0 p s.capt
    .halt (!fl) (some dummy) s
  | .memoOpen l id =>                                                 -- :289
    match c.tab.get s.tbl id (c.inp.pos s.src) with
    | (some m, t) =>
      let s := { s with tbl := t }
      match m.length with
      | none => c.fail s
      | some n =>
        .next { s.addCapt c.par m.captures with src := (c.inp.advance s.src n).2, ip := tgt l }
    | (none, t) =>
      .next { ({ s with tbl := t }.push (.memo id (c.inp.pos s.src))) with ip := nxt }
  | .memoClose =>                                                     -- :311
    match s.stk with
    | [] => .panic
    | e :: r =>
      match e.kind with
      | .memo id pos =>
        let s := { s with stk := r }.addCapt c.par e.capt
        .next { c.memoize s id pos (some (c.inp.pos s.src - pos)) 1 e.capt with ip := nxt }
      | _ => .panic
  | .memoTreeOpen l id =>                                             -- :320
    match c.tab.get s.tbl id (c.inp.pos s.src) with
    | (some m, t) =>
      let s := { s with tbl := t }
      match m.length with
      | none => c.fail s
      | some n =>
        let s := s.push (.memoTree id (c.inp.pos s.src) m.count)
        let s := s.addCapt c.par m.captures
        .next { s with src := (c.inp.peek (c.inp.advance s.src n).2).2, ip := tgt l }
    | (none, t) =>
      .next { ({ s with tbl := t }.push (.memoTree id (c.inp.pos s.src) 0)) with ip := nxt }
  | .memoTreeClose id => .next { treeClose c.par id s.stk s with ip := nxt } -- :348
  | .memoTreeInsert =>                                                -- :354
    match s.stk with
    | [] => .panic
    | e :: r =>
      match e.kind with
      | .memoTree id pos count =>
        let s := { s with stk := ⟨.memoTree id pos (count + 1), e.capt⟩ :: r }
        .next { c.memoize s id pos (some (c.inp.pos s.src - pos)) (count + 1) e.capt with
          ip := nxt }
      | _ => .panic
  | .memoTree =>                                                      -- :363
    match s.stk with
    | [] => .next { s with ip := nxt }
    | top :: rest => .next { c.treeLoop s [] 0 top rest with ip := nxt }
  | .checkBegin id flag =>                                            -- :402
    .next { s.push (.check id (c.inp.pos s.src) flag) with ip := nxt }
  | .checkEnd k =>                                                    -- :411
    match s.stk with
    | [] => .panic
    | e :: r =>
      match e.kind with
      | .check id pos flag =>
        let s := { s with stk := r }.addCapt c.par e.capt
        let p := c.inp.pos s.src
        match c.chk k s.cst (c.inp.slice s.src pos p) (c.inp.data s.src) p id flag with
        | (none, cst) => c.fail { s with cst := cst }
        | (some n, cst) =>
          .next { s with cst := cst, src := (c.inp.advance s.src n).2, ip := nxt }
      | _ => .panic
  | .error msg =>                                                     -- :429
    .next { s with errs := s.errs ++ [⟨msg, c.inp.pos s.src⟩], ip := nxt }
  | .openCall _ => .panic

end SCfg

/-- One step on bytecode, see `stepB`. -/
def sstepB (cfg : SCfg ι τ σ) (c : Code) (s : SVM ι τ σ) : SOut ι τ σ :=
  match decode c s.ip with
  | none => .panic
  | some (insn, sz) => cfg.exec1 id insn (s.ip + sz) s

/-- Run at most `fuel` steps; `none` if the machine has not stopped by then. -/
def srunOut (step : SVM ι τ σ → SOut ι τ σ) : Nat → SVM ι τ σ → Option (SOut ι τ σ)
  | 0, _ => none
  | k + 1, s =>
    match step s with
    | .next s' => srunOut step k s'
    | o => some o

/-- The initial state of `Exec` (`vm/vm.go:31-44`), with no arrays. -/
def sinit (src : ι) (t : τ) (cst : σ) : SVM ι τ σ := ⟨0, [], {}, src, t, [], cst, ⟨0, 0⟩, []⟩

/-! ## Reading a capture tree from the heap -/

mutual
/-- The capture `c` is the tree in the second argument. -/
inductive Reads (h : Heap) : SCap → Capture → Prop
  | node {id : Int} {s n : Nat} {ch : Sl} {cs : List Capture} : ReadsL h (cells h ch) cs →
    Reads h (.node id s n ch) (.node id s n cs)
  | dummy {s n : Nat} {ch : Sl} {cs : List Capture} : ReadsL h (cells h ch) cs →
    Reads h (.dummy s n ch) (.dummy s n cs)
/-- The same for lists. -/
inductive ReadsL (h : Heap) : List SCap → List Capture → Prop
  | nil : ReadsL h [] []
  | cons {x : SCap} {c : Capture} {xs : List SCap} {cs : List Capture} : Reads h x c → ReadsL h xs cs →
    ReadsL h (x :: xs) (c :: cs)
end

/-! ## The table -/

/-- `memo/tree.go:12-16` `TreeTable`. -/
structure STree where
  map : LazyLog.Tree SMEnt := {}
  threshold : Int

/-- `memo/tree.go:25-49` `Get` and `Put`, see `TreeTable`. -/
def sTree : STab STree where
  get T id pos :=
    let r := T.map.findLargest id pos
    (r.2, { T with map := r.1 })
  put T id start length examined count captures :=
    if (examined : Int) < T.threshold ∨ length = some 0 then T
    else
      let examined := max examined (length.getD 0)
      { T with map := (T.map.add id start (start + examined) ⟨length, examined, count, captures⟩).1 }

end Gpeg.Slice
