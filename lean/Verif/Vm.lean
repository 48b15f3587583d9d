import Verif.Isa
import Verif.Input
import Verif.Capture
/-!
# Model of `vm/vm.go` and `vm/stack.go`

One call of `exec1` is one iteration of the `loop` in `Code.exec` (`vm/vm.go:86-440`), including
the `fail` section (`:447-469`). The machine is generic in

* `ι`, the input source (`InputOps`),
* `τ`, the memo table (`TableOps`, the interface `memo.Table`),
* `σ`, the state of the user's checkers.

Positions are `Nat`: the subtractions `src.Pos()-back`, `src.Pos()-ent.memo.pos` never go below
zero for compiled programs.
-/
namespace Gpeg

/-- `memo/entry.go:12-18` `Entry` as seen by the VM; `length = none` is `-1` (failed match). -/
structure MEntry where
  length : Option Nat
  examined : Nat
  count : Nat
  captures : List Capture
deriving Repr, Inhabited

/-- `memo/edit.go:6-9` `Edit`. -/
structure Edit where
  start : Nat
  stop : Nat
  len : Nat
deriving DecidableEq, Repr

/-- The interface `memo.Table` (`memo/table.go:7-25`). `get` returns the new state because
look-ups in the interval tree mutate it. -/
structure TableOps (τ : Type) where
  get : τ → Int → Nat → Option MEntry × τ
  put : τ → (id : Int) → (start : Nat) → (length : Option Nat) → (examined count : Nat) →
    List Capture → τ
  applyEdit : τ → Edit → τ

/-- `memo/none.go:4-15` `NoneTable`. -/
def noneTable : TableOps Unit where
  get _ _ _ := (none, ())
  put _ _ _ _ _ _ _ := ()
  applyEdit _ _ := ()

/-- `vm/stack.go:35-78`: the kinds of stack entries with their payload. -/
inductive EKind
  | ret (ip : Nat)
  | btrack (ip off : Nat)
  | memo (id : Int) (pos : Nat)
  | memoTree (id : Int) (pos count : Nat)
  | capt (id : Int) (pos : Nat)
  | check (id : Int) (pos : Nat) (flag : Int)
deriving DecidableEq, Repr

/-- `vm/stack.go:44-54` `stackEntry`. -/
structure Entry where
  kind : EKind
  capt : List Capture := []
deriving Repr

/-- `vm/vm.go:15-18` `ParseError`. -/
structure PErr where
  msg : String
  pos : Nat
deriving DecidableEq, Repr

/-- `vm/vm.go:20-22` `Interval`. -/
structure Interval where
  low : Nat
  high : Nat
deriving DecidableEq, Repr

/-- A user checker (`isa/checker.go:11-13`), as a function of the matched bytes, the data and
position it may read, id and flag; `none` is the answer -1, `some n` the answer `n ≥ 0`. Its
state (e.g. `BackReference.Symbols`) is threaded explicitly. Checkers that move the input or
return other negative numbers are not modelled. -/
abbrev CheckFn (σ : Type) :=
  Nat → σ → (matched data : List UInt8) → (pos : Nat) → (id flag : Int) → Option Nat × σ

/-- Everything a run is parametrised by: input operations, table operations, checkers, and the
optional capture interval (`intrvl` in `vm/vm.go:54`). -/
structure Cfg (ι τ σ : Type) where
  inp : InputOps ι
  tab : TableOps τ
  chk : CheckFn σ
  intrvl : Option Interval := none

/-- The machine state: `ip`, the stack (`entries` top first, base captures `capt`), `src`,
`memtbl`, `errs`, the checkers' state and `caprange` (`vm/vm.go:54-84`). -/
structure VM (ι τ σ : Type) where
  ip : Nat
  stk : List Entry
  capt : List Capture
  src : ι
  tbl : τ
  errs : List PErr
  cst : σ
  rng : Interval

/-- Result of one step: continue, return from `exec` (match flag, captures), or a Go panic. -/
inductive Out (ι τ σ : Type)
  | next (s : VM ι τ σ)
  | halt (success : Bool) (capture : Option Capture) (s : VM ι τ σ)
  | panic

variable {ι τ σ : Type}

namespace VM

/-- `vm/stack.go:12-18,56-65` `addCapt`. -/
def addCapt (s : VM ι τ σ) (cs : List Capture) : VM ι τ σ :=
  match s.stk with
  | [] => { s with capt := s.capt ++ cs }
  | e :: r => { s with stk := { e with capt := e.capt ++ cs } :: r }

/-- `vm/stack.go:95-97` and the `push*` functions. -/
def push (s : VM ι τ σ) (k : EKind) : VM ι τ σ := { s with stk := ⟨k, []⟩ :: s.stk }

end VM

/-- `vm/vm.go:500-505` `overlaps`. -/
def overlapsIv (i : Option Interval) (low2 high2 : Nat) : Bool :=
  match i with
  | none => true
  | some i => decide (i.low < high2) && decide (i.high > low2)

/-- `regexp/syntax` `IsWordChar` (Go standard library). -/
def isWordChar (b : UInt8) : Bool :=
  (97 ≤ b && b ≤ 122) || (65 ≤ b && b ≤ 90) || (48 ≤ b && b ≤ 57) || b == 95

/-- `regexp/syntax` `EmptyOpContext` (Go standard library); `none` is rune -1. The flags are
BeginLine=1, EndLine=2, BeginText=4, EndText=8, WordBoundary=16, NoWordBoundary=32. -/
def emptyOpContext (r1 r2 : Option UInt8) : UInt8 :=
  let (b1, o1) : Bool × UInt8 := match r1 with
    | none => (false, 5)
    | some b => if isWordChar b then (true, 0) else if b == 10 then (false, 1) else (false, 0)
  let (b2, o2) : Bool × UInt8 := match r2 with
    | none => (false, 10)
    | some b => if isWordChar b then (true, 0) else if b == 10 then (false, 2) else (false, 0)
  (o1 ||| o2) ||| (if b1 != b2 then 16 else 32)

namespace Cfg
variable (c : Cfg ι τ σ)

/-- `vm/vm.go:75-81` the closure `memoize`. -/
def memoize (s : VM ι τ σ) (id : Int) (pos : Nat) (mlen : Option Nat) (count : Nat)
    (capt : List Capture) : VM ι τ σ :=
  let capt := if c.intrvl.isSome then [] else capt
  let mexam := max (c.inp.furthest s.src) (c.inp.pos s.src) + 1 - pos
  { s with tbl := c.tab.put s.tbl id pos mlen mexam count capt }

/-- The `fail` section, `vm/vm.go:447-469`. The recursion is the `goto fail` chain. A popped
`stMemoTree` entry matches no case and falls through to `goto loop` with `ip` unchanged. -/
def doFail (c : Cfg ι τ σ) (s : VM ι τ σ) : List Entry → Out ι τ σ
  | [] => .halt false none { s with stk := [] }
  | e :: rest =>
    match e.kind with
    | .btrack ip off => .next { s with ip := ip, stk := rest, src := c.inp.seekTo s.src off }
    | .memo id pos => doFail c (c.memoize s id pos none 0 []) rest
    | .ret _ | .capt _ _ | .check _ _ _ => doFail c s rest
    | .memoTree _ _ _ => .next { s with stk := rest }

/-- `goto fail` from the current state. -/
def fail (s : VM ι τ σ) : Out ι τ σ := doFail c s s.stk

/-- `vm/vm.go:151-158` the loop of `opSpan`; `fuel` bounds the iterations (each one consumes a
byte, so `length of data + 1` suffices). -/
def spanLoop (c : Cfg ι τ σ) (cs : CSet) : Nat → ι → ι
  | 0, src => src
  | k + 1, src =>
    match c.inp.peek src with
    | (some b, src) => if cs.has b then spanLoop c cs k (c.inp.advance src 1).2 else src
    | (none, src) => src

/-- `vm/vm.go:350-352` the loop of `opMemoTreeClose`. -/
def treeClose (id : Int) (s : VM ι τ σ) : List Entry → VM ι τ σ
  | [] => s
  | e :: rest =>
    match e.kind with
    | .memoTree id' _ _ =>
      if id' = id then
        -- pop(true)
        match rest with
        | [] => { s with stk := [], capt := s.capt ++ e.capt }
        | e' :: rest' =>
          treeClose id { s with stk := { e' with capt := e'.capt ++ e.capt } :: rest' }
            ({ e' with capt := e'.capt ++ e.capt } :: rest')
      else s
    | _ => s
termination_by l => l.length

/-- `vm/vm.go:363-399` the loop of `opMemoTree`. `passed` are the `seen` entries above `top`
(topmost first), `rest` the entries below `top`; at a break the stack is unchanged. -/
def treeLoop (c : Cfg ι τ σ) (s : VM ι τ σ) (passed : List Entry) (accum : Nat) (top : Entry) :
    List Entry → VM ι τ σ
  | [] => { s with stk := passed ++ [top] }
  | nxt :: rest =>
    match top.kind, nxt.kind with
    | .memoTree _ tpos tcount, .memoTree nid npos ncount =>
      let accum := accum + tcount
      if accum < ncount then treeLoop c s (passed ++ [top]) accum nxt rest
      else
        -- captures of the popped entries, propagated down to `top`
        let ecapt := top.capt ++ (passed.reverse.map Entry.capt).flatten
        let p := c.inp.pos s.src
        let ncapt :=
          if ecapt.length > 0 then
            if c.intrvl.isNone then nxt.capt ++ [Capture.dummy tpos (p - tpos) ecapt]
            else nxt.capt ++ ecapt
          else nxt.capt
        let nxt' : Entry := ⟨.memoTree nid npos (accum + ncount), ncapt⟩
        let s := c.memoize s nid npos (some (p - npos)) (accum + ncount) ncapt
        treeLoop c s [] 0 nxt' rest
    | _, _ => { s with stk := passed ++ top :: nxt :: rest }

/-- One iteration of the VM loop (`vm/vm.go:86-440`) for the decoded instruction `insn`; `nxt` is
the address of the following instruction (`ip + sz`), `tgt` resolves label operands. -/
def exec1 (tgt : Nat → Nat) (insn : Insn) (nxt : Nat) (s : VM ι τ σ) : Out ι τ σ :=
  match insn with
  | .label _ | .nop => .next { s with ip := nxt }
  | .char b =>                                                        -- :90
    match c.inp.peek s.src with
    | (some b', src) =>
      if b = b' then .next { s with src := (c.inp.advance src 1).2, ip := nxt }
      else c.fail { s with src := src }
    | (none, src) => c.fail { s with src := src }
  | .jump l => .next { s with ip := tgt l }                           -- :99
  | .choice l =>                                                      -- :102
    .next { s.push (.btrack (tgt l) (c.inp.pos s.src)) with ip := nxt }
  | .call l => .next { s.push (.ret nxt) with ip := tgt l }           -- :106
  | .commit l =>                                                      -- :110
    match s.stk with
    | [] => .next { s with ip := tgt l }
    | e :: r => .next { ({ s with stk := r }.addCapt e.capt) with ip := tgt l }
  | .ret =>                                                           -- :114
    match s.stk with
    | [] => .panic
    | e :: r =>
      match e.kind with
      | .ret ip => .next { ({ s with stk := r }.addCapt e.capt) with ip := ip }
      | _ => .panic
  | .fail => c.fail s                                                 -- :121
  | .set cs =>                                                        -- :123
    match c.inp.peek s.src with
    | (some b, src) =>
      if cs.has b then .next { s with src := (c.inp.advance src 1).2, ip := nxt }
      else c.fail { s with src := src }
    | (none, src) => c.fail { s with src := src }
  | .any n =>                                                         -- :132
    match c.inp.advance s.src n.toNat with
    | (true, src) => .next { s with src := src, ip := nxt }
    | (false, src) => c.fail { s with src := src }
  | .partialCommit l =>                                               -- :140
    match s.stk with
    | [] => .panic
    | e :: r =>
      match e.kind with
      | .btrack ip _ =>
        let s' := { s with stk := r }.addCapt e.capt
        .next { s' with stk := ⟨.btrack ip (c.inp.pos s.src), []⟩ :: s'.stk, ip := tgt l }
      | _ => .panic
  | .span cs =>                                                       -- :151
    .next { s with src := c.spanLoop cs ((c.inp.data s.src).length + 1) s.src, ip := nxt }
  | .backCommit l =>                                                  -- :159
    match s.stk with
    | [] => .panic
    | e :: r =>
      match e.kind with
      | .btrack _ off =>
        .next { ({ s with stk := r }.addCapt e.capt) with
          src := c.inp.seekTo s.src off, ip := tgt l }
      | _ => .panic
  | .failTwice =>                                                     -- :168
    match s.stk with
    | [] => c.fail s
    | _ :: r => c.fail { s with stk := r }
  | .emptyOp op =>                                                    -- :171
    let b1 := c.inp.peekBefore s.src
    match c.inp.peek s.src with
    | (b2, src) =>
      if emptyOpContext b1 b2 &&& op ≠ 0 then .next { s with src := src, ip := nxt }
      else c.fail { s with src := src }
  | .testChar b l =>                                                  -- :189
    match c.inp.peek s.src with
    | (some b', src) =>
      if b' = b then
        .next { ({ s with src := src }.push (.btrack (tgt l) (c.inp.pos src))) with
          src := (c.inp.advance src 1).2, ip := nxt }
      else .next { s with src := src, ip := tgt l }
    | (none, src) => .next { s with src := src, ip := tgt l }
  | .testCharNC b l =>                                                -- :200
    match c.inp.peek s.src with
    | (some b', src) =>
      if b' = b then .next { s with src := (c.inp.advance src 1).2, ip := nxt }
      else .next { s with src := src, ip := tgt l }
    | (none, src) => .next { s with src := src, ip := tgt l }
  | .testSet cs l =>                                                  -- :210
    match c.inp.peek s.src with
    | (some b', src) =>
      if cs.has b' then
        .next { ({ s with src := src }.push (.btrack (tgt l) (c.inp.pos src))) with
          src := (c.inp.advance src 1).2, ip := nxt }
      else .next { s with src := src, ip := tgt l }
    | (none, src) => .next { s with src := src, ip := tgt l }
  | .testSetNC cs l =>                                                -- :221
    match c.inp.peek s.src with
    | (some b', src) =>
      if cs.has b' then .next { s with src := (c.inp.advance src 1).2, ip := nxt }
      else .next { s with src := src, ip := tgt l }
    | (none, src) => .next { s with src := src, ip := tgt l }
  | .testAny n l =>                                                   -- :231
    let p := c.inp.pos s.src
    match c.inp.advance s.src n.toNat with
    | (true, src) => .next { s.push (.btrack (tgt l) p) with src := src, ip := nxt }
    | (false, src) => .next { s with src := src, ip := tgt l }
  | .captureBegin id =>                                               -- :242
    .next { s.push (.capt id (c.inp.pos s.src)) with ip := nxt }
  | .captureLate back id =>                                           -- :249
    .next { s.push (.capt id (c.inp.pos s.src - back.toNat)) with ip := nxt }
  | .captureFull back id =>                                           -- :257
    let p := c.inp.pos s.src
    if overlapsIv c.intrvl (p - back.toNat) p then
      let s := { s with rng := ⟨min s.rng.low (p - back.toNat), max s.rng.high p⟩ }
      .next { s.addCapt [.node id (p - back.toNat) back.toNat []] with ip := nxt }
    else .next { s with ip := nxt }
  | .captureEnd =>                                                    -- :270
    match s.stk with
    | [] => .panic
    | e :: r =>
      match e.kind with
      | .capt id pos =>
        let p := c.inp.pos s.src
        let s := { s with stk := r }
        if overlapsIv c.intrvl pos p then
          let s := { s with rng := ⟨min s.rng.low pos, max s.rng.high p⟩ }
          .next { s.addCapt [.node id pos (p - pos) e.capt] with ip := nxt }
        else .next { s with ip := nxt }
      | _ => .panic
  | .endI fl =>                                                       -- :285, :442-445
    let p := c.inp.pos s.src
    let dummy := match c.intrvl with
      | some _ => Capture.dummy s.rng.low (s.rng.high - s.rng.low) s.capt
      | none => Capture.dummy 0 p s.capt
    .halt (!fl) (some dummy) s
  | .memoOpen l id =>                                                 -- :289
    match c.tab.get s.tbl id (c.inp.pos s.src) with
    | (some m, t) =>
      let s := { s with tbl := t }
      match m.length with
      | none => c.fail s
      | some n =>
        .next { s.addCapt m.captures with src := (c.inp.advance s.src n).2, ip := tgt l }
    | (none, t) =>
      .next { ({ s with tbl := t }.push (.memo id (c.inp.pos s.src))) with ip := nxt }
  | .memoClose =>                                                     -- :311
    match s.stk with
    | [] => .panic
    | e :: r =>
      match e.kind with
      | .memo id pos =>
        let s := { s with stk := r }.addCapt e.capt
        .next { c.memoize s id pos (some (c.inp.pos s.src - pos)) 1 e.capt with ip := nxt }
      | _ => .panic
  | .memoTreeOpen l id =>                                             -- :320
    match c.tab.get s.tbl id (c.inp.pos s.src) with
    | (some m, t) =>
      let s := { s with tbl := t }
      match m.length with
      | none => c.fail s
      | some n =>
        let s := s.push (.memoTree id (c.inp.pos s.src) m.count)
        let s := s.addCapt m.captures
        .next { s with src := (c.inp.peek (c.inp.advance s.src n).2).2, ip := tgt l }
    | (none, t) =>
      .next { ({ s with tbl := t }.push (.memoTree id (c.inp.pos s.src) 0)) with ip := nxt }
  | .memoTreeClose id => .next { treeClose id s s.stk with ip := nxt } -- :348
  | .memoTreeInsert =>                                                -- :354
    match s.stk with
    | [] => .panic
    | e :: r =>
      match e.kind with
      | .memoTree id pos count =>
        let s := { s with stk := ⟨.memoTree id pos (count + 1), e.capt⟩ :: r }
        .next { c.memoize s id pos (some (c.inp.pos s.src - pos)) (count + 1) e.capt with
          ip := nxt }
      | _ => .panic
  | .memoTree =>                                                      -- :363
    match s.stk with
    | [] => .next { s with ip := nxt }
    | top :: rest => .next { c.treeLoop s [] 0 top rest with ip := nxt }
  | .checkBegin id flag =>                                            -- :402
    .next { s.push (.check id (c.inp.pos s.src) flag) with ip := nxt }
  | .checkEnd k =>                                                    -- :411
    match s.stk with
    | [] => .panic
    | e :: r =>
      match e.kind with
      | .check id pos flag =>
        let s := { s with stk := r }.addCapt e.capt
        let p := c.inp.pos s.src
        match c.chk k s.cst (c.inp.slice s.src pos p) (c.inp.data s.src) p id flag with
        | (none, cst) => c.fail { s with cst := cst }
        | (some n, cst) =>
          .next { s with cst := cst, src := (c.inp.advance s.src n).2, ip := nxt }
      | _ => .panic
  | .error msg =>                                                     -- :429
    .next { s with errs := s.errs ++ [⟨msg, c.inp.pos s.src⟩], ip := nxt }
  | .openCall _ => .panic

end Cfg

/-! ## Running an instruction list

The labelled program as produced by `pattern.Compile`, extended with the `End` that `Encode`
appends (`vm/code.go:216`). -/

/-- The instruction list that is really executed: `Encode` appends `opEnd, 0`. -/
def withEnd (p : Program) : Program := p ++ [.endI false]

/-- One step of the machine on an instruction list: addresses are indices. -/
def stepL (c : Cfg ι τ σ) (p : Program) (s : VM ι τ σ) : Out ι τ σ :=
  match p[s.ip]? with
  | none => .panic
  | some insn => c.exec1 (labelIdx p) insn (s.ip + 1) s

/-- Run at most `fuel` steps; `none` if the machine has not stopped by then. -/
def runOut (step : VM ι τ σ → Out ι τ σ) : Nat → VM ι τ σ → Option (Out ι τ σ)
  | 0, _ => none
  | k + 1, s =>
    match step s with
    | .next s' => runOut step k s'
    | o => some o

/-- The initial state of `Exec` (`vm/vm.go:31-44`) and `ExecInterval` (`:46-52,63-73`). -/
def initVM (c : Cfg ι τ σ) (src : ι) (t : τ) (cst : σ) : VM ι τ σ :=
  match c.intrvl with
  | none => ⟨0, [], [], src, t, [], cst, ⟨0, 0⟩⟩
  | some i =>
    ⟨0, [], [], src, c.tab.applyEdit t ⟨i.low, i.high, i.high - i.low⟩, [], cst, i⟩

end Gpeg
