import Verif.Encode
import Verif.Exec
import Verif.TreeTable
/-!
# The machine with capture objects

In `Verif/Vm.lean` and `Verif/TreeTable.lean` captures are values with absolute positions, and an entry of the table
moves the captures it holds. In the code a capture is an object that several entries may hold; `setMEnt` makes its
position relative to the *first* entry it is stored in, whatever becomes of that entry, and `Start` adds the current
position of that entry's node in the interval tree, which may have left the tree or been given to another key. This
module is the machine of `Verif/Vm.lean` with these objects; everything else is the same, line by line. (Slices are
lists: see `Verif/Slice.lean` for those.)
-/
namespace Gpeg.Obj

/-- A `*Capture`: the number of the object. -/
abbrev Ref := Nat

/-- `memo/capture.go:13-21` `Capture`; `ment` is the number of an entry. -/
structure CObj where
  id : Int
  dummy : Bool
  off : Int
  len : Nat
  ment : Option Nat
  children : List Ref
deriving DecidableEq, Repr, Inhabited

/-- `memo/entry.go:12-18` `Entry`; `pos` is the address of the node that `Add` returned. -/
structure EObj where
  length : Option Nat
  examined : Nat
  count : Nat
  captures : List Ref
  pos : Nat
deriving DecidableEq, Repr, Inhabited

/-- `memo/tree.go:12-16` `TreeTable`, with all objects ever made: entries, captures, and the nodes that are no longer
in the tree. -/
structure OTab where
  map : LazyLog.Tree Nat := {}
  threshold : Int
  ents : List EObj := []
  caps : List CObj := []
  gone : List (LazyLog.Nd Nat) := []

/-- The nodes of a tree. -/
def nodes : LazyLog.Tr Nat → List (LazyLog.Nd Nat)
  | .nil => []
  | .node d l r => nodes l ++ d :: nodes r

namespace OTab

/-- `memo/interval/lazylog/tree.go:459-462` `Pos` of the node with address `a`. A node that has left the tree still
follows the shifts; it is kept as it was before the edit that took it out. (In the code it may still have a child, whose
`max` then makes its own larger, and it may have lost intervals. A node moves like its own intervals whatever its `max`
is, as long as it has any; the position of a node without intervals that has left the tree is used in no theorem.) -/
def posOf (T : OTab) (a : Nat) : Int :=
  match (T.map.posOf a).2 with
  | some p => p
  | none =>
    match T.gone.find? fun d => d.addr = a with
    | some d => (LazyLog.applyShifts T.map.shifts none none d).pos
    | none => 0

/-- `memo/entry.go:28-31` `Entry.Pos`. -/
def entPos (T : OTab) (e : Nat) : Int := T.posOf (T.ents[e]?.getD default).pos

/-- `memo/capture.go:95-100` `Start`. -/
def start (T : OTab) (c : CObj) : Int :=
  match c.ment with
  | some e => T.entPos e + c.off
  | none => c.off

/-- `memo/capture.go:118-129` `setMEnt` for the entry `e` at position `p`. The number bounds the depth of the recursion;
the children of a capture were made before it and have smaller numbers. -/
def setMEnt (e : Nat) (p : Int) : Nat → List CObj → Ref → List CObj
  | 0, H, _ => H
  | f + 1, H, r =>
    let c := H[r]?.getD default
    if c.ment.isSome then H
    else c.children.foldl (setMEnt e p f) (H.set r { c with ment := some e, off := c.off - p })

/-- `memo/tree.go:25-31` `Get`: the number of the entry. -/
def get (T : OTab) (id : Int) (pos : Nat) : Option EObj × OTab :=
  let r := T.map.findLargest id pos
  (r.2.map fun e => T.ents[e]?.getD default, { T with map := r.1 })

/-- `memo/tree.go:33-49` `Put` with `setPos` (`memo/entry.go:20-26`). -/
def put (T : OTab) (id : Int) (start : Nat) (length : Option Nat) (examined count : Nat) (captures : List Ref) : OTab :=
  if (examined : Int) < T.threshold ∨ length = some 0 then T
  else
    let examined := max examined (length.getD 0)
    let e := T.ents.length
    let r := T.map.add id start (start + examined) e
    let T := { T with map := r.1, ents := T.ents ++ [(⟨length, examined, count, captures, r.2⟩ : EObj)] }
    { T with caps := captures.foldl (setMEnt e (T.posOf r.2) T.caps.length) T.caps }

/-- `memo/tree.go:51-61` `ApplyEdit`. -/
def applyEdit (T : OTab) (e : Edit) : OTab :=
  let low : Int := e.start
  let high : Int := if e.start = e.stop then e.start + 1 else e.stop
  let amt : Int := e.len - ((e.stop : Int) - e.start)
  let map := T.map.removeAndShift low high amt
  let left := (nodes T.map.root).filter fun d => !(nodes map.root).any fun d' => d'.addr == d.addr
  { T with map := map, gone := T.gone ++ left }

/-- A new object. -/
def alloc (T : OTab) (c : CObj) : OTab × Ref := ({ T with caps := T.caps ++ [c] }, T.caps.length)

/-- `memo/capture.go:23-32` `NewCaptureNode`. -/
def newNode (T : OTab) (id : Int) (start len : Nat) (children : List Ref) : OTab × Ref :=
  T.alloc ⟨id, false, start, len, none, children⟩

/-- `memo/capture.go:34-43` `NewCaptureDummy`. -/
def newDummy (T : OTab) (start len : Nat) (children : List Ref) : OTab × Ref :=
  T.alloc ⟨0, true, start, len, none, children⟩

end OTab

/-- `vm/stack.go:44-54` `stackEntry`. -/
structure OEntry where
  kind : EKind
  capt : List Ref := []
deriving Repr

/-- The machine state, see `VM`. -/
structure OVM (ι σ : Type) where
  ip : Nat
  stk : List OEntry
  capt : List Ref
  src : ι
  tbl : OTab
  errs : List PErr
  cst : σ
  rng : Interval

/-- Result of one step, see `Out`. -/
inductive OOut (ι σ : Type)
  | next (s : OVM ι σ)
  | halt (success : Bool) (capture : Option Ref) (s : OVM ι σ)
  | panic

/-- What a run is parametrised by, see `Cfg`. -/
structure OCfg (ι σ : Type) where
  inp : InputOps ι
  chk : CheckFn σ
  intrvl : Option Interval := none

variable {ι σ : Type}

/-- `vm/stack.go:12-18,56-65` `addCapt`. -/
def OVM.addCapt (s : OVM ι σ) (c : List Ref) : OVM ι σ :=
  match s.stk with
  | [] => { s with capt := s.capt ++ c }
  | e :: rest => { s with stk := { e with capt := e.capt ++ c } :: rest }

/-- `addCapt` of a new object. -/
def OVM.addNew (s : OVM ι σ) (r : OTab × Ref) : OVM ι σ := { s with tbl := r.1 }.addCapt [r.2]

/-- `vm/stack.go:95-97` and the `push*` functions. -/
def OVM.push (s : OVM ι σ) (k : EKind) : OVM ι σ := { s with stk := ⟨k, []⟩ :: s.stk }

namespace OCfg
variable (c : OCfg ι σ)

/-- `vm/vm.go:75-81` the closure `memoize`. -/
def memoize (s : OVM ι σ) (id : Int) (pos : Nat) (mlen : Option Nat) (count : Nat) (capt : List Ref) : OVM ι σ :=
  let capt := if c.intrvl.isSome then [] else capt
  let mexam := max (c.inp.furthest s.src) (c.inp.pos s.src) + 1 - pos
  { s with tbl := s.tbl.put id pos mlen mexam count capt }

/-- The `fail` section, `vm/vm.go:447-469`. -/
def doFail (c : OCfg ι σ) (s : OVM ι σ) : List OEntry → OOut ι σ
  | [] => .halt false none { s with stk := [] }
  | e :: rest =>
    match e.kind with
    | .btrack ip off => .next { s with ip := ip, stk := rest, src := c.inp.seekTo s.src off }
    | .memo id pos => doFail c (c.memoize s id pos none 0 []) rest
    | .ret _ | .capt _ _ | .check _ _ _ => doFail c s rest
    | .memoTree _ _ _ => .next { s with stk := rest }

/-- `goto fail` from the current state. -/
def fail (s : OVM ι σ) : OOut ι σ := doFail c s s.stk

/-- `vm/vm.go:151-158` the loop of `opSpan`. -/
def spanLoop (c : OCfg ι σ) (cs : CSet) : Nat → ι → ι
  | 0, src => src
  | k + 1, src =>
    match c.inp.peek src with
    | (some b, src) => if cs.has b then spanLoop c cs k (c.inp.advance src 1).2 else src
    | (none, src) => src

/-- `vm/vm.go:350-352` the loop of `opMemoTreeClose`. -/
def treeClose (id : Int) (s : OVM ι σ) : List OEntry → OVM ι σ
  | [] => s
  | e :: rest =>
    match e.kind with
    | .memoTree id' _ _ =>
      if id' = id then
        -- pop(true)
        match rest with
        | [] => { s with stk := [], capt := s.capt ++ e.capt }
        | e' :: rest' =>
          treeClose id { s with stk := { e' with capt := e'.capt ++ e.capt } :: rest' }
            ({ e' with capt := e'.capt ++ e.capt } :: rest')
      else s
    | _ => s
termination_by l => l.length

/-- `vm/vm.go:363-399` the loop of `opMemoTree`, see `Cfg.treeLoop`. -/
def treeLoop (c : OCfg ι σ) (s : OVM ι σ) (passed : List OEntry) (accum : Nat) (top : OEntry) :
    List OEntry → OVM ι σ
  | [] => { s with stk := passed ++ [top] }
  | nxt :: rest =>
    match top.kind, nxt.kind with
    | .memoTree _ tpos tcount, .memoTree nid npos ncount =>
      let accum := accum + tcount
      if accum < ncount then treeLoop c s (passed ++ [top]) accum nxt rest
      else
        let ecapt := top.capt ++ (passed.reverse.map OEntry.capt).flatten
        let p := c.inp.pos s.src
        let r : OTab × List Ref :=
          if ecapt.length > 0 then
            if c.intrvl.isNone then
              let q := s.tbl.newDummy tpos (p - tpos) ecapt
              (q.1, nxt.capt ++ [q.2])
            else (s.tbl, nxt.capt ++ ecapt)
          else (s.tbl, nxt.capt)
        let nxt' : OEntry := ⟨.memoTree nid npos (accum + ncount), r.2⟩
        let s := c.memoize { s with tbl := r.1 } nid npos (some (p - npos)) (accum + ncount) r.2
        treeLoop c s [] 0 nxt' rest
    | _, _ => { s with stk := passed ++ top :: nxt :: rest }

/-- One iteration of the VM loop (`vm/vm.go:86-440`), see `Cfg.exec1`. -/
def exec1 (tgt : Nat → Nat) (insn : Insn) (nxt : Nat) (s : OVM ι σ) : OOut ι σ :=
  match insn with
  | .label _ | .nop => .next { s with ip := nxt }
  | .char b =>                                                        -- :90
    match c.inp.peek s.src with
    | (some b', src) =>
      if b = b' then .next { s with src := (c.inp.advance src 1).2, ip := nxt }
      else c.fail { s with src := src }
    | (none, src) => c.fail { s with src := src }
  | .jump l => .next { s with ip := tgt l }                           -- :99
  | .choice l =>                                                      -- :102
    .next { s.push (.btrack (tgt l) (c.inp.pos s.src)) with ip := nxt }
  | .call l => .next { s.push (.ret nxt) with ip := tgt l }           -- :106
  | .commit l =>                                                      -- :110
    match s.stk with
    | [] => .next { s with ip := tgt l }
    | e :: r => .next { ({ s with stk := r }.addCapt e.capt) with ip := tgt l }
  | .ret =>                                                           -- :114
    match s.stk with
    | [] => .panic
    | e :: r =>
      match e.kind with
      | .ret ip => .next { ({ s with stk := r }.addCapt e.capt) with ip := ip }
      | _ => .panic
  | .fail => c.fail s                                                 -- :121
  | .set cs =>                                                        -- :123
    match c.inp.peek s.src with
    | (some b, src) =>
      if cs.has b then .next { s with src := (c.inp.advance src 1).2, ip := nxt }
      else c.fail { s with src := src }
    | (none, src) => c.fail { s with src := src }
  | .any n =>                                                         -- :132
    match c.inp.advance s.src n.toNat with
    | (true, src) => .next { s with src := src, ip := nxt }
    | (false, src) => c.fail { s with src := src }
  | .partialCommit l =>                                               -- :140, propCapt
    match s.stk with
    | [] => .panic
    | e :: r =>
      match e.kind with
      | .btrack ip _ =>
        let s' := { s with stk := r }.addCapt e.capt
        .next { s' with stk := ⟨.btrack ip (c.inp.pos s.src), []⟩ :: s'.stk, ip := tgt l }
      | _ => .panic
  | .span cs =>                                                       -- :151
    .next { s with src := c.spanLoop cs ((c.inp.data s.src).length + 1) s.src, ip := nxt }
  | .backCommit l =>                                                  -- :159
    match s.stk with
    | [] => .panic
    | e :: r =>
      match e.kind with
      | .btrack _ off =>
        .next { ({ s with stk := r }.addCapt e.capt) with
          src := c.inp.seekTo s.src off, ip := tgt l }
      | _ => .panic
  | .failTwice =>                                                     -- :168
    match s.stk with
    | [] => c.fail s
    | _ :: r => c.fail { s with stk := r }
  | .emptyOp op =>                                                    -- :171
    let b1 := c.inp.peekBefore s.src
    match c.inp.peek s.src with
    | (b2, src) =>
      if emptyOpContext b1 b2 &&& op ≠ 0 then .next { s with src := src, ip := nxt }
      else c.fail { s with src := src }
  | .testChar b l =>                                                  -- :189
    match c.inp.peek s.src with
    | (some b', src) =>
      if b' = b then
        .next { ({ s with src := src }.push (.btrack (tgt l) (c.inp.pos src))) with
          src := (c.inp.advance src 1).2, ip := nxt }
      else .next { s with src := src, ip := tgt l }
    | (none, src) => .next { s with src := src, ip := tgt l }
  | .testCharNC b l =>                                                -- :200
    match c.inp.peek s.src with
    | (some b', src) =>
      if b' = b then .next { s with src := (c.inp.advance src 1).2, ip := nxt }
      else .next { s with src := src, ip := tgt l }
    | (none, src) => .next { s with src := src, ip := tgt l }
  | .testSet cs l =>                                                  -- :210
    match c.inp.peek s.src with
    | (some b', src) =>
      if cs.has b' then
        .next { ({ s with src := src }.push (.btrack (tgt l) (c.inp.pos src))) with
          src := (c.inp.advance src 1).2, ip := nxt }
      else .next { s with src := src, ip := tgt l }
    | (none, src) => .next { s with src := src, ip := tgt l }
  | .testSetNC cs l =>                                                -- :221
    match c.inp.peek s.src with
    | (some b', src) =>
      if cs.has b' then .next { s with src := (c.inp.advance src 1).2, ip := nxt }
      else .next { s with src := src, ip := tgt l }
    | (none, src) => .next { s with src := src, ip := tgt l }
  | .testAny n l =>                                                   -- :231
    let p := c.inp.pos s.src
    match c.inp.advance s.src n.toNat with
    | (true, src) => .next { s.push (.btrack (tgt l) p) with src := src, ip := nxt }
    | (false, src) => .next { s with src := src, ip := tgt l }
  | .captureBegin id =>                                               -- :242
    .next { s.push (.capt id (c.inp.pos s.src)) with ip := nxt }
  | .captureLate back id =>                                           -- :249
    .next { s.push (.capt id (c.inp.pos s.src - back.toNat)) with ip := nxt }
  | .captureFull back id =>                                           -- :257
    let p := c.inp.pos s.src
    if overlapsIv c.intrvl (p - back.toNat) p then
      let s := { s with rng := ⟨min s.rng.low (p - back.toNat), max s.rng.high p⟩ }
      .next { s.addNew (s.tbl.newNode id (p - back.toNat) back.toNat []) with ip := nxt }
    else .next { s with ip := nxt }
  | .captureEnd =>                                                    -- :270
    match s.stk with
    | [] => .panic
    | e :: r =>
      match e.kind with
      | .capt id pos =>
        let p := c.inp.pos s.src
        let s := { s with stk := r }
        if overlapsIv c.intrvl pos p then
          let s := { s with rng := ⟨min s.rng.low pos, max s.rng.high p⟩ }
          .next { s.addNew (s.tbl.newNode id pos (p - pos) e.capt) with ip := nxt }
        else .next { s with ip := nxt }
      | _ => .panic
  | .endI fl =>                                                       -- :285, :442-445
    let p := c.inp.pos s.src
    let dummy := match c.intrvl with
      | some _ => s.tbl.newDummy s.rng.low (s.rng.high - s.rng.low) s.capt
      | none => s.tbl.newDummy 0 p s.capt
    .halt (!fl) (some dummy.2) { s with tbl := dummy.1 }
  | .memoOpen l id =>                                                 -- :289
    match s.tbl.get id (c.inp.pos s.src) with
    | (some m, t) =>
      let s := { s with tbl := t }
      match m.length with
      | none => c.fail s
      | some n =>
        .next { s.addCapt m.captures with src := (c.inp.advance s.src n).2, ip := tgt l }
    | (none, t) =>
      .next { ({ s with tbl := t }.push (.memo id (c.inp.pos s.src))) with ip := nxt }
  | .memoClose =>                                                     -- :311
    match s.stk with
    | [] => .panic
    | e :: r =>
      match e.kind with
      | .memo id pos =>
        let s := { s with stk := r }.addCapt e.capt
        .next { c.memoize s id pos (some (c.inp.pos s.src - pos)) 1 e.capt with ip := nxt }
      | _ => .panic
  | .memoTreeOpen l id =>                                             -- :320
    match s.tbl.get id (c.inp.pos s.src) with
    | (some m, t) =>
      let s := { s with tbl := t }
      match m.length with
      | none => c.fail s
      | some n =>
        let s := s.push (.memoTree id (c.inp.pos s.src) m.count)
        let s := s.addCapt m.captures
        .next { s with src := (c.inp.peek (c.inp.advance s.src n).2).2, ip := tgt l }
    | (none, t) =>
      .next { ({ s with tbl := t }.push (.memoTree id (c.inp.pos s.src) 0)) with ip := nxt }
  | .memoTreeClose id => .next { treeClose id s s.stk with ip := nxt } -- :348
  | .memoTreeInsert =>                                                -- :354
    match s.stk with
    | [] => .panic
    | e :: r =>
      match e.kind with
      | .memoTree id pos count =>
        let s := { s with stk := ⟨.memoTree id pos (count + 1), e.capt⟩ :: r }
        .next { c.memoize s id pos (some (c.inp.pos s.src - pos)) (count + 1) e.capt with
          ip := nxt }
      | _ => .panic
  | .memoTree =>                                                      -- :363
    match s.stk with
    | [] => .next { s with ip := nxt }
    | top :: rest => .next { c.treeLoop s [] 0 top rest with ip := nxt }
  | .checkBegin id flag =>                                            -- :402
    .next { s.push (.check id (c.inp.pos s.src) flag) with ip := nxt }
  | .checkEnd k =>                                                    -- :411
    match s.stk with
    | [] => .panic
    | e :: r =>
      match e.kind with
      | .check id pos flag =>
        let s := { s with stk := r }.addCapt e.capt
        let p := c.inp.pos s.src
        match c.chk k s.cst (c.inp.slice s.src pos p) (c.inp.data s.src) p id flag with
        | (none, cst) => c.fail { s with cst := cst }
        | (some n, cst) =>
          .next { s with cst := cst, src := (c.inp.advance s.src n).2, ip := nxt }
      | _ => .panic
  | .error msg =>                                                     -- :429
    .next { s with errs := s.errs ++ [⟨msg, c.inp.pos s.src⟩], ip := nxt }
  | .openCall _ => .panic

end OCfg

/-- One step on bytecode, see `stepB`. -/
def ostepB (cfg : OCfg ι σ) (c : Code) (s : OVM ι σ) : OOut ι σ :=
  match decode c s.ip with
  | none => .panic
  | some (insn, sz) => cfg.exec1 id insn (s.ip + sz) s

/-- Run at most `fuel` steps; `none` if the machine has not stopped by then. -/
def orunOut (step : OVM ι σ → OOut ι σ) : Nat → OVM ι σ → Option (OOut ι σ)
  | 0, _ => none
  | k + 1, s =>
    match step s with
    | .next s' => orunOut step k s'
    | o => some o

/-- The initial state of `Exec` (`vm/vm.go:31-44`). -/
def oinit (src : ι) (t : OTab) (cst : σ) : OVM ι σ := ⟨0, [], [], src, t, [], cst, ⟨0, 0⟩⟩

/-! ## Reading a capture tree -/

/-- The tree below an object, with `Start` of every capture. The number bounds the depth. -/
def read (T : OTab) : Nat → Ref → Capture
  | 0, _ => .dummy 0 0 []
  | f + 1, r =>
    let c := T.caps[r]?.getD default
    if c.dummy then .dummy (T.start c).toNat c.len (c.children.map (read T f))
    else .node c.id (T.start c).toNat c.len (c.children.map (read T f))

end Gpeg.Obj
