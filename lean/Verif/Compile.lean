import Verif.Pattern
/-!
# Model of `pattern/compile.go` and of the program part of `pattern/optimize.go`
-/
namespace Gpeg

/-- Why a compilation stops: `*NotFoundError` (`pattern/compile.go:12-14`), a Go panic (nil
pattern), or the recursion bound of the model. -/
inductive CErr
  | notFound (name : String)
  | panic
  | fuel
deriving DecidableEq, Repr

/-- The package-level counters: `isa.uniqId` (`isa/isa.go:40`) and `pattern.memoId`
(`pattern/pattern.go:37`). `tco` tells whether tail calls are replaced by jumps: it is always set in the code, and there
to say what the replacement does (C23). -/
structure CState where
  lbl : Nat
  memo : Int
  tco : Bool
deriving DecidableEq, Repr

/-- Compilation: threads the counters, may stop with an error. -/
abbrev CM (α : Type) := StateT CState (Except CErr) α

/-- `isa/isa.go:50-55` `NewLabel`. -/
def newLabel : CM Nat := fun s => .ok (s.lbl + 1, { s with lbl := s.lbl + 1 })

/-- Read the flag. -/
def useTco : CM Bool := fun s => .ok (s.tco, s)

/-- `memoId++` followed by a read of `memoId` (`pattern/compile.go:147-150`). -/
def newMemoId : CM Int := fun s => .ok (s.memo + 1, { s with memo := s.memo + 1 })

/-- Stop with an error. -/
def cthrow {α : Type} (e : CErr) : CM α := fun _ => .error e

/-- `pattern/optimize.go:174-185` `nextInsn`. -/
def nextInsn : Program → Option Insn
  | [] => none
  | i :: p => if i.isSkip then nextInsn p else some i

/-- The second result of `nextInsnLabel` (`pattern/optimize.go:189-203`): was there a label
before the next instruction? -/
def labelBefore : Program → Bool
  | .nop :: p => labelBefore p
  | .label _ :: _ => true
  | _ => false

/-- `code[i+1+retidx] = isa.Nop{}` (`pattern/compile.go:430`): overwrite the next instruction
(only used when no label precedes it). -/
def nopNext : Program → Program
  | [] => []
  | .nop :: p => .nop :: nopNext p
  | _ :: p => .nop :: p

/-- `pattern/compile.go:71-96`: the `Test*NoChoice` instruction to use when both sides are
disjoint. -/
def altTest (l r : Program) (l1 : Nat) : Option Insn :=
  match nextInsn l, nextInsn r with
  | some (.set a), some (.char b) => if a.has b then none else some (.testSetNC a l1)
  | some (.char a), some (.char b) => if a = b then none else some (.testCharNC a l1)
  | some (.char a), some (.set b) => if b.has a then none else some (.testCharNC a l1)
  | _, _ => none

/-- `pattern/compile.go:71-112` code of an alternation, given both sides and the labels. -/
def altCode (l r : Program) (l1 l2 : Nat) : Program :=
  match altTest l r l1 with
  | some t => [t] ++ l.drop 1 ++ [.jump l2] ++ [.label l1] ++ r ++ [.label l2]
  | none => [.choice l1] ++ l ++ [.commit l2] ++ [.label l1] ++ r ++ [.label l2]

/-- `pattern/compile.go:262-273`: the loop counting the leading `Char`, `Set`, `Any`
instructions `i` and the bytes `back` they consume. -/
def capPrefix : Program → Nat × Nat
  | .char _ :: p | .set _ :: p => ((capPrefix p).1 + 1, (capPrefix p).2 + 1)
  | .any n :: p => ((capPrefix p).1 + 1, (capPrefix p).2 + n.toNat)
  | _ => (0, 0)

/-- `pattern/compile.go:253-289` code of a capture, given the code of the body. -/
def capCode (sub : Program) (id : Int) : Program :=
  let (i, back) := capPrefix sub
  if i = 0 ∨ back ≥ 256 then [.captureBegin id] ++ sub ++ [.captureEnd]
  else if i = sub.length then sub ++ [.captureFull (UInt8.ofNat back) id]
  else sub.take i ++ [.captureLate (UInt8.ofNat back) id] ++ sub.drop i ++ [.captureEnd]

/-- `pattern/compile.go:329-351`: the recursive part of a search, given the code of the body. -/
def searchRest (sub : Program) : Pat :=
  match nextInsn sub with
  | some (.char b) => .seq (.star (.cls (CSet.new [b]).complement)) (.nonterm "S")
  | some (.set cs) =>
    if cs.size < 10 then .seq (.star (.cls cs.complement)) (.nonterm "S") else .nonterm "S"
  | _ => .nonterm "S"

/-- `pattern/compile.go:391-405`: label, code and `Return` of every definition that is the start
or used; the labels are returned as an association list. `comp` compiles a body. -/
def compileDefs (comp : Pat → CM Program) (start : String) (used : List String) :
    Defs → CM (List (String × Nat) × Program)
  | .nil => pure ([], [])
  | .cons k v rest =>
    if k ≠ start ∧ k ∉ used then compileDefs comp start used rest
    else do
      let l ← newLabel
      let fn ← comp v
      let (ls, code) ← compileDefs comp start used rest
      pure ((k, l) :: ls, [.label l] ++ fn ++ [.ret] ++ code)

/-- `pattern/compile.go:408-438`: resolve the `openCall`s, with tail call optimization. The Go
loop goes left to right and overwrites the `Return` after a tail call; overwriting it after the
rest has been processed gives the same program. Without `tco` all calls stay calls. -/
def resolve (tco : Bool) (labels : List (String × Nat)) : Program → Except CErr Program
  | [] => .ok []
  | .openCall n :: rest =>
    match labels.lookup n with
    | none => .error (.notFound n)
    | some l =>
      match resolve tco labels rest with
      | .error e => .error e
      | .ok rest' =>
        if tco = true ∧ nextInsn rest = some .ret then
          .ok (.jump l :: (if labelBefore rest then rest' else nopNext rest'))
        else .ok (.call l :: rest')
  | i :: rest =>
    match resolve tco labels rest with
    | .error e => .error e
    | .ok rest' => .ok (i :: rest')

/-- `p.Compile()` for every node type (`pattern/compile.go:53-500`); the first argument bounds
the recursion depth. -/
def compileF : Nat → Pat → CM Program
  | 0, _ => cthrow .fuel
  | k + 1, p =>
    match p with
    | .alt l r =>                                                     -- :53-113
      match combine (get l) (get r) with
      | some set => pure [.set set]
      | none => do
        let lc ← compileF k (get l)
        let rc ← compileF k (get r)
        let l1 ← newLabel
        let l2 ← newLabel
        pure (altCode lc rc l1 l2)
    | .seq l r => do                                                  -- :116-127
      let lc ← compileF k (get l)
      let rc ← compileF k (get r)
      pure (lc ++ rc)
    | .star p =>                                                      -- :130-175
      match get p with
      | .cls cs => pure [.span cs]
      | .memo q _ => do
        let sub ← compileF k (get q)
        let l1 ← newLabel
        let l2 ← newLabel
        let l3 ← newLabel
        let nj ← newLabel
        let id ← newMemoId
        pure ([.label l1, .memoTreeOpen l3 id, .choice l2] ++ sub ++
          [.commit nj, .label nj, .memoTreeInsert, .label l3, .memoTree, .jump l1, .label l2,
            .memoTreeClose id])
      | gp => do
        let sub ← compileF k gp
        let l1 ← newLabel
        let l2 ← newLabel
        pure ([.choice l2, .label l1] ++ sub ++ [.partialCommit l1, .label l2])
    | .plus p => do                                                   -- :178-193
      let star ← compileF k (.star (get p))
      let sub ← compileF k (get p)
      pure (sub ++ star)
    | .opt p =>                                                       -- :196-222
      match get p with
      | .lit [b] => do
        let l1 ← newLabel
        pure [.testCharNC b l1, .label l1]
      | .cls cs => do
        let l1 ← newLabel
        pure [.testSetNC cs l1, .label l1]
      | gp => compileF k (.alt gp .empty)
    | .not p => do                                                    -- :225-234
      let sub ← compileF k (get p)
      let l1 ← newLabel
      pure ([.choice l1] ++ sub ++ [.failTwice, .label l1])
    | .and p => do                                                    -- :237-250
      let sub ← compileF k (get p)
      let l1 ← newLabel
      let l2 ← newLabel
      pure ([.choice l1] ++ sub ++ [.backCommit l2, .label l1, .fail, .label l2])
    | .cap p id => do                                                 -- :253-289
      let sub ← compileF k (get p)
      pure (capCode sub id)
    | .memo p id => do                                                -- :292-301
      let l1 ← newLabel
      let sub ← compileF k (get p)
      pure ([.memoOpen l1 id] ++ sub ++ [.memoClose, .label l1])
    | .check p c id flag => do                                        -- :304-316
      let l1 ← newLabel
      let sub ← compileF k (get p)
      pure ([.checkBegin id flag] ++ sub ++ [.checkEnd c, .label l1])
    | .search p => do                                                 -- :319-356
      let sub ← compileF k (get p)
      compileF k (.grammar "S"
        (.cons "S" (.alt (get p) (.seq (.dot 1) (searchRest sub))) .nil))
    | .emptyOp op => pure [.emptyOp op]                               -- :359-365
    | .grammar start defs0 =>                                         -- :368-443
      let defs := defs0.inline
      let used := defs.nts
      if used = [] then
        match defs.find start with
        | some b => compileF k b
        | none => cthrow .panic
      else do
        let tco ← useTco
        let lend ← newLabel
        let (labels, fns) ← compileDefs (compileF k) start used defs
        let code ← (fun s => (resolve tco labels ([.openCall start, .jump lend] ++ fns)).map (·, s)
          : CM Program)
        pure (code ++ [.label lend])
    | .cls cs => pure [.set cs]                                       -- :446-450
    | .lit s => pure (s.map .char)                                    -- :453-459
    | .nonterm n => pure [.openCall n]                                -- :462-469
    | .inl _ b => compileF k b                                        -- :463-465
    | .dot n => pure [.any n]                                         -- :472-476
    | .err m => pure [.error m, .endI true]                           -- :479-495
    | .errRec m p => do
      let rcv ← compileF k (get p)
      pure ([.error m] ++ rcv)
    | .empty => pure []                                               -- :498-500

/-- `pattern/optimize.go:251-255`: the control flow instructions a jump to which is replaced. -/
def isCtl : Insn → Bool
  | .partialCommit _ | .backCommit _ | .commit _ | .jump _ | .ret | .fail | .failTwice
  | .endI _ => true
  | _ => false

/-- One iteration of the loop of `Optimize` (`pattern/optimize.go:217-258`) at index `i`; `lbls`
is the label map computed before the loop. -/
def optStep (lbls : Nat → Nat) (p : Program) (i : Nat) : Program :=
  match p[i]? with
  | some (.choice l) =>
    match p[i + 1]? with
    | some (.char b) => (p.set i (.testChar b l)).set (i + 1) .nop
    | some (.set cs) => (p.set i (.testSet cs l)).set (i + 1) .nop
    | some (.any n) => (p.set i (.testAny n l)).set (i + 1) .nop
    | _ => p
  | some (.jump l) =>
    match nextInsn (p.drop (lbls l)) with
    | some x => if isCtl x then p.set i x else p
    | none => p
  | _ => p

/-- `pattern/optimize.go:207-259` `Optimize`. -/
def optimize (p : Program) : Program :=
  (List.range p.length).foldl (optStep (labelIdx p)) p

end Gpeg
