import Verif.Vm
/-!
# Model of `vm/code.go`, `vm/op.go` and the decoding part of `vm/vm.go`

A Go panic is `none`.
-/
namespace Gpeg

/-- `vm/code.go:20-30` `code`. The checkers are given by their indices. -/
structure Code where
  sets : List CSet
  errors : List String
  checkers : List Nat
  insns : List UInt8
deriving DecidableEq, Repr

/-! ## Operand encodings -/

/-- `vm/code.go:221-227` `encodeU8`. -/
def encodeU8 (x : Nat) : Option (List UInt8) :=
  if x ≥ 256 then none else some [UInt8.ofNat x]

/-- `vm/code.go:247-255` `encodeI16` (little endian two's complement). -/
def encodeI16 (x : Int) : Option (List UInt8) :=
  if x < -(2 ^ 15) ∨ x ≥ 2 ^ 15 then none
  else
    let u := (x % 65536).toNat
    some [UInt8.ofNat (u % 256), UInt8.ofNat (u / 256)]

/-- `vm/code.go:257-269` `encodeU24`: bits 16..23, then the low 16 bits little endian. -/
def encodeU24 (x : Nat) : Option (List UInt8) :=
  if x ≥ 2 ^ 24 then none
  else some [UInt8.ofNat ((x >>> 16) &&& 255), UInt8.ofNat (x % 256), UInt8.ofNat (x / 256 % 256)]

/-- `vm/code.go:275-280` `encodeBool`. -/
def encodeBool (b : Bool) : List UInt8 := if b then [1] else [0]

/-- `vm/vm.go:472-474` `decodeU8(b[off:])`. -/
def decodeU8 (b : List UInt8) (off : Nat) : Option UInt8 := b[off]?

/-- `vm/vm.go:480-482` `decodeU16(b[off:])`. -/
def decodeU16 (b : List UInt8) (off : Nat) : Option Nat :=
  match b[off]?, b[off + 1]? with
  | some lo, some hi => some (lo.toNat ||| hi.toNat <<< 8)
  | _, _ => none

/-- `vm/vm.go:484-486` `decodeI16(b[off:])`. -/
def decodeI16 (b : List UInt8) (off : Nat) : Option Int :=
  (decodeU16 b off).map fun (u : Nat) => if u ≥ 32768 then (u : Int) - 65536 else (u : Int)

/-- `vm/vm.go:488-493` `decodeU24(b[off:])`. -/
def decodeU24 (b : List UInt8) (off : Nat) : Option Nat :=
  match decodeU8 b off, decodeU16 b (off + 1) with
  | some i1, some i2 => some (i1.toNat <<< 16 ||| i2)
  | _, _ => none

/-! ## Instruction sizes -/

/-- `vm/op.go:87-107` `size`. -/
def Insn.size : Insn → Nat
  | .label _ | .nop => 0
  | .jump _ | .choice _ | .call _ | .commit _ | .partialCommit _ | .backCommit _ => 4
  | .testChar _ _ | .testCharNC _ _ | .testSet _ _ | .testSetNC _ _ | .testAny _ _
  | .memoOpen _ _ | .memoTreeOpen _ _ | .checkBegin _ _ => 4 + 2
  | .memoTreeClose _ | .captureBegin _ | .captureLate _ _ | .captureFull _ _ | .error _
  | .checkEnd _ => 2 + 2
  | .char _ | .ret | .fail | .set _ | .any _ | .span _ | .failTwice | .emptyOp _ | .endI _
  | .memoClose | .memoTreeInsert | .memoTree | .captureEnd | .openCall _ => 2

/-- `vm/code.go:90-102`: the label map; `acc` maps the labels seen so far. -/
def labelOffs (l : Nat) : Program → Nat → Nat → Nat
  | [], _, d => d
  | .label l' :: p, n, d => labelOffs l p n (if l' = l then n else d)
  | i :: p, n, d => labelOffs l p (n + i.size) d

/-! ## Encoding -/

/-- Index of the first element equal to `x`. -/
def findIdxFrom {α : Type} [DecidableEq α] (x : α) : List α → Nat → Option Nat
  | [], _ => none
  | y :: ys, i => if x = y then some i else findIdxFrom x ys (i + 1)

/-- `vm/code.go:285-294` `addSet`. -/
def Code.addSet (c : Code) (s : CSet) : Nat × Code :=
  match findIdxFrom s c.sets 0 with
  | some i => (i, c)
  | none => (c.sets.length, { c with sets := c.sets ++ [s] })

/-- `vm/code.go:296-305` `addError`. -/
def Code.addError (c : Code) (m : String) : Nat × Code :=
  match findIdxFrom m c.errors 0 with
  | some i => (i, c)
  | none => (c.errors.length, { c with errors := c.errors ++ [m] })

/-- `vm/code.go:307-310` `addChecker`. -/
def Code.addChecker (c : Code) (k : Nat) : Nat × Code :=
  (c.checkers.length, { c with checkers := c.checkers ++ [k] })

/-- The opcodes, `vm/op.go:7-43`. -/
def opc : Insn → UInt8
  | .char _ => 0 | .jump _ => 1 | .choice _ => 2 | .call _ => 3 | .commit _ => 4 | .ret => 5
  | .fail => 6 | .set _ => 7 | .any _ => 8 | .partialCommit _ => 9 | .span _ => 10
  | .backCommit _ => 11 | .failTwice => 12 | .emptyOp _ => 13 | .testChar _ _ => 14
  | .testCharNC _ _ => 15 | .testSet _ _ => 16 | .testSetNC _ _ => 17 | .testAny _ _ => 18
  | .endI _ => 19 | .nop => 20 | .captureBegin _ => 21 | .captureLate _ _ => 22
  | .captureEnd => 23 | .captureFull _ _ => 24 | .checkBegin _ _ => 25 | .checkEnd _ => 26
  | .memoOpen _ _ => 27 | .memoClose => 28 | .memoTreeOpen _ _ => 29 | .memoTreeInsert => 30
  | .memoTree => 31 | .memoTreeClose _ => 32 | .error _ => 33
  | .label _ => 255 | .openCall _ => 255

/-- The argument bytes of one instruction (`vm/code.go:108-205`) and the updated tables. -/
def encodeArgs (lb : Nat → Nat) (c : Code) : Insn → Option (List UInt8 × Code)
  | .char b => some ([b], c)
  | .jump l | .choice l | .call l | .commit l | .partialCommit l | .backCommit l =>
    (encodeU24 (lb l)).map (·, c)
  | .ret | .fail | .failTwice | .captureEnd | .memoClose | .memoTreeInsert | .memoTree =>
    some ([], c)
  | .set s | .span s => (encodeU8 (c.addSet s).1).map (·, (c.addSet s).2)
  | .any n => some ([n], c)
  | .emptyOp op => some ([op], c)
  | .testChar b l | .testCharNC b l => (encodeU24 (lb l)).map fun a => (b :: a, c)
  | .testSet s l | .testSetNC s l =>
    match encodeU8 (c.addSet s).1, encodeU24 (lb l) with
    | some a, some a' => some (a ++ a', (c.addSet s).2)
    | _, _ => none
  | .testAny n l => (encodeU24 (lb l)).map fun a => (n :: a, c)
  | .captureBegin id | .memoTreeClose id => (encodeI16 id).map (·, c)
  | .captureLate b id | .captureFull b id => (encodeI16 id).map fun a => (b :: a, c)
  | .memoOpen l id | .memoTreeOpen l id =>
    match encodeU24 (lb l), encodeI16 id with
    | some a, some a' => some (a ++ a', c)
    | _, _ => none
  | .checkBegin id flag =>
    match encodeI16 id, encodeI16 flag with
    | some a, some a' => some (a ++ a', c)
    | _, _ => none
  | .checkEnd k => (encodeU24 (c.addChecker k).1).map (·, (c.addChecker k).2)
  | .error m => (encodeU24 (c.addError m).1).map (·, (c.addError m).2)
  | .endI f => some (encodeBool f, c)
  | .label _ | .nop | .openCall _ => none

/-- `vm/code.go:207-214`: opcode, padding, arguments. -/
def layoutInsn (op : UInt8) (args : List UInt8) : List UInt8 :=
  [op] ++ (if args.length % 2 = 0 then [0] else []) ++ args

/-- The second loop of `Encode` (`vm/code.go:104-215`). -/
def encodeLoop (lb : Nat → Nat) : Code → Program → Option Code
  | c, [] => some c
  | c, i :: p =>
    if i.isSkip then encodeLoop lb c p
    else match encodeArgs lb c i with
      | none => none
      | some (args, c') =>
        encodeLoop lb { c' with insns := c'.insns ++ layoutInsn (opc i) args } p

/-- `vm/code.go:82-219` `Encode`. -/
def encode (p : Program) : Option Code :=
  (encodeLoop (fun l => labelOffs l p 0 0) ⟨[], [], [], []⟩ p).map
    fun c => { c with insns := c.insns ++ [19, 0] }

/-! ## Decoding (the operand reads of `vm/vm.go:86-440`) -/

/-- The instruction at byte `ip`, with its label operands as byte addresses, and its size
(the `sz*` constants of `vm/op.go:46-84`). `none` is a Go panic. -/
def decode (c : Code) (ip : Nat) : Option (Insn × Nat) := do
  let d := c.insns
  let op ← d[ip]?
  match op with
  | 0 => pure (.char (← decodeU8 d (ip + 1)), 2)
  | 1 => pure (.jump (← decodeU24 d (ip + 1)), 4)
  | 2 => pure (.choice (← decodeU24 d (ip + 1)), 4)
  | 3 => pure (.call (← decodeU24 d (ip + 1)), 4)
  | 4 => pure (.commit (← decodeU24 d (ip + 1)), 4)
  | 5 => pure (.ret, 2)
  | 6 => pure (.fail, 2)
  | 7 => pure (.set (← c.sets[(← decodeU8 d (ip + 1)).toNat]?), 2)
  | 8 => pure (.any (← decodeU8 d (ip + 1)), 2)
  | 9 => pure (.partialCommit (← decodeU24 d (ip + 1)), 4)
  | 10 => pure (.span (← c.sets[(← decodeU8 d (ip + 1)).toNat]?), 2)
  | 11 => pure (.backCommit (← decodeU24 d (ip + 1)), 4)
  | 12 => pure (.failTwice, 2)
  | 13 => pure (.emptyOp (← decodeU8 d (ip + 1)), 2)
  | 14 => pure (.testChar (← decodeU8 d (ip + 2)) (← decodeU24 d (ip + 3)), 6)
  | 15 => pure (.testCharNC (← decodeU8 d (ip + 2)) (← decodeU24 d (ip + 3)), 6)
  | 16 => pure (.testSet (← c.sets[(← decodeU8 d (ip + 2)).toNat]?) (← decodeU24 d (ip + 3)), 6)
  | 17 => pure (.testSetNC (← c.sets[(← decodeU8 d (ip + 2)).toNat]?) (← decodeU24 d (ip + 3)), 6)
  | 18 => pure (.testAny (← decodeU8 d (ip + 2)) (← decodeU24 d (ip + 3)), 6)
  | 19 => pure (.endI ((← decodeU8 d (ip + 1)) == 1), 2)
  | 21 => pure (.captureBegin (← decodeI16 d (ip + 2)), 4)
  | 22 => pure (.captureLate (← decodeU8 d (ip + 1)) (← decodeI16 d (ip + 2)), 4)
  | 23 => pure (.captureEnd, 2)
  | 24 => pure (.captureFull (← decodeU8 d (ip + 1)) (← decodeI16 d (ip + 2)), 4)
  | 25 => pure (.checkBegin (← decodeI16 d (ip + 2)) (← decodeI16 d (ip + 4)), 6)
  | 26 => pure (.checkEnd (← c.checkers[← decodeU24 d (ip + 1)]?), 4)
  | 27 => pure (.memoOpen (← decodeU24 d (ip + 1)) (← decodeI16 d (ip + 4)), 6)
  | 28 => pure (.memoClose, 2)
  | 29 => pure (.memoTreeOpen (← decodeU24 d (ip + 1)) (← decodeI16 d (ip + 4)), 6)
  | 30 => pure (.memoTreeInsert, 2)
  | 31 => pure (.memoTree, 2)
  | 32 => pure (.memoTreeClose (← decodeI16 d (ip + 2)), 4)
  | 33 => pure (.error (← c.errors[← decodeU24 d (ip + 1)]?), 4)
  | _ => none

variable {ι τ σ : Type}

/-- One iteration of the VM loop on bytecode. -/
def stepB (cfg : Cfg ι τ σ) (c : Code) (s : VM ι τ σ) : Out ι τ σ :=
  match decode c s.ip with
  | none => .panic
  | some (insn, sz) => cfg.exec1 id insn (s.ip + sz) s

end Gpeg
