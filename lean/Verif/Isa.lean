import Verif.Charset
/-! # Model of `isa/isa.go` -/
namespace Gpeg

/-- The instructions of `isa/isa.go:44-289`, plus the placeholder `openCall`
(`pattern/compile.go:43-46`). A label is identified by its number (`isa.Label.Id`), a checker
(a Go interface value) by an index into a table of checkers. The operands are those of the Go
structs. -/
inductive Insn
  | label (l : Nat)                       -- :44
  | char (b : UInt8)                      -- :59
  | jump (l : Nat)                        -- :65
  | choice (l : Nat)                      -- :72
  | call (l : Nat)                        -- :79
  | commit (l : Nat)                      -- :85
  | ret                                   -- :91
  | fail                                  -- :96
  | set (cs : CSet)                       -- :102
  | any (n : UInt8)                       -- :108
  | partialCommit (l : Nat)               -- :115
  | span (cs : CSet)                      -- :122
  | backCommit (l : Nat)                  -- :129
  | failTwice                             -- :136
  | emptyOp (op : UInt8)                  -- :142
  | testChar (b : UInt8) (l : Nat)        -- :151
  | testCharNC (b : UInt8) (l : Nat)      -- :159
  | testSet (cs : CSet) (l : Nat)         -- :169
  | testSetNC (cs : CSet) (l : Nat)       -- :177
  | testAny (n : UInt8) (l : Nat)         -- :186
  | endI (fail : Bool)                    -- :193
  | nop                                   -- :199
  | memoOpen (l : Nat) (id : Int)         -- :206
  | memoClose                             -- :214
  | memoTreeOpen (l : Nat) (id : Int)     -- :219
  | memoTreeInsert                        -- :227
  | memoTree                              -- :232
  | memoTreeClose (id : Int)              -- :237
  | captureBegin (id : Int)               -- :243
  | captureLate (back : UInt8) (id : Int) -- :250
  | captureEnd                            -- :257 (its Id field is never set nor used)
  | captureFull (back : UInt8) (id : Int) -- :265
  | checkBegin (id flag : Int)            -- :272
  | checkEnd (checker : Nat)              -- :280
  | error (msg : String)                  -- :286
  | openCall (name : String)              -- pattern/compile.go:43
deriving DecidableEq, Repr, Inhabited

/-- `isa/isa.go:18` `Program`. -/
abbrev Program := List Insn

namespace Insn

/-- `isa.Label` or `isa.Nop`: instructions that are skipped by `nextInsn` and emit no bytes. -/
def isSkip : Insn → Bool
  | .label _ => true
  | .nop => true
  | _ => false

/-- The label operand of a `JumpType` instruction (`isa/isa.go:36-38`). -/
def target? : Insn → Option Nat
  | .jump l | .choice l | .call l | .commit l | .partialCommit l | .backCommit l => some l
  | .testChar _ l | .testCharNC _ l | .testSet _ l | .testSetNC _ l | .testAny _ l => some l
  | .memoOpen l _ | .memoTreeOpen l _ => some l
  | _ => none

end Insn

/-- The label map built by `Encode` and `Optimize` (`labels[l] = i` for each label, in order, so
the last occurrence wins; a missing label yields the Go zero value 0): the index of label `l`
in `p`, scanning from index `i`, with `d` the value found so far. -/
def labelIdxFrom (l : Nat) : Program → Nat → Nat → Nat
  | [], _, d => d
  | .label l' :: p, i, d => labelIdxFrom l p (i + 1) (if l' = l then i else d)
  | _ :: p, i, d => labelIdxFrom l p (i + 1) d

/-- Index of label `l` in program `p` (`pattern/optimize.go:208-215`). -/
def labelIdx (p : Program) (l : Nat) : Nat := labelIdxFrom l p 0 0

end Gpeg
