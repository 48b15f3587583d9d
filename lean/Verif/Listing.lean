import Verif.Isa
import Verif.SetString
/-!
# Model of the `String` methods of `isa/isa.go`

Go strings are lists of characters here. `fmt.Sprintf` with `%v` calls the `String` methods of labels and sets and prints numbers in
decimal. What a checker prints as is left open (`chk`; checkers are values of the client, `isa/isa.go:280`). Messages of errors are
valid UTF-8 here, as they are elsewhere in the model.
-/
namespace Gpeg

/-- `%v` of a natural number. -/
def num (n : Nat) : List Char := n.repr.toList

/-- `%v` of an integer. -/
def numI (n : Int) : List Char := n.repr.toList

/-- `isa/isa.go:303-305` `Label.String`. -/
def lblText (l : Nat) : List Char := 'L' :: num l

/-- `strconv.QuoteRune(rune(b))` of the Go library for `b ≤ 255`: unlike `QuoteRuneToASCII` it leaves printable characters beyond ASCII
as they are. Below 256 those are the characters from 161 on but for the soft hyphen, 173. -/
def quoteLatin (b : Nat) : List Char := if 161 ≤ b ∧ b ≠ 173 then ['\'', Char.ofNat b, '\''] else quoteRune b

/-- `%0kx` of a number. -/
def hexN : Nat → Nat → List Char
  | 0, _ => []
  | k + 1, n => hexN k (n / 16) ++ [hexChar (n % 16)]

/-- A character in `strconv.QuoteToASCII` of the Go library. -/
def quoteChar (c : Char) : List Char :=
  if c = '"' then ['\\', '"'] else if c = '\\' then ['\\', '\\']
  else if 32 ≤ c.toNat ∧ c.toNat < 127 then [c]
  else if c.toNat = 7 then ['\\', 'a'] else if c.toNat = 8 then ['\\', 'b'] else if c.toNat = 9 then ['\\', 't']
  else if c.toNat = 10 then ['\\', 'n'] else if c.toNat = 11 then ['\\', 'v'] else if c.toNat = 12 then ['\\', 'f']
  else if c.toNat = 13 then ['\\', 'r']
  else if c.toNat < 128 then '\\' :: 'x' :: hexN 2 c.toNat
  else if c.toNat < 65536 then '\\' :: 'u' :: hexN 4 c.toNat
  else '\\' :: 'U' :: hexN 8 c.toNat

/-- `strconv.QuoteToASCII` of the Go library, for strings that are valid UTF-8. -/
def quoteText (m : String) : List Char := '"' :: (m.toList.flatMap quoteChar ++ ['"'])

/-- `isa/isa.go:507-521` `emptyToString`; the constants of `regexp/syntax` are powers of two. -/
def emptyName (op : UInt8) : List Char :=
  if op = 1 then "BeginLine".toList else if op = 2 then "EndLine".toList else if op = 4 then "BeginText".toList
  else if op = 8 then "EndText".toList else if op = 16 then "WordBoundary".toList else if op = 32 then "NoWordBoundary".toList
  else "Unknown".toList

/-- `isa/isa.go:302-481` and `pattern/compile.go:48-50`, the `String` methods: the constant part of the text. -/
def Insn.word : Insn → List Char
  | .label _ => ['L'] | .char _ => "Char".toList | .jump _ => "Jump".toList | .choice _ => "Choice".toList | .call _ => "Call".toList
  | .commit _ => "Commit".toList | .ret => "Return".toList | .fail => "Fail".toList | .set _ => "Set".toList | .any _ => "Any".toList
  | .partialCommit _ => "PartialCommit".toList | .span _ => "Span".toList | .backCommit _ => "BackCommit".toList
  | .failTwice => "FailTwice".toList | .emptyOp _ => "Empty".toList | .testChar _ _ => "TestChar".toList
  | .testCharNC _ _ => "TestCharNoChoice".toList | .testSet _ _ => "TestSet".toList | .testSetNC _ _ => "TestSetNoChoice".toList
  | .testAny _ _ => "TestAny".toList | .endI _ => "End".toList | .nop => "Nop".toList | .memoOpen _ _ => "MemoOpen".toList
  | .memoClose => "MemoClose".toList | .memoTreeOpen _ _ => "MemoTreeOpen".toList | .memoTreeInsert => "MemoTreeInsert".toList
  | .memoTree => "MemoTree".toList | .memoTreeClose _ => "MemoTreeClose".toList | .captureBegin _ => "Capture begin".toList
  | .captureLate _ _ => "Capture late".toList | .captureEnd => "Capture end".toList | .captureFull _ _ => "Capture full".toList
  | .checkBegin _ _ => "CheckBegin".toList | .checkEnd _ => "CheckEnd".toList | .error _ => "Error".toList
  | .openCall _ => "OpenCall".toList

/-- The same methods: the operands, without the blank in front of them. -/
def Insn.operands (chk : Nat → List Char) : Insn → Option (List Char)
  | .label l => some (num l)
  | .char b => some (quoteLatin b.toNat)
  | .jump l | .choice l | .call l | .commit l | .partialCommit l | .backCommit l => some (lblText l)
  | .set cs | .span cs => some cs.string
  | .any n => some (num n.toNat)
  | .emptyOp op => some (emptyName op)
  | .testChar b l | .testCharNC b l => some (quoteLatin b.toNat ++ ' ' :: lblText l)
  | .testSet cs l | .testSetNC cs l => some (cs.string ++ ' ' :: lblText l)
  | .testAny n l => some (num n.toNat ++ ' ' :: lblText l)
  | .endI fl => some (if fl then "Fail".toList else "Success".toList)
  | .memoOpen l id | .memoTreeOpen l id => some (lblText l ++ ' ' :: numI id)
  | .memoTreeClose id | .captureBegin id => some (numI id)
  | .captureLate back id | .captureFull back id => some (num back.toNat ++ ' ' :: numI id)
  | .checkEnd k => some (chk k)
  | .error m => some (quoteText m)
  | .openCall n => some n.toList
  | .ret | .fail | .failTwice | .nop | .memoClose | .memoTreeInsert | .memoTree | .captureEnd | .checkBegin _ _ => none

/-- `String` of an instruction other than a label. -/
def Insn.text (chk : Nat → List Char) (i : Insn) : List Char :=
  i.word ++ match i.operands chk with
    | some t => ' ' :: t
    | none => []

/-- `isa/isa.go:486-502`, the body of the loop of `Program.String`: the string so far, and if `last` is a label. -/
def listStep (chk : Nat → List Char) (st : List Char × Bool) : Insn → List Char × Bool
  | .nop => st
  | .label l => (st.1 ++ ((if st.2 then ['\n'] else []) ++ (lblText l ++ [':'])), true)
  | i => (st.1 ++ ('\t' :: (i.text chk ++ ['\n'])), false)

/-- `isa/isa.go:483-505` `Program.String`. -/
def Program.listing (chk : Nat → List Char) (p : Program) : List Char :=
  (p.foldl (listStep chk) ([], false)).1 ++ ['\n']

end Gpeg
