import Verif.Checker
import Verif.Pattern
/-!
# The grammar of `bench/java.go`

The grammar with which `bench.GenerateEdits` finds places to edit in Java files, and what its matches should be.
-/
namespace Gpeg

/-! ## The model -/

namespace Bench

/-- `bench/java.go:10`. -/
def alpha : Pat := .cls ((CSet.range 65 90).add (CSet.range 97 122))
/-- `bench/java.go:11`. -/
def alnum : Pat := .cls (((CSet.range 65 90).add (CSet.range 97 122)).add (CSet.range 48 57))

/-- `bench/java.go:13-16`. -/
def word : Pat := concatPat [orPat [alpha, .lit [95]], .star (orPat [alnum, .lit [95]])]

/-- `bench/java.go:19-44` `BlockPatt`. -/
def blockPatt (start stop : List UInt8) : Option Pat → Pat
  | some escape => concatPat [.lit start, .star (orPat [escape, concatPat [.not (.lit stop), .dot 1]]), .lit stop]
  | none => concatPat [.lit start, .star (concatPat [.not (.lit stop), .dot 1]), .lit stop]

/-- The words of `bench/java.go:80`. -/
def quals : List (List UInt8) :=
  [[112, 117, 98, 108, 105, 99], [112, 114, 111, 116, 101, 99, 116, 101, 100], [112, 114, 105, 118, 97, 116, 101]]

/-- `bench/java.go:46-54` `WordMatch`: the checker, a `MapChecker` with the words, is number 0. `Check` leaves id and flag at 0. -/
def wordMatch : Pat := .check word 0 0 0

/-- What is memoized in `bench/java.go:59-68`. -/
def item : Pat := orPat [.nonterm "Token", concatPat [.dot 1, .star (concatPat [.not (.nonterm "Token"), .dot 1])]]

/-- `bench/java.go:58-98`, with the definitions in the order of the file (see C22 for the order). The ids of captures are those
of `bench/java.go:100-106`; `Memo` is called when the package is initialized and takes id 0. -/
def defs : Defs :=
  .cons "S" (.star (.memo item 0))
  (.cons "Token" (orPat [.nonterm "Comment", .nonterm "FuncQual", .nonterm "FuncName", .nonterm "String", .nonterm "Newline"])
  (.cons "Comment" (orPat [.nonterm "LineComment", .nonterm "LongComment"])
  (.cons "LineComment" (.cap (blockPatt [47, 47] [10] none) 0)
  (.cons "LongComment" (blockPatt [47, 42] [42, 47] none)
  (.cons "FuncQual" (.cap wordMatch 2)
  (.cons "FuncName" (concatPat [.cap (.nonterm "Identifier") 1, .lit [40]])
  (.cons "Identifier" word
  (.cons "String" (.cap (blockPatt [34] [34] (some (.nonterm "Escape"))) 3)
  (.cons "Escape" (concatPat [.lit [92], .cls (CSet.new [39, 34, 116, 110, 98, 102, 114, 92])])
  (.cons "Newline" (.cap (.lit [10]) 4) .nil))))))))))

/-- `bench/java.go:58`. -/
def grammar : Pat := .grammar "S" defs

/-! ## The specification -/

/-- Letters, digits, underscores. -/
def isLetter (b : UInt8) : Bool := (65 ≤ b && b ≤ 90) || (97 ≤ b && b ≤ 122) || b == 95
def isWordByte (b : UInt8) : Bool := isLetter b || (48 ≤ b && b ≤ 57)

/-- The word a text begins with; none if it does not begin with a letter or underscore. -/
def wordOf (t : List UInt8) : List UInt8 := if t.head?.any isLetter then t.takeWhile isWordByte else []

/-- The bytes of a string. -/
def str (s : String) : List UInt8 := s.toUTF8.toList

/-- The qualifiers of functions. -/
def qualWords : List (List UInt8) := [str "public", str "protected", str "private"]

/-- How many bytes there are up to the end of the first `e`. -/
def upTo (e : List UInt8) : List UInt8 → Option Nat
  | [] => if e = [] then some 0 else none
  | b :: t => if e <+: b :: t then some e.length else (upTo e t).map (· + 1)

/-- Bytes that may follow a backslash in a string. -/
def isEscape (b : UInt8) : Bool := b ∈ ([39, 34, 116, 110, 98, 102, 114, 92] : List UInt8)

/-- How many bytes there are up to the end of a string whose opening quote has been read. -/
def stringEnd : List UInt8 → Option Nat
  | [] => none
  | [b] => if b = 34 then some 1 else none
  | b :: c :: t =>
    if b = 92 ∧ isEscape c = true then (stringEnd t).map (· + 2)
    else if b = 34 then some 1
    else (stringEnd (c :: t)).map (· + 1)

/-- The token a text begins with: its length, and the id and length of the capture. -/
def tokenOf (t : List UInt8) : Option (Nat × Option (Int × Nat)) :=
  if [47, 47] <+: t then (upTo [10] (t.drop 2)).map fun n => (n + 2, some (0, n + 2))
  else if [47, 42] <+: t then (upTo [42, 47] (t.drop 2)).map fun n => (n + 2, none)
  else if wordOf t ∈ qualWords then some ((wordOf t).length, some (2, (wordOf t).length))
  else if wordOf t ≠ [] ∧ (t.drop (wordOf t).length).head? = some 40 then some ((wordOf t).length + 1, some (1, (wordOf t).length))
  else if t.head? = some 34 then (stringEnd (t.drop 1)).map fun n => (n + 1, some (3, n + 1))
  else if t.head? = some 10 then some (1, some (4, 1))
  else none

/-- The captures of a text that stands at `pos`: token by token, and where there is no token one byte is skipped. -/
def lexF : Nat → Nat → List UInt8 → List CTree
  | 0, _, _ => []
  | _ + 1, _, [] => []
  | k + 1, pos, b :: t =>
    match tokenOf (b :: t) with
    | some (n, c) => (c.toList.map fun x => CTree.node x.1 pos x.2 []) ++ lexF k (pos + n) ((b :: t).drop n)
    | none => lexF k (pos + 1) t

/-- The captures of a text. -/
def lex (t : List UInt8) : List CTree := lexF t.length 0 t

end Bench

end Gpeg
