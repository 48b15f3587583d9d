import Verif.Pattern
import Verif.SetString
/-!
# Model of `Prettify` (`pattern/string.go`)
-/
namespace Gpeg

/-- The bytes of a Go string constant. -/
def bytesOf (s : String) : List UInt8 := s.toList.flatMap String.utf8EncodeChar

/-- `strconv.Quote` of the Go library for one byte below 128. -/
def quoteByte (b : UInt8) : List UInt8 :=
  if b = 34 ∨ b = 92 then [92, b]
  else if 32 ≤ b ∧ b < 127 then [b]
  else if b = 7 then [92, 97] else if b = 8 then [92, 98] else if b = 12 then [92, 102] else if b = 10 then [92, 110]
  else if b = 13 then [92, 114] else if b = 9 then [92, 116] else if b = 11 then [92, 118]
  else [92, 120] ++ bytesOf (String.ofList [hexChar (b.toNat / 16), hexChar (b.toNat % 16)])

/-- `strconv.Quote` of the Go library. What it does to strings with bytes from 128 on (decoding, and the tables of printable
characters) is left open: the function `hi` stands for it. -/
def quoteStr (hi : List UInt8 → List UInt8) (s : List UInt8) : List UInt8 :=
  if s.all (· < 128) then 34 :: (s.flatMap quoteByte ++ [34]) else hi s

mutual
/-- `pattern/string.go:8-59` `Prettify` with recursion depth bounded by the second argument. The order of the definitions stands
for the order in which the map is walked (`:47`). A nil pattern (the missing recovery of an error) is printed as `<invalid>`
(`:58`). Not modelled: that `t.Inline()` (`:46`) changes the grammar printed. -/
def prettyF (hi : List UInt8 → List UInt8) : Nat → Pat → List UInt8
  | 0, _ => []
  | k + 1, p =>
    match get p with
    | .lit s => quoteStr hi s
    | .cls cs => 91 :: (bytesOf (String.ofList cs.string) ++ [93])
    | .dot _ => [46]
    | .empty => [34, 34]
    | .alt l r => 40 :: (prettyF hi k (get l) ++ ([32, 47, 32] ++ (prettyF hi k (get r) ++ [41])))
    | .seq l r => 40 :: (prettyF hi k (get l) ++ ([32] ++ (prettyF hi k (get r) ++ [41])))
    | .star q => prettyF hi k (get q) ++ [42]
    | .plus q => prettyF hi k (get q) ++ [43]
    | .opt q => prettyF hi k (get q) ++ [63]
    | .not q => 33 :: prettyF hi k (get q)
    | .and q => 38 :: prettyF hi k (get q)
    | .cap q _ => [123, 32] ++ (prettyF hi k (get q) ++ [32, 125])
    | .memo q _ => [123, 123, 32] ++ (prettyF hi k (get q) ++ [32, 125, 125])
    | .search q => bytesOf "search(" ++ (prettyF hi k (get q) ++ [41])
    | .check q _ _ _ => bytesOf "check(" ++ (prettyF hi k (get q) ++ [41])
    | .err m => bytesOf "err(" ++ (bytesOf m ++ (bytesOf ", <invalid>" ++ [41]))
    | .errRec m q => bytesOf "err(" ++ (bytesOf m ++ (bytesOf ", " ++ (prettyF hi k (get q) ++ [41])))
    | .emptyOp op => bytesOf "empty(" ++ (bytesOf (toString op.toNat) ++ [41])
    | .grammar s ds => bytesOf s ++ (10 :: prettyDefsF hi k ds.inline)
    | .nonterm n => bytesOf n
    | .inl _ q => prettyF hi k (get q)
/-- `pattern/string.go:47-49`: the definitions. -/
def prettyDefsF (hi : List UInt8 → List UInt8) : Nat → Defs → List UInt8
  | 0, _ => []
  | _, .nil => []
  | k + 1, .cons n p rest => bytesOf n ++ (bytesOf " <- " ++ (prettyF hi k (get p) ++ (10 :: prettyDefsF hi k rest)))
end

end Gpeg
