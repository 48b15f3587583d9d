import Verif.Charset
/-!
# Model of `Set.String` (`charset/charset.go:133-155`)
-/
namespace Gpeg

/-- A hexadecimal digit. -/
def hexChar (n : Nat) : Char := if n < 10 then Char.ofNat (48 + n) else Char.ofNat (87 + n)

/-- `strconv.QuoteRuneToASCII(rune(b))` of the Go library for `b ≤ 255`: a character in single quotes, escaped unless
it is a printable ASCII character. -/
def quoteRune (b : Nat) : List Char :=
  '\'' :: ((if b = 7 then ['\\', 'a'] else if b = 8 then ['\\', 'b'] else if b = 9 then ['\\', 't']
    else if b = 10 then ['\\', 'n'] else if b = 11 then ['\\', 'v'] else if b = 12 then ['\\', 'f']
    else if b = 13 then ['\\', 'r'] else if b = 39 then ['\\', '\''] else if b = 92 then ['\\', '\\']
    else if b < 32 ∨ b = 127 then ['\\', 'x', hexChar (b / 16), hexChar (b % 16)]
    else if b < 127 then [Char.ofNat b]
    else ['\\', 'u', '0', '0', hexChar (b / 16), hexChar (b % 16)]) ++ ['\''])

/-- `c.Has(byte(b))`; the conversion takes the lowest eight bits. -/
def CSet.hasN (c : CSet) (b : Nat) : Bool := c.has (UInt8.ofNat b)

/-- The body of the loop, `charset/charset.go:137-149`: the string so far and `inRange`. -/
def strStep (has : Nat → Bool) (st : List Char × Bool) (b : Nat) : List Char × Bool :=
  if has b && b == 255 then (st.1 ++ quoteRune b, st.2)
  else if has b && !st.2 then (if has (b + 1) then st.1 ++ (quoteRune b ++ ['.', '.']) else st.1, true)
  else if !has b && st.2 then (st.1 ++ (quoteRune (b - 1) ++ [',']), false)
  else st

/-- `charset/charset.go:150-152`: drop a comma at the end. -/
def dropComma (s : List Char) : List Char := if s.getLast? = some ',' then s.dropLast else s

/-- `charset/charset.go:134-155` `Set.String`. -/
def CSet.string (c : CSet) : List Char :=
  '{' :: (dropComma ((List.range 256).foldl (strStep c.hasN) ([], false)).1 ++ ['}'])

end Gpeg
