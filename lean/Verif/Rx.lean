import Verif.Pattern
/-!
# Model of `rxconv/rxconv.go`

`Rx` is the part of Go's `regexp/syntax.Regexp` tree the converter looks at. The tree is the one
`syntax.Parse` returned; parsing itself is library code and not modelled. The counter `num`
(`rxconv.go:14`) is passed along.
-/
namespace Gpeg

mutual
/-- `regexp/syntax` `Regexp`, by `Op`. A rune is a natural number. `fold` is the flag `FoldCase`,
`lazy` the flag `NonGreedy`. `other` stands for the two operators the converter does not know
(`OpNoMatch`, `OpRepeat`). -/
inductive Rx
  | empty                                   -- OpEmptyMatch
  | lit (fold : Bool) (rs : List Nat)       -- OpLiteral
  | cls (ranges : List (Nat × Nat))         -- OpCharClass, Rune = pairs of bounds
  | any                                     -- OpAnyChar
  | anyNL                                   -- OpAnyCharNotNL
  | cat (es : Rxs)                          -- OpConcat
  | alt (es : Rxs)                          -- OpAlternate
  | cap (e : Rx)                            -- OpCapture
  | star (lazy : Bool) (e : Rx)             -- OpStar
  | plus (lazy : Bool) (e : Rx)             -- OpPlus
  | quest (lazy : Bool) (e : Rx)            -- OpQuest
  | bol | eol | bot | eot | wb | nwb        -- OpBeginLine ... OpNoWordBoundary
  | other
/-- `Sub []*Regexp`. -/
inductive Rxs
  | nil
  | cons (e : Rx) (es : Rxs)
end

/-- The conversion `string(r)` of a rune: its UTF-8 encoding; U+FFFD for surrogates and values
out of range. -/
def utf8 (r : Nat) : List UInt8 :=
  if r < 0x80 then [UInt8.ofNat r]
  else if r < 0x800 then [UInt8.ofNat (0xC0 + r / 64), UInt8.ofNat (0x80 + r % 64)]
  else if 0xD800 ≤ r ∧ r < 0xE000 ∨ 0x110000 ≤ r then [0xEF, 0xBF, 0xBD]
  else if r < 0x10000 then
    [UInt8.ofNat (0xE0 + r / 4096), UInt8.ofNat (0x80 + r / 64 % 64), UInt8.ofNat (0x80 + r % 64)]
  else [UInt8.ofNat (0xF0 + r / 262144), UInt8.ofNat (0x80 + r / 4096 % 64),
    UInt8.ofNat (0x80 + r / 64 % 64), UInt8.ofNat (0x80 + r % 64)]

/-- `rxconv.go:16-19` `uniq`: the name for counter value `num`. -/
def rxName (num : Nat) : String := "a" ++ toString num

/-- `rxconv.go:38-48`: the alternatives for one range of a class. The loop over the runes of a
range runs `stop + 1 - start` times. -/
def clsAlts (k : Pat) (start stop : Nat) : List Pat :=
  if start < 256 ∧ stop < 256 then
    [concatPat [.cls (CSet.range (UInt8.ofNat start) (UInt8.ofNat stop)), k]]
  else (List.range (stop + 1 - start)).map fun i => concatPat [.lit (utf8 (start + i)), k]

mutual
/-- `rxconv.go:29-90` `pi`. Arguments and result carry the counter `num`; `none` is the panic at the
end. The case of `OpStar` is `star`, `rxconv.go:21-26`. -/
def Rx.pi : Rx → Pat → Nat → Option (Pat × Nat)
  | .empty, k, n => some (k, n)
  | .lit _ rs, k, n => some (concatPat [.lit (rs.flatMap utf8), k], n)
  | .cls rgs, k, n => some (orPat (rgs.flatMap fun r => clsAlts k r.1 r.2), n)
  | .any, k, n => some (concatPat [.dot 1, k], n)
  | .anyNL, k, n => some (concatPat [.cls (CSet.new [10]).complement, k], n)
  | .cat es, k, n => es.piCat k n
  | .alt es, k, n => (es.piAlt k n).map fun r => (orPat r.1, r.2)
  | .cap e, k, n => e.pi k n
  | .star _ e, k, n =>
    (e.pi (.nonterm (rxName (n + 1))) (n + 1)).map fun r =>
      (.grammar (rxName (n + 1)) (.cons (rxName (n + 1)) (orPat [r.1, k]) .nil), r.2)
  | .plus _ e, k, n =>
    (e.pi (.nonterm (rxName (n + 1))) (n + 1)).bind fun r =>
      e.pi (.grammar (rxName (n + 1)) (.cons (rxName (n + 1)) (orPat [r.1, k]) .nil)) r.2
  | .quest _ e, k, n => (e.pi k n).map fun r => (orPat [r.1, k], r.2)
  | .bol, k, n => some (concatPat [.emptyOp 1, k], n)
  | .eol, k, n => some (concatPat [.emptyOp 2, k], n)
  | .bot, k, n => some (concatPat [.emptyOp 4, k], n)
  | .eot, k, n => some (concatPat [.emptyOp 8, k], n)
  | .wb, k, n => some (concatPat [.emptyOp 16, k], n)
  | .nwb, k, n => some (concatPat [.emptyOp 32, k], n)
  | .other, _, _ => none
/-- `rxconv.go:56-61`: from the last to the first. -/
def Rxs.piCat : Rxs → Pat → Nat → Option (Pat × Nat)
  | .nil, k, n => some (k, n)
  | .cons e es, k, n => (es.piCat k n).bind fun r => e.pi r.1 r.2
/-- `rxconv.go:62-67`. -/
def Rxs.piAlt : Rxs → Pat → Nat → Option (List Pat × Nat)
  | .nil, _, n => some ([], n)
  | .cons e es, k, n => (e.pi k n).bind fun r => (es.piAlt k r.2).map fun r' => (r.1 :: r'.1, r'.2)
end

mutual
/-- `rxconv.go:107-124` `verify`. -/
def Rx.verify : Rx → Bool
  | .cat es | .alt es => es.verify
  | .cap e | .star _ e | .plus _ e | .quest _ e => e.verify
  | .other => false
  | _ => true
def Rxs.verify : Rxs → Bool
  | .nil => true
  | .cons e es => e.verify && es.verify
end

/-- `rxconv.go:92-105` `convert`, `FromRegexp` after parsing; `none` is the error of `verify`. -/
def fromRegexp (e : Rx) (n : Nat) : Option Pat :=
  if e.verify then (e.pi .empty n).map fun r => .search (.cap r.1 0) else none

end Gpeg
