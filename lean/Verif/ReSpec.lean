import Verif.Re
/-!
# The `re` syntax, declaratively

The reference for `Verif/Props/Re.lean`: syntax trees, the patterns they denote, and a relation saying
which texts write a tree. It follows the documentation (`re/grammar.go:8-56`), not the parser.
-/
namespace Gpeg.Re

/-- An element of a character class. -/
inductive Item
  | one (b : UInt8)
  | range (a b : UInt8)

/-- The bytes of an element. -/
def Item.mem (x : UInt8) : Item → Bool
  | .one b => x == b
  | .range a b => a ≤ x && x ≤ b

/-- Prefix operators. -/
inductive Pre | none | and | not
/-- Suffix operators. -/
inductive Suf | none | opt | star | plus

mutual
/-- `Primary` -/
inductive Prim
  | ident (name : List UInt8)
  | paren (e : Expr)
  | memo (e : Expr)
  | lit (bs : List UInt8)
  | cls (neg : Bool) (items : List Item)
  | dot
/-- `Sequence`, with its `Prefix`es and `Suffix`es. -/
inductive Seqn
  | nil
  | cons (pre : Pre) (p : Prim) (suf : Suf) (rest : Seqn)
/-- `Expression` -/
inductive Expr
  | one (s : Seqn)
  | alt (s : Seqn) (rest : Expr)
end

/-- Apply a prefix operator. -/
def Pre.apply : Pre → Pat → Pat
  | .none, p => p
  | .and, p => .and p
  | .not, p => .not p

/-- Apply a suffix operator. -/
def Suf.apply : Suf → Pat → Pat
  | .none, p => p
  | .opt, p => .opt p
  | .star, p => .star p
  | .plus, p => .plus p

/-- The set of bytes with a property. -/
def setOf (f : UInt8 → Bool) : CSet := CSet.new (((List.range 256).map UInt8.ofNat).filter f)

mutual
/-- The pattern a primary denotes. The number is the next id for memoized patterns. -/
def Prim.pat : Prim → Nat → Pat × Nat
  | .ident n, m => (.nonterm (nameOf n), m)
  | .paren e, m => e.pat m
  | .memo e, m => (.memo (e.pat m).1 (e.pat m).2, (e.pat m).2 + 1)
  | .lit bs, m => (.lit bs, m)
  | .cls neg items, m => (.cls (setOf fun x => items.any (·.mem x) != neg), m)
  | .dot, m => (.dot 1, m)
/-- The patterns of a sequence. -/
def Seqn.pats : Seqn → Nat → List Pat × Nat
  | .nil, m => ([], m)
  | .cons pre p suf rest, m =>
    (pre.apply (suf.apply (p.pat m).1) :: (rest.pats (p.pat m).2).1, (rest.pats (p.pat m).2).2)
/-- The alternatives of an expression. -/
def Expr.alts : Expr → Nat → List Pat × Nat
  | .one s, m => ([concatPat (s.pats m).1], (s.pats m).2)
  | .alt s rest, m => (concatPat (s.pats m).1 :: (rest.alts (s.pats m).2).1, (rest.alts (s.pats m).2).2)
/-- The pattern of an expression. -/
def Expr.pat : Expr → Nat → Pat × Nat
  | .one s, m => (orPat [concatPat (s.pats m).1], (s.pats m).2)
  | .alt s rest, m =>
    (orPat (concatPat (s.pats m).1 :: (rest.alts (s.pats m).2).1), (rest.alts (s.pats m).2).2)
end

/-- A list of definitions. -/
abbrev Gram := List (List UInt8 × Expr)

/-- The definitions with their patterns. -/
def Gram.pats : Gram → Nat → Defs × Nat
  | [], m => (.nil, m)
  | (n, e) :: g, m => (.cons (nameOf n) (e.pat m).1 (Gram.pats g (e.pat m).2).1, (Gram.pats g (e.pat m).2).2)

/-! ## Texts -/

/-- Blanks, tabulators, line ends. -/
def blank (b : UInt8) : Bool := b == 32 || b == 9 || b == 10 || b == 13
/-- Letters and underscore. -/
def isStart (b : UInt8) : Bool := (97 ≤ b && b ≤ 122) || (65 ≤ b && b ≤ 90) || b == 95
/-- Letters, underscore, digits. -/
def isCont (b : UInt8) : Bool := isStart b || (48 ≤ b && b ≤ 57)
/-- Octal digits. -/
def isOct (b : UInt8) : Bool := 48 ≤ b && b ≤ 55

/-- Spacing: blanks and comments. -/
inductive Sp : List UInt8 → Prop
  | nil : Sp []
  | blank {b l} : blank b = true → Sp l → Sp (b :: l)
  | comment {c b l} : (∀ x ∈ c, x ≠ 10 ∧ x ≠ 13) → b = 10 ∨ b = 13 → Sp l → Sp (35 :: (c ++ b :: l))

/-- Identifiers. -/
def IsName (n : List UInt8) : Prop := ∃ b l, n = b :: l ∧ isStart b = true ∧ ∀ x ∈ l, isCont x = true

/-- No octal digit follows. -/
def NoOct (rest : List UInt8) : Prop := ∀ x, rest.head? = some x → isOct x = false

/-- The byte denoted by a backslash and a character. -/
inductive Esc : UInt8 → UInt8 → Prop
  | n : Esc 110 10
  | r : Esc 114 13
  | t : Esc 116 9
  | self {c} : c ∈ [39, 34, 91, 93, 92, 45] → Esc c c

/-- `CharS b t rest`: the text `t` denotes the byte `b` if `rest` follows. Octal escapes of 200 and above
are left out, see `C46_octal_false`. -/
inductive CharS : UInt8 → List UInt8 → List UInt8 → Prop
  | raw {b rest} : b ≠ 92 → CharS b [b] rest
  | esc {b c rest} : Esc c b → CharS b [92, c] rest
  | oct3 {a b c rest} : isOct a = true → a ≤ 49 → isOct b = true → isOct c = true →
      CharS (UInt8.ofNat ((a.toNat - 48) * 64 + (b.toNat - 48) * 8 + (c.toNat - 48))) [92, a, b, c] rest
  | oct2 {a b rest} : isOct a = true → isOct b = true → 51 ≤ a ∨ NoOct rest →
      CharS (UInt8.ofNat ((a.toNat - 48) * 8 + (b.toNat - 48))) [92, a, b] rest
  | oct1 {a rest} : isOct a = true → NoOct rest → CharS (UInt8.ofNat (a.toNat - 48)) [92, a] rest

/-- The characters of a literal and the closing quote. -/
inductive LitS (q : UInt8) : List UInt8 → List UInt8 → Prop
  | nil : LitS q [] [q]
  | cons {b bs t rest} : CharS b t rest → t.head? ≠ some q → LitS q bs rest → LitS q (b :: bs) (t ++ rest)

/-- The elements of a class and the closing bracket. A single character must not be followed by `-`. -/
inductive ItemsS : List Item → List UInt8 → Prop
  | nil : ItemsS [] [93]
  | one {b t rest its} : CharS b t rest → t.head? ≠ some 93 → rest.head? ≠ some 45 → ItemsS its rest →
      ItemsS (.one b :: its) (t ++ rest)
  | range {a b t u rest its} : CharS a t (45 :: (u ++ rest)) → t.head? ≠ some 93 → CharS b u rest → ItemsS its rest →
      ItemsS (.range a b :: its) (t ++ 45 :: (u ++ rest))

/-- Optional `^`. -/
inductive CaratS : Bool → List UInt8 → Prop
  | no : CaratS false []
  | yes {sp} : Sp sp → CaratS true (94 :: sp)

/-- Prefix operators. -/
inductive PreS : Pre → List UInt8 → Prop
  | none : PreS .none []
  | and {sp} : Sp sp → PreS .and (38 :: sp)
  | not {sp} : Sp sp → PreS .not (33 :: sp)

/-- Suffix operators. -/
inductive SufS : Suf → List UInt8 → Prop
  | none : SufS .none []
  | opt {sp} : Sp sp → SufS .opt (63 :: sp)
  | star {sp} : Sp sp → SufS .star (42 :: sp)
  | plus {sp} : Sp sp → SufS .plus (43 :: sp)

/-- Two texts do not run into each other: not both an identifier character at the end of the first and at
the beginning of the second. -/
def Apart (s t : List UInt8) : Prop := ∀ x y, s.getLast? = some x → t.head? = some y → isCont x = false ∨ isCont y = false

mutual
/-- Texts of primaries. Every token may be followed by spacing. The text after the `^` of a class must not
look like spacing, and a class without elements is not a pattern unless it is negated. -/
inductive PrimS : Prim → List UInt8 → Prop
  | ident {n sp} : IsName n → Sp sp → PrimS (.ident n) (n ++ sp)
  | paren {e t sp sp'} : Sp sp → ExprS e t → Sp sp' → PrimS (.paren e) (40 :: (sp ++ (t ++ 41 :: sp')))
  | memo {e t sp sp'} : Sp sp → ExprS e t → Sp sp' → PrimS (.memo e) (123 :: 123 :: (sp ++ (t ++ 125 :: 125 :: sp')))
  | lit {q bs t sp} : q = 39 ∨ q = 34 → LitS q bs t → Sp sp → PrimS (.lit bs) (q :: (t ++ sp))
  | cls {neg its u t sp} : CaratS neg u → ItemsS its t → (neg = true ∨ its ≠ []) →
      (neg = true → ∀ x, t.head? = some x → blank x = false ∧ x ≠ 35) →
      (neg = false → t.head? ≠ some 94) → Sp sp → PrimS (.cls neg its) (91 :: (u ++ (t ++ sp)))
  | dot {sp} : Sp sp → PrimS .dot (46 :: sp)
/-- Texts of sequences. -/
inductive SeqS : Seqn → List UInt8 → Prop
  | nil : SeqS .nil []
  | cons {pre p suf rest a b c t} : PreS pre a → PrimS p b → SufS suf c → SeqS rest t → Apart (b ++ c) t →
      SeqS (.cons pre p suf rest) (a ++ (b ++ (c ++ t)))
/-- Texts of expressions. -/
inductive ExprS : Expr → List UInt8 → Prop
  | one {s t} : SeqS s t → ExprS (.one s) t
  | alt {s e t u sp} : SeqS s t → Sp sp → ExprS e u → ExprS (.alt s e) (t ++ 47 :: (sp ++ u))
end

/-- Texts of grammars. -/
inductive GramS : Gram → List UInt8 → Prop
  | nil : GramS [] []
  | cons {n e g sp sp' t u} : IsName n → Sp sp → Sp sp' → ExprS e t → GramS g u → Apart t u →
      GramS ((n, e) :: g) (n ++ (sp ++ 60 :: 45 :: (sp' ++ (t ++ u))))

/-- An argument of `re.Compile`. -/
inductive Top
  | expr (e : Expr)
  | gram (g : Gram)

/-- The pattern denoted. -/
def Top.pat : Top → Nat → Pat × Nat
  | .expr e, m => e.pat m
  | .gram [], m => (.empty, m)
  | .gram ((n, e) :: g), m => (.grammar (nameOf n) (Gram.pats ((n, e) :: g) m).1, (Gram.pats ((n, e) :: g) m).2)

/-- Texts of arguments: leading spacing, then an expression, or at least one definition, all of different
names. -/
inductive TopS : Top → List UInt8 → Prop
  | expr {e sp t} : Sp sp → ExprS e t → TopS (.expr e) (sp ++ t)
  | gram {g sp t} : Sp sp → GramS g t → g ≠ [] → (g.map fun d => nameOf d.1).Nodup → TopS (.gram g) (sp ++ t)

/-- The last definition of a name. -/
def lastDef (k : String) : Defs → Option Pat
  | .nil => none
  | .cons k' v rest => match lastDef k rest with
    | some p => some p
    | none => if k' = k then some v else none

end Gpeg.Re
