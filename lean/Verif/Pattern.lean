import Verif.Isa
/-!
# Model of `pattern/nodes.go`, `pattern/pattern.go`, `pattern/optimize.go` (pattern part)

Patterns are trees; the Go patterns are pointer graphs, so two occurrences of the same Go node
are two equal subtrees here. `NonTermNode.Inlined` is the only field the package mutates; a
non-terminal with `Inlined != nil` is the separate constructor `inl`.
-/
namespace Gpeg

mutual
/-- The node types of `pattern/nodes.go:15-124`. (`RepeatNode` is never built.) A literal is its
byte sequence, a checker an index into the checker table, a nil `Recover` is `err`. -/
inductive Pat
  | alt (l r : Pat)                               -- nodes.go:16 AltNode
  | seq (l r : Pat)                               -- :21 SeqNode
  | star (p : Pat)                                -- :26 StarNode
  | plus (p : Pat)                                -- :31 PlusNode
  | opt (p : Pat)                                 -- :36 OptionalNode
  | not (p : Pat)                                 -- :41 NotNode
  | and (p : Pat)                                 -- :46 AndNode
  | cap (p : Pat) (id : Int)                      -- :51 CapNode
  | memo (p : Pat) (id : Int)                     -- :57 MemoNode
  | check (p : Pat) (checker : Nat) (id flag : Int) -- :63 CheckNode
  | grammar (start : String) (defs : Defs)        -- :71 GrammarNode
  | search (p : Pat)                              -- :77 SearchNode
  | cls (cs : CSet)                               -- :89 ClassNode
  | lit (s : List UInt8)                          -- :94 LiteralNode
  | nonterm (name : String)                       -- :101 NonTermNode, Inlined == nil
  | inl (name : String) (p : Pat)                 -- :101 NonTermNode, Inlined == p
  | dot (n : UInt8)                               -- :107 DotNode
  | err (msg : String)                            -- :112 ErrorNode, Recover == nil
  | errRec (msg : String) (p : Pat)               -- :112 ErrorNode
  | emptyOp (op : UInt8)                          -- :118 EmptyOpNode
  | empty                                         -- :123 EmptyNode
/-- `Defs map[string]Pattern` (`nodes.go:72`) as an association list. Its order stands for the
(unspecified) iteration order of the Go map. -/
inductive Defs
  | nil
  | cons (name : String) (p : Pat) (rest : Defs)
end

deriving instance Repr for Pat, Defs
deriving instance Inhabited for Pat, Defs

namespace Defs
/-- Map lookup `Defs[name]`. -/
def find (name : String) : Defs → Option Pat
  | .nil => none
  | .cons n p rest => if n = name then some p else find name rest

/-- The keys, in iteration order. -/
def names : Defs → List String
  | .nil => []
  | .cons n _ rest => n :: names rest
end Defs

/-- `pattern/optimize.go:142-170` `combine`. -/
def combine : Pat → Pat → Option CSet
  | .lit [a], .cls c2 => some (c2.add (CSet.new [a]))
  | .lit [a], .lit [b] => some (CSet.new [a, b])
  | .cls c1, .cls c2 => some (c2.add c1)
  | .cls c1, .lit [b] => some (c1.add (CSet.new [b]))
  | _, _ => none

/-- Type test `.(*EmptyNode)`. -/
def Pat.isEmpty : Pat → Bool
  | .empty => true
  | _ => false

/-- Type test `.(*StarNode)`. -/
def Pat.isStar : Pat → Bool
  | .star _ => true
  | _ => false

/-- `pattern/optimize.go:68-79`: the set negated by `Not(q)`, given `Get(q)`. -/
def negSet : Pat → Option CSet
  | .lit [a] => some (CSet.new [a])
  | .cls c => some c
  | _ => none

/-- `pattern/optimize.go:81-98`: `![set] r` as a class, given `r`. -/
def negSeq (set : CSet) : Pat → Option Pat
  | .dot 1 => some (.cls set.complement)
  | .cls c => some (.cls (c.sub set))
  | .lit [b] => some (.cls ((CSet.new [b]).sub set))
  | _ => none

mutual
/-- Number of nodes visited by `WalkPattern(p, true, fn)` (`pattern/nodes.go:141-179`); an error
node without recovery also visits the nil pattern. This is `CountSubPatterns` (`:131-137`). -/
def Pat.count : Pat → Nat
  | .alt l r | .seq l r => l.count + r.count + 1
  | .star p | .plus p | .opt p | .not p | .and p | .cap p _ | .memo p _ | .check p _ _ _
  | .search p | .errRec _ p | .inl _ p => p.count + 1
  | .grammar _ ds => ds.count + 1
  | .err _ => 2
  | .cls _ | .lit _ | .nonterm _ | .dot _ | .emptyOp _ | .empty => 1
/-- `WalkPattern` over the definitions of a grammar. -/
def Defs.count : Defs → Nat
  | .nil => 0
  | .cons _ p rest => p.count + rest.count
end

mutual
/-- The names of the non-terminals with `Inlined == nil` met by `WalkPattern(p, true, fn)`. -/
def Pat.nts : Pat → List String
  | .alt l r | .seq l r => l.nts ++ r.nts
  | .star p | .plus p | .opt p | .not p | .and p | .cap p _ | .memo p _ | .check p _ _ _
  | .search p | .errRec _ p | .inl _ p => p.nts
  | .grammar _ ds => ds.nts
  | .nonterm n => [n]
  | .cls _ | .lit _ | .dot _ | .err _ | .emptyOp _ | .empty => []
/-- The same over the definitions of a grammar. -/
def Defs.nts : Defs → List String
  | .nil => []
  | .cons _ p rest => p.nts ++ rest.nts
end

/-- `pattern/optimize.go:43-49` the optional case of `Get`, given `Get(t.Patt)`. -/
def optGet (p gp : Pat) : Pat := if gp.isStar then gp else p

/-- `pattern/optimize.go:50-98` the sequence case of `Get`, given `l = Get(t.Left)`,
`r = Get(t.Right)` and the function used for `Get(nn.Patt)`. -/
def seqGet (p l r : Pat) (g : Pat → Pat) : Pat :=
  if r.isEmpty then l
  else if l.isEmpty then r
  else
    match l with
    | .not q =>
      match negSet (g q) with
      | some set => (negSeq set r).getD p
      | none => p
    | _ => p

/-- `pattern/optimize.go:28-42` the alternation case of `Get`. -/
def altGet (p l r : Pat) (g : Pat → Pat) : Pat :=
  if l.isEmpty then l
  else if r.isEmpty then optGet (.opt l) (g l)
  else match combine l r with
    | some set => .cls set
    | none => p

/-- `pattern/optimize.go:21-101` `Get` with recursion depth bounded by the first argument. -/
def getF : Nat → Pat → Pat
  | 0, p => p
  | k + 1, p =>
    match p with
    | .inl _ b => b
    | .alt l r => altGet p (getF k l) (getF k r) (getF k)
    | .opt q => optGet p (getF k q)
    | .seq l r => seqGet p (getF k l) (getF k r) (getF k)
    | _ => p

/-- `pattern/optimize.go:21-101` `Get`. The results of `Get` are never larger than its argument,
so the recursion depth is at most the size (`get_fuel`). -/
def get (p : Pat) : Pat := getF p.count p

/-! ## Inlining -/

/-- `pattern/optimize.go:8-9` `InlineThreshold`. -/
def inlineThreshold : Nat := 100

mutual
/-- `pattern/optimize.go:124-136`: set `Inlined` of every non-inlined non-terminal for which `f`
has a body. (The walk continues into the inlined body, which contains no such non-terminal.) -/
def Pat.inlineWith (f : String → Option Pat) : Pat → Pat
  | .alt l r => .alt (l.inlineWith f) (r.inlineWith f)
  | .seq l r => .seq (l.inlineWith f) (r.inlineWith f)
  | .star p => .star (p.inlineWith f)
  | .plus p => .plus (p.inlineWith f)
  | .opt p => .opt (p.inlineWith f)
  | .not p => .not (p.inlineWith f)
  | .and p => .and (p.inlineWith f)
  | .cap p id => .cap (p.inlineWith f) id
  | .memo p id => .memo (p.inlineWith f) id
  | .check p c id fl => .check (p.inlineWith f) c id fl
  | .search p => .search (p.inlineWith f)
  | .errRec m p => .errRec m (p.inlineWith f)
  | .inl n p => .inl n (p.inlineWith f)
  | .grammar s ds => .grammar s (ds.inlineWith f)
  | .nonterm n => match f n with
    | some b => .inl n b
    | none => .nonterm n
  | .cls cs => .cls cs
  | .lit s => .lit s
  | .dot n => .dot n
  | .err m => .err m
  | .emptyOp op => .emptyOp op
  | .empty => .empty
/-- The same for all definitions. -/
def Defs.inlineWith (f : String → Option Pat) : Defs → Defs
  | .nil => .nil
  | .cons n p rest => .cons n (p.inlineWith f) (rest.inlineWith f)
end

/-- `pattern/optimize.go:105-121,127-132`: the body to inline for a name, if its definition is
small and has no non-inlined non-terminal. -/
def Defs.eligible (ds : Defs) (n : String) : Option Pat :=
  match ds.find n with
  | some b => if b.count < inlineThreshold ∧ b.nts = [] then some b else none
  | none => none

/-- `pattern/optimize.go:104-138` `inline`: the new definitions, or `none` if nothing was inlined
(`didInline == false`). -/
def Defs.inlineStep (ds : Defs) : Option Defs :=
  if ds.nts.any (fun n => (ds.eligible n).isSome) then some (ds.inlineWith ds.eligible) else none

/-- `pattern/optimize.go:12-15` `Inline`, with the number of passes bounded. -/
def Defs.inlineLoop : Nat → Defs → Defs
  | 0, ds => ds
  | k + 1, ds => match ds.inlineStep with
    | some ds' => inlineLoop k ds'
    | none => ds

/-- `pattern/optimize.go:12-15` `Inline`: every pass but the last removes a non-inlined
non-terminal, so their number bounds the passes. -/
def Defs.inline (ds : Defs) : Defs := Defs.inlineLoop (ds.nts.length) ds

/-! ## Constructors of `pattern/pattern.go` -/

/-- `pattern/pattern.go:82-95` `Repeat`; the loop from 1 to n-1. -/
def repeatPat (p : Pat) (n : Int) : Pat :=
  if n ≤ 0 then .empty else (List.replicate (n.toNat - 1) p).foldl .seq p

/-- `pattern/pattern.go:98-112` `Concat`. -/
def concatPat : List Pat → Pat
  | [] => .empty
  | p :: ps => ps.foldl .seq p

/-- `pattern/pattern.go:115-130` `Or`: from the last to the first alternative. -/
def orPat (ps : List Pat) : Pat :=
  match ps.reverse with
  | [] => .empty
  | p :: rest => rest.foldl (fun acc q => .alt q acc) p

end Gpeg
