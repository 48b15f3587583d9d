import Verif.Inline
import Verif.Top
/-!
# Model of `pattern`: non-terminal objects

A `NonTermNode` is an object whose field `Inlined` the inliner sets (`pattern/optimize.go:124-136`). In `Pattern` patterns are trees and every
occurrence of a non-terminal has its own field; here an object may occur many times, in one grammar or in several. The store gives the value of
the field `Inlined` of every object. It holds the inlined pattern as a tree: the inliner only inlines definitions all of whose non-terminals have
`Inlined` set (`leaves`, `optimize.go:113-121,131`), and it sets a field only once (`:127`), so nothing below an inlined pattern changes later.

Rules of the grammars have no grammars inside. `Search` is allowed: the grammar that its compilation builds (`pattern/compile.go:319-356`) has one rule,
which calls itself, so nothing is inlined for it.
-/
namespace Gpeg

/-- A pattern made of objects (`pattern/nodes.go:16-125`), without `GrammarNode`. Only non-terminals need an identity. -/
inductive OPat
  | alt (l r : OPat)
  | seq (l r : OPat)
  | star (p : OPat)
  | plus (p : OPat)
  | opt (p : OPat)
  | not (p : OPat)
  | and (p : OPat)
  | cap (p : OPat) (id : Int)
  | memo (p : OPat) (id : Int)
  | check (p : OPat) (checker : Nat) (id flag : Int)
  | search (p : OPat)
  | cls (cs : CSet)
  | lit (s : List UInt8)
  /-- The non-terminal object `r` (`nodes.go:101-104`). -/
  | ref (r : Nat)
  | dot (n : UInt8)
  | err (msg : String)
  | errRec (msg : String) (p : OPat)
  | emptyOp (op : UInt8)
  | empty

/-- The fields `Inlined` of all objects. -/
abbrev Store := Nat → Option Pat

/-- The pattern as a tree; `nm` are the fields `Name` (`nodes.go:102`). -/
def OPat.val (nm : Nat → String) (σ : Store) : OPat → Pat
  | .alt l r => .alt (l.val nm σ) (r.val nm σ)
  | .seq l r => .seq (l.val nm σ) (r.val nm σ)
  | .star p => .star (p.val nm σ)
  | .plus p => .plus (p.val nm σ)
  | .opt p => .opt (p.val nm σ)
  | .not p => .not (p.val nm σ)
  | .and p => .and (p.val nm σ)
  | .cap p id => .cap (p.val nm σ) id
  | .memo p id => .memo (p.val nm σ) id
  | .check p c id fl => .check (p.val nm σ) c id fl
  | .search p => .search (p.val nm σ)
  | .cls cs => .cls cs
  | .lit s => .lit s
  | .ref r => match σ r with
    | none => .nonterm (nm r)
    | some b => .inl (nm r) b
  | .dot n => .dot n
  | .err m => .err m
  | .errRec m p => .errRec m (p.val nm σ)
  | .emptyOp op => .emptyOp op
  | .empty => .empty

/-- The non-terminal objects of a pattern, in the order of `WalkPattern` (`nodes.go:141-179`). -/
def OPat.refs : OPat → List Nat
  | .alt l r | .seq l r => l.refs ++ r.refs
  | .star p | .plus p | .opt p | .not p | .and p | .cap p _ | .memo p _ | .check p _ _ _ | .search p | .errRec _ p => p.refs
  | .ref r => [r]
  | .cls _ | .lit _ | .dot _ | .err _ | .emptyOp _ | .empty => []

/-- A grammar object (`nodes.go:71-74`). -/
structure OGrammar where
  start : String
  defs : List (String × OPat)

/-- The definitions as trees. -/
def OGrammar.val (nm : Nat → String) (σ : Store) (g : OGrammar) : Defs := g.defs.foldr (fun d ds => .cons d.1 (d.2.val nm σ) ds) .nil

/-- The non-terminal objects of a grammar. -/
def OGrammar.refs (g : OGrammar) : List Nat := g.defs.flatMap (·.2.refs)

/-- `pattern/optimize.go:104-138` `inline`: the new store, or `none` if nothing was inlined. Sizes and leaves are computed before any field is set. -/
def OGrammar.inlineStep (nm : Nat → String) (σ : Store) (g : OGrammar) : Option Store :=
  if g.refs.any (fun r => (σ r).isNone && ((g.val nm σ).eligible (nm r)).isSome) then
    some fun r => match σ r with
      | some b => some b
      | none => if r ∈ g.refs then (g.val nm σ).eligible (nm r) else none
  else none

/-- `pattern/optimize.go:12-15` `Inline`, with the number of passes bounded. -/
def OGrammar.inlineLoop (nm : Nat → String) (g : OGrammar) : Nat → Store → Store
  | 0, σ => σ
  | k + 1, σ => match g.inlineStep nm σ with
    | some σ' => g.inlineLoop nm k σ'
    | none => σ

/-- `pattern/optimize.go:12-15` `Inline`: every pass but the last sets the field of an object. -/
def OGrammar.inline (nm : Nat → String) (g : OGrammar) (σ : Store) : Store := g.inlineLoop nm g.refs.length σ

/-- `pattern/compile.go:368-369`: `Compile` of a grammar object runs `Inline` and then reads the objects. This is the pattern that it reads, for each of
the grammars compiled one after the other. -/
def compiles (nm : Nat → String) : Store → List OGrammar → List Pat
  | _, [] => []
  | σ, g :: gs => .grammar g.start (g.val nm (g.inline nm σ)) :: compiles nm (g.inline nm σ) gs

/-- All inlined patterns are closed. -/
def Store.Closed (σ : Store) : Prop := ∀ r b, σ r = some b → b.nts = []

end Gpeg
