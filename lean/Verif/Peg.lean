import Verif.Pattern
import Verif.Vm
/-!
# Reference semantics of patterns

The specification the compiled programs are compared with: the usual big-step semantics of
parsing expressions over a byte list, extended with captures, parse errors, checkers and search.
It mentions neither instructions nor the machine. `none` means "not decided with this fuel"; a
pattern that yields `none` for every fuel diverges.

Besides its result an evaluation reports `far`, one past the furthest byte whose value (or
absence) it looked at with a literal, a class or an assertion outside searches. (`.` only asks whether
there is a byte, and the machine does not note that it was asked: `Advance`, `input/input.go:91-104`,
leaves `furthest` alone. A search skips bytes in the same way.)
-/
namespace Gpeg

/-- A capture as the user sees it: id, position, length and sub-captures. -/
inductive CTree
  | node (id : Int) (start len : Nat) (children : List CTree)
deriving Repr, Inhabited

/-- Result of matching at a position. `abort` is an error pattern without recovery: the whole
parse stops and reports no match. -/
inductive Res
  | ok (pos : Nat) (caps : List CTree)
  | fail
  | abort (pos : Nat)
deriving Repr, Inhabited

/-- What survives backtracking: reported errors and the state of the checkers. -/
structure World (σ : Type) where
  errs : List PErr
  cst : σ
deriving Repr

/-- The fixed data of an evaluation. With `lo`, what memoized patterns look at is not counted as looked at. -/
structure Ctx (σ : Type) where
  data : List UInt8
  chk : CheckFn σ
  lo : Bool

/-- The lexical environment: the definitions of the enclosing grammars, innermost first. -/
abbrev Env := List Defs

/-- The definition of a non-terminal: that of the innermost enclosing grammar defining it,
together with the environment of that grammar. -/
def lookupNT (name : String) : Env → Option (Pat × Env)
  | [] => none
  | d :: env => match d.find name with
    | some p => some (p, d :: env)
    | none => lookupNT name env

/-- Matching a byte string: end position if it matches, and how far was looked. -/
def evalLit (data : List UInt8) (pos : Nat) : List UInt8 → Option Nat × Nat
  | [] => (some pos, 0)
  | b :: bs =>
    if data[pos]? = some b then
      let (r, f) := evalLit data (pos + 1) bs
      (r, max (pos + 1) f)
    else (none, pos + 1)

/-- Does the byte at `pos` exist and belong to the set? -/
def inSet (data : List UInt8) (pos : Nat) (cs : CSet) : Bool :=
  match data[pos]? with
  | some b => cs.has b
  | none => false

/-- The zero-width assertion `op` at `pos`. -/
def assertAt (data : List UInt8) (pos : Nat) (op : UInt8) : Bool :=
  emptyOpContext (if pos = 0 then none else data[pos - 1]?) data[pos]? &&& op != 0

variable {σ : Type}

/-- Outcome of an evaluation. -/
abbrev Ev (σ : Type) := Res × Nat × World σ

/-- Continue after a success with `k`, adding `f` to what was looked at; other results pass. -/
def Ev.andThen (e : Ev σ) (k : Nat → List CTree → World σ → Option (Ev σ)) : Option (Ev σ) :=
  match e with
  | (.ok pos caps, f, w) => (k pos caps w).map fun (r, f', w') => (r, max f f', w')
  | (.fail, f, w) => some (.fail, f, w)
  | (.abort p, f, w) => some (.abort p, f, w)

/-- Continue after a failure with `k`; other results pass. -/
def Ev.orElse (e : Ev σ) (k : World σ → Option (Ev σ)) : Option (Ev σ) :=
  match e with
  | (.fail, f, w) => (k w).map fun (r, f', w') => (r, max f f', w')
  | e => some e

/-- The same outcome, with nothing noted as looked at. -/
def Ev.unnoted (e : Ev σ) : Ev σ := (e.1, 0, e.2.2)

/-- The outcome of a memoized pattern. -/
def Ev.veil (lo : Bool) (e : Ev σ) : Ev σ := if lo then e.unnoted else e

theorem Ev.veil_false (e : Ev σ) : e.veil false = e := rfl

theorem Ev.veil_mk (lo : Bool) (r : Res) (f : Nat) (w : World σ) : Ev.veil lo (r, f, w) = (r, if lo then 0 else f, w) := by
  cases lo <;> rfl

/-- Put captures in front of those of a success. -/
def Res.prepend (cs : List CTree) : Res → Res
  | .ok p cs' => .ok p (cs ++ cs')
  | r => r

/-- Leftmost match: try `ev` at `pos`, `pos + 1`, ... (`k` more positions after the first). -/
def searchLoop (ev : Nat → World σ → Option (Ev σ)) : Nat → Nat → World σ → Option (Ev σ)
  | 0, pos, w => (ev pos w).bind fun e => e.orElse fun w' => some (.fail, pos + 1, w')
  | k + 1, pos, w => (ev pos w).bind fun e => e.orElse fun w' => searchLoop ev k (pos + 1) w'

/-- `eval fuel ctx env p pos w`: match `p` at `pos`. -/
def eval : Nat → Ctx σ → Env → Pat → Nat → World σ → Option (Ev σ)
  | 0, _, _, _, _, _ => none
  | n + 1, c, env, p, pos, w =>
    match p with
    | .empty => some (.ok pos [], 0, w)
    | .lit s => match evalLit c.data pos s with
      | (some pos', f) => some (.ok pos' [], f, w)
      | (none, f) => some (.fail, f, w)
    | .cls cs => if inSet c.data pos cs then some (.ok (pos + 1) [], pos + 1, w)
      else some (.fail, pos + 1, w)
    | .dot k => if pos + k.toNat ≤ c.data.length then some (.ok (pos + k.toNat) [], 0, w)
      else some (.fail, 0, w)
    | .emptyOp op => if assertAt c.data pos op then some (.ok pos [], pos + 1, w)
      else some (.fail, pos + 1, w)
    | .seq l r => (eval n c env l pos w).bind fun e => e.andThen fun pos' cs w' =>
        (eval n c env r pos' w').map fun (r, f) => (r.prepend cs, f)
    | .alt l r => (eval n c env l pos w).bind fun e => e.orElse fun w' => eval n c env r pos w'
    | .star p => (eval n c env p pos w).bind fun e => match e with
        | (.ok pos' cs, f, w') => (eval n c env (.star p) pos' w').map fun (r, f', w'') =>
            (r.prepend cs, max f f', w'')
        | (.fail, f, w') => some (.ok pos [], f, w')
        | (.abort q, f, w') => some (.abort q, f, w')
    | .plus p => (eval n c env p pos w).bind fun e => e.andThen fun pos' cs w' =>
        (eval n c env (.star p) pos' w').map fun (r, f) => (r.prepend cs, f)
    | .opt p => (eval n c env p pos w).bind fun e => e.orElse fun w' => some (.ok pos [], 0, w')
    | .not p => (eval n c env p pos w).map fun e => match e with
        | (.ok _ _, f, w') => (.fail, f, w')
        | (.fail, f, w') => (.ok pos [], f, w')
        | (.abort q, f, w') => (.abort q, f, w')
    | .and p => (eval n c env p pos w).map fun e => match e with
        | (.ok _ cs, f, w') => (.ok pos cs, f, w')
        | e => e
    | .cap p id => (eval n c env p pos w).map fun e => match e with
        | (.ok pos' cs, f, w') => (.ok pos' [.node id pos (pos' - pos) cs], f, w')
        | e => e
    | .memo p _ => (eval n c env p pos w).map (Ev.veil c.lo)
    | .check p k id flag => (eval n c env p pos w).map fun e => match e with
        | (.ok pos' cs, f, w') =>
          match c.chk k w'.cst ((c.data.drop pos).take (pos' - pos)) c.data pos' id flag with
          | (none, st) => (.fail, f, { w' with cst := st })
          | (some m, st) => (.ok (pos' + m) cs, f, { w' with cst := st })
        | e => e
    | .grammar start defs => match defs.find start with
      | some b => eval n c (defs :: env) b pos w
      | none => none
    | .search p => (searchLoop (eval n c env p) (c.data.length - pos) pos w).map Ev.unnoted
    | .nonterm name => match lookupNT name env with
      | some (b, env') => eval n c env' b pos w
      | none => none
    | .inl _ b => eval n c env b pos w
    | .err m => some (.abort pos, 0, { w with errs := w.errs ++ [⟨m, pos⟩] })
    | .errRec m p => eval n c env p pos { w with errs := w.errs ++ [⟨m, pos⟩] }

/-- The big-step relation: `p` at `pos` evaluates to `e`. -/
def Evals (c : Ctx σ) (env : Env) (p : Pat) (pos : Nat) (w : World σ) (e : Ev σ) : Prop :=
  ∃ n, eval n c env p pos w = some e

end Gpeg
