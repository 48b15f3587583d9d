import Verif.CompileLemmas
import Verif.Peg
/-!
# Occurrences of memoization in a compiled pattern

The list of the memoization entries a compiled pattern works with: their id, whether they belong
to a memoized repetition (`Star(Memo(q))`) or to a plain `Memo(q)`, the memoized pattern and the
environment it stands in. The traversal follows `compileF` because the ids of memoized repetitions
are allotted during compilation.
-/
namespace Gpeg

/-- One memoized pattern occurrence. -/
structure Occ where
  id : Int
  star : Bool
  q : Pat
  env : Env

/-- The state after compiling `p`. -/
def stAfter (k : Nat) (p : Pat) (s : CState) : CState :=
  match compileF k p s with
  | .ok (_, s') => s'
  | .error _ => s

theorem stAfter_eq {k : Nat} {p : Pat} {s s' : CState} {raw : Program}
    (h : CM.Ok (compileF k p) s raw s') : stAfter k p s = s' := by
  unfold stAfter
  rw [show compileF k p s = .ok (raw, s') from h]

/-- Occurrences in the definitions that are compiled. -/
def occDefs (f : Pat → CState → List Occ) (after : Pat → CState → CState) (start : String)
    (used : List String) : Defs → CState → List Occ
  | .nil, _ => []
  | .cons n v rest, s =>
    if n ≠ start ∧ n ∉ used then occDefs f after start used rest s
    else f v (s.bump 1) ++ occDefs f after start used rest (after v (s.bump 1))

/-- The occurrences in `p`, compiled with fuel `k` in state `s`. -/
def memoOcc : Nat → Env → Pat → CState → List Occ
  | 0, _, _, _ => []
  | k + 1, env, p, s =>
    match p with
    | .alt l r =>
      match combine (get l) (get r) with
      | some _ => []
      | none => memoOcc k env (get l) s ++ memoOcc k env (get r) (stAfter k (get l) s)
    | .seq l r => memoOcc k env (get l) s ++ memoOcc k env (get r) (stAfter k (get l) s)
    | .star p =>
      match get p with
      | .cls _ => []
      | .memo q _ => ⟨(stAfter k (get q) s).memo + 1, true, q, env⟩ :: memoOcc k env (get q) s
      | gp => memoOcc k env gp s
    | .plus p => memoOcc k env (.star (get p)) s ++
        memoOcc k env (get p) (stAfter k (.star (get p)) s)
    | .opt p =>
      match get p with
      | .lit [_] => []
      | .cls _ => []
      | gp => memoOcc k env (.alt gp .empty) s
    | .not p | .and p | .cap p _ | .errRec _ p => memoOcc k env (get p) s
    | .memo p id => ⟨id, false, p, env⟩ :: memoOcc k env (get p) (s.bump 1)
    | .check p _ _ _ => memoOcc k env (get p) (s.bump 1)
    | .search p =>
      match k with
      | k2 + 2 => memoOcc k2 env (get (get p)) ((stAfter (k2 + 2) (get p) s).bump 2)
      | _ => []
    | .grammar start ds =>
      if ds.inline.nts = [] then
        match ds.inline.find start with
        | some b => memoOcc k (ds.inline :: env) b s
        | none => []
      else occDefs (memoOcc k (ds.inline :: env)) (stAfter k) start ds.inline.nts ds.inline (s.bump 1)
    | .inl _ b => memoOcc k env b s
    | .emptyOp _ | .cls _ | .lit _ | .nonterm _ | .dot _ | .err _ | .empty => []

end Gpeg
