import Verif.Capture
/-! # Model of the child iterator of `memo/capture.go` -/
namespace Gpeg

mutual
/-- A measure for termination. -/
def Capture.size : Capture → Nat
  | .node _ _ _ ch => 2 + Capture.sizeL ch
  | .dummy _ _ ch => 2 + Capture.sizeL ch
/-- The same for lists. -/
def Capture.sizeL : List Capture → Nat
  | [] => 0
  | c :: cs => c.size + Capture.sizeL cs
end

/-- State of the closure returned by `ChildIterator` (`memo/capture.go:46-70`): the children from `i` on,
and `subit`. -/
inductive CIter
  | mk (rest : List Capture) (sub : Option CIter)

/-- A measure for termination. -/
def CIter.size : CIter → Nat
  | .mk cs none => Capture.sizeL cs
  | .mk cs (some s) => 1 + s.size + Capture.sizeL cs.tail

/-- `memo/capture.go:46-48` `ChildIterator`: the initial state of the closure (`start` is not used). -/
def Capture.iter (c : Capture) : CIter := .mk c.children none

/-- One call of the closure (`memo/capture.go:49-68`): the capture returned, `none` for nil, and the new
state. The outer call `return ret()` is the recursive call. -/
def CIter.next : CIter → Option Capture × CIter
  | .mk [] s => (none, .mk [] s)
  | .mk (ch :: rest) (some sub) =>
    match sub.next with
    | (some c, sub') => (some c, .mk (ch :: rest) (some sub'))
    | (none, _) => CIter.next (.mk rest none)
  | .mk (.node id s n cs :: rest) none => (some (.node id s n cs), .mk rest none)
  | .mk (.dummy s n cs :: rest) none =>
    match CIter.next (.mk cs none) with
    | (some c, sub') => (some c, .mk (.dummy s n cs :: rest) (some sub'))
    | (none, _) => CIter.next (.mk rest none)
termination_by it => it.size
decreasing_by
  all_goals simp only [CIter.size, Capture.sizeL, Capture.size, List.tail_cons]
  all_goals omega

theorem CIter.next_size (it : CIter) : ∀ c it', it.next = (some c, it') → it'.size < it.size := by
  induction it using CIter.next.induct with
  | case1 s => intro c it' h; rw [CIter.next] at h; cases h
  | case2 ch rest sub c0 sub' hs ih =>
    intro c it' h
    rw [CIter.next, hs] at h
    cases h
    have := ih _ _ hs
    simp only [CIter.size]
    omega
  | case3 ch rest sub sub' hs ih1 ih2 =>
    intro c it' h
    rw [CIter.next, hs] at h
    have := ih2 _ _ h
    simp only [CIter.size, List.tail_cons] at *
    omega
  | case4 id s n cs rest =>
    intro c it' h
    rw [CIter.next] at h
    cases h
    simp only [CIter.size, Capture.sizeL, Capture.size]
    omega
  | case5 s n cs rest c0 sub' hs ih =>
    intro c it' h
    rw [CIter.next, hs] at h
    cases h
    have := ih _ _ hs
    simp only [CIter.size, Capture.sizeL, Capture.size, List.tail_cons] at *
    omega
  | case6 s n cs rest sub' hs ih1 ih2 =>
    intro c it' h
    rw [CIter.next, hs] at h
    have := ih2 _ _ h
    simp only [CIter.size, Capture.sizeL, Capture.size, List.tail_cons] at *
    omega

/-- The loop of `Child` (`memo/capture.go:75-80`). -/
def CIter.child (it : CIter) (i n : Int) : Option Capture :=
  match h : it.next with
  | (none, _) => none
  | (some c, it') => if i = n then some c else it'.child (i + 1) n
termination_by it.size
decreasing_by exact it.next_size _ _ h

/-- `memo/capture.go:72-82` `Child`. -/
def Capture.child (c : Capture) (n : Int) : Option Capture := c.iter.child 0 n

mutual
/-- The contribution of one child to `NumChildren` (`memo/capture.go:86-91`). -/
def Capture.numOne : Capture → Nat
  | .node .. => 1
  | .dummy _ _ ch => Capture.numL ch
/-- The loop of `NumChildren` (`memo/capture.go:84-93`). -/
def Capture.numL : List Capture → Nat
  | [] => 0
  | c :: cs => c.numOne + Capture.numL cs
end

/-- `memo/capture.go:84-93` `NumChildren`. -/
def Capture.numChildren (c : Capture) : Nat := Capture.numL c.children

end Gpeg
