/-! # Model of `memo/capture.go` (the tree; positions relative to memo entries are in the table) -/
namespace Gpeg

/-- `memo/capture.go:13-43` `Capture` (`NewCaptureNode`, `NewCaptureDummy`). `start` is the value
of `Start()` (`:95-100`), i.e. the absolute position. -/
inductive Capture
  | node (id : Int) (start len : Nat) (children : List Capture)
  | dummy (start len : Nat) (children : List Capture)
deriving Repr, Inhabited

namespace Capture

/-- `memo/capture.go:110-112` `Dummy`. -/
def isDummy : Capture → Bool
  | .node .. => false
  | .dummy .. => true

/-- The field `children`. -/
def children : Capture → List Capture
  | .node _ _ _ ch => ch
  | .dummy _ _ ch => ch

/-- `memo/capture.go:95-100` `Start`. -/
def start : Capture → Nat
  | .node _ s _ _ => s
  | .dummy s _ _ => s

/-- `memo/capture.go:102-104` `Len`. -/
def len : Capture → Nat
  | .node _ _ n _ => n
  | .dummy _ n _ => n

/-- `memo/capture.go:114-116` `Id`; a dummy has id 0. -/
def id : Capture → Int
  | .node i _ _ _ => i
  | .dummy .. => 0

end Capture
end Gpeg
