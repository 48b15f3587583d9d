/-! # Model of `memo/interval/lazy/array.go` (and `interval.go`), the array-backed interval map -/
namespace Gpeg

/-- The loop that deletes matching elements by moving the last element into the hole
(`memo/interval/lazy/array.go:50-57`, `memo/interval/lazylog/tree.go:263-271`): the list is the part of the
slice from index `i` on, the fuel its length. -/
def swapRemove {β : Type} (p : β → Bool) : Nat → List β → List β
  | 0, _ => []
  | _ + 1, [] => []
  | f + 1, x :: xs =>
    if p x then
      swapRemove p f (match xs.getLast? with
        | none => []
        | some y => y :: xs.dropLast)
    else x :: swapRemove p f xs

/-- `memo/interval/lazy/array.go:12-15` `slot` with the `ivalue` it points to. -/
structure Slot (α : Type) where
  id : Int
  low : Int
  high : Int
  val : α
deriving Repr, DecidableEq

/-- `memo/interval/lazy/interval.go:24-26` `Overlaps`: half-open intervals. -/
def Slot.overlaps {α : Type} (low high : Int) (s : Slot α) : Bool :=
  decide (s.low < high) && decide (s.high > low)

/-- `memo/interval/lazy/interval.go:13-18` `Shift`. -/
def Slot.shift {α : Type} (amt : Int) (s : Slot α) : Slot α :=
  { s with low := s.low + amt, high := s.high + amt }

/-- `memo/interval/lazy/array.go:8-10` `Array`. Slots are stored by value: the pointers in the code are
never shared between slots. -/
structure IArray (α : Type) where
  slots : List (Slot α) := []

namespace IArray
variable {α : Type}

/-- The loop of `FindLargest` (`memo/interval/lazy/array.go:24-29`): `max` and the value at `maxi`. -/
def findLoop (id pos : Int) : List (Slot α) → Int → Option α → Option α
  | [], _, best => best
  | s :: ss, mx, best =>
    if s.low = pos ∧ s.id = id ∧ s.high > mx then findLoop id pos ss s.high (some s.val)
    else findLoop id pos ss mx best

/-- `memo/interval/lazy/array.go:21-35` `FindLargest`. -/
def findLargest (a : IArray α) (id pos : Int) : Option α := findLoop id pos a.slots 0 none

/-- `memo/interval/lazy/array.go:37-47` `Add`. -/
def add (a : IArray α) (id low high : Int) (val : α) : IArray α := ⟨a.slots ++ [⟨id, low, high, val⟩]⟩

/-- `memo/interval/lazy/array.go:49-68` `RemoveAndShift`. -/
def removeAndShift (a : IArray α) (low high amt : Int) : IArray α :=
  let kept := swapRemove (Slot.overlaps low high) a.slots.length a.slots
  if amt = 0 then ⟨kept⟩
  else ⟨kept.map fun s => if s.low ≥ low then s.shift amt else s⟩

/-- `memo/interval/lazy/array.go:70-72` `Size`. -/
def size (a : IArray α) : Nat := a.slots.length

end IArray
end Gpeg
