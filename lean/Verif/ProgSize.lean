import Verif.Isa
/-! # Model of `Program.Size` (`isa/isa.go:20-33`) -/
namespace Gpeg

/-- The loop of `Size` (`isa/isa.go:24-31`) with `sz` counted so far. -/
def Program.countFrom : Nat → Program → Nat
  | sz, [] => sz
  | sz, .label _ :: p => Program.countFrom sz p
  | sz, .nop :: p => Program.countFrom sz p
  | sz, _ :: p => Program.countFrom (sz + 1) p

/-- `isa/isa.go:22-33` `Size`. -/
def Program.count (p : Program) : Nat := Program.countFrom 0 p

end Gpeg
