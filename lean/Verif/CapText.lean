import Verif.Capture
import Verif.Listing
/-! # Model of `Capture.String` (`memo/capture.go:131-142`) -/
namespace Gpeg

mutual
/-- `memo/capture.go:133-142` `String`: `{id, [children]}`. The field `id` of a dummy is 0 (`:36`); the type is not printed. -/
def Capture.text : Capture → List Char
  | .node id _ _ ch => '{' :: (numI id ++ ',' :: ' ' :: '[' :: (Capture.textL ch ++ [']', '}']))
  | .dummy _ _ ch => '{' :: (numI 0 ++ ',' :: ' ' :: '[' :: (Capture.textL ch ++ [']', '}']))
/-- The loop (`memo/capture.go:135-140`): a comma after every child but the last. -/
def Capture.textL : List Capture → List Char
  | [] => []
  | [c] => c.text
  | c :: d :: r => c.text ++ ',' :: ' ' :: Capture.textL (d :: r)
end

end Gpeg
