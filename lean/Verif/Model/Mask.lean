import Mathlib.Data.Rat.Defs
import Mathlib.Algebra.Order.Field.Rat
import Mathlib.Data.Nat.Bitwise
import Verif.Basic

/-!
# `CMask` (`src/lib/common/mask.cpp`, `RedshiftLibrary/common/mask.h`)

A mask is a vector of `UInt8` weights, here naturals. The sums are unbounded (an `Int32` overflow
would need more than 8 million samples of weight 255).
-/

namespace Amazed
namespace Mask

/-- Sum of the weights: `CMask::GetUnMaskedSampleCount` (mask.h:90-96). -/
def unmaskedCount (m : List Nat) : Nat := m.foldl (· + ·) 0

/-- `CMask::GetMaskedSampleCount` (mask.h:84-86). -/
def maskedCount (m : List Nat) : Int := (m.length : Int) - unmaskedCount m

/-- `CMask::operator&=` (mask.cpp:48-57): unchanged when the sizes differ. -/
def andAssign (m other : List Nat) : List Nat :=
  if m.length ≠ other.length then m else List.zipWith (fun a b => b &&& a) m other

/-- `CMask::IntersectWith` (mask.cpp:62-74): returned flag and new value. -/
def intersectWith (m other : List Nat) : Bool × List Nat :=
  if m.length ≠ other.length then (false, m) else (true, List.zipWith (fun a b => a &&& b) m other)

/-- `CMask::CompouteOverlapFraction` (mask.cpp:79-107). -/
def overlapFraction (m other : List Nat) : ℚ :=
  if other.length ≠ m.length then -1
  else if m.foldl (· + ·) 0 = 0 then 0
  else ((other.foldl (· + ·) 0 : Nat) : ℚ) / ((m.foldl (· + ·) 0 : Nat) : ℚ)

/-- Accumulators `(selfRate, otherRate)` of the loop of `IntersectAndComputeOverlapFraction`
(mask.cpp:116-125). -/
def rates : List Nat → List Nat → Nat × Nat → Nat × Nat
  | a :: m, b :: o, (s, t) => rates m o (s + a, t + (b &&& a))
  | _, _, acc => acc

/-- `CMask::IntersectAndComputeOverlapFraction` (mask.cpp:112-131). -/
def intersectOverlapFraction (m other : List Nat) : ℚ :=
  if other.length ≠ m.length then -1
  else
    let (s, t) := rates m other (0, 0)
    if s = 0 then 0 else (t : ℚ) / (s : ℚ)

end Mask
end Amazed
