import Mathlib.Analysis.Real.Sqrt
import Mathlib.Analysis.Complex.Trigonometric

/-!
Floating-point numbers with exact arithmetic: reals, the two infinities and NaN. Rounding and signed zeros
are not modelled (zero is +0). Used where the code divides by possibly zero quantities and then relies on
infinities.
-/
namespace Bark

/-- value of a `double` -/
inductive Num where
  | fin (x : ℝ)
  | pinf
  | ninf
  | nan

namespace Num

/-- IEEE negation -/
def neg : Num → Num
  | fin x => fin (-x)
  | pinf => ninf
  | ninf => pinf
  | nan => nan

/-- IEEE addition -/
noncomputable def add : Num → Num → Num
  | fin x, fin y => fin (x + y)
  | nan, _ => nan
  | _, nan => nan
  | pinf, ninf => nan
  | ninf, pinf => nan
  | pinf, _ => pinf
  | _, pinf => pinf
  | ninf, _ => ninf
  | _, ninf => ninf

/-- IEEE subtraction -/
noncomputable def sub (a b : Num) : Num := add a (neg b)

open Classical in
/-- infinity times a real -/
noncomputable def infMul (x : ℝ) : Num := if 0 < x then pinf else if x < 0 then ninf else nan

/-- IEEE multiplication -/
noncomputable def mul : Num → Num → Num
  | fin x, fin y => fin (x * y)
  | nan, _ => nan
  | _, nan => nan
  | pinf, fin x => infMul x
  | fin x, pinf => infMul x
  | ninf, fin x => neg (infMul x)
  | fin x, ninf => neg (infMul x)
  | pinf, pinf => pinf
  | ninf, ninf => pinf
  | pinf, ninf => ninf
  | ninf, pinf => ninf

open Classical in
/-- IEEE division (a zero divisor counts as +0) -/
noncomputable def div : Num → Num → Num
  | fin x, fin y => if y = 0 then infMul x else fin (x / y)
  | nan, _ => nan
  | _, nan => nan
  | fin _, _ => fin 0
  | pinf, fin y => if y < 0 then ninf else pinf
  | ninf, fin y => if y < 0 then pinf else ninf
  | _, _ => nan

/-- IEEE `<` -/
def lt : Num → Num → Prop
  | fin x, fin y => x < y
  | nan, _ => False
  | _, nan => False
  | ninf, ninf => False
  | ninf, _ => True
  | _, ninf => False
  | pinf, _ => False
  | _, pinf => True

/-- IEEE `>=` -/
def ge : Num → Num → Prop
  | fin x, fin y => y ≤ x
  | nan, _ => False
  | _, nan => False
  | _, ninf => True
  | ninf, _ => False
  | pinf, _ => True
  | fin _, pinf => False

open Classical in
/-- `std::min(a, b)` = `(b < a) ? b : a` -/
noncomputable def cmin (a b : Num) : Num := if lt b a then b else a

open Classical in
/-- `std::max(a, b)` = `(a < b) ? b : a` -/
noncomputable def cmax (a b : Num) : Num := if lt a b then b else a

/-- `tanh` -/
noncomputable def tanh : Num → Num
  | fin x => fin (Real.tanh x)
  | pinf => fin 1
  | ninf => fin (-1)
  | nan => nan

open Classical in
/-- `sqrt` -/
noncomputable def sqrt : Num → Num
  | fin x => if x < 0 then nan else fin (Real.sqrt x)
  | pinf => pinf
  | _ => nan

open Classical in
/-- `pow` with a non-negative integer exponent -/
noncomputable def pow (a : Num) (n : Nat) : Num :=
  if n = 0 then fin 1
  else match a with
    | fin x => fin (x ^ n)
    | pinf => pinf
    | ninf => if Even n then pinf else ninf
    | nan => nan

end Num
end Bark
