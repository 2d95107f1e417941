import Mathlib.Algebra.Order.Field.Rat
/-!
# Function parameters

Models `PiecewiseIntegralParameter` (`/repo/pywr/parameters/_parameters.pyx:2046-2102`), `Polynomial1DParameter` and
`Polynomial2DStorageParameter` (`/repo/pywr/parameters/_polynomial.pyx`) and the activation functions (`/repo/pywr/parameters/_activation_functions.pyx`; the
logistic function, over the reals, is defined beside its theorem in `Props/Functions.lean`).
-/

namespace Verif.Functions

/-- `PiecewiseIntegralParameter.setup` (`:2070-2077`): the arrays are accepted. -/
def integralAccepted (x y : List Rat) : Bool :=
  x.length == y.length && (x.zip x.tail).all fun p : Rat × Rat => decide (¬ (p.2 - p.1 < 0))

/-- The loop of `PiecewiseIntegralParameter.value` (`:2086-2096`) over the remaining `(x[i], y[i])`; `prev` is `prev_x`, `acc` is `integral`. -/
def integralLoop (x : Rat) : Rat → Rat → List (Rat × Rat) → Rat
  | _, acc, [] => acc
  | prev, acc, (xi, yi) :: rest =>
    let dx := if x < xi then x - prev else xi - prev
    if dx < 0 then acc
    else integralLoop x xi (acc + dx * yi) rest

/-- `PiecewiseIntegralParameter.value`. -/
def integral (xs ys : List Rat) (x : Rat) : Rat := integralLoop x 0 0 (xs.zip ys)

/-- `for i in range(n): y += coefficients[i]*x**i` (`_polynomial.pyx:84-87`), from exponent `i` on. -/
def polyLoop (x : Rat) : Nat → Rat → List Rat → Rat
  | _, acc, [] => acc
  | i, acc, c :: cs => polyLoop x (i + 1) (acc + c * x ^ i) cs

/-- `Polynomial1DParameter.value` for the input `x` (`_polynomial.pyx:81-87`). -/
def poly1 (coefficients : List Rat) (scale offset x : Rat) : Rat := polyLoop (x * scale + offset) 0 0 coefficients

/-- The inner loop of `Polynomial2DStorageParameter.value` (`_polynomial.pyx:171-173`), row `i`, from exponent `j` on. -/
def poly2Row (x y : Rat) (i : Nat) : Nat → Rat → List Rat → Rat
  | _, acc, [] => acc
  | j, acc, c :: cs => poly2Row x y i (j + 1) (acc + c * x ^ i * y ^ j) cs

/-- The outer loop (`_polynomial.pyx:170`). -/
def poly2Loop (x y : Rat) : Nat → Rat → List (List Rat) → Rat
  | _, acc, [] => acc
  | i, acc, r :: rs => poly2Loop x y (i + 1) (poly2Row x y i 0 acc r) rs

/-- `Polynomial2DStorageParameter.value` for a storage value and a parameter value. -/
def poly2 (coefficients : List (List Rat)) (scaleX offsetX scaleY offsetY x y : Rat) : Rat :=
  poly2Loop (scaleX * x + offsetX) (scaleY * y + offsetY) 0 0 coefficients

/-- `BinaryStepParameter.get_constant_value` (`_activation_functions.pyx:30-34`). -/
def binaryStep (output value : Rat) : Rat := if value ≤ 0 then 0 else output

/-- `RectifierParameter.get_constant_value` (`_activation_functions.pyx:84-88`). -/
def rectifier (minOutput maxOutput upper value : Rat) : Rat :=
  if value ≤ 0 then 0 else minOutput + (maxOutput - minOutput) * value / upper

end Verif.Functions
