import Mathlib.Algebra.Field.Defs
import Mathlib.Data.Rat.Defs

/-!
# Model: inverses of small matrices and products of vectors

Models `naive_matrix_inverse<3>` and `naive_matrix_inverse<4>`,
`include/neso_particles/device_functions.hpp:375-454`, and the products of vectors `dot_product_2d`,
`dot_product_3d` and `cross_product` (73-94).

Simplifications. Numbers are those of any field; division by zero, which makes all entries of the
output infinite or NaN, is `none`. The matrix is a function of the index into the array, the result is the
list of the entries of the output. The arrays do not overlap (they are `RESTRICT`).
-/

set_option autoImplicit false

namespace NP

/-- The number that `naive_matrix_inverse<3>` divides by, device_functions.hpp:378-379. -/
def naiveDet3 {F : Type} [Field F] (M : Nat → F) : F :=
  M 0 * M 4 * M 8 - M 0 * M 5 * M 7 - M 1 * M 3 * M 8 + M 1 * M 5 * M 6 + M 2 * M 3 * M 7 -
  M 2 * M 4 * M 6

/-- `naive_matrix_inverse<3>`, device_functions.hpp:376-388: the entries of `L`. -/
def naiveInverse3 {F : Type} [Field F] [DecidableEq F] (M : Nat → F) : Option (List F) :=
  if naiveDet3 M = 0 then none else
  let inverseFactor := 1 / naiveDet3 M
  some [(M 4 * M 8 - M 5 * M 7) * inverseFactor,
    (-M 1 * M 8 + M 2 * M 7) * inverseFactor,
    (M 1 * M 5 - M 2 * M 4) * inverseFactor,
    (-M 3 * M 8 + M 5 * M 6) * inverseFactor,
    (M 0 * M 8 - M 2 * M 6) * inverseFactor,
    (-M 0 * M 5 + M 2 * M 3) * inverseFactor,
    (M 3 * M 7 - M 4 * M 6) * inverseFactor,
    (-M 0 * M 7 + M 1 * M 6) * inverseFactor,
    (M 0 * M 4 - M 1 * M 3) * inverseFactor]

/-- The number that `naive_matrix_inverse<4>` divides by, device_functions.hpp:394-405. -/
def naiveDet4 {F : Type} [Field F] (M : Nat → F) : F :=
  -M 0 * M 10 * M 13 * M 7 + M 0 * M 10 * M 15 * M 5 + M 0 * M 11 * M 13 * M 6 -
  M 0 * M 11 * M 14 * M 5 + M 0 * M 14 * M 7 * M 9 - M 0 * M 15 * M 6 * M 9 +
  M 10 * M 12 * M 1 * M 7 - M 10 * M 12 * M 3 * M 5 + M 10 * M 13 * M 3 * M 4 -
  M 10 * M 15 * M 1 * M 4 - M 11 * M 12 * M 1 * M 6 + M 11 * M 12 * M 2 * M 5 -
  M 11 * M 13 * M 2 * M 4 + M 11 * M 14 * M 1 * M 4 - M 12 * M 2 * M 7 * M 9 +
  M 12 * M 3 * M 6 * M 9 + M 13 * M 2 * M 7 * M 8 - M 13 * M 3 * M 6 * M 8 -
  M 14 * M 1 * M 7 * M 8 - M 14 * M 3 * M 4 * M 9 + M 14 * M 3 * M 5 * M 8 +
  M 15 * M 1 * M 6 * M 8 + M 15 * M 2 * M 4 * M 9 - M 15 * M 2 * M 5 * M 8

/-- `naive_matrix_inverse<4>`, device_functions.hpp:392-454: the entries of `L`. -/
def naiveInverse4 {F : Type} [Field F] [DecidableEq F] (M : Nat → F) : Option (List F) :=
  if naiveDet4 M = 0 then none else
  let inverseFactor := 1 / naiveDet4 M
  some [(-M 10 * M 13 * M 7 + M 10 * M 15 * M 5 + M 11 * M 13 * M 6 - M 11 * M 14 * M 5 +
     M 14 * M 7 * M 9 - M 15 * M 6 * M 9) * inverseFactor,
    (M 10 * M 13 * M 3 - M 10 * M 15 * M 1 - M 11 * M 13 * M 2 + M 11 * M 14 * M 1 -
     M 14 * M 3 * M 9 + M 15 * M 2 * M 9) * inverseFactor,
    (M 13 * M 2 * M 7 - M 13 * M 3 * M 6 - M 14 * M 1 * M 7 + M 14 * M 3 * M 5 + M 15 * M 1 * M 6 -
     M 15 * M 2 * M 5) * inverseFactor,
    (M 10 * M 1 * M 7 - M 10 * M 3 * M 5 - M 11 * M 1 * M 6 + M 11 * M 2 * M 5 - M 2 * M 7 * M 9 +
     M 3 * M 6 * M 9) * inverseFactor,
    (M 10 * M 12 * M 7 - M 10 * M 15 * M 4 - M 11 * M 12 * M 6 + M 11 * M 14 * M 4 -
     M 14 * M 7 * M 8 + M 15 * M 6 * M 8) * inverseFactor,
    (M 0 * M 10 * M 15 - M 0 * M 11 * M 14 - M 10 * M 12 * M 3 + M 11 * M 12 * M 2 +
     M 14 * M 3 * M 8 - M 15 * M 2 * M 8) * inverseFactor,
    (M 0 * M 14 * M 7 - M 0 * M 15 * M 6 - M 12 * M 2 * M 7 + M 12 * M 3 * M 6 - M 14 * M 3 * M 4 +
     M 15 * M 2 * M 4) * inverseFactor,
    (-M 0 * M 10 * M 7 + M 0 * M 11 * M 6 + M 10 * M 3 * M 4 - M 11 * M 2 * M 4 + M 2 * M 7 * M 8 -
     M 3 * M 6 * M 8) * inverseFactor,
    (M 11 * M 12 * M 5 - M 11 * M 13 * M 4 - M 12 * M 7 * M 9 + M 13 * M 7 * M 8 + M 15 * M 4 * M 9 -
     M 15 * M 5 * M 8) * inverseFactor,
    (M 0 * M 11 * M 13 - M 0 * M 15 * M 9 - M 11 * M 12 * M 1 + M 12 * M 3 * M 9 - M 13 * M 3 * M 8 +
     M 15 * M 1 * M 8) * inverseFactor,
    (-M 0 * M 13 * M 7 + M 0 * M 15 * M 5 + M 12 * M 1 * M 7 - M 12 * M 3 * M 5 + M 13 * M 3 * M 4 -
     M 15 * M 1 * M 4) * inverseFactor,
    (-M 0 * M 11 * M 5 + M 0 * M 7 * M 9 + M 11 * M 1 * M 4 - M 1 * M 7 * M 8 - M 3 * M 4 * M 9 +
     M 3 * M 5 * M 8) * inverseFactor,
    (-M 10 * M 12 * M 5 + M 10 * M 13 * M 4 + M 12 * M 6 * M 9 - M 13 * M 6 * M 8 -
     M 14 * M 4 * M 9 + M 14 * M 5 * M 8) * inverseFactor,
    (-M 0 * M 10 * M 13 + M 0 * M 14 * M 9 + M 10 * M 12 * M 1 - M 12 * M 2 * M 9 +
     M 13 * M 2 * M 8 - M 14 * M 1 * M 8) * inverseFactor,
    (M 0 * M 13 * M 6 - M 0 * M 14 * M 5 - M 12 * M 1 * M 6 + M 12 * M 2 * M 5 - M 13 * M 2 * M 4 +
     M 14 * M 1 * M 4) * inverseFactor,
    (M 0 * M 10 * M 5 - M 0 * M 6 * M 9 - M 10 * M 1 * M 4 + M 1 * M 6 * M 8 + M 2 * M 4 * M 9 -
     M 2 * M 5 * M 8) * inverseFactor]

/-- `Kernel::dot_product_2d`, device_functions.hpp:73-75. -/
def kernelDot2 {F : Type} [Field F] (a b : Nat → F) : F := a 0 * b 0 + a 1 * b 1

/-- `Kernel::dot_product_3d`, device_functions.hpp:76-78. -/
def kernelDot3 {F : Type} [Field F] (a b : Nat → F) : F := a 0 * b 0 + a 1 * b 1 + a 2 * b 2

/-- `Kernel::cross_product`, device_functions.hpp:86-93: the values of the three outputs. -/
def kernelCross {F : Type} [Field F] (a1 a2 a3 b1 b2 b3 : F) : F × F × F :=
  (a2 * b3 - a3 * b2, a3 * b1 - a1 * b3, a1 * b2 - a2 * b1)

end NP
