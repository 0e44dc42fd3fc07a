import Verif.Model.Hashers
import Mathlib.Data.Int.Log
import Mathlib.Data.Rat.Floor

/-!
# The floating point arithmetic of the code

`f64` (IEEE 754 binary64) on the non-negative values that occur, as rational numbers together with
rounding to 53 significant bits, ties to even.  Neither overflow to infinity (from `2 ^ 1024`) nor
subnormal numbers occur for integers below `2 ^ 64` and their quotients by 8 or 256.
-/

namespace Verif

/-- Round to an integer, ties to even (IEEE 754, external), for
`crates/bls-crypto/src/hash_to_curve/mod.rs:71-72`. -/
def roundHalfEven (y : ℚ) : ℤ :=
  let f := ⌊y⌋
  if y - f < 1 / 2 then f
  else if 1 / 2 < y - f then f + 1
  else if f % 2 = 0 then f else f + 1

/-- Round to 53 significant bits (IEEE 754, external), for
`crates/bls-crypto/src/hash_to_curve/mod.rs:71-72`. -/
def f64Round (x : ℚ) : ℚ :=
  if x = 0 then 0
  else
    let ulp : ℚ := (2 : ℚ) ^ (Int.log 2 x - 52)
    roundHalfEven (x / ulp) * ulp

/-- `as f64` of an integer, `crates/bls-crypto/src/hash_to_curve/mod.rs:71,325,331`. -/
def natToF64 (n : ℕ) : ℚ := f64Round n

/-- Division of `f64`, `crates/bls-crypto/src/hash_to_curve/mod.rs:71,325,331`. -/
def f64Div (x y : ℚ) : ℚ := f64Round (x / y)

/-- Multiplication of `f64`, `crates/bls-crypto/src/hash_to_curve/mod.rs:72`. -/
def f64Mul (x y : ℚ) : ℚ := f64Round (x * y)

/-- `ceil` of `f64`, `crates/bls-crypto/src/hash_to_curve/mod.rs:72,325,331`; the result is always a
float. -/
def f64Ceil (x : ℚ) : ℚ := (⌈x⌉ : ℚ)

/-- `as usize` of a non-negative `f64`, `crates/bls-crypto/src/hash_to_curve/mod.rs:73,325,331`:
truncates and saturates. -/
def f64ToUsize (x : ℚ) : ℕ := min ⌊x⌋₊ (2 ^ 64 - 1)

/-- `hash_length`, `crates/bls-crypto/src/hash_to_curve/mod.rs:70-74`, with the floating point
arithmetic it uses; `n * 8` overflows `usize` with a panic or, without overflow checks, by wrapping. -/
def hashLengthF64 (overflowChecks : Bool) (n : ℕ) : Outcome BLSError ℕ :=
  if overflowChecks ∧ 2 ^ 64 ≤ n * 8 then .panic
  else
    let bits := f64Div (natToF64 (n * 8 % 2 ^ 64)) 256
    let roundedBits := f64Mul (f64Ceil bits) 256
    .ok (f64ToUsize roundedBits / 8)

/-- `fp_bits` and `hash_fp_bits`, `crates/bls-crypto/src/hash_to_curve/mod.rs:324-331`, for a field of
the given number of bits. -/
def compatBits (modulusBits : ℕ) : ℕ × ℕ :=
  (f64ToUsize (f64Ceil (f64Div (natToF64 modulusBits) 8)) * 8,
    f64ToUsize (f64Ceil (f64Div (natToF64 modulusBits) 256)) * 256)

end Verif
