import Verif.Model.Ffi
import Verif.Model.Pedersen

/-!
# Model: the hashes of the library as the C interface uses them

`crates/bls-snark-sys/src/signatures.rs` uses three lazily initialised hashes to the curve.  In
`Verif.Model.Ffi` they are the fields of a parameter `HashEnv`; here they are built as in the code.
-/

namespace Verif

section
variable {M G : Type*} [AddCommGroup M] [AddCommGroup G] [DecidableEq G]

/-- `CompositeHasher::new`, `crates/bls-crypto/src/hashers/composite.rs:48-52`: `B` is BLAKE2s, `draw`
the points drawn by the setup, `x` the affine `x` coordinate (see `setupCrh` and `pedersenCrh`). -/
def newComposite (B : Blake2s) (draw : Bytes → ℕ → M) (x : M → Fq) : Outcome BLSError Hasher :=
  (setupCrh B draw).bind fun parameters => .ok (compositeHasher B (pedersenCrh x parameters))

/-- Forcing `COMPOSITE_HASHER`, `crates/bls-crypto/src/hashers/composite.rs:36-37`: `unwrap` panics on
an error.  That the value is computed once and kept is not modelled; the computation has no other
effect. -/
def libraryComposite (B : Blake2s) (draw : Bytes → ℕ → M) (x : M → Fq) : Outcome BLSError Hasher :=
  match newComposite B draw x with
  | .ok h => .ok h
  | .err _ => .panic
  | .panic => .panic

/-- `DIRECT_HASH_TO_G1` and `COMPOSITE_HASH_TO_G1`,
`crates/bls-crypto/src/hash_to_curve/try_and_increment.rs:30-40`, and `COMPOSITE_HASH_TO_G1_CIP22`,
`crates/bls-crypto/src/hash_to_curve/try_and_increment_cip22.rs:30-32` (with the constructors
`TryAndIncrement::new`, `try_and_increment.rs:55-60`, and `TryAndIncrementCIP22::new`,
`try_and_increment_cip22.rs:49-54`): each use forces the value.  `compat` is the cargo feature, `sqrt`
and `scale` are as in `hashWithAttempt`. -/
def libraryEnv (compat : Bool) (B : Blake2s) (draw : Bytes → ℕ → M) (x : M → Fq)
    (sqrt : Fq → Option Fq) (scale : AffinePoint Fq → G) : HashEnv G where
  directAttempt := hashWithAttempt compat (directHasher B) sqrt scale
  compositeAttempt domain message extra := (libraryComposite B draw x).bind fun h =>
    hashWithAttempt compat h sqrt scale domain message extra
  cip22Attempt domain message extra := (libraryComposite B draw x).bind fun h =>
    hashWithAttemptCip22 compat h sqrt scale domain message extra

/-- `init`, `crates/bls-snark-sys/src/lib.rs:31-34`: forces the composite and the direct hash (the
latter does nothing); nothing is returned. -/
def ffiInit (B : Blake2s) (draw : Bytes → ℕ → M) (x : M → Fq) : FfiM Unit BLSError Unit :=
  (FfiM.lift (libraryComposite B draw x)).bind fun _ => FfiM.lift (.ok ())

end

end Verif
