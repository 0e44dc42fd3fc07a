import Verif.Lemmas.Primes

/-!
# Model: generating a private key

`PrivateKey::generate` draws the key with `Fr::rand` (ark_ff, external), which is written out here.  The
random generator is a parameter: the sequence of the 64-bit words it returns.
-/

namespace Verif

/-- The four limbs of a candidate for a scalar, with the unused three bits of the last one masked
(`UniformRand` for `Fp256`, ark_ff, external), drawn at `crates/bls-crypto/src/bls/secret.rs:29`. -/
def frCandidate (u : ℕ → ℕ) (pos : ℕ) : ℕ :=
  u pos + 2 ^ 64 * u (pos + 1) + 2 ^ 128 * u (pos + 2) + 2 ^ 192 * (u (pos + 3) % 2 ^ 61)

/-- `Fr::rand` (ark_ff, external), drawn at `crates/bls-crypto/src/bls/secret.rs:29`, and the next
position: candidates are drawn until one is below the order, which is then taken as the Montgomery form
of the scalar.  The loop has no bound; `none` is that it is still running after `fuel` rounds. -/
def sampleFr (u : ℕ → ℕ) : ℕ → ℕ → Option (ZMod FR_MODULUS × ℕ)
  | 0, _ => none
  | fuel + 1, pos =>
    if frCandidate u pos < FR_MODULUS then
      some ((frCandidate u pos : ZMod FR_MODULUS) / 2 ^ 256, pos + 4)
    else sampleFr u fuel (pos + 4)

/-- `PrivateKey::generate`, `crates/bls-crypto/src/bls/secret.rs:28-30` (called with `thread_rng` by
`crates/bls-snark-sys/src/signatures.rs:19-25`): the key and the position of the generator afterwards.
For `none` see `sampleFr`. -/
def generateKey (u : ℕ → ℕ) (fuel pos : ℕ) : Option (ZMod FR_MODULUS × ℕ) := sampleFr u fuel pos

end Verif
