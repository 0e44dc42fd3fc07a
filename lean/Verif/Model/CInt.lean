import Verif.Model.Ffi
import Verif.Model.Session

/-!
# Machine integers at the C interface

The other models take lengths as natural numbers.  Here the lengths are the machine integers of the
C interface (`c_int`: 32 bits, signed; `usize`: 64 bits, as on the targets the library is built
for), and the arithmetic on them is that of the compiled code: with overflow checks (`checks =
true`, the debug profile) an overflow panics, without them (the release profile) it wraps.
-/

namespace Verif

section
variable {ε : Type*}

/-- `a + b` on `usize`, as at `crates/bls-crypto/src/hashers/direct.rs:50`. -/
def usizeAdd (checks : Bool) (a b : ℕ) : Outcome ε ℕ :=
  if a + b < 2 ^ 64 then .ok (a + b) else if checks then .panic else .ok (a + b - 2 ^ 64)

/-- `a - b` on `usize`, as at `crates/bls-crypto/src/hashers/direct.rs:50`. -/
def usizeSub (checks : Bool) (a b : ℕ) : Outcome ε ℕ :=
  if b ≤ a then .ok (a - b) else if checks then .panic else .ok (2 ^ 64 + a - b)

/-- `a * b` on `usize`, as at `crates/bls-snark-sys/src/snark/epoch_block.rs:169`. -/
def usizeMul (checks : Bool) (a b : ℕ) : Outcome ε ℕ :=
  if a * b < 2 ^ 64 then .ok (a * b) else if checks then .panic else .ok (a * b % 2 ^ 64)

end

/-- Parameters of block `i` of `numHashes` of `DirectHasher::xof`,
`crates/bls-crypto/src/hashers/direct.rs:54-69`.  Only called with `i < numHashes`, so
`num_hashes - 1` does not overflow. -/
def xofBlockParams (domain : Bytes) (xofDigestLength numHashes i : ℕ) :
    Outcome BLSError Blake2sParams :=
  let hashLength :=
    if i = numHashes - 1 ∧ xofDigestLength % 32 ≠ 0 then xofDigestLength % 32 else 32
  (Blake2sParams.new.setHashLength hashLength).bind fun p =>
  (({ p with maxLeafLength := 32, innerHashLength := 32, fanout := 0, maxDepth := 0 } :
    Blake2sParams).setPersonal domain).bind fun p =>
  p.setNodeOffset (xofDigestLengthToNodeOffset i xofDigestLength)

/-- `DirectHasher::xof`, `crates/bls-crypto/src/hashers/direct.rs:41-79`, with the arithmetic of
`usize` (line 50).  Memory is unbounded. -/
def directXofUsize (checks : Bool) (B : Blake2s) (domain hashedMessage : Bytes)
    (xofDigestLength : ℕ) : Outcome BLSError Bytes :=
  if domain.length > 8 then .err (.domainTooLarge domain.length)
  else
    (usizeAdd checks xofDigestLength 32).bind fun s =>
    (usizeSub checks s 1).bind fun s =>
    let numHashes := s / 32
    (Outcome.mapM (fun i => (xofBlockParams domain xofDigestLength numHashes i).map fun p =>
        B.run p hashedMessage) (List.range numHashes)).map List.flatten

/-- `DirectHasher`, `crates/bls-crypto/src/hashers/direct.rs:6,20-80`, with the arithmetic of
`usize`. -/
def directHasherUsize (checks : Bool) (B : Blake2s) : Hasher :=
  ⟨directCrh B, directXofUsize checks B⟩

/-- `hash_direct_first_step`, `crates/bls-snark-sys/src/signatures.rs:192-212`, with the length as
the C caller passes it; `hash_bytes as usize` (202) extends the sign. -/
def ffiHashDirectFirstStepInt (checks : Bool) (B : Blake2s) (message : Bytes) (hashBytes : Int32) :
    FfiM BytesOut Unit Bool :=
  ffiHashDirectFirstStep (directHasherUsize checks B) message (usizeOfInt32 hashBytes)

/-- `hash_crh`, `crates/bls-snark-sys/src/signatures.rs:169-189`, with the length as the C caller
passes it (178); `pedersen` as in `compositeHasher`. -/
def ffiHashCrhInt (B : Blake2s) (pedersen : Bytes → Outcome BLSError Bytes) (message : Bytes)
    (hashBytes : Int32) : FfiM BytesOut Unit Bool :=
  ffiHashCrh (compositeHasher B pedersen) message (usizeOfInt32 hashBytes)

/-- `read_pubkeys`, `crates/bls-snark-sys/src/snark/epoch_block.rs:187-196`, with the product of
`read_serialized_pubkeys` (168-170) computed on `usize`. -/
noncomputable def readPubkeysUsize (checks : Bool) (sqrt : Fq2 → Option Fq2) (mem : Memory)
    (ptr num : ℕ) : Outcome SerError (List G2Point) :=
  (usizeMul checks num PUBKEY_BYTES).bind fun len =>
  readPubkeysLoop sqrt num (mem.slice ptr len) []

end Verif
