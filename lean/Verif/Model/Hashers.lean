import Verif.Basic
import Verif.Model.Bls
import Mathlib.Algebra.Order.Floor.Semiring
import Mathlib.Data.Rat.Floor

/-!
# Byte-string hashers

Models `crates/bls-crypto/src/hashers/{mod,direct,composite}.rs` and `hash_length` of
`crates/bls-crypto/src/hash_to_curve/mod.rs`.
-/

namespace Verif

/-- `trait Hasher`, `crates/bls-crypto/src/hashers/mod.rs:9-30`: a CRH and an XOF
(arguments: domain, input, output length in bytes). -/
structure Hasher where
  crh : Bytes → Bytes → ℕ → Outcome BLSError Bytes
  xof : Bytes → Bytes → ℕ → Outcome BLSError Bytes

/-- `Hasher::hash`, `crates/bls-crypto/src/hashers/mod.rs:33-41`. -/
def Hasher.hash (h : Hasher) (domain message : Bytes) (outputSize : ℕ) : Outcome BLSError Bytes :=
  (h.crh domain message outputSize).bind fun prepared => h.xof domain prepared outputSize

/-- The tunable fields of `blake2s_simd::Params` (external) that the code sets, as used at
`crates/bls-crypto/src/hashers/direct.rs:29-34,59-70`.  Fields never set (key length, node depth,
salt, last-node flag) are left out. -/
structure Blake2sParams where
  hashLength : ℕ
  fanout : ℕ
  maxDepth : ℕ
  maxLeafLength : ℕ
  nodeOffset : ℕ
  innerHashLength : ℕ
  /-- always 8 bytes, zero padded -/
  personal : Bytes
  deriving DecidableEq, Repr

/-- `Params::new()` (blake2s_simd, external): the defaults of the BLAKE2 specification, as used at
`crates/bls-crypto/src/hashers/direct.rs:29,59`. -/
def Blake2sParams.new : Blake2sParams :=
  { hashLength := 32, fanout := 1, maxDepth := 1, maxLeafLength := 0, nodeOffset := 0,
    innerHashLength := 0, personal := List.replicate 8 0 }

/-- `Params::hash_length` (blake2s_simd, external; called at `crates/bls-crypto/src/hashers/direct.rs:30,60`):
panics unless `1 ≤ n ≤ 32`. -/
def Blake2sParams.setHashLength (p : Blake2sParams) (n : ℕ) : Outcome BLSError Blake2sParams :=
  if 1 ≤ n ∧ n ≤ 32 then .ok { p with hashLength := n } else .panic

/-- `Params::node_offset` (blake2s_simd, external; called at `crates/bls-crypto/src/hashers/direct.rs:31,66`):
panics unless the offset fits in 48 bits. -/
def Blake2sParams.setNodeOffset (p : Blake2sParams) (n : ℕ) : Outcome BLSError Blake2sParams :=
  if n < 2 ^ 48 then .ok { p with nodeOffset := n } else .panic

/-- `Params::personal` (blake2s_simd, external; called at `crates/bls-crypto/src/hashers/direct.rs:32,65`):
panics on more than 8 bytes, pads with zeros. -/
def Blake2sParams.setPersonal (p : Blake2sParams) (d : Bytes) : Outcome BLSError Blake2sParams :=
  if d.length ≤ 8 then .ok { p with personal := d ++ List.replicate (8 - d.length) 0 } else .panic

/-- The 32-byte BLAKE2s parameter block (RFC 7693 section 2.5/BLAKE2X layout) that
`Params::to_state` (blake2s_simd, external) feeds to the compression function; `direct.rs:34,70`.
Key length, node depth and salt are zero. -/
def Blake2sParams.block (p : Blake2sParams) : Bytes :=
  [UInt8.ofNat p.hashLength, 0, UInt8.ofNat p.fanout, UInt8.ofNat p.maxDepth] ++
  (List.range 4).map (fun i => UInt8.ofNat (p.maxLeafLength / 256 ^ i)) ++
  (List.range 6).map (fun i => UInt8.ofNat (p.nodeOffset / 256 ^ i)) ++
  [0, UInt8.ofNat p.innerHashLength] ++ List.replicate 8 0 ++ p.personal

/-- The BLAKE2s function itself (external; run at `crates/bls-crypto/src/hashers/direct.rs:33-35`): parameters and
message to digest.  The only assumed
behaviour is the length of the digest. -/
structure Blake2s where
  run : Blake2sParams → Bytes → Bytes
  length_run : ∀ p m, (run p m).length = p.hashLength

/-- `xof_digest_length_to_node_offset`, `crates/bls-crypto/src/hashers/direct.rs:8-18`: the length
is cast to `u16` and its two bytes are placed at bits 32 and 40. -/
def xofDigestLengthToNodeOffset (nodeOffset xofDigestLength : ℕ) : ℕ :=
  let len16 := xofDigestLength % 2 ^ 16
  nodeOffset ||| ((len16 % 256) <<< 32) ||| ((len16 / 256) <<< 40)

/-- Parameters of `DirectHasher::crh`, `crates/bls-crypto/src/hashers/direct.rs:29-32`. -/
def directCrhParams (domain : Bytes) (xofDigestLength : ℕ) : Outcome BLSError Blake2sParams :=
  (Blake2sParams.new.setHashLength 32).bind fun p =>
  (p.setNodeOffset (xofDigestLengthToNodeOffset 0 xofDigestLength)).bind fun p =>
  p.setPersonal domain

/-- `DirectHasher::crh`, `crates/bls-crypto/src/hashers/direct.rs:23-39`. -/
def directCrh (B : Blake2s) (domain message : Bytes) (xofDigestLength : ℕ) :
    Outcome BLSError Bytes :=
  (directCrhParams domain xofDigestLength).bind fun p => .ok (B.run p message)

/-- Number of blocks, `crates/bls-crypto/src/hashers/direct.rs:50`. -/
def xofNumHashes (xofDigestLength : ℕ) : ℕ := (xofDigestLength + 32 - 1) / 32

/-- Parameters of block `i` of `DirectHasher::xof`,
`crates/bls-crypto/src/hashers/direct.rs:54-69`. -/
def directXofParams (domain : Bytes) (xofDigestLength i : ℕ) : Outcome BLSError Blake2sParams :=
  let hashLength :=
    if i = xofNumHashes xofDigestLength - 1 ∧ xofDigestLength % 32 ≠ 0 then xofDigestLength % 32
    else 32
  (Blake2sParams.new.setHashLength hashLength).bind fun p =>
  (({ p with maxLeafLength := 32, innerHashLength := 32, fanout := 0, maxDepth := 0 } :
    Blake2sParams).setPersonal domain).bind fun p =>
  p.setNodeOffset (xofDigestLengthToNodeOffset i xofDigestLength)

/-- `DirectHasher::xof`, `crates/bls-crypto/src/hashers/direct.rs:41-79`. -/
def directXof (B : Blake2s) (domain hashedMessage : Bytes) (xofDigestLength : ℕ) :
    Outcome BLSError Bytes :=
  if domain.length > 8 then .err (.domainTooLarge domain.length)
  else
    (Outcome.mapM (fun i => (directXofParams domain xofDigestLength i).map fun p =>
        B.run p hashedMessage) (List.range (xofNumHashes xofDigestLength))).map List.flatten

/-- `DirectHasher`, `crates/bls-crypto/src/hashers/direct.rs:6,20-80`. -/
def directHasher (B : Blake2s) : Hasher := ⟨directCrh B, directXof B⟩

/-- `CompositeHasher`, `crates/bls-crypto/src/hashers/composite.rs:75-96`.  `pedersen` stands for
the Bowe-Hopwood-Pedersen evaluation followed by serialisation of the affine `x` coordinate
(`composite.rs:81-85`, external hash); domain and length are ignored by `crh`. -/
def compositeHasher (B : Blake2s) (pedersen : Bytes → Outcome BLSError Bytes) : Hasher :=
  ⟨fun _ message _ => pedersen message, directXof B⟩

/-- `hash_length`, `crates/bls-crypto/src/hash_to_curve/mod.rs:70-74`.  The `f64` arithmetic is
modelled by exact rational arithmetic (they agree while `8 * n < 2 ^ 53`). -/
def hashLength (n : ℕ) : ℕ :=
  let bits : ℚ := ((n * 8 : ℕ) : ℚ) / 256
  let roundedBits : ℕ := ⌈bits⌉₊ * 256
  roundedBits / 8

end Verif
