import Verif.Basic
import Verif.Model.Bls

/-!
# Bit and byte conversions

Models `crates/bls-gadgets/src/utils.rs`.
-/

namespace Verif

/-- Rust's `slice::chunks` (std, external), used at `crates/bls-gadgets/src/utils.rs:10` and
`crates/epoch-snark/src/gadgets/mod.rs:77`: consecutive pieces of length `n`, the last one possibly
shorter.  `n = 0` panics in Rust and is never used. -/
def chunks {α : Type*} (n : ℕ) (l : List α) : List (List α) :=
  if _h : n = 0 ∨ l = [] then []
  else l.take n :: chunks n (l.drop n)
termination_by l.length
decreasing_by
  have h1 : n ≠ 0 := fun e => _h (Or.inl e)
  have h2 : 0 < l.length := List.length_pos_iff.mpr fun e => _h (Or.inr e)
  simp only [List.length_drop]
  omega

/-- Inner loop of `bits_be_to_bytes_le`, `crates/bls-gadgets/src/utils.rs:11-16`.  `u8` addition is
modelled as wrapping; it is proved not to overflow (`packByte_toNat`). -/
def packByte (chunk : List Bool) : UInt8 :=
  (chunk.foldl (fun (s : UInt8 × ℕ) c => (s.1 + UInt8.ofNat (s.2 * c.toNat), s.2 * 2))
    (0, 1)).1

/-- `bits_be_to_bytes_le`, `crates/bls-gadgets/src/utils.rs:2-21`. -/
def bitsBeToBytesLe (bits : List Bool) : Bytes :=
  (chunks 8 bits.reverse).map packByte

/-- `bits_le_to_bytes_le`, `crates/bls-gadgets/src/utils.rs:24-26`. -/
def bitsLeToBytesLe (bits : List Bool) : Bytes :=
  bitsBeToBytesLe bits.reverse

/-- Inner loop of `bytes_le_to_bits_be`, `crates/bls-gadgets/src/utils.rs:33-37`: `k` times push
the lowest bit and shift right. -/
def unpackByte : ℕ → UInt8 → List Bool
  | 0, _ => []
  | k + 1, b => (b &&& 1 == 1) :: unpackByte k (b >>> 1)

/-- `bytes_le_to_bits_be`, `crates/bls-gadgets/src/utils.rs:30-46`. -/
def bytesLeToBitsBe (bytes : Bytes) (bitsToTake : ℕ) : List Bool :=
  ((bytes.flatMap (unpackByte 8)).take bitsToTake).reverse

/-- `bytes_le_to_bits_le`, `crates/bls-gadgets/src/utils.rs:49-54`. -/
def bytesLeToBitsLe (bytes : Bytes) (bitsToTake : ℕ) : List Bool :=
  (bytesLeToBitsBe bytes bitsToTake).reverse

end Verif
