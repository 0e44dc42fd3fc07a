import Verif.Model.Encoding
import Verif.Model.EpochCircuit

/-!
# BLAKE2s

The function itself (RFC 7693, external): `blake2s_simd` computes it natively and the gadget of
`ark_crypto_primitives` in the circuit.  Elsewhere it is a parameter; here is the instance.
-/

namespace Verif

/-- Initial values (RFC 7693 section 2.6; blake2s_simd, external), used through
`crates/bls-crypto/src/hashers/direct.rs:29-34`. -/
def blakeIV : List UInt32 :=
  [0x6A09E667, 0xBB67AE85, 0x3C6EF372, 0xA54FF53A, 0x510E527F, 0x9B05688C, 0x1F83D9AB, 0x5BE0CD19]

/-- Message schedule (RFC 7693 section 2.7; external), used through
`crates/bls-crypto/src/hashers/direct.rs:29-34`. -/
def blakeSigma : List (List ℕ) :=
  [[0, 1, 2, 3, 4, 5, 6, 7, 8, 9, 10, 11, 12, 13, 14, 15],
   [14, 10, 4, 8, 9, 15, 13, 6, 1, 12, 0, 2, 11, 7, 5, 3],
   [11, 8, 12, 0, 5, 2, 15, 13, 10, 14, 3, 6, 7, 1, 9, 4],
   [7, 9, 3, 1, 13, 12, 11, 14, 2, 6, 5, 10, 4, 0, 15, 8],
   [9, 0, 5, 7, 2, 4, 10, 15, 14, 1, 11, 12, 6, 8, 3, 13],
   [2, 12, 6, 10, 0, 11, 8, 3, 4, 13, 7, 5, 15, 14, 1, 9],
   [12, 5, 1, 15, 14, 13, 4, 10, 0, 7, 6, 3, 9, 2, 8, 11],
   [13, 11, 7, 14, 12, 1, 3, 9, 5, 0, 15, 4, 8, 6, 2, 10],
   [6, 15, 14, 9, 11, 3, 0, 8, 12, 2, 13, 7, 1, 4, 10, 5],
   [10, 2, 8, 4, 7, 6, 1, 5, 15, 11, 9, 14, 3, 12, 13, 0]]

/-- Rotation to the right of a word (RFC 7693 section 2.3; external), used through
`crates/bls-crypto/src/hashers/direct.rs:29-34`. -/
def rotr32 (x : UInt32) (n : UInt32) : UInt32 := (x >>> n) ||| (x <<< (32 - n))

/-- The mixing function G (RFC 7693 section 3.1; external), used through
`crates/bls-crypto/src/hashers/direct.rs:29-34`. -/
def blakeG (v : List UInt32) (a b c d : ℕ) (x y : UInt32) : List UInt32 :=
  let va := v.getD a 0 + v.getD b 0 + x
  let vd := rotr32 (v.getD d 0 ^^^ va) 16
  let vc := v.getD c 0 + vd
  let vb := rotr32 (v.getD b 0 ^^^ vc) 12
  let va' := va + vb + y
  let vd' := rotr32 (vd ^^^ va') 8
  let vc' := vc + vd'
  let vb' := rotr32 (vb ^^^ vc') 7
  (((v.set a va').set b vb').set c vc').set d vd'

/-- One round (RFC 7693 section 3.2; external), used through
`crates/bls-crypto/src/hashers/direct.rs:29-34`. -/
def blakeRound (m : List UInt32) (v : List UInt32) (s : List ℕ) : List UInt32 :=
  let w := fun i => m.getD (s.getD i 0) 0
  let v := blakeG v 0 4 8 12 (w 0) (w 1)
  let v := blakeG v 1 5 9 13 (w 2) (w 3)
  let v := blakeG v 2 6 10 14 (w 4) (w 5)
  let v := blakeG v 3 7 11 15 (w 6) (w 7)
  let v := blakeG v 0 5 10 15 (w 8) (w 9)
  let v := blakeG v 1 6 11 12 (w 10) (w 11)
  let v := blakeG v 2 7 8 13 (w 12) (w 13)
  blakeG v 3 4 9 14 (w 14) (w 15)

/-- The little-endian words of a byte string (external), used through
`crates/bls-crypto/src/hashers/direct.rs:29-34`. -/
def blakeWords (b : Bytes) : List UInt32 :=
  (chunks 4 b).map fun c => UInt32.ofNat (leValue c)

/-- The compression function F (RFC 7693 section 3.2; external): state of eight words, block of 64
bytes, offset counter, and whether the block is the last; used through
`crates/bls-crypto/src/hashers/direct.rs:29-34`. -/
def blakeF (h : List UInt32) (block : Bytes) (t : ℕ) (last : Bool) : List UInt32 :=
  let iv := fun i => blakeIV.getD i 0
  let v := h ++ [iv 0, iv 1, iv 2, iv 3, iv 4 ^^^ UInt32.ofNat t, iv 5 ^^^ UInt32.ofNat (t / 2 ^ 32),
    if last then iv 6 ^^^ 0xFFFFFFFF else iv 6, iv 7]
  let v := blakeSigma.foldl (blakeRound (blakeWords block)) v
  List.zipWith (fun x i => x ^^^ v.getD i 0 ^^^ v.getD (i + 8) 0) h (List.range 8)

/-- The blocks of a message: at least one, the last one padded with zeros (RFC 7693 section 3.3;
external), used through `crates/bls-crypto/src/hashers/direct.rs:35-36,71-72`. -/
def blakeLoop (h : List UInt32) (total : ℕ) : ℕ → ℕ → Bytes → List UInt32
  | 0, _, _ => h
  | fuel + 1, done, m =>
    if m.length ≤ 64 then blakeF h (m ++ List.replicate (64 - m.length) 0) total true
    else blakeLoop (blakeF h (m.take 64) (done + 64) false) total fuel (done + 64) (m.drop 64)

/-- BLAKE2s of a message for a parameter block, all 32 bytes (RFC 7693 section 3.3; external), used
through `crates/bls-crypto/src/hashers/direct.rs:29-38` and
`crates/bls-gadgets/src/hash_to_group.rs:208-230`. -/
def blakeDigest (block : Bytes) (m : Bytes) : Bytes :=
  let h := List.zipWith (· ^^^ ·) blakeIV (blakeWords block ++ List.replicate 8 0)
  (blakeLoop h m.length (m.length + 1) 0 m).flatMap fun w => leBytes 4 w.toNat

end Verif
