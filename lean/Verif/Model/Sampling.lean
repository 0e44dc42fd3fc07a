import Verif.Model.Pedersen

/-!
# Model: drawing the parameters of the CRH

`crates/bls-crypto/src/hashers/composite.rs` draws the bases of the windows from ChaCha20 seeded with a
BLAKE2s hash.  `rand_chacha` and the sampling of field elements and points (`ark_ff`, `ark_ec`) are
external and deterministic; in `Model/Pedersen` they are the parameter `draw`.  Here they are written
out.  Words are natural numbers below `2 ^ 32`.
-/

namespace Verif

/-- Rotation to the left of a word (RFC 8439 section 2.1; rand_chacha, external), used through
`crates/bls-crypto/src/hashers/composite.rs:65`. -/
def rotl32 (x n : ℕ) : ℕ := x * 2 ^ n % 2 ^ 32 + x / 2 ^ (32 - n)

/-- The quarter round (RFC 8439 section 2.1; rand_chacha, external), used through
`crates/bls-crypto/src/hashers/composite.rs:65`. -/
def chachaQuarter (a b c d : ℕ) : ℕ × ℕ × ℕ × ℕ :=
  let a := (a + b) % 2 ^ 32
  let d := rotl32 (d ^^^ a) 16
  let c := (c + d) % 2 ^ 32
  let b := rotl32 (b ^^^ c) 12
  let a := (a + b) % 2 ^ 32
  let d := rotl32 (d ^^^ a) 8
  let c := (c + d) % 2 ^ 32
  let b := rotl32 (b ^^^ c) 7
  (a, b, c, d)

/-- A quarter round on four words of the state (RFC 8439 section 2.2; external), used through
`crates/bls-crypto/src/hashers/composite.rs:65`. -/
def chachaQuarterAt (v : List ℕ) (i j k l : ℕ) : List ℕ :=
  let r := chachaQuarter (v.getD i 0) (v.getD j 0) (v.getD k 0) (v.getD l 0)
  (((v.set i r.1).set j r.2.1).set k r.2.2.1).set l r.2.2.2

/-- Two rounds: the columns and the diagonals (RFC 8439 section 2.3; external), used through
`crates/bls-crypto/src/hashers/composite.rs:65`. -/
def chachaDoubleRound (v : List ℕ) : List ℕ :=
  let v := chachaQuarterAt v 0 4 8 12
  let v := chachaQuarterAt v 1 5 9 13
  let v := chachaQuarterAt v 2 6 10 14
  let v := chachaQuarterAt v 3 7 11 15
  let v := chachaQuarterAt v 0 5 10 15
  let v := chachaQuarterAt v 1 6 11 12
  let v := chachaQuarterAt v 2 7 8 13
  chachaQuarterAt v 3 4 9 14

/-- The state before the rounds (RFC 8439 section 2.3, with the original 64-bit counter and a nonce of
zero; rand_chacha, external), used through `crates/bls-crypto/src/hashers/composite.rs:65`. -/
def chachaInit (seed : Bytes) (counter : ℕ) : List ℕ :=
  [0x61707865, 0x3320646e, 0x79622d32, 0x6b206574] ++ (chunks 4 seed).map leValue ++
    [counter % 2 ^ 32, counter / 2 ^ 32 % 2 ^ 32, 0, 0]

/-- The block function: twenty rounds and the sum with the state before (RFC 8439 section 2.3;
rand_chacha, external), used through `crates/bls-crypto/src/hashers/composite.rs:65`. -/
def chachaBlock (seed : Bytes) (counter : ℕ) : List ℕ :=
  let v := (List.range 10).foldl (fun v _ => chachaDoubleRound v) (chachaInit seed counter)
  List.zipWith (fun x y => (x + y) % 2 ^ 32) v (chachaInit seed counter)

/-- Word `i` drawn from `ChaChaRng::from_seed(seed)`, `crates/bls-crypto/src/hashers/composite.rs:65`
(rand_chacha, external; it computes four blocks at a time). -/
def chachaWord (seed : Bytes) (i : ℕ) : ℕ := (chachaBlock seed (i / 16)).getD (i % 16) 0

/-- `next_u64` (rand_core `BlockRng`, external) at position `pos` of the stream of words drawn at
`crates/bls-crypto/src/hashers/composite.rs:71`: the low word first. -/
def nextU64 (w : ℕ → ℕ) (pos : ℕ) : ℕ := w pos + 2 ^ 32 * w (pos + 1)

/-- The six limbs of a candidate for a field element, with the unused seven bits of the last one masked
(`UniformRand` for `Fp384`, ark_ff, external), drawn at
`crates/bls-crypto/src/hashers/composite.rs:71`. -/
def fqCandidate (w : ℕ → ℕ) (pos : ℕ) : ℕ :=
  nextU64 w pos + 2 ^ 64 * nextU64 w (pos + 2) + 2 ^ 128 * nextU64 w (pos + 4) +
    2 ^ 192 * nextU64 w (pos + 6) + 2 ^ 256 * nextU64 w (pos + 8) +
    2 ^ 320 * (nextU64 w (pos + 10) % 2 ^ 57)

/-- `Fq::rand` (ark_ff, external), drawn at `crates/bls-crypto/src/hashers/composite.rs:71`, and the
next position: candidates are drawn until one is below the modulus, which is then taken as the
Montgomery form of the element.  The loop has no bound; `none` is that it is still running after `fuel`
rounds. -/
def sampleFq (w : ℕ → ℕ) : ℕ → ℕ → Option (Fq × ℕ)
  | 0, _ => none
  | fuel + 1, pos =>
    if fqCandidate w pos < FQ_MODULUS then some ((fqCandidate w pos : Fq) / 2 ^ 384, pos + 12)
    else sampleFq w fuel (pos + 12)

/-- `GroupAffine::get_point_from_x` of the Edwards curve (ark_ec, external), used at
`crates/bls-crypto/src/hashers/composite.rs:71`: the two coordinates. -/
def edPointFromX (sqrt : Fq → Option Fq) (x : Fq) (greatest : Bool) : Option (Fq × Fq) :=
  let numerator := -(x * x) - 1
  let denominator := ED_D * (x * x) - 1
  if denominator = 0 then none
  else (sqrt (denominator⁻¹ * numerator)).map fun y =>
    (x, if xor (y.val < (-y).val) greatest then y else -y)

/-- `EdwardsProjective::rand` up to the multiplication by the cofactor (ark_ec, external), drawn at
`crates/bls-crypto/src/hashers/composite.rs:71`: an `x` and a flag (the top bit of a word) are drawn
until there is a point.  For `none` see `sampleFq`. -/
def samplePoint (sqrt : Fq → Option Fq) (w : ℕ → ℕ) : ℕ → ℕ → Option ((Fq × Fq) × ℕ)
  | 0, _ => none
  | fuel + 1, pos =>
    (sampleFq w (fuel + 1) pos).bind fun r =>
      match edPointFromX sqrt r.1 (decide (2 ^ 31 ≤ w r.2)) with
      | some p => some (p, r.2 + 1)
      | none => samplePoint sqrt w fuel (r.2 + 1)

open Classical in
/-- The point with given Edwards coordinates, `crates/bls-crypto/src/hashers/composite.rs:71` (points
are in Weierstrass form here, see `edCurve`). -/
noncomputable def edOfXY (p : Fq × Fq) : EdPoint :=
  if h : ∃ P : EdPoint, edX P = p.1 ∧ edY P = p.2 then h.choose else 0

/-- `COFACTOR` of the Edwards curve (`ark_ed_on_bw6_761::EdwardsParameters`, external), used at
`crates/bls-crypto/src/hashers/composite.rs:71`. -/
def ED_COFACTOR : ℕ := 8

/-- The bases of `n` windows in the order of `create_generators` (ark_crypto_primitives, external),
called from `crates/bls-crypto/src/hashers/composite.rs:71`, before the multiplication by the cofactor;
with the next position. -/
def sampleBases (sqrt : Fq → Option Fq) (w : ℕ → ℕ) (fuel : ℕ) :
    ℕ → ℕ → Option (List (Fq × Fq) × ℕ)
  | 0, pos => some ([], pos)
  | n + 1, pos =>
    (samplePoint sqrt w fuel pos).bind fun r =>
      (sampleBases sqrt w fuel n r.2).map fun s => (r.1 :: s.1, s.2)

/-- `CompositeHasher::setup_crh`, `crates/bls-crypto/src/hashers/composite.rs:69-72`, with the draws
written out.  For `none` see `sampleFq`. -/
noncomputable def setupCrhSampled (B : Blake2s) (sqrt : Fq → Option Fq) (fuel : ℕ) :
    Option (Outcome BLSError (List (List EdPoint))) :=
  match crhSeed B with
  | .ok seed =>
    (sampleBases sqrt (chachaWord seed) fuel CRH_NUM_WINDOWS 0).map fun r =>
      setupCrh B fun _ i => ED_COFACTOR • edOfXY (r.1.getD i (0, 1))
  | .err e => some (.err e)
  | .panic => some .panic

end Verif
