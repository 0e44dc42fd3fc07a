import Verif.Model.Hashers
import Verif.Model.Utils
import Verif.Model.HashToCurve
import Verif.Model.Encoding
import Mathlib.AlgebraicGeometry.EllipticCurve.Affine.Point

/-!
# Model: the Bowe-Hopwood-Pedersen CRH of the composite hasher

`crates/bls-crypto/src/hashers/composite.rs` instantiates `ark_crypto_primitives::crh::bowe_hopwood`
(external) with a window of its own and parameters of its own.  Elsewhere the CRH is a parameter; here
it is modelled, over a group `M` of points with an `x` coordinate.
-/

namespace Verif

/-- `WINDOW_SIZE`, `crates/bls-crypto/src/hashers/composite.rs:24`. -/
def CRH_WINDOW_SIZE : ℕ := 93

/-- `NUM_WINDOWS`, `crates/bls-crypto/src/hashers/composite.rs:25`. -/
def CRH_NUM_WINDOWS : ℕ := 560

/-- `CHUNK_SIZE` (ark_crypto_primitives, external), of the CRH of
`crates/bls-crypto/src/hashers/composite.rs:32`. -/
def CRH_CHUNK_SIZE : ℕ := 3

/-- The order of the prime-order subgroup of the Edwards curve (`ark_ed_on_bw6_761::Fr`, external) used
at `crates/bls-crypto/src/hashers/composite.rs:32`. -/
def ED_ORDER : ℕ :=
  32333053251621136751331591711861691692049189094364332567435817881934511297123972799646723302813083835942624121493

/-- `CompositeHasher::prng`, `crates/bls-crypto/src/hashers/composite.rs:54-66`: the seed given to
ChaCha20 (external).  `personal` is `b"UL_prngs"`, the message `b"ULTRALIGHT PRNG SEED"`. -/
def crhSeed (B : Blake2s) : Outcome BLSError Bytes :=
  (Blake2sParams.new.setHashLength 32).bind fun p =>
  (p.setPersonal [0x55, 0x4c, 0x5f, 0x70, 0x72, 0x6e, 0x67, 0x73]).map fun p =>
    (B.run p [0x55, 0x4c, 0x54, 0x52, 0x41, 0x4c, 0x49, 0x47, 0x48, 0x54, 0x20, 0x50, 0x52, 0x4e, 0x47,
      0x20, 0x53, 0x45, 0x45, 0x44]).take 32

/-- `calculate_num_chunks_in_segment` (ark_crypto_primitives, external), called from
`crates/bls-crypto/src/hashers/composite.rs:71`: how often 2 can be multiplied by 16 before it reaches
`(order - 1) / 2`. -/
def crhMaxChunks (upper : ℕ) : ℕ → ℕ → ℕ
  | 0, _ => 0
  | fuel + 1, range => if range < upper then crhMaxChunks upper fuel (range * 16) + 1 else 0

/-- `COEFF_D` of the Edwards curve `-x² + y² = 1 + d x² y²` (`ark_ed_on_bw6_761::EdwardsParameters`,
external), the curve of `crates/bls-crypto/src/hashers/composite.rs:32`; `COEFF_A` is `-1`. -/
def ED_D : Fq := 79743

/-- The Edwards curve of `crates/bls-crypto/src/hashers/composite.rs:32`, in its Weierstrass form
`v² = u³ + 2(a + d)u² + (a - d)²u` (simplified: the code uses extended Edwards coordinates). -/
def edCurve : WeierstrassCurve.Affine Fq :=
  { a₁ := 0, a₂ := 2 * (ED_D - 1), a₃ := 0, a₄ := (ED_D + 1) ^ 2, a₆ := 0 }

/-- `EdwardsProjective` (ark_ed_on_bw6_761, external), `crates/bls-crypto/src/hashers/composite.rs:75`,
up to projective equivalence. -/
abbrev EdPoint := edCurve.Point

/-- The Edwards coordinate `x` of a point, `crates/bls-crypto/src/hashers/composite.rs:83`. -/
def edX : EdPoint → Fq
  | .zero => 0
  | .some u v _ => 2 * u / v

/-- The Edwards coordinate `y` of a point of the curve of
`crates/bls-crypto/src/hashers/composite.rs:32`. -/
def edY : EdPoint → Fq
  | .zero => 1
  | .some u _ _ => (u + (ED_D + 1)) / (u - (ED_D + 1))

section
variable {M : Type*} [AddCommGroup M]

/-- The generators of one window (`create_generators`, ark_crypto_primitives, external): after each one
the base is doubled four times; called from `crates/bls-crypto/src/hashers/composite.rs:71`. -/
def windowGenerators : ℕ → M → List M
  | 0, _ => []
  | k + 1, base =>
    let double := fun p : M => p + p
    base :: windowGenerators k (double (double (double (double base))))

/-- `setup_crh`, `crates/bls-crypto/src/hashers/composite.rs:69-72`, and `H::setup` (external): the
generators of all windows, whose bases are drawn from the generator seeded with `crhSeed`; `draw seed i`
is draw `i` (ChaCha20 and the sampling of points are external).  An unsuitable window is an error. -/
def setupCrh (B : Blake2s) (draw : Bytes → ℕ → M) : Outcome BLSError (List (List M)) :=
  (crhSeed B).bind fun seed =>
  if CRH_WINDOW_SIZE > crhMaxChunks ((ED_ORDER - 1) / 2) 400 2 then .err .hashingError
  else .ok ((List.range CRH_NUM_WINDOWS).map fun i => windowGenerators CRH_WINDOW_SIZE (draw seed i))

/-- The term of one chunk of three bits (ark_crypto_primitives, external), evaluated at
`crates/bls-crypto/src/hashers/composite.rs:81`. -/
def encodeChunk (chunk : List Bool) (generator : M) : M :=
  let encoded := generator
  let encoded := if chunk.getD 0 false then encoded + generator else encoded
  let encoded := if chunk.getD 1 false then encoded + (generator + generator) else encoded
  if chunk.getD 2 false then -encoded else encoded

/-- Padding to whole chunks (ark_crypto_primitives, external), at
`crates/bls-crypto/src/hashers/composite.rs:81`. -/
def padChunks (bits : List Bool) : List Bool :=
  if bits.length % CRH_CHUNK_SIZE ≠ 0 then
    bits ++ List.replicate (CRH_CHUNK_SIZE - bits.length % CRH_CHUNK_SIZE) false
  else bits

/-- The sum for one window (ark_crypto_primitives, external), at
`crates/bls-crypto/src/hashers/composite.rs:81`. -/
def evaluateSegment (segment : List Bool) (generators : List M) : M :=
  (List.zipWith encodeChunk (chunks CRH_CHUNK_SIZE segment) generators).foldl (· + ·) 0

/-- `H::evaluate` (ark_crypto_primitives `bowe_hopwood`, external), called at
`crates/bls-crypto/src/hashers/composite.rs:81`.  The code panics if the input does not fit the windows
or the parameters do not have the shape of the windows; it adds up the windows in parallel, here they
are added in order. -/
def evaluateCrh (generators : List (List M)) (input : Bytes) : Outcome BLSError M :=
  if input.length * 8 > CRH_WINDOW_SIZE * CRH_NUM_WINDOWS * CRH_CHUNK_SIZE then .panic
  else if generators.length ≠ CRH_NUM_WINDOWS ∨
      generators.any (fun g => g.length ≠ CRH_WINDOW_SIZE) then .panic
  else
    let padded := padChunks (input.flatMap (unpackByte 8))
    .ok ((List.zipWith evaluateSegment (chunks (CRH_WINDOW_SIZE * CRH_CHUNK_SIZE) padded)
      generators).foldl (· + ·) 0)

/-- `CompositeHasher::crh`, `crates/bls-crypto/src/hashers/composite.rs:80-86`: the affine `x`
coordinate of the hash, serialised in 48 bytes; the parameter `pedersen` of `compositeHasher`. -/
def pedersenCrh (x : M → Fq) (generators : List (List M)) (message : Bytes) : Outcome BLSError Bytes :=
  (evaluateCrh generators message).map fun h => leBytes 48 (x h).val

end

end Verif
