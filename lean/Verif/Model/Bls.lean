import Verif.Basic
import Mathlib.Algebra.Module.ZMod
import Mathlib.Data.ZMod.Basic
import Mathlib.Algebra.Field.ZMod
import Mathlib.Data.Nat.Log

/-!
# BLS signatures: keys, signatures, aggregation, batches

Models `crates/bls-crypto/src/bls/{secret,public,signature,batch}.rs`.

The curve groups and the pairing of BLS12-377 are a parameter (`Pairing`).  Projective
representations are identified with the group elements they denote (the cache, where the
representation matters, is modelled in `Verif.Model.Cache`).
-/

namespace Verif

/-- `crates/bls-crypto/src/lib.rs:85-113` (`BLSError`).  Payloads that carry only diagnostic
strings are dropped. -/
inductive BLSError where
  | verificationFailed
  | ioError
  | hashingError
  | domainTooLarge (n : Nat)
  | hashToCurveError
  | unevenNumKeysMessages
  | serializationError
  deriving DecidableEq, Repr

/-- `b"ULforxof"`, `crates/bls-crypto/src/lib.rs:75`. -/
def SIG_DOMAIN : Bytes := [0x55, 0x4c, 0x66, 0x6f, 0x72, 0x78, 0x6f, 0x66]
/-- `b"ULforpop"`, `crates/bls-crypto/src/lib.rs:78`. -/
def POP_DOMAIN : Bytes := [0x55, 0x4c, 0x66, 0x6f, 0x72, 0x70, 0x6f, 0x70]
/-- `b"ULforout"`, `crates/bls-crypto/src/lib.rs:81`. -/
def OUT_DOMAIN : Bytes := [0x55, 0x4c, 0x66, 0x6f, 0x72, 0x6f, 0x75, 0x74]

/-- What the code relies on from `ark_bls12_377::{G1,G2,Bls12_377}` (external crate; used at
`crates/bls-crypto/src/bls/public.rs:102-115` and `crates/bls-crypto/src/bls/signature.rs:137-150`): prime order
groups `G1`, `G2` (as modules over the scalar field `Fr = ZMod r`), a target group, and a
non-degenerate bilinear map.  `span2` says that every element of `G2` is a multiple of the
generator (prime order subgroup).  Trusted base: the real curve satisfies these fields. -/
structure Pairing (r : ℕ) (G1 G2 GT : Type*) [AddCommGroup G1] [Module (ZMod r) G1]
    [AddCommGroup G2] [Module (ZMod r) G2] [CommGroup GT] where
  /-- the pairing -/
  e : G1 → G2 → GT
  /-- `G2Projective::prime_subgroup_generator()` -/
  g2 : G2
  add_left : ∀ P P' Q, e (P + P') Q = e P Q * e P' Q
  add_right : ∀ P Q Q', e P (Q + Q') = e P Q * e P Q'
  nondeg : ∀ P, e P g2 = 1 → P = 0
  span2 : ∀ Q, ∃ s : ZMod r, Q = s • g2

/-- `trait HashToCurve { fn hash(&self, domain, message, extra_data) -> Result<G1, BLSError> }`,
`crates/bls-crypto/src/hash_to_curve/mod.rs:52-66`: here an arbitrary function, possibly failing
or panicking.  Concrete hashers are modelled in `Verif.Model.HashToCurve`. -/
abbrev HashToG1 (G1 : Type*) := (domain message extra : Bytes) → Outcome BLSError G1

section
variable {r : ℕ} {G1 G2 GT : Type*} [AddCommGroup G1] [Module (ZMod r) G1]
  [AddCommGroup G2] [Module (ZMod r) G2] [CommGroup GT]

/-! ## secret.rs -/

/-- `PrivateKey::sign_raw`, `crates/bls-crypto/src/bls/secret.rs:65-67`. -/
def signRaw (sk : ZMod r) (h : G1) : G1 := sk • h

/-- `PrivateKey::sign_message`, `crates/bls-crypto/src/bls/secret.rs:54-63`. -/
def signMessage (sk : ZMod r) (domain message extra : Bytes) (H : HashToG1 G1) :
    Outcome BLSError G1 :=
  (H domain message extra).bind fun h => .ok (signRaw sk h)

/-- `PrivateKey::sign`, `crates/bls-crypto/src/bls/secret.rs:34-41`. -/
def sign (sk : ZMod r) (message extra : Bytes) (H : HashToG1 G1) : Outcome BLSError G1 :=
  signMessage sk SIG_DOMAIN message extra H

/-- `PrivateKey::sign_pop`, `crates/bls-crypto/src/bls/secret.rs:45-51`. -/
def signPop (sk : ZMod r) (message : Bytes) (H : HashToG1 G1) : Outcome BLSError G1 :=
  signMessage sk POP_DOMAIN message [] H

/-! ## public.rs -/

/-- `PrivateKey::to_public` / `From<&PrivateKey> for PublicKey`,
`crates/bls-crypto/src/bls/secret.rs:70-72`, `bls/public.rs:24-28`. -/
def toPublic (P : Pairing r G1 G2 GT) (sk : ZMod r) : G2 := sk • P.g2

/-- `PublicKey::aggregate`, `crates/bls-crypto/src/bls/public.rs:38-44`
(`Iterator::sum` folds from zero). -/
def aggregatePublicKeys (pks : List G2) : G2 := pks.foldl (· + ·) 0

/-- `VariableBaseMSM::multi_scalar_mul` (ark_ec, external), used at
`crates/bls-crypto/src/bls/public.rs:61` and `bls/signature.rs:85`; it stops at the shorter list. -/
def multiScalarMul {G : Type*} [AddCommGroup G] [Module (ZMod r) G] :
    List G → List (ZMod r) → G
  | b :: bs, x :: xs => x • b + multiScalarMul bs xs
  | _, _ => 0

/-- `PublicKey::batch`, `crates/bls-crypto/src/bls/public.rs:47-65`. -/
def batchPublicKeys (exponents : List (ZMod r)) (pks : List G2) : Option G2 :=
  if pks.length ≠ exponents.length then none else some (multiScalarMul pks exponents)

/-- `Bls12_377::product_of_pairings` (ark_ec, external), used at
`crates/bls-crypto/src/bls/public.rs:102` and `bls/signature.rs:149`. -/
def productOfPairings (P : Pairing r G1 G2 GT) (els : List (G1 × G2)) : GT :=
  (els.map fun p => P.e p.1 p.2).prod

variable [DecidableEq GT]

/-- `PublicKey::verify_sig`, `crates/bls-crypto/src/bls/public.rs:94-120`. -/
def verifySig (P : Pairing r G1 G2 GT) (pk : G2) (domain message extra : Bytes) (sig : G1)
    (H : HashToG1 G1) : Outcome BLSError Unit :=
  (H domain message extra).bind fun h =>
    if productOfPairings P [(sig, -P.g2), (h, pk)] = 1 then .ok ()
    else .err .verificationFailed

/-- `PublicKey::verify`, `crates/bls-crypto/src/bls/public.rs:71-79`. -/
def verify (P : Pairing r G1 G2 GT) (pk : G2) (message extra : Bytes) (sig : G1)
    (H : HashToG1 G1) : Outcome BLSError Unit :=
  verifySig P pk SIG_DOMAIN message extra sig H

/-- `PublicKey::verify_pop`, `crates/bls-crypto/src/bls/public.rs:85-92`. -/
def verifyPop (P : Pairing r G1 G2 GT) (pk : G2) (message : Bytes) (sig : G1)
    (H : HashToG1 G1) : Outcome BLSError Unit :=
  verifySig P pk POP_DOMAIN message [] sig H

/-! ## signature.rs -/

/-- `Signature::aggregate`, `crates/bls-crypto/src/bls/signature.rs:61-67`. -/
def aggregateSignatures (sigs : List G1) : G1 := sigs.foldl (· + ·) 0

/-- `Signature::batch`, `crates/bls-crypto/src/bls/signature.rs:70-89`. -/
def batchSignatures (exponents : List (ZMod r)) (sigs : List G1) : Option G1 :=
  if sigs.length ≠ exponents.length then none else some (multiScalarMul sigs exponents)

/-- `Signature::batch_verify_hashes`, `crates/bls-crypto/src/bls/signature.rs:125-155`. -/
def batchVerifyHashes (P : Pairing r G1 G2 GT) (sig : G1) (pks : List G2) (hashes : List G1) :
    Outcome BLSError Unit :=
  if pks.length ≠ hashes.length then .err .unevenNumKeysMessages
  else if productOfPairings P ((sig, -P.g2) :: hashes.zip pks) = 1 then .ok ()
  else .err .verificationFailed

/-- `Signature::batch_verify`, `crates/bls-crypto/src/bls/signature.rs:101-117`. -/
def batchVerify (P : Pairing r G1 G2 GT) (sig : G1) (pks : List G2) (domain : Bytes)
    (messages : List (Bytes × Bytes)) (H : HashToG1 G1) : Outcome BLSError Unit :=
  if pks.length ≠ messages.length then .err .unevenNumKeysMessages
  else (Outcome.mapM (fun m => H domain m.1 m.2) messages).bind fun hashes =>
    batchVerifyHashes P sig pks hashes

/-! ## batch.rs -/

/-- `struct Batch`, `crates/bls-crypto/src/bls/batch.rs:14-18`. -/
structure Batch (G1 G2 : Type*) where
  entries : List (G2 × G1)
  message : Bytes
  extraData : Bytes

/-- `Batch::new`, `crates/bls-crypto/src/bls/batch.rs:32-38`. -/
def Batch.new {G1 G2 : Type*} (message extra : Bytes) : Batch G1 G2 := ⟨[], message, extra⟩

/-- `Batch::add`, `crates/bls-crypto/src/bls/batch.rs:40-42`. -/
def Batch.add {G1 G2 : Type*} (b : Batch G1 G2) (pk : G2) (sig : G1) : Batch G1 G2 :=
  { b with entries := b.entries ++ [(pk, sig)] }

/-- `SECURITY_BOUND`, `crates/bls-crypto/src/bls/batch.rs:20`. -/
def SECURITY_BOUND : ℕ := 128

/-- `byte_count_from_target_batch_size`, `crates/bls-crypto/src/bls/batch.rs:23-28`;
`ark_std::log2` is the ceiling logarithm (external), `Fr::size_in_bits() = 253`. -/
def byteCountFromTargetBatchSize (size targetSecurity : ℕ) : ℕ :=
  min ((targetSecurity + Nat.clog 2 size + 7) / 8) (253 / 8)

/-- Little-endian value of a byte string (used by `ark_ff` decoding, external, e.g. at
`crates/bls-crypto/src/bls/batch.rs:65`). -/
def leValue : Bytes → ℕ
  | [] => 0
  | b :: bs => b.toNat + 256 * leValue bs

/-- `Fr::from_random_bytes` (ark_ff, external), called at `crates/bls-crypto/src/bls/batch.rs:65`:
the first 32 bytes (zero padded) are read little-endian, masked to the 253 bits of the modulus, and
rejected if not below the modulus `r`. -/
def frFromRandomBytes (r : ℕ) (bs : Bytes) : Option (ZMod r) :=
  let v := leValue (bs.take 32) % 2 ^ 253
  if v < r then some (v : ZMod r) else none

/-- The byte strings filled in by `thread_rng().fill_bytes` for the successive entries
(`crates/bls-crypto/src/bls/batch.rs:62-63`): `n` strings of `k` bytes.  The random source is the
explicit argument `rng` (`rng i j` is byte `j` of the `i`-th string). -/
def randomDraws (rng : ℕ → ℕ → UInt8) (n k : ℕ) : List Bytes :=
  List.ofFn fun i : Fin n => List.ofFn fun j : Fin k => rng i j

/-- `Batch::verify`, `crates/bls-crypto/src/bls/batch.rs:44-84`. -/
def Batch.verify (P : Pairing r G1 G2 GT) (b : Batch G1 G2) (H : HashToG1 G1)
    (rng : ℕ → ℕ → UInt8) : Outcome BLSError Unit :=
  let expSize := byteCountFromTargetBatchSize b.entries.length SECURITY_BOUND
  (Outcome.mapM (fun bs => Outcome.unwrap (frFromRandomBytes r bs))
      (randomDraws rng b.entries.length expSize)).bind fun exponents =>
    match batchPublicKeys exponents (b.entries.map Prod.fst) with
    | none => .panic
    | some bpk =>
      match batchSignatures exponents (b.entries.map Prod.snd) with
      | none => .panic
      | some bsig => Verif.verify P bpk b.message b.extraData bsig H

/-- The loop of `Batch::verify_each`, `crates/bls-crypto/src/bls/batch.rs:91-95`. -/
def verifyEachLoop (P : Pairing r G1 G2 GT) (message extra : Bytes) (H : HashToG1 G1) :
    List (G2 × G1) → Outcome BLSError Unit
  | [] => .ok ()
  | (pk, sig) :: rest =>
    (Verif.verify P pk message extra sig H).bind fun _ => verifyEachLoop P message extra H rest

/-- `Batch::verify_each`, `crates/bls-crypto/src/bls/batch.rs:87-96`. -/
def Batch.verifyEach (P : Pairing r G1 G2 GT) (b : Batch G1 G2) (H : HashToG1 G1) :
    Outcome BLSError Unit :=
  verifyEachLoop P b.message b.extraData H b.entries

end

end Verif
