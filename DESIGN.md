# Formal model of celo-bls-snark-rs: design

The model is written in Lean 4 (`lean/Verif`). `/repo` is read as text only; nothing is extracted
from it and nothing is executed. The link between code and model is by reading: every definition in
`Verif/Model` cites the file and lines it stands for and says where it simplifies.

## Layout

| Path | Contents |
|---|---|
| `Verif/Basic.lean` | `Outcome` (ok / err / panic), bytes |
| `Verif/Model/*` | function-by-function model with citations |
| `Verif/Lemmas/*` | helper lemmas, primality certificates, concrete points |
| `Verif/Props/*` | the property theorems, with concrete cases beside them |
| `properties.jsonl`, `MANIFEST.json` | the properties, and the theorems proving them |
| `seeded/LOG.jsonl` | mutation tests of the theorems |

## Modelling decisions

* A Rust `Result` is `Outcome.ok/err`; modelled panics (slice bounds, `unwrap`, overflow checks,
  library preconditions) are `Outcome.panic`. Nothing is proved about allocation failure.
* `&mut` state is threaded explicitly; outputs of the C interface are a state that is written
  explicitly, so that what an early return leaves behind is visible.
* Signature theorems hold for every `Pairing` structure: groups as modules over `ZMod r`, a
  bilinear non-degenerate map. Encodings, serialisation, hashing to the curve and the circuit use
  the concrete fields and curves of BLS12-377 (both moduli are proved prime by Pratt certificates;
  the orders of both curve groups and of the G2 generator are proved).
* Hash functions (BLAKE2s on a parameter block, the Pedersen CRH) are parameters except in C80 and C85, quantified
  universally. Collision-type hypotheses are stated for the named messages only: an assumption of
  global injectivity would be false. Field square roots are a parameter with their specification;
  the specification is proved of the algorithm of ark_ff in C125 (for the quadratic extension in C126, with the exception of the earlier
  version).
* Hash-set iteration order, hash seeds, thread interleavings and batch randomness are universally
  quantified inputs.
* Circuits are relations: a circuit function takes the values of all witnesses and returns the
  conjunction of the constraints the gadgets emit (or an error/panic of constraint generation).
  Soundness is for every assignment; completeness exhibits the assignment the prover computes.
* A property that the code violates is recorded as violated in its title; the violation is itself
  a theorem with a concrete or universally constructed witness, next to the part that does hold.

## Trusted base

1. Lean's kernel and the statements of Mathlib definitions that occur in theorems (`ZMod`,
   `WeierstrassCurve.Affine.Point`, `QuadraticAlgebra`, lists, groups).
2. Axioms: every theorem depends on at most `propext`, `Classical.choice`, `Quot.sound`
   (checked with `#print axioms`). No own axioms, no `sorry`, no `native_decide`, no `bv_decide`.
3. That the model is the code (reading, citations).
4. Facts about external crates, which appear as parameters or as small definitions marked
   "external" in the model:
   * ark_bls12_377: moduli, curve equations, cofactor of G1, generator of G2; that the pairing is
     bilinear and non-degenerate on prime-order groups (`Pairing`; that the two concrete groups are of
     prime order and generated as required is proved, C76, C79, so for them only bilinearity and
     non-triviality are assumed, `CurvePairing`); projective arithmetic computes
     the group law (`CurveOps`).
   * ark_ec / ark_ff: `multi_scalar_mul` (zips, shorter list wins; the bucket method is C127), `product_of_pairings`,
     `get_point_from_x`, `from_random_bytes`, `into_affine`, `log2` (ceiling), `read`/`write`. Scalar
     multiplication, batch normalization, Montgomery arithmetic and the inverse are written out and proved right
     in C127-C133 from the algorithms of those crates, whose sources are not in /repo.
   * ark_serialize 0.1: byte format and flags as written out in `Model/Serialize`; uncompressed points are
     read and checked as written out in `Model/Uncompressed` (C97's violation depends on it);
     `uncompressed_size` defaults to `serialized_size` (C103's violation depends on it).
   * ark_relations, ark_r1cs_std 0.1: for the gadgets of this repository on field elements and bits the constraint
     system and the operations are written out in `Model/Synthesis` from those crates, and the relations
     used elsewhere are proved of the emitted constraints (C111); the resulting numbers of constraints are
     those the tests assert (C112). In the other circuits: `to_bits` gives the canonical digits; `enforce_cmp`,
     `enforce_smaller_or_equal_than_mod_minus_one_div_two`, `is_eq`, selection as modelled;
     `mul_by_inverse` is unsatisfiable for a zero denominator; curve variables use the formulas
     written out in `Model/CircuitCurve`, which C86 proves to be the group law where the circuit uses
     them (the other circuit models add points). What `new_variable_omit_prime_order_check` enforces is a parameter (`alloc`), since the
     truth of C62 depends on it; we believe it checks the projective curve equation only.
   * ark_crypto_primitives: the BLAKE2s gadget computes BLAKE2s of its parameter block
     (`Blake2sAgree`), the Pedersen gadget the native hash;
     the native Bowe-Hopwood-Pedersen hash is the function written out in `Model/Pedersen`, and its bases
     are drawn as written out in `Model/Sampling` (that they lie in the subgroup is proved, C89).
   * ark_groth16: setup, prover and verifier are as written out in `Model/Groth16` (C105-C108) from the
     library's algorithm, with Fourier transforms as interpolation; elsewhere they are parameters, and so
     is the verifier gadget. That synthesis of the epoch circuit gives a constraint system which is satisfied
     exactly when the circuit of the model is, is a hypothesis of C105_end_to_end and C108_epochs.
     C116 to C118 replace it by the constraints themselves, as emitted by the modelled
     `generate_constraints`, with assumptions on the gadgets of `OuterGadgets` only (hash to G1, pairings,
     BLAKE2s, Groth16 verifier). C119 gives the constraints of the hash to G1, so that of it only the
     Pedersen and BLAKE2s gadgets of arkworks remain assumed. C120 gives those of the helper circuit,
     where only the BLAKE2s gadget remains assumed. C122 is the end-to-end program on the constraints of both. C123 counts the constraints and models the choice of the evaluation domain.
   * blake2s_simd parameter setters and their panics; `lru` 0.7.8 get/put; std `HashSet`, `Mutex`,
     `chunks`, `from_raw_parts`.

## Not modelled

* Machine-level memory beyond C82 (which treats the heap as typed objects at addresses): sizes,
  alignment, capacities, validity of buffers and output pointers; concurrent calls on one object
  (the cache behind its mutex is C84). Elsewhere than in C87 lengths at the C interface are natural numbers.
* Collision resistance, discrete logarithm, soundness of Groth16 against provers that are not linear in the
  published elements (C108): computational statements.
* `f64` infinities, NaN and subnormal numbers (they do not occur); other modules use the exact
  `hashLength`, which C23_float_model proves equal on the range that occurs.
* Logging, timing, metrics, `Display`/`Debug`, Cargo features other than `compat`; the number of
  constraints beyond C112 and C123; constant-time behaviour; unit tests other than
  those of C112, the vectors reproduced as examples, and `tests/e2e.rs`.
* The way `rand_chacha` computes ChaCha20 blocks (several at a time, with SIMD); the stream of words is
  modelled (`Model/Sampling`).

## Properties

Status, what is modelled, how it is proved, remarks. Theorem names are in `MANIFEST.json`; every theorem of a property starts with its id.

| Id | Property | Status | Modelled | Proof | Remarks |
|---|---|---|---|---|---|
| C01 | Sign-then-verify completeness and uniqueness | proved | `Model/Bls`: sign, sign_pop, verify, verify_pop, aggregate, batch_verify, batch over any `Pairing` | algebra, non-degeneracy | For every pairing group, key, message, extra data and hasher; hasher errors propagate. |
| C02 | verify is exactly the pairing equation | proved | `Model/Bls`: sign, sign_pop, verify, verify_pop, aggregate, batch_verify, batch over any `Pairing` | algebra | Verification accepts exactly one group element per (key, message). |
| C03 | Proofs of possession and signatures are separated by domain | proved | `Model/Bls`: sign, sign_pop, verify, verify_pop, aggregate, batch_verify, batch over any `Pairing` | algebra | Signing and possession domains are separated; cross acceptance is characterised exactly. |
| C04 | Aggregated signatures verify under aggregated keys | proved | `Model/Bls`: sign, sign_pop, verify, verify_pop, aggregate, batch_verify, batch over any `Pairing` | list induction | Same-message aggregation for any number of signers. |
| C05 | Aggregation does not depend on order or grouping | proved | `Model/Bls`: sign, sign_pop, verify, verify_pop, aggregate, batch_verify, batch over any `Pairing` | permutation invariance of sums | Aggregation is a sum: independent of order and grouping. |
| C06 | Multi-message batch verification decides exactly the aggregate equation | proved | `Model/Bls`: sign, sign_pop, verify, verify_pop, aggregate, batch_verify, batch over any `Pairing` | induction over messages | Exact acceptance condition of batch_verify, with all error cases. |
| C07 | Aggregate batch verification is a screening test only | proved | `Model/Bls`: sign, sign_pop, verify, verify_pop, aggregate, batch_verify, batch over any `Pairing` | explicit construction | Negative property by design: individually invalid signatures are accepted, proved with an explicit construction. |
| C08 | Random-exponent batch verification never rejects a valid batch | proved | `Model/Bls`: `Batch`, byte counts, exponent decoding; randomness is an input | induction | Honest batches are accepted for every random source; no panics; order irrelevant. |
| C09 | Random-exponent batch verification is sound up to 256^-k | proved | `Model/Bls`: `Batch`, byte counts, exponent decoding; randomness is an input | counting over all random strings | Counting bound: fraction of random strings accepting a bad batch is at most 256^-k, hence 2^-128/size. |
| C10 | Random exponents are large enough and always decode | proved | `Model/Bls`: `Batch`, byte counts, exponent decoding; randomness is an input | arithmetic | Byte count formula bounds, monotonicity, security level, cap and decoding. |
| C11 | verify_each is the conjunction of individual verifications | proved | `Model/Bls`: `Batch`, byte counts, exponent decoding; randomness is an input | induction over entries | verify_each is exact and stops at the first bad entry. |
| C12 | Key/signature dot products refuse uneven lengths | proved | `Model/Bls`: sign, sign_pop, verify, verify_pop, aggregate, batch_verify, batch over any `Pairing` | list induction | Weighted batching of keys and signatures is linear. |
| C13 | Cached aggregation is history independent | proved | `Model/Cache`: `PublicKeyCache` as a state machine over Jacobian coordinates; seeds and iteration orders are inputs | invariant by induction over call histories | For every finite history of calls, with adversarial hash seeds and set iteration orders. |
| C14 | Cached aggregation agrees with plain aggregation (violated for repeated keys) | proved | `Model/Cache`: `PublicKeyCache` as a state machine over Jacobian coordinates; seeds and iteration orders are inputs | invariant; exact discrepancy; counterexample | The unrestricted equality is false (C14_violation); C14_agrees_iff says exactly when it holds, C14_agrees_nodup covers duplicate-free lists, C14_discrepancy gives the difference. |
| C15 | Deserialisation cache is transparent | proved | `Model/Cache`: `PublicKeyCache` as a state machine over Jacobian coordinates; seeds and iteration orders are inputs | invariant by induction | Deserialisation cache is transparent and bounded by its capacity. |
| C16 | Key cache hashing contract | proved | `Model/Cache`: `PublicKeyCache` as a state machine over Jacobian coordinates; seeds and iteration orders are inputs | projective algebra | Hash/equality contract of the wrapped key over projective representatives. |
| C17 | Concurrent FFI callers see sequential behaviour | proved | `Model/Cache`: `PublicKeyCache` as a state machine over Jacobian coordinates; seeds and iteration orders are inputs | induction over interleavings | Every call is one step here; that the mutex justifies this is C84. |
| C18 | Try-and-increment returns the first usable counter | proved | `Model/HashToCurve`: try-and-increment (both variants), flags, point decoding, the legacy decoder of the test suite | induction over the remaining tries | Exact ok/err/panic conditions for every hasher; independent of the square root chosen by the field library. |
| C19 | CIP22 try-and-increment returns the first usable counter over the inner hash | proved | `Model/HashToCurve`: try-and-increment (both variants), flags, point decoding, the legacy decoder of the test suite | induction over the remaining tries | As C18 for the CIP22 variant. |
| C20 | Message and extra data are bound unambiguously (violated without CIP22) | proved | `Model/HashToCurve`: try-and-increment (both variants), flags, point decoding, the legacy decoder of the test suite | explicit collision; disjointness of XOF inputs | Plain variant violates the property (C20_violation_*); CIP22 satisfies it (disjoint XOF inputs, separation). |
| C21 | XOF output length and domain check | proved | `Model/Hashers`: parameter blocks, CRH, XOF, composite hasher, hash_length | induction over blocks | Lengths below 2^37 bytes (beyond, block numbers overflow the 32-bit field); domain check exact. |
| C22 | XOF blocks use pairwise distinct parameters | proved | `Model/Hashers`: parameter blocks, CRH, XOF, composite hasher, hash_length | digit injectivity; aliasing witness | Injectivity below 65536 bytes, for parameters and for the parameter block; aliasing beyond is proved. |
| C23 | hash_length rounds up to a multiple of 32 bytes | proved | `hashLength` (exact), `hashLengthF64`, `compatBits` with `f64Round`, `f64Div`, `f64Mul`, `f64Ceil`, `f64ToUsize` (`Model/Float`): IEEE 754 binary64, round to nearest, ties to even. | Numbers of at most 53 significant bits are fixed by rounding (logarithm bounds), so every step is exact up to `2^53`; then rounding up by `omega`. The limit by evaluation. The rounding is characterised as the nearest multiple of the unit in the last place, even in a tie. | C23_float is about the f64 arithmetic of the code; C23_float_limit records where it stops being exact; C23_float_nearest states that the modelled rounding is that of IEEE 754. |
| C24 | Sign flag encoding round-trips | proved | `Model/HashToCurve`: try-and-increment (both variants), flags, point decoding, the legacy decoder of the test suite | case analysis over all bytes; curve points decode from the coordinate with the flag of their sign | All flags, all 256 byte values and all curve points; the square root of the field library is assumed to return a root exactly when there is one. |
| C25 | Compat bit extraction equals the deployed logic | proved | `Model/HashToCurve`: try-and-increment (both variants), flags, point decoding, the legacy decoder of the test suite | decoding equality; counter 255 witness | Decoding equality for all digests; hasher equality on BLS12-377 G1 unconditional below counter 255; difference at counter 255 proved. |
| C26 | Bit/byte conversions are inverse | proved | `Model/Utils`, `Model/Encoding`: bit/byte conversions, all epoch encodings over the concrete twist | induction over bits | Value, length and both round trips, the bit round trip even without byte alignment. |
| C27 | Integer encodings are injective fixed-width little-endian | proved | `Model/Utils`, `Model/Encoding`: bit/byte conversions, all epoch encodings over the concrete twist | induction over bits | Exact bit layout and injectivity. |
| C28 | Public key encoding is injective | proved | `Model/Utils`, `Model/Encoding`: bit/byte conversions, all epoch encodings over the concrete twist | curve arithmetic: no point with x = 0 | Injective over all points of the twist including infinity: no curve point has x = 0, proved from 5 being a non-residue. |
| C29 | Signed epoch encoding determines the epoch | proved | `Model/Utils`, `Model/Encoding`: bit/byte conversions, all epoch encodings over the concrete twist | fixed-width splitting | Exact characterisation of when two signed encodings agree; no equal-size hypothesis is needed because byte lengths differ by padded size. |
| C30 | First/last epoch encodings determine what the verifier is told | proved | `Model/Utils`, `Model/Encoding`: bit/byte conversions, all epoch encodings over the concrete twist | fixed-width splitting | Exact characterisation for both encodings. |
| C31 | Distinct epochs have distinct encodings (violated) | proved | `Model/Utils`, `Model/Encoding`: bit/byte conversions, all epoch encodings over the concrete twist | counterexamples | The stated property is violated; machine-checked counterexamples for missing, long and short entropies and for padding keys. |
| C32 | Legacy encoding binds only index, threshold and keys | proved | `Model/Utils`, `Model/Encoding`: bit/byte conversions, all epoch encodings over the concrete twist | fixed-width splitting | Exact characterisation of the legacy encoding. |
| C33 | Public-input packing is injective and never fails | proved | `Model/Encoding`: pack, digests, verifier; Groth16 a parameter | base-2 injectivity | Over all bit strings. |
| C34 | Verifier accepts exactly when Groth16 accepts the two-digest statement | proved | `Model/Encoding`: pack, digests, verifier; Groth16 a parameter | unfolding to public inputs, with C30/C33 | Groth16 and BLAKE2s are parameters. The binding corollary assumes no collision on the four encodings concerned. |
| C35 | Zero-test gadget is sound and complete | proved | `Model/Gadgets`: constraints of the arithmetic gadgets as relations over all witnesses | field algebra | Any prime field; constants included. |
| C36 | Half-range (sign) gadget (violated at one value) | proved | `Model/Gadgets`: constraints of the arithmetic gadgets as relations over all witnesses | field algebra; exact boundary case | Violated only at (p-1)/2: exact description of the satisfying bits proved. |
| C37 | In-circuit sign bit of a G2 point equals the native encoding bit | proved | `Model/Gadgets`: constraints of the arithmetic gadgets as relations over all witnesses | field algebra; concrete twist point | Exact description of the obtainable bits; violation exhibited on a concrete point of the twist (outside any subgroup check, which the circuit omits). |
| C38 | Threshold gadget counts correctly | proved | `Model/Gadgets`: constraints of the arithmetic gadgets as relations over all witnesses | cardinality bound | Bitmaps shorter than the modulus. The comparison gadget of ark_r1cs_std is modelled by its bit-level definition. |
| C39 | Threshold witness counter overflows at 256 (violated) | proved | `Model/Gadgets`: constraints of the arithmetic gadgets as relations over all witnesses | u8 overflow witness | Violated; proved for both overflow-check settings. |
| C40 | In-circuit aggregate key is the sum of the signers and excludes padding | proved | `Model/Gadgets`: constraints of the arithmetic gadgets as relations over all witnesses | list induction | Curve variable operations are modelled as group operations. |
| C41 | In-circuit integer bits equal the native encoding (violated for out-of-range witnesses) | proved | `Model/EpochCircuit`: the whole epoch circuit as a relation over all witnesses | residue argument; witness for every value | In-range equality, exact characterisation, and the violation for every width and value. |
| C42 | The signed threshold limits non-signers (violated) | proved | `Model/EpochCircuit`: the whole epoch circuit as a relation over all witnesses | construction of a satisfying assignment for every size | Violated; for every pair of blocks and every circuit size a satisfying assignment without any signer is constructed. Sound when the threshold witness is below 2^32. External gadget semantics (ark_r1cs_std) in the trusted base. |
| C43 | Epoch indices increase by one through the chain | proved | `Model/EpochCircuit`: the whole epoch circuit as a relation over all witnesses | induction over updates | Any number of updates and any witness; the wrap from 65535 to 0 is exhibited. |
| C44 | Entropy chain is enforced when the first epoch carries entropy (violated) | proved | `Model/EpochCircuit`: the whole epoch circuit as a relation over all witnesses | satisfying assignment | Violated; satisfying assignment with unlinked entropies. Sound when the first entropy witness is non-zero. |
| C45 | Circuit soundness: the batch equation covers every real transition | proved | `Model/EpochCircuit`: the whole epoch circuit as a relation over all witnesses | induction over updates | Any satisfying assignment, any number of updates and validators; circuit keys of the first epoch number n (fixed by the setup). |
| C46 | Circuit completeness with padding epochs | proved | `Model/Prover` and `Model/EpochCircuit`: the assignment computed by the prover | induction over the chain | Honest chain of any length, any number of dummies; the assignment is the one computed by the prover's code. |
| C47 | Padding validators and padding epochs can be combined (violated) | proved | `Model/EpochCircuit`: the whole epoch circuit as a relation over all witnesses | satisfying assignment | Violated; both for any witness and for the prover's own assignment. |
| C48 | Prover padding shape | proved | `Model/Prover` and `Model/EpochCircuit`: the assignment computed by the prover | list reasoning | All transition lists and sizes. |
| C49 | In-circuit message bytes equal the native signed bytes | proved | `Model/Prover` and `Model/EpochCircuit`: the assignment computed by the prover | bit-level equality of encodings | Prover's assignment and, in C49_witness, any witness with the right residues and key encodings. |
| C50 | In-circuit XOF parameters equal the native ones | proved | `Model/HashGadget`: hashing to G1 in the circuit and the helper circuit | equality of parameter blocks | Parameter blocks of the circuit's XOF and edge hash equal the native ones for every block number, 8-byte domain and output length that is a multiple of 256 bits; hence equal digests if both BLAKE2s agree on equal parameter blocks (assumed). |
| C51 | In-circuit hash-to-group agrees with native decoding | proved | `Model/HashGadget`: hashing to G1 in the circuit and the helper circuit | relation = native decoding | Sound and complete against native decoding for affine witnesses; native success gives a satisfying assignment with the native element, unique for the native counter. External: square root, BLAKE2s, Pedersen CRH, ark_r1cs_std semantics. |
| C52 | The in-circuit hash is unique for a message (violated: free counter) | proved | `Model/HashGadget`: hashing to G1 in the circuit and the helper circuit | exact characterisation, witnesses | The accepted hashes are characterised exactly (any counter byte); the uniqueness claim is refuted: two different hashes, the identity, and counter 255 are accepted for suitable BLAKE2s functions. |
| C53 | Helper proof binds digests to messages (violated) | proved | `Model/HashGadget`: hashing to G1 in the circuit and the helper circuit | exact characterisation, forged assignment | Refuted: with the helper the XOF bits are free (exact characterisation), the Boolean of the helper verification is discarded, and a signature on any message is accepted for any next block at the level of the whole circuit; the honest helper hashes other bytes. |
| C54 | Multipack gadget exposes exactly the packed bits (up to unconstrained high bits) | proved | `Model/EpochCircuit`: the whole epoch circuit as a relation over all witnesses | exact characterisation of the linear constraints | Exact characterisation of the constraints, completeness, binding against the verifier's packing, and the slack in the high bits. |
| C55 | FFI sign and verify agree for each flag combination | proved | `Model/Ffi`: entry points with explicit output writes; `Memory` where addresses are computed | case analysis over flags | Exact results of signing and verification for every flag pair; (non-composite, CIP22) refused. A hash failure is reported by verify as verified = false, not as an error. |
| C56 | FFI outputs are written only on success | proved | `Model/Ffi`: entry points with explicit output writes; `Memory` where addresses are computed | case analysis; loop invariant | Every modelled entry point; batch_verify_strict writes its results also when it returns false (exactly characterised); the cached deserialiser may change the cache but not the output. |
| C57 | batch_verify_strict checks every signature it is given (violated for uneven lists) | proved | `Model/Ffi`: entry points with explicit output writes; `Memory` where addresses are computed | loop invariant with C08/C09 | Sound up to 2^-128 and complete for equal lengths; violated for unequal lengths: surplus keys or signatures are ignored, keys without signatures verify. |
| C58 | Serialised key lists round-trip through the FFI block | proved | `Model/Ffi`: entry points with explicit output writes; `Memory` where addresses are computed | induction over chunks | Reading is decoding of the 96-byte chunks in order with the first error; only those bytes matter; round trip for keys of the subgroup. ark_serialize's format is part of the model (external). |
| C59 | FFI aggregation subtract yields the complement key | proved | `Model/Cache`: `PublicKeyCache` as a state machine over Jacobian coordinates; seeds and iteration orders are inputs | cache invariant; counterexample | Holds for duplicate-free removal lists; repeated removal refuted by C59_violation_repeated. |
| C60 | Buffer conversion is total (violated for empty slices) | proved | `Model/Ffi`: entry points with explicit output writes; `Memory` where addresses are computed | unfolding | Round trip for non-empty slices; empty slices (hence messages with empty extra data) panic. |
| C61 | Over-long domains are rejected with an error (violated for the direct hasher) | proved | `Model/Hashers`: parameter blocks, CRH, XOF, composite hasher, hash_length | unfolding, witnesses | xof and composite hasher return the error; the direct hasher panics (proved); domain padding aliasing proved. |
| C62 | Allocated points are bound to their encoding (violated for non-affine witnesses) | proved | `Model/HashGadget`: hashing to G1 in the circuit and the helper circuit | projective algebra, witnesses | Bound for affine witnesses (C62_affine_binds, C51_sound); refuted for free z for G2 encodings and for the G1 hash (every point up to sign is accepted for a digest). Whether the allocator leaves z free is external and a parameter of the model. |
| C63 | Compressing uncompressed points | proved | `Model/Ffi`: entry points with explicit output writes; `Memory` where addresses are computed | exact result on all byte strings | Exact result on all byte strings; panics and the missing curve check included. |
| C64 | The signature gadget is native verification | proved | `Model/Gadgets`: constraints of the arithmetic gadgets as relations over all witnesses | equivalence with C06 | Exact equivalence with the native model. Pairing gadget = native pairing is in the trusted base. |
| C65 | Blocks with fewer keys than maximum_validators can be proven (violated) | proved | `Model/Prover` and `Model/EpochCircuit`: the assignment computed by the prover | unfolding, witnesses | Violated: panic for transitions, shorter bits for the first block. |
| C66 | Serialised keys and signatures are canonical (violated for infinity) | proved | `Model/Serialize`: the ark_serialize format over the concrete curves | decoding/encoding inverse, subgroup test | Violated for the point at infinity only. ark_serialize's format and the subgroup test are external and written out in the model. |
| C67 | The C interface does not panic | proved | `Model/Ffi`: entry points with explicit output writes; `Memory` where addresses are computed | absence of panics by case analysis and induction | Under the hypothesis that the hash functions do not panic (they do for long domains, C61, but the interface passes constant domains) and 2^248 < r for batch_verify_strict; pointers and lengths are the caller's contract. |
| C68 | End-to-end completeness | proved | native model, prover, circuit and verifier together | composition of C46, C49, C51, C34 | Groth16 itself is a parameter, assumed to accept the proof for the inputs that the prover assigns. With the helper (hash-to-bits proof) the proof need not be a right one, since the result of verifying it is discarded (C53). The pairing is any bilinear map; the two BLAKE2s and the two Pedersen hashes are assumed to agree on the blocks involved. |
| C69 | End-to-end soundness of the public inputs | proved | native model, prover, circuit and verifier together | composition of C45, C54, C34, C30, C51 | The collision alternative names the two messages, since a bare no-collision hypothesis would be false. Thresholds are only bound modulo 2^32 and the counter is free, as C42 and C52 show. C69_edges also covers the helper; C69_sound is without it and assumes affine allocation, which C62 shows is necessary. |
| C70 | A padded last block can be proved (violated) | proved | native model, prover, circuit and verifier together | C69 and the order of the generator | The claim is violated: the negation is proved (C70_padded_last), under the hypotheses of C69. |
| C71 | The hash entry points return what is signed | proved | `Model/Ffi`: entry points with explicit output writes; `Memory` where addresses are computed | case analysis with C18/C19 | The byte encodings of points (affine for hash_direct, unnormalised projective for the composite ones) are parameters; the counter theorems assume the environment is built from try-and-increment as in the code and a correct square root. |
| C72 | The C verify accepts exactly accepted proofs of the described blocks | proved | `Model/Ffi`: entry points with explicit output writes; `Memory` where addresses are computed | C58 with C34 | Groth16 and its deserialisers are parameters; pointers valid by the caller's contract. |
| C73 | Keys, aggregates and encodings handed out by the C interface fit together | proved | `Model/Ffi`: entry points with explicit output writes; `Memory` where addresses are computed | C04, C55, C58, C32 | The random draw is a parameter. c_int lengths are exact below 2^31 bytes. |
| C74 | The setup runs on blank circuits and ties the two keys together | proved | `Model/Setup`: `setup`, `trusted_setup`, the `empty` constructors; parameter generators are functions of circuit and random state. | Unfolding; the blank circuit is characterised field by field (`IsBlank`), not by its constructor. | The Groth16 parameter generators are parameters (functions of circuit and random generator). |
| C75 | The prover's circuits have the shape of the setup's (violated with a helper and padding) | proved | `Model/Setup`: `prove` with helper, `generate_hash_helper`, the circuits with options, their shapes; `Model/EpochCircuit` for synthesis. | Induction over the updates for the exact panic condition and the numbers of bits; padding from C48; chunk counts for the public inputs. | Shape = numbers of keys, bitmap bits, updates, helper messages and the helper's verifying key; that the R1CS layout depends on nothing else is read off the code, not proved (the model has no R1CS layout). The helper part of the claim is violated: C75_helper_shape_iff, C75_padded_helper. |
| C76 | The order of G1, and hashes have prime order | proved | `Model/G1` (the curve group, cofactor), `Model/HashToCurve`, `Model/HashGadget`. | `Lemmas/PointCount`: quadratic character sums, second moment over all twists, giving (q-1)*S^2 <= 6*q^2; with an element of order r only one multiple of r remains. `Lemmas/Torsion`: Cauchy and Lagrange. | G1 is Mathlib's group of points of y^2 = x^3 + 1 over Fq. The order is proved by an elementary second-moment bound on the number of points together with an element of order r (certificates checked by the kernel); no point-counting result is assumed. The cofactor value is ark_bls12_377's, transcribed. |
| C77 | Hashing is uniform on the non-zero elements and fails with negligible frequency | proved | `Model/HashToCurve` (decoding, sign bit, loop) over the concrete group of `Model/G1`. | Bijections: digests with numbers, useful (abscissa, sign) pairs with points not killed by the cofactor, tables with products; fibres from C76. | Counts are over digests and tables of digests of 64 bytes, i.e. the uniform distribution if the hash function behaves as a random function; that it does is not claimed. |
| C78 | The scheme on the wire | proved | `Model/Scheme`: the subgroups of order r of the two concrete curves, any bilinear non-constant pairing (`CurvePairing`), with `Model/Bls`, `Model/Serialize`, `Model/HashToCurve`. | C66 turns decoding into equations between byte strings, C02 turns verification into a discrete logarithm equation; a non-zero secret times a non-zero hash is non-zero, so only the canonical encoding remains. The example pairing is built from discrete logarithms. | Groups are the concrete curve subgroups. The pairing is any bilinear, non-constant map (ark_ec's is not modelled); generation of the key group by the generator and non-degeneracy are proved from C76 and C79. The statement includes the behaviour of the identity key, a violation of uniqueness. |
| C79 | The order of G2, and accepted keys are keys of exactly one secret | proved | `Model/G2` (the twist, the generator), `Model/Serialize`, `Model/Scheme`. | `Lemmas/PointCount2`: first and second moments of the character sums over the six classes of coefficients give S^2+3f^2=4Q exactly. `Lemmas/G2Order`: descent by the norm q of the base field leaves 12 values, the order of the generator leaves 2, the absence of 2-torsion (the coefficient is not a cube) leaves 1. Then `Lemmas/Torsion`. | G2 is Mathlib's group of points of the twist over Fq2. The order is proved by the exact moments of the character sums, a descent in the norm form a^2+3f^2 and two checks (the generator has order r, no point has order 2); no point-counting result is assumed. |
| C80 | The direct hasher is BLAKE2s/BLAKE2Xs with the documented headers | proved | `Model/Blake2s`: RFC 7693 on any parameter block; `Model/Hashers`. | Byte arithmetic on the node offset, induction over the blocks; `C80_rfc` by a simulation relating word lists to the RFC's vectors (initial values there are computed from square roots); the vectors of the repository's tests are evaluated by the kernel in `Props/Blake2s` as tests of the model. | BLAKE2s itself is external and is modelled here after RFC 7693. C80_rfc proves the model equal to an independent rendering of the RFC's pseudocode on all inputs; the vectors of the repository's tests are examples run by the kernel, i.e. tests of the model against the code's recorded behaviour, not proofs. |
| C81 | The key cache with real curve arithmetic (violated for aggregated aggregates) | proved | `Model/Jacobian`: addition, doubling, negation on representations as in ark_ec; `Model/Cache`. | `Lemmas/Jacobian`: the formulas against Mathlib's affine group law, case by case; C13 for the cache; a concrete session for the violation. | The formulas are those of ark_ec (external, not in /repo), modelled after its source as known. The violation is a concrete session on the generator and its double, evaluated by the kernel; for deserialised keys the property is proved for all histories. |
| C82 | Sessions of the C interface: ownership, undefined behaviour, and the ideal library | proved | `Model/Session`: a heap of typed objects, the global cache, the entry points of signatures.rs and serialization.rs as steps over it, with undefined behaviour as an outcome. | The effect of each call on the heap by cases, then induction on the session; an exact condition for undefined behaviour; forward simulation against an ideal library using the cache invariant of C13-C16 and C81; a two-key witness for the violation. | The heap is a map from addresses to typed objects; sizes, alignment and the capacity of vectors (assumed equal to the length after shrink_to_fit) are not modelled, and an empty vector counts as an object. The allocator is any that returns fresh non-null addresses. Calls are sequential; concurrent use of the cache is C84, concurrent use of one object by several threads is not covered. The attempt counters of two hash entry points and the entry points under snark/ are added in C104. The ideal library shares the verification bodies of Model/Ffi (their meaning is C06, C55 and C57); its aggregation, signing, serialisation and memory are stated on group elements. C82_curve is the instance for BLS12-377. |
| C83 | The statement of the helper proof (violated by the prover's helper) | proved | `leChunks`, `verifyHelperProof` (`Model/EpochCircuit`), `multipackC`, `multipackWitness`, `helperCircuit`, `helperMessages` (`Model/HashGadget`). | Both readings of a chunk are the same number below 2^252 < r, which fixes the chunk; lengths are recovered from the number of inputs; the prover's reversal then forces palindromes, and bits 377-383 of a CRH are zero. | The verifier gadget (external) is a parameter; C83_binding assumes it sound for messages of 384 bits and its result enforced, which the code does not do (C53). Both the agreement and the violation by the prover's helper are proved. |
| C84 | Concurrent use of the key cache | proved | `Pc`, `CacheThread`, `MutexState`, `CacheCall.advance`, `MutexState.move`, `exec`, `moves` (`Model/Mutex`); the sequential semantics is that of C13-C17. | Invariant by induction on the schedule: the completed calls form a sequence whose sequential run gives the outputs and (when the lock is free) the cache, and the holder's position leads to the sequential result of its call; termination by a weight that every move decreases; poisoning by induction on the rest of the schedule. | std's Mutex (exclusion, poisoning) and the scheduler are modelled; memory is sequentially consistent, which the lock ensures. C84_linearizable, C84_interleaving and C84_observed assume that deserialisation does not panic (C84_poison and C84_panic_poisons say what happens otherwise); the remaining theorems assume nothing. |
| C85 | The Pedersen hash of the composite hasher | proved | `CRH_WINDOW_SIZE`, `CRH_NUM_WINDOWS`, `crhSeed`, `crhMaxChunks`, `windowGenerators`, `setupCrh`, `encodeChunk`, `padChunks`, `evaluateSegment`, `evaluateCrh`, `pedersenCrh`, and the curve: `ED_D`, `edCurve`, `edX`, `edY` (`Model/Pedersen`). The curve is modelled in Weierstrass form; C85_points and C85_addition prove it to be the Edwards curve with the Edwards addition law. | Window sums as sums of signed base-16 digits (induction over the pieces); digits are unique by induction, bounded below the group order by a geometric sum, and give back the bits and the length of the message. `x` determines a point up to `P -> T - P` (two roots of one quadratic), which odd order excludes. The addition law by clearing denominators, with coefficients for the two curve equations; completeness because `d` is not a square (Euler's criterion evaluated by the kernel). A base point of the right order by a checked double-and-add chain. | The external crate's bowe_hopwood CRH is modelled from its published algorithm (its source is not part of /repo); ChaCha20 and the sampling of the bases are a parameter here and modelled in C89. C85_collision and C85_collision_iff assume that the bases lie in the subgroup of order ED_ORDER, which C89 proves of the bases drawn. C85_panic, C85_ffi and C85_epoch record a panic on long input. |
| C86 | Curve arithmetic inside the circuit never meets the exceptions of its formulas | proved | `circuitAdd`, `circuitDouble`, `circuitNeg`, `circuitEq`, `CircuitSum`, `AggregatedLoopVar`, `AggregatedAllVar`, `ScalarMulLe`, `ScaleByCofactorG1`, `ToAffineC` (`Model/CircuitCurve`): values of the coordinates, and the loops of `bls.rs` and `hash_to_group.rs` as relations on them. An operand that is the constant zero may be dropped at any addition. | The `z` of the formulas is `-(x1 - x2)^3 y(P - Q)`: polynomial identities modulo the two curve equations with explicit coefficients, and case analysis for equal abscissae and infinity. G2 has odd order (C79). In G1 92 doublings lead into the odd part (order from C76), the 92 low bits of the cofactor are zero; induction over the bits. C86_aggregate_model ties the point-level model used by C40 to C45 to the coordinates. | The formulas are those of ark_r1cs_std 0.1 as published (Renes, Costello and Batina, algorithms 1 and 3); its source is not part of /repo. scalar_mul_le is modelled as double and add from the least significant bit. |
| C87 | Machine integers of the C interface (violated for negative and huge values) | proved | `usizeAdd`, `usizeSub`, `usizeMul`, `directXofUsize`, `ffiHashDirectFirstStepInt`, `ffiHashCrhInt`, `readPubkeysUsize` (`Model/CInt`): `c_int` arguments, 64-bit `usize` arithmetic with and without overflow checks; the encoders of `Model/Ffi`. | Linear arithmetic on the ranges; block number 2^48 panics; the key loop meets the end of a wrapped slice by induction; lengths of encodings from C26 and C29. | Violated; the negation is proved with witnesses (C87_hash_bytes_negative, C87_encode_truncates). usize has 64 bits, c_int 32. Memory is unbounded in the model: where it says panic for huge lengths the process may run out of memory first. |
| C88 | Rogue keys and proofs of possession (aggregates alone violated) | proved | `Model/Bls`: keys, aggregation, signing, verification, proofs of possession, batches. | Every key is a multiple of the generator; verification is then linear in the signature. | The attack on aggregation without proofs of possession is a theorem (C88_rogue); whether callers check proofs of possession is outside /repo. |
| C89 | The bases of the composite hasher | proved | `Model/Sampling`: ChaCha20 (`rotl32`, `chachaQuarter`, `chachaDoubleRound`, `chachaInit`, `chachaBlock`, `chachaWord`), `nextU64`, `fqCandidate`, `sampleFq`, `edPointFromX`, `samplePoint`, `sampleBases`, `setupCrhSampled`. The loops carry a bound (`fuel`); `none` is that they are still running. | Induction on the loops for all generators. The curve has `8 * ED_ORDER` points: the quadratic twist trick and a point of order `ED_ORDER` (`Lemmas/EdCard`), with `ED_ORDER` prime by an elliptic curve primality certificate (`Lemmas/Ecpp`, `Lemmas/EdPrime`). The real bases are evaluated by the kernel with a certificate of square roots (`Lemmas/SamplingEval`, `Lemmas/SamplingData`); 8 P is not zero by a condition on the coordinates. | ChaCha20 and the sampling of points are modelled from their published algorithms (rand_chacha, ark_ff, ark_ec; not part of /repo) and reproduce the test vectors of composite.rs (Props/Conformance, tests). The square root is a parameter with SqrtSpec. The number of points of the curve and the primality of ED_ORDER are proved, not assumed. |
| C90 | The Pedersen hash over all choices of its bases | proved | As C85 and C89: `setupCrh`, `evaluateCrh`, `pedersenCrh`, `fqCandidate`, `sampleFq`, `edPointFromX`, `samplePoint`; one round is `fuel = 1`. | Combinations of bases with a coefficient prime to the order are a surjective homomorphism, all of whose fibres have the same size (`Lemmas/EdCount`). For the draws: words to candidate is 128 to 1 onto residues, candidates below the modulus to `x` is 1 to 1, `x` and flag to point by the choice of root, point to base is 8 to 1 (`Lemmas/DrawCount`). | Counting statements over all choices (of bases, or of the words of one round); no probability space, and nothing is claimed about the output of ChaCha20. |
| C91 | Generated private keys are uniform, zero included | proved | `frCandidate`, `sampleFr` (ark_ff, external, written out) and `generateKey` (`Model/KeyGen`) over a sequence of 64-bit words; the unbounded loop has fuel. | Induction over the rounds gives the exact result; words to candidate is 8 to 1 onto residues, candidate to scalar is 1 to 1; the count over `n` rounds by splitting off the first round (`card_first`). Public keys: the generator of G2 has order `r`. | Counting statements over the words of the generator, which is a parameter; nothing is claimed about thread_rng. Fr::rand is written out from ark_ff (external). |
| C92 | Forging a signature, an aggregate or a proof of possession is as hard as co-Diffie-Hellman | proved | The attack runs the model's `sign`, `signPop`, `verify`, `verifyPop`, `aggregatePublicKeys`, `toPublic`; the hash is a table (`Props/Forge`). Groups and generators as in C79 (`Model/Scheme`); the pairing is any bilinear, non-constant map. | The challenge is the answer to one guessed question, answers for foreign proofs of possession are multiples of the challenge, all others multiples of `g1`. Induction over the forger: attack and simulation are in step as long as the target is not signed (`simulate_eq`). An accepted aggregate then contains `s h` (`extract_eq`). Wins, together with the one unused coin, inject into successes of the solvers. | Counting over all tables of a random oracle with values other than the identity (the hash of the code never returns it); that the code's hash behaves like one is an assumption, and so is the hardness of the problem, which is the hypothesis of C92_unforgeable. The forger is deterministic (coins can be fixed) and its running time is not modelled: the solver runs it once and does one multiplication per question. Proofs of possession of the honest signer are restricted to a set of own addresses, those of others to other addresses, an assumption on the callers of this code. Without proofs of possession see C88. |
| C93 | A light client only accepts later blocks of the chain | proved | `epochCircuit`, `verifyEpochs`, `publicInputs` and the encodings as in C69; the chain, who is honest and what was signed are a structure `HonestQuorums` (`Props/LightClient`). | Invariant along the transitions (`follow_transitions`): the k-th epoch of the circuit agrees with block i+k. The threshold (C42) and the quorum give an honest signer, who signed a block of the chain; the encodings are injective (`matches_of_inner`) and the index grows by one (C43), so it is the next block. The edges are tied by C69's `EdgeMatches`. `C93_deceived` from `C42_violation` and `edges_complete`. | That the accepted proof was made from a satisfying assignment (C108 proves this of linear provers), unforgeability (C92 proves it natively from co-Diffie-Hellman) and the range of the thresholds are hypotheses of C93_verifier; C93_deceived shows that the range cannot be dropped, because the code does not constrain it (C42). Quorum: more honest keys than allowed non-signers, so that every set of signers meets an honest one. |
| C94 | Hashing to G2 | proved | `from_random_bytes::<P>`, `hash_with_attempt` and `hash_with_attempt_cip22` generically in the curve (`Model/HashToG2`), the parameters of G1 and G2 as a record. | `C94_generic_g1` compares with the G1 model of C18 and C19. Decoding of the two halves is analysed by the lemmas of C18; that b is neither a square nor a cube in the quadratic extension excludes x = 0 and y = 0, so the choice of the root is strict. Counting: digests correspond to pairs of numbers, the decoding depends on 377 + 377 + 1 bits, and cofactor clearing has fibres of the size of the cofactor because |G2| = cofactor * r (C79). | Decoding of a pair of field elements from bytes, the order of the quadratic extension and multiplication by the cofactor are ark code, modelled from its source as for C18. The square root is any function that returns a root whenever there is one. |
| C95 | Batches cannot be forged | proved | `batchVerify`, `sign`, `signPop`, `verifyPop`, `aggregatePublicKeys` of `Model/Bls`; the forger is a tree of questions as in C92 (`OracleForger`), its output a batch. | `reduction_count` of C92, generic in the output of the forger and the problem. The solver answers other messages with multiples of g1, so the entries for them collapse to one pairing e(g1, V) without knowing any secret (`entries_share`); the keys next to the honest one are removed with their proofs of possession (`popShares`). | The hash is a random oracle (counted over all tables); hardness of the problem is not proved, only that linear combinations fail. C95_repeated shows that distinct messages, which the code does not check, are needed. |
| C96 | Deceiving a light client means forging a batch | proved | `enforceEpochs`, `epochCircuit` of `Model/EpochCircuit` and `batchVerify` of `Model/Bls` over the curves; `FullPairing` is the (external) pairing on the whole curves. | The pairing only sees the components of order r (`FullPairing.e_eq`, by the Chinese remainder theorem and the orders of the curves), which turns the equation of C45 into the one of `batchVerify`. Messages of different transitions differ by the index (`message_inj`, C43). `C96_deceived` is the contrapositive of C93, which is proved assuming only that nothing was forged in transitions from blocks of the chain (`C93_on_chain`). `C96_any_counter` takes for the hash `attemptHash`, the hash of try-and-increment at a given counter: the circuit accepts only its values (`attempt_circuit`, from C52), and the native hash is its value at the first usable counter (`attempt_native`, from C19). | With the hash of the circuit and no helper, nothing is assumed of the hashes in the assignment (C96_any_counter): the forgery is for the hash with an explicit counter, chosen by the prover (C52). C96_deceived, for any hash gadget, assumes that the hash to G1 has the values the assignment uses. Both assume thresholds below 2^32 (not enforced, C42), points allocated in affine form, keys of a block different and in the subgroup, and at most 2^16 updates. The pairing of the circuit is external: bilinear on the curves with values of order dividing r. |
| C97 | Uncompressed keys and signatures are on the curve (violated) | proved | `deserialize_uncompressed` of `PublicKey` and `Signature` (`Model/Uncompressed`), with ark_ec's subgroup check written out as double-and-add on Jacobian coordinates (external, written from knowledge of ark_ec 0.1: reads x, then y with flags, no test of the curve's equation). | The formulas do not contain the coefficient b, so on coordinates (x, y) they are the group law of y^2 = x^3 + (y^2 - x^3) (C81's lemmas for any b); for the cusp the check is reduced to (1, 1) by scaling and evaluated. Scaling by (u^2, u^3) commutes with the formulas (`Scaled`). | The violation is proved (C97_violation_signature, C97_violation_public_key). It rests on the model of ark_ec's deserialize_uncompressed, which multiplies by the order but does not test the equation of the curve; no function of the C interface calls it. |
| C98 | Deceiving a light client is as hard as a Diffie-Hellman problem | proved | The functions of C95 and C96. The adversary (`Deceiver`) is a tree of questions answered by `sign` and `signPop` of `Model/Bls` (`attackMany`); `Deceives` is the success. | `deception_forgery` finds a forged transition (`forged_transition`, the core of C96) and reads a batch off the assignment, with the secrets of the other honest validators among the known ones. `translate` plays all validators but one with made-up secrets, so that the forger sees what the adversary sees (`translate_attack`) and asks as many questions (`translate_bounded`). Counting (`card_moved`): the attacked secret moves out of its place, where any other secret may stand; then C95 for each choice of the made-up secrets (`many_count`). | Random-oracle model; the assumptions of C96 (thresholds below 2^32, affine allocation, keys of a block different and in the subgroup, at most 2^16 updates) are part of success. The counters of the hashes are handed out with the assignment (C98_counters: they exist when the gadget is the oracle; C98_gadget: the gadget of the code is one, for the hash of the code). The soundness of the Groth16 proof is outside the model: the adversary hands out the assignment. |
| C99 | The fixture, the end-to-end program and the example programs | proved | `tests/fixtures.rs`, `tests/e2e.rs`, `examples/proof.rs`, `test_helpers.rs` and the three examples of bls-crypto (`Model/Fixtures`), with `trustedSetup`, `prove` and `verifyEpochs` of C64, C68, C83. The random source is a stream of secrets; reading arguments and files, hexadecimal printing and the entropy's random source (the fixture derives it from the epoch number) as in the code. | Closed forms of the loops by induction (`keygenBatchLoop_eq`, `fixtureLoop_ok`, `fixtureLoop_panic`); the fixture is a native chain (`C99_chain`: sums of signatures against sums of keys by bilinearity, `pairing_cancels`), so the circuit is satisfied (C43, C65, C83) and its inputs are those of `verify`. The examples by C02, C03 and the round trips of C66. | Completeness of Groth16 for the epoch circuit is a hypothesis of C99_end_to_end: the values that the prover assigns, if they satisfy a circuit of the shape that was set up, give a proof that is accepted for the inputs assigned. C105_end_to_end proves it of the modelled Groth16. Pairing and BLAKE2s gadget as in C43. With the helper, the theorem assumes only that some helper proof is made and meets the gadget's constraints; by C83 it cannot be a proof of what the epoch circuit states. |
| C100 | Exactly which calls of the C interface panic, with the hashes of the library | proved | `Model/Library`: the three lazily built hashes to G1 over the CRH setup of C85 and the hashers of C18, C19, C21, plugged into the entry points of `Model/Ffi`; `init`. | Exact panic conditions of the hashes (`C100_hashes`, from C18, C19, C85 and the length of XOF output), then of each entry point; induction over the messages and batches for the two batch calls (`mapM_eq_panic_iff`, `strictLoop_panic`). | Proved as an exact characterisation; that over-long messages panic instead of returning false is a violation of what the interface promises. Lazy initialisation is modelled as computing the value at each use. batch_verify_strict needs 2^248 < r (as C56). |
| C101 | A light client may follow the chain by any number of proofs; the entropies of the first block mean nothing | proved | The verifier and circuit of C34, C45 and C69; the loop of the light client (`syncEpochs`) is the caller's, not code of the repository. | `C101_step` is C93 from any block that agrees with the chain in what the circuit carries along (`Holds`); induction over the updates (`C101_sync`), bounds on the indices (`C101_progress`). Completeness (`C101_complete`) by induction over the pieces, from C68. `C101_parent_free` changes one variable of a satisfying assignment and recomputes the first edge. | Soundness of repeated verification proved, under the hypotheses of C93; that the first block's entropies are not bound is shown by a changed satisfying assignment. Soundness is assumed of the accepted proofs only, since for every statement some proof is accepted (C106). |
| C102 | Leading a light client away from the chain by many proofs means forging one batch, with a bound that does not grow with the number of proofs | proved | The verifier and circuit of C34, C45 and C69, the loop `syncEpochs` of C101, the signers and adversaries of C98. | `forged_transition_held` is the core of C96 from any block that agrees with the chain (`Holds`); induction over the updates finds the first one that leaves the chain (`C102_deceived`, `leaves_chain`). The forger of C98 looks for a forged transition in all updates at once (`SyncDeception.toForgery`), so the count of C98 (`many_count`, `many_probability`) applies unchanged and no union bound over the updates is needed. | Under the hypotheses of C96 and C98 for each update: thresholds below 2^32 (not enforced, C42), points allocated in affine form, the circuit of at most 2^16 updates; C102_deceived also assumes that the hash to G1 has the values the assignments use. The random-oracle part leaves the proof system out: the adversary hands out the assignments, and the honest validators signed only blocks of the chain. |
| C103 | The sizes keys and signatures report are the bytes they write, but not for the uncompressed form | proved | `serialized_size` of keys and signatures (Model/Sizes.lean), computed from the bits of the moduli and the flags; the default `uncompressed_size` of the trait (external). | Lengths of the byte strings of C66 and C97; `deserialize` through the exact characterisations of C66. `C103_bits` ties the bit counts to the moduli, `C103_truncated` shows what a buffer of the reported size loses. | The default of uncompressed_size and the sizes of points are those of ark_serialize and ark_ec, which are not in the repository. The violation is proved for every key and signature; nothing in the repository calls uncompressed_size. |
| C104 | Sessions of the whole C interface, and a rule that keeps a client safe | proved | `Model/FullSession`: the steps of `Model/Session` with the three entry points under snark/ and with every output; two allocations for the CIP22 encoder. | As C82, by cases and induction on the session. The rule: books kept from observations only, with the invariant that what they say is true of the heap. The signing session: run in the ideal library by induction on the signers, transferred by the refinement. | Heap and allocator as in C82: typed objects at addresses, fresh non-null addresses, an empty vector counts as an object. Buffers are given by their contents at the time of the call; that they are readable is the caller's obligation and not part of the condition for undefined behaviour. The ideal library shares the body of verify (its meaning is C72). The rule does not exclude panics. |
| C105 | The proof system accepts what the prover makes | proved | `Model/Groth16`: constraint systems, evaluation domains, `generate_parameters`, `create_proof`, `create_proof_no_zk`, `prepare_inputs`, `verify_proof` of ark_groth16, with Fourier transforms written as interpolation; `Model/GrothCircuit`: their calls in `api/setup.rs` and `api/prover.rs`. | The rows of the system interpolate to polynomials; if the constraints hold, the vanishing polynomial divides a b - c, the quotient has degree at most N - 2 and is recovered from the coset (`Lemmas/Groth16`); the verification equation is then an identity in the scalars. `C105_end_to_end` discharges the hypothesis of C99. | The generator, prover and verifier of ark_groth16 are modelled from that library's algorithm (its source is not part of /repo). That synthesis of the epoch circuit turns a satisfied circuit into satisfied constraints is a hypothesis of C105_end_to_end, and the helper's proof system a parameter there; C122_end_to_end proves both of the emitted constraints. |
| C106 | Accepted proofs can be altered by anybody, and forged by whoever made the setup | proved | As C105; the forger is a definition of `Props/Groth16`. | Bilinearity of the pairing. The third element is determined since the pairing with the generator is injective and the scalar of the key is invertible. | Whether malleability matters depends on the caller; nothing in the repository uses proofs as identifiers. The pairing is any as in C01. |
| C107 | The prover's proofs do not hide the witness | proved | As C105, with `create_proof` for the comparison. | Hiding: the proof of `create_proof` is the forged proof at shifted factors, and the shift is a bijection. Not hiding: equal first two elements mean that a non-zero polynomial of degree below N vanishes at the secret point. | Stated for the values that enter the constraints; that two sets of signers give different values in the epoch circuit's system is not shown. |
| C108 | A prover who combines the published elements holds a satisfying assignment | proved | As C105; linear provers are two structures of coefficients in `Props/GrothSound`. | The verification equation, cleared of the inverted scalars, is a polynomial of degree at most 3 N + 1 in the five scalars; if it is not zero, the Schwartz-Zippel lemma counts its zeros. If it is zero, comparing coefficients of the monomials in the four scalars other than the secret point gives that the first two combinations agree with the third and that the constraints hold on the domain (`Lemmas/GrothSound`). The epochs by C69. | Provers are linear in the published elements (the algebraic or generic prover) and choose the coefficients before the setup; computational provers in general would need a knowledge assumption. In C108_epochs, that satisfying values decode to a satisfying assignment of the circuit (synthesis) is a hypothesis. |
| C109 | A light client that is shown proofs of linear provers stays on the chain | proved | The proof system of C105, the client of C101, the provers of C108. | C108 for each update, the union of the sets of lucky setups by induction over the updates (`exists_lucky`); C101 and C102 are applied with the coefficients in the place of the proofs (`syncEpochs_map`). | Blocks and coefficients are chosen before the setup. Hypotheses of C101, C102 and C108: synthesis of the circuit, thresholds below 2^32 (not enforced, C42), points allocated in affine form. |
| C110 | The setup and every prover build the same constraint system | proved | `Model/Synthesis`: constraint systems with linear combinations, allocation, enforcement, the operations of `Boolean` and `FpVar` used, and every gadget as the program that emits constraints. | `Alike g g'`: runs from systems of the same shape end in systems of the same shape; closed under sequencing, loops and branches on the kind of variable, shown for every operation (`Lemmas/Synthesis`). | The operations of ark_relations and ark_r1cs_std are written out in the model as those crates define them; their number of constraints agrees with the ones asserted in the tests (C112). |
| C111 | The emitted rank-1 constraints say what the gadgets claim | proved | As C110, with the allocation of points. | `Sound`: an assignment satisfying the constraints has the meaning of `Model/Gadgets`. Conversely a program that allocates the adversary's values (`normalizeAs`, ...) is alike and its own assignment satisfies the constraints (`Step`, `exists_extension`). The meanings are exact by C35 to C40 and C54. | Exact in both directions. normalize on half the modulus and a maximum from half the modulus on are the known exceptions (C36 to C38). |
| C112 | The test circuits accept exactly the right inputs, with the asserted number of constraints (violated for 256 occurrences) | proved | As C110; the circuits of the unit tests. | As C111 for the whole circuit; the constraints are counted by a compositional cost (`Cost`), the loop over the bits of half the modulus evaluated by the kernel. For wrong witnesses (`C112_*_decides`): a program that ends in setup mode ends for a prover whatever the values, and keeps the values assigned before (`Ends`, `Grows`, `Lemmas/SynthesisEnd`). | The violation (256 occurrences) is C112_bitmap_panics; C112_bitmap shows that the constraints can be satisfied there. |
| C113 | Setup, proof and verification of the circuits built from the gadgets | proved | `Model/SynthesisGroth`: the matrices of a constraint system, setup and prover running a synthesis program of `Model/Synthesis`, on the Groth16 of `Model/Groth16`. | The columns are the variables in scope, so matrices and constraints agree (`satisfied_matrices`); setup and prover have the same matrices by C110; then C105 and C108 with C112 in both directions. The sign circuits have no public input (`KeepsInputs`). | Soundness is against provers that combine the elements of the key linearly (as C108), for all but few setups, counted. The assertion of ark_groth16 in debug builds that the constraints are satisfied is not modelled. |
| C114 | The epoch data gadgets as rank-1 constraints | proved | `Model/SynthesisEpoch` on top of `Model/Synthesis`: `to_bits`, `enforce_next_epoch`, `fr_to_bits`, `g2_to_bits` as programs. | As C111: `Sound` for any assignment, `Alike` to a program with the adversary's values for the converse, `Step` for the prover's and the setup's run, `Cost` for the counts. The values are those of `EpochVars` in `Model/EpochCircuit`, so C37 to C45 apply to what the constraints force. | Exact in both directions. The missing bound of index, round, threshold and entropy (C41) and the triple of zeros as key (C86) are present in the emitted constraints; an example beside the theorems shows both. |
| C115 | The aggregation gadgets as rank-1 constraints | proved | `Model/SynthesisBls` on top of `Model/Synthesis`: `enforce_bitmap`, `enforce_aggregated_pubkeys`, `enforce_aggregated_all_pubkeys` and the external gadgets under them (`is_eq`, `conditionally_select`, Fq2 multiplication, the complete addition of Renes, Costello and Batina in projective coordinates) as programs. Whether adding a variable to the constant zero is dropped or emitted is a parameter `drop`; the theorems hold for both. | `Sound` for any assignment, `Step` from the adversary's values for the converse, so that the constraints are satisfiable exactly if the loop relation `LoopSpec` holds; that relation is the one of C86 (`AggregatedLoopVar`), which gives sums of points. `Cost` for the counts, `Alike` for setup against prover. | Exact in both directions. Includes the violation C115_run_panics (the count of non-signers is a u8, C38) at the level of emitted constraints. Whether adding to the constant zero emits constraints is a parameter of the model. |
| C116 | The constraints of the whole circuit | proved | `Model/SynthesisEpochs`: `generate_constraints`, `enforce`, `verify_intermediate_epochs`, `SingleUpdate::constrain`, `EpochData::constrain`, `verify_signature`, `EpochBits::verify`, `verify_edges` as programs on top of `Model/SynthesisEpoch` and `Model/SynthesisBls`. Parameters (`OuterGadgets`): the gadgets for hashing to G1, `prepare_g1/g2`, `batch_verify_prepared`, BLAKE2s and the Groth16 verifier. | `Sound` (any satisfying assignment) composed along the program; the values of the variables are collected into a `CircuitVars` for which `enforceEpochs`/`epochCircuit` of `Model/EpochCircuit` holds, so C43 to C45 apply. The step from coordinates to points uses C86 and C115. Shape: `Alike` along the program. | Soundness and shape of the whole circuit at the level of constraints. What the parameters have to satisfy is `OuterGadgets.SoundAt` and `OuterGadgets.Shaped`: the constraints of the hash, pairing, BLAKE2s and Groth16 gadgets force their relations, and do not depend on values. |
| C117 | The prover's run of the whole circuit | proved | `generateConstraints` of `Model/SynthesisEpochs` in the prover's and the setup's mode, `proverCircuit` of `Model/Prover`, `ValidatorSetUpdateOpt.empty`. Parameters as for C116, with `RunsAt`, `Keeps` and `SetsUp` in place of soundness. | `Step`/`Good` along the whole program (`Lemmas/SynthesisProver`): every gadget succeeds on satisfying values and extends a satisfied system to a satisfied one. The public inputs are tracked by `KeepsInputs` (`Lemmas/SynthesisInputs`). The setup follows the prover by `SetupFollows` (`Lemmas/SynthesisSetup`): where the run with values succeeds, so does the one without, with the same variables. C46 supplies the values of an honest chain. | Completeness at the level of constraints, for any gadgets that satisfy `OuterGadgets.RunsAt` (hash to G1, pairings, BLAKE2s, Groth16 verifier: run on values that satisfy their relation and then satisfy their own constraints), `Keeps` (do not allocate public inputs) and `SetsUp` (succeed at setup where they succeed for the prover). |
| C118 | From the constraints of the whole circuit to the verdict on epochs | proved | `circuitSetup`, `circuitProve` of `Model/SynthesisGroth` on `generateConstraints`; `verifyEpochs` of the verifier. Linear strategies as in C103. | Completeness: C117, C116 (same constraints in both modes) and C113. Soundness: C113 gives an assignment that satisfies the constraints or rejection; C116 turns the assignment into values of the circuit, C45 and C69 into what is shown about the blocks. | The Groth16 steps are those of C102 to C105 and C113, now on the constraints that the whole circuit emits rather than on an abstract relation. Soundness is against linear (generic-group style) provers with `Closed` constraints. |
| C119 | The hash to G1 as the constraints it emits | proved | `hashBitsToG1V`, `enforceHashToGroupV`, `pedersenBitsV`, `hashToBitsV`, `hashToGroupV`, `scaleByCofactorV` with the curve arithmetic of arkworks on G1 (`g1Add`, `g1Double`, `scalarMulLeV`) in `Model/SynthesisHash`. Parameters: the Pedersen and BLAKE2s gadgets. The native functions called inside allocation closures are `hashNative`. | Soundness: `Sound` along the program (`Lemmas/SynthesisHash`) to the relation `hashBitsToG1C` with allocation `OnG1`, then C52_exact and C53_free say what the relation means. Run: `Step` along the program with the values of `hashBitsToG1Witness`, which satisfy the relation by C51_native; cofactor clearing takes the values from soundness at the assignment itself. Shape, inputs and setup by `Alike`, `KeepsInputs`, `SetupFollows` (`Lemmas/SynthesisHashShape`). | The Pedersen and BLAKE2s gadgets of arkworks are parameters (`HashGadgets.SoundAt`, `RunsAt`); everything of this repository between them is constraints. The projective coordinates that arkworks' allocation admits are allowed, so the weakness of C62 is part of what is proved about satisfying assignments, and the free counter of C52 too. |
| C120 | The helper circuit as the constraints it emits | proved | `HashToBits.generateConstraints` with `helperRound`, `blakeBitsV`, `constrainBool` and `multipack` over the scalar field (`Model/SynthesisHelper`), `HashToBits.empty` (`Model/Setup`), key generation, proving and verification of Groth16 (`Model/SynthesisGroth`, `Model/Groth16`). Parameter: the BLAKE2s gadget. | Soundness: `Sound` along the loop and the two packings to the relation `helperCircuit` of C83. Run: `Step` along the program, with the packed values of `C83_values`. Setup: `SetupFollows` and `Alike`. Proofs: `circuit_complete` and `circuit_sound` of C113 applied to these constraints; a satisfying assignment with the inputs of the epoch circuit gives the hashes by `helper_inputs_iff`. | The BLAKE2s gadget of arkworks over the scalar field is a parameter (`BlakeSoundAt`, `BlakeRunsAt`). Together with C83 this says what the helper proof is worth inside the epoch circuit; that the epoch circuit discards the verdict (`let _ =`) and that the prover reverses the bits are the violations recorded under C53 and C83. |
| C121 | A proof is a proof of one statement | proved | `verifyProof` with `prepareInputs`, `generateParameters` (`Model/Groth16`), `circuitSetup` and `circuitProve` (`Model/SynthesisGroth`) for any program of constraints, `verifyEpochs` (`Model/Encoding`), `HashToBits.generateConstraints` (`Model/SynthesisHelper`), `helperMessages` (`Model/HashGadget`). | The difference of the verifier's elements for two lists is a polynomial in three secrets of the setup. It is not zero because ark_groth16 adds a row per public input: at the point of the row of an input where the lists differ, the coefficient of β is the difference. Schwartz-Zippel counts its zeros. Epochs: C34; helper: C120, C83 and C53. | No assumption on the prover: the count is over the randomness of the setup and holds for every proof, made with or without knowledge of it. `C121_unavoidable` shows that the two lists of inputs have to be fixed before the setup, or a relation between elements of the key be assumed hard to find (`C121_relation`). The helper part uses the gadgets of C120. |
| C122 | The end-to-end program succeeds on the constraints that are emitted | proved | `helperSetup`, `epochSetup`, `helperProve`, `epochProve` (`Model/SynthesisApi`): the calls of the proof system in `api/setup.rs` and `api/prover.rs`, on the constraints of `generateConstraints` (`Model/SynthesisEpochs`) and `HashToBits.generateConstraints` (`Model/SynthesisHelper`); the program is `endToEnd` (`Model/Fixtures`) with these for the proof system. | C99 is first applied to a trial proof system whose proof is the prover's run itself: this gives a run that satisfies its constraints. C117 and C120 give the setups' runs of the same shape, so the keys exist and fit. Then C99 is applied to Groth16, whose completeness is C103 for the run found. For this, the hypotheses of C68, C99 and C105 on the proof system were weakened to the circuits and inputs that occur. | The gadgets of arkworks (pairing, Pedersen and BLAKE2s hash, verifier of the helper proof) are parameters with the hypotheses of C117, C119 and C120; the evaluation domains have to be large enough for the constraint systems, and that of the epoch circuit valid. |
| C123 | Exact size of both circuits, and exactly when a setup succeeds | proved | `generateConstraints` (`Model/SynthesisEpochs`), `hashBitsToG1V` (`Model/SynthesisHash`), `HashToBits.generateConstraints` (`Model/SynthesisHelper`), and `rootOfUnity`, `radix2Domain`, `setupDomain` (`Model/EvaluationDomain`): the choice of the evaluation domain in ark_poly, external. | A calculus of exact costs: every successful run of a gadget emits a fixed number of constraints and witnesses, and its result has a fixed length; costs add up along sequences and loops. The domain: order of the powers of a non-residue, and the next power of two; the constants of the fields by repeated squaring in the kernel. | The numbers of constraints of the gadgets of arkworks that the model takes as parameters (Pedersen hash, BLAKE2s, preparation of points, pairing equation, verifier of the helper proof) are parameters of the formula. The domain is that of ark_poly for a field of given generator and two-adicity; the constants of both fields are checked. |
| C124 | The benchmark ends exactly if the messages can be hashed, and the example prints the exact size | proved | `benchMain` and `constraintsMain` (`Model/Bench`): `benches/batch_bls.rs` and `examples/constraints.rs`. | The loop over a committee is solved in closed form (sums of keys and signatures), then C02, C06, C08 and C11 give the four checks; the size is C123 for the empty circuit, and it runs by C117. | The sizes of external gadgets are parameters, as in C123; time measurement, command line and printing are not modelled. |
| C125 | The field's square root ends, never panics and returns a root exactly if there is one | proved | `legendreSymbol`, `arkSqrt` and its loops `sqrtInner`, `squareTimes`, `sqrtLoop`, `fqSqrt` (`Model/Sqrt`), the panic of the underflow and loops without end included; external code called at `hash_to_curve/mod.rs:304`. | Loop invariant: x^2 = a b, z has order exactly 2^v and b has an order 2^k below it; each round lowers v to k. Euler's criterion gives the two directions; the constants are checked by the kernel. | The algorithm is that of ark_ff, whose source is not in /repo: modelled as known, with the constants of ark_bls12_377 (generator 15, two-adicity 46). That 15 is no square modulo q is proved, not assumed. |
| C126 | The square root that decompresses public keys never panics and is exact, but for pure multiples of u in older versions | proved | `fq2Norm`, `fq2SqrtRun` with `fq2SqrtComplex`, `fq2SqrtDelta`, `fq2SqrtLast`, `fq2Sqrt` (`Model/Sqrt2`), both versions, each `expect` a panic; external code behind `bls/public.rs:138-142`. | delta times delta - alpha is -5 (im/2)^2, no square, so exactly one of them is a square (Euler's criterion); the rest is algebra over C125. Reading a written key looks up one root only, hence the exact condition from C66. | The algorithm is that of ark_ff, whose source is not in /repo (Cargo.lock pins a git revision labelled 0.1.0); both known versions are modelled, and which one is pinned cannot be checked here. No key with a second coordinate in u Fq is exhibited; the statement is about any that exists. |
| C127 | The multi-scalar multiplication of a batch is the sum of the products | proved | `lnWithoutFloats`, `msmWindow`, `msmStarts`, `addToBucket`, `msmScatter`, `msmSumBuckets`, `msmWindowSum`, `msmCombine`, `pippenger` (`Model/Msm`), out-of-range buckets and a missing window being panics; external code called at `bls/public.rs:61-64` and `bls/signature.rs:85-88`. | Value of the buckets as an invariant of the loop over scalars, running sums by induction, windows by Horner's rule and the expansion of a number in base 2^c. | The algorithm is that of ark_ec, whose source is not in /repo: modelled as known. Additions are those of the group, not their formulas; windows run one after the other instead of in parallel. |
| C128 | Batch normalization gives the affine form of every point, whatever the representation | proved | `batchProducts`, `batchBack`, `batchInversion`, `normalizeWith`, `jacIntoAffine`, `batchNormalization` (`Model/Normalize`); external code called at `bls/public.rs:58` and `bls/signature.rs:82`. | Induction from the end of the list: what is left of the products and the running inverse belong to the elements still to be processed; then coordinate by coordinate, and C127 for the sum. | The algorithms are those of ark_ec and ark_ff, whose sources are not in /repo: modelled as known. The single inversion is the inverse of the field. |
| C129 | The field inverse ends and is right, within twice the bits of the modulus | proved | `halveMod`, `stripEven`, `subResidue`, `inverseLoop`, `arkInverse`, `isEqZeroInverse` (`Model/Inverse`), running out of rounds being an error; `y_to_bit.rs:104` and the external code called there. | Invariant `a b = u k`, `a c = v k`, `u` and `v` coprime; from the second round on one of `u`, `v` is even, so their product halves in every round. | The algorithm is that of ark_ff, whose source is not in /repo: modelled as known. Numbers are unbounded, carries of the limbs are not modelled. |
| C130 | Montgomery multiplication and the conversions to and from integers are those of the field | proved | `limbsOf`, `montStep`, `montMulLoop`, `reduceOnce`, `montMul`, `montIntoRepr`, `montFromRepr` (`Model/Montgomery`), the carry out of the highest limb being dropped; external code called at `bls/public.rs:26,59`, `bls/signature.rs:83` and `y_to_bit.rs:131`. | Every step is exact by the choice of INV; the accumulator stays below twice the modulus, in into_repr below the modulus; induction over the limbs in the residues. | The algorithm is that of ark_ff, whose source is not in /repo: modelled as known. A round over the limbs is one operation on the number they denote; only the carry out of the highest limb is modelled. Squaring is taken to be a multiplication. |
| C131 | Scalar multiplication is the multiple, from the Montgomery form of the exponent to the Jacobian formulas | proved | `limbBits`, `bitsWithoutLeadingZeros`, `arkMulLoop`, `arkMul`, `arkMulForm` (`Model/ScalarLoop`) over `arkDouble`, `arkAdd` (`Model/Jacobian`) and `montIntoRepr` (`Model/Montgomery`); external code called at `bls/public.rs:26` and `bls/secret.rs:66`. | The accumulator denotes the multiple by the bits read so far: induction over the bits with the group law of the formulas; value of the bits of limbs by induction; C130 for into_repr. | The algorithm is that of ark_ec, whose source is not in /repo: modelled as known, the plain double-and-add without an endomorphism. The operations of the base field inside the formulas are those of the field (C130). |
| C132 | The short formulas of the quadratic extension are its arithmetic | proved | `mulByNonresidue`, `extMul`, `extSquare`, `decodeInverse`, `fqInverse`, `extInverse` (`Model/Extension`); external code behind `bls/public.rs:26,58`. | Ring identities in both coordinates; the product with the conjugate is the norm, nonzero as -5 is not a square; C129 for the base field. | The algorithms are those of ark_ff and ark_bls12_377, whose sources are not in /repo: modelled as known. |
| C133 | batch() as computed on representations returns the sum of the products | proved | `addToBucketRep`, `msmScatterRep`, `msmSumBucketsRep`, `msmWindowSumRep`, `msmCombineRep`, `pippengerRep`, `batchRep` (`Model/MsmRep`) over `Model/Jacobian`, `Model/Uncompressed` (mixed addition), `Model/Normalize`, `Model/Montgomery`: `bls/public.rs:51-65`, `bls/signature.rs:76-90` and the external code called there. | Simulation: every loop on representations is related, by 'is on the curve and denotes', to the loop in the group of C127; the group law of the formulas for each operation; then C127, C128 and C130. | The algorithms are those of ark_ec and ark_ff, whose sources are not in /repo: modelled as known. Windows run one after the other instead of in parallel; the field operations inside the formulas are those of the field (C130, C132). |

## Violations found

All are theorems; the property titles or statements say "(violated)".

* Threshold (C42): the circuit keeps only 32 bits of the threshold witness in the epoch encoding
  but compares the whole field element, so a satisfying assignment without any signer exists for
  every pair of blocks and every circuit size. C41 is the root cause (`fr_to_bits` truncates).
* The prover's `u8` counter of non-signers overflows at 256 (C39).
* Entropy linking (C44) is switched off by a zero first entropy witness.
  The public inputs contain the first block's parent entropy, which the circuit never uses, instead of
  its epoch entropy, which it does (C101).
* Dummies and padding keys (C47); the prover does not pad (C65); a block padded natively cannot be
  the last one (C70).
* Hashing in the circuit leaves the counter free, including 255, and accepts the identity (C52).
* The result of verifying the helper proof is discarded, and the XOF bits are then free (C53).
* The helper circuit of the prover has no padding, unlike the setup's and the epoch circuit (C75).
* Non-affine allocation of G1/G2 witnesses, if the allocator permits it, unbinds keys and hash
  (C62); sign bits of the circuit are ambiguous at the boundary (C36, C37).
* Multipacking leaves slack in the high bits (C54).
* Epoch encodings do not separate missing/zero entropy or padding keys (C31); plain
  try-and-increment does not separate message and extra data (C20).
* The key cache counts repeated keys once (C14, C59).
* C interface: `batch_verify_strict` ignores surplus keys or signatures (C57); a hashing failure is
  reported as an invalid signature (C55); empty buffers and malformed points panic (C60, C63);
  infinity has many encodings (C66); long domains panic (C61).
* The Pedersen hash panics on more than 19530 bytes instead of returning an error; so does `hash_crh`, and
  hashing an epoch block that stands for 207 or more keys (C85).
* C interface, machine integers (C87): a negative `hash_bytes` panics or yields an empty hash; the epoch
  encoders report a truncated length above 22754793 validators.
* `deserialize_uncompressed` accepts coordinates off the curve (C97; follows from what ark_ec does, see
  the trusted base; not reachable from the C interface).
* `uncompressed_size` of keys and signatures reports half the bytes of the uncompressed form (C103; follows
  from the default of ark_serialize, and nothing in the repository calls it).
* `sign_message`, `verify_signature` and the composite hashes of the C interface panic on messages over
  19530 bytes instead of returning false, and so do the batch calls (C100).
* The end-to-end program panics for 207 or more validators and for no epochs; `examples/proof.rs` underflows
  for no validators (C99).
* Aggregation without proofs of possession admits rogue keys (C88, inherent to the scheme).
* Proofs are malleable: anybody alters an accepted proof into another one (C106, inherent to Groth16), and
  `create_proof_no_zk` makes proofs that do not hide the witness (C107, apparently intended).
* Observation (C71): `hash_composite*` write unnormalised projective coordinates, `hash_direct*`
  affine ones.

## Test vectors

Tests of the model, not proofs about all inputs; they tie the model to outputs recorded in `/repo`.
All are checked by the kernel.

* `Props/Blake2s`: vectors of the direct hasher and the epoch encodings.
* `Props/Conformance`: ChaCha20, the Pedersen hash with its sampled bases, the composite hasher.
* `Props/ConformanceCurve`: both hash-to-curve functions (`compat`, non-`compat`, CIP22), from message bytes
  to the compressed point: hasher, counter loop, decoding, multiplication by the cofactor, serialisation.

## Mutation testing

`seeded/LOG.jsonl` has one line per wrong program: a definition of the model is edited in a scratch
copy, the copy is rebuilt, each declaration that no longer checks is replaced by `sorry`, and the
property theorems that then depend on `sorryAx` are listed as failed. A failure therefore means
that the committed proof does not survive the edit. Where an edit survived, the log names the
theorem that was added or tightened, and the repeated run.
