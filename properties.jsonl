{"id": "C01", "title": "Sign-then-verify completeness and uniqueness", "statement": "For every private key, message, extra data and hash-to-curve implementation: if signing returns a signature then verifying under the derived public key accepts that signature, and accepts no other signature; if hashing fails, signing and verifying both return exactly that hashing error.", "quantifier": "all private keys, messages, extra data, hash-to-curve functions (including failing ones) and candidate signatures", "why_tests_cant": "Tests sign a handful of random messages; completeness and uniqueness range over all keys/messages and over all wrong signatures.", "anchors": ["crates/bls-crypto/src/bls/secret.rs: PrivateKey::sign, sign_message, sign_raw, to_public", "crates/bls-crypto/src/bls/public.rs: PublicKey::verify, verify_sig"]}
{"id": "C02", "title": "verify is exactly the pairing equation", "statement": "For an arbitrary (not necessarily honestly generated) public key and signature, verify returns Ok exactly when e(sig, -g2)*e(H(SIG,msg,extra), pk) = 1, returns the hash error when hashing fails and VerificationFailed otherwise; the identity public key accepts exactly the identity signature, on every message.", "quantifier": "all group elements as public key and signature, all messages, all hashers", "why_tests_cant": "Adversarial keys and signatures are unbounded; a test can only try a few wrong ones.", "anchors": ["crates/bls-crypto/src/bls/public.rs: verify, verify_sig"]}
{"id": "C03", "title": "Proofs of possession and signatures are separated by domain", "statement": "Signatures hash under the SIG domain with the caller's extra data, proofs of possession under the POP domain with empty extra data; one signature value is accepted both as a PoP and as a message signature under an honest non-zero key only if the two hashes collide.", "quantifier": "all keys, messages, signatures, hashers", "why_tests_cant": "Absence of cross-acceptance is a universally quantified statement over signatures and messages.", "anchors": ["crates/bls-crypto/src/bls/secret.rs: sign, sign_pop", "crates/bls-crypto/src/bls/public.rs: verify, verify_pop", "crates/bls-crypto/src/lib.rs: SIG_DOMAIN, POP_DOMAIN"]}
{"id": "C04", "title": "Aggregated signatures verify under aggregated keys", "statement": "For every list of signers of the same message the aggregate of their signatures is the only signature accepted by the aggregate of their public keys (any number of signers, repetitions included, also the empty list).", "quantifier": "all lists of private keys, messages, hashers", "why_tests_cant": "List length and contents are unbounded.", "anchors": ["crates/bls-crypto/src/bls/signature.rs: Signature::aggregate", "crates/bls-crypto/src/bls/public.rs: PublicKey::aggregate, verify"]}
{"id": "C05", "title": "Aggregation does not depend on order or grouping", "statement": "Aggregating keys (or signatures) gives the same result for every permutation of the input, and aggregating partial aggregates gives the same result as aggregating everything at once.", "quantifier": "all lists, all permutations, all groupings", "why_tests_cant": "Permutations and groupings cannot be enumerated.", "anchors": ["crates/bls-crypto/src/bls/public.rs: PublicKey::aggregate", "crates/bls-crypto/src/bls/signature.rs: Signature::aggregate"]}
{"id": "C06", "title": "Multi-message batch verification decides exactly the aggregate equation", "statement": "Signature::batch_verify returns UnevenNumKeysMessages iff the numbers of keys and messages differ, otherwise the error of the first message whose hashing fails, otherwise Ok iff the signature equals the sum of sk_i*H(m_i) for the keys' discrete logs; in particular an aggregate of honest signatures is always accepted.", "quantifier": "all lists of keys and messages of any (also different) lengths, all signatures, hashers failing on any subset of messages", "why_tests_cant": "The interplay of length mismatch, first failing hash and equation has unboundedly many cases.", "anchors": ["crates/bls-crypto/src/bls/signature.rs: batch_verify, batch_verify_hashes"]}
{"id": "C07", "title": "Aggregate batch verification is a screening test only", "statement": "batch_verify accepting does not imply that each party produced a valid individual signature: for any two keys and messages, individually invalid signatures with the right sum are accepted (property violated by design; the exact guarantee is C06).", "quantifier": "all pairs of keys and messages", "why_tests_cant": "It is a statement about the existence of accepting inputs for every key pair.", "anchors": ["crates/bls-crypto/src/bls/signature.rs: batch_verify", "crates/bls-snark-sys/src/signatures.rs: batch_verify_signature"]}
{"id": "C08", "title": "Random-exponent batch verification never rejects a valid batch", "statement": "If every (key, signature) pair of a Batch verifies individually, Batch::verify returns Ok for every outcome of the random generator; it never panics, for any batch size.", "quantifier": "all batches, all random byte strings", "why_tests_cant": "Depends on the randomness drawn; a test sees only a few draws.", "anchors": ["crates/bls-crypto/src/bls/batch.rs: Batch::verify, add, new"]}
{"id": "C09", "title": "Random-exponent batch verification is sound up to 256^-k", "statement": "If at least one pair in the batch is invalid, the fraction of random draws for which Batch::verify returns Ok is at most 256^(-k), where k is the number of random bytes per exponent.", "quantifier": "all batches containing an invalid pair, counting over the full space of random draws", "why_tests_cant": "A probability bound of 2^-128 is not observable by testing.", "anchors": ["crates/bls-crypto/src/bls/batch.rs: Batch::verify, byte_count_from_target_batch_size, SECURITY_BOUND"]}
{"id": "C10", "title": "Random exponents are large enough and always decode", "statement": "For every batch size n the exponent length k satisfies 16 <= k <= 31, k grows with n, 8k >= 128 + ceil(log2 n) unless capped at 31, and any k bytes decode to a scalar (so the unwrap cannot panic), distinct draws giving distinct scalars.", "quantifier": "all batch sizes, all byte strings of the computed length", "why_tests_cant": "All batch sizes and all byte strings.", "anchors": ["crates/bls-crypto/src/bls/batch.rs: byte_count_from_target_batch_size, Batch::verify"]}
{"id": "C11", "title": "verify_each is the conjunction of individual verifications", "statement": "Batch::verify_each returns Ok iff each added pair verifies individually; otherwise the error of the first failing pair, in insertion order. Agreement with Batch::verify: Ok of verify_each implies Ok of verify.", "quantifier": "all batches built by any sequence of add calls", "why_tests_cant": "All sequences of add.", "anchors": ["crates/bls-crypto/src/bls/batch.rs: verify_each, add"]}
{"id": "C12", "title": "Key/signature dot products refuse uneven lengths", "statement": "PublicKey::batch and Signature::batch return None iff the number of exponents differs from the number of elements, and otherwise the exact linear combination; applying both with the same exponents to valid pairs yields a valid pair.", "quantifier": "all exponent and element lists", "why_tests_cant": "All lengths and contents.", "anchors": ["crates/bls-crypto/src/bls/public.rs: PublicKey::batch", "crates/bls-crypto/src/bls/signature.rs: Signature::batch"]}
{"id": "C13", "title": "Cached aggregation is history independent", "statement": "After any sequence of aggregate / deserialize / clear_cache calls on a PublicKeyCache, aggregate(keys) returns the sum of the distinct key representations in keys - independent of earlier calls and of the hash-set iteration order.", "quantifier": "all call histories, all key lists, all hash-set iteration orders", "why_tests_cant": "State accumulates incrementally over unbounded histories; iteration order is randomised.", "anchors": ["crates/bls-crypto/src/bls/cache.rs: PublicKeyCache::aggregate, clear_cache, new"]}
{"id": "C14", "title": "Cached aggregation agrees with plain aggregation (violated for repeated keys)", "statement": "After any history cache.aggregate(keys) equals PublicKey::aggregate(keys) exactly when the surplus occurrences of repeated keys sum to zero: always for duplicate-free lists, never for a non-zero key given twice, which the cache counts once. The difference is exactly that sum.", "quantifier": "all key lists", "why_tests_cant": "Holds on the duplicate-free inputs used in tests.", "anchors": ["crates/bls-crypto/src/bls/cache.rs: aggregate", "crates/bls-snark-sys/src/signatures.rs: aggregate_public_keys"]}
{"id": "C15", "title": "Deserialisation cache is transparent", "statement": "After any history, cache.deserialize(bytes) returns exactly what PublicKey::deserialize(bytes) returns (value or error); errors are never cached and the cache never holds more than 512 entries.", "quantifier": "all histories of deserialize/aggregate/clear_cache calls and all byte strings", "why_tests_cant": "A stale or evicted entry would only show up on specific long histories.", "anchors": ["crates/bls-crypto/src/bls/cache.rs: PublicKeyCache::deserialize"]}
{"id": "C16", "title": "Key cache hashing contract", "statement": "Two wrapped keys that compare equal hash equally (the HashSet contract), equal wrapped keys denote the same point, while the same point in two projective representations is not identified and is then counted twice by aggregate.", "quantifier": "all pairs of projective representations", "why_tests_cant": "All pairs of representations.", "anchors": ["crates/bls-crypto/src/bls/cache.rs: WrappedPublicKey eq/hash"]}
{"id": "C17", "title": "Concurrent FFI callers see sequential behaviour", "statement": "For every interleaving of threads calling aggregate_public_keys, aggregate_public_keys_subtract and deserialize_public_key_cached on the global cache, each call returns what it would return on a fresh cache.", "quantifier": "all numbers of threads, all programs of each thread, all interleavings of their lock-protected calls", "why_tests_cant": "Schedules cannot be enumerated by tests.", "anchors": ["crates/bls-snark-sys/src/cache.rs: PUBLIC_KEY_CACHE", "crates/bls-snark-sys/src/signatures.rs: aggregate_public_keys, aggregate_public_keys_subtract", "crates/bls-snark-sys/src/serialization.rs: deserialize_public_key_cached"]}
{"id": "C18", "title": "Try-and-increment returns the first usable counter", "statement": "hash_with_attempt returns (cofactor*P, c) where c is the least counter in 0..254 whose digest decodes to a curve point P with cofactor*P != 0; it returns HashToCurveError iff no counter below 255 is usable, a hasher error iff the hasher fails at a counter before the first usable one. The result is never the identity and the output depends only on (domain, message, extra).", "quantifier": "all hashers, messages, extra data, domains", "why_tests_cant": "Late counters are exponentially unlikely in random tests.", "anchors": ["crates/bls-crypto/src/hash_to_curve/try_and_increment.rs: hash_with_attempt, hash, NUM_TRIES"]}
{"id": "C19", "title": "CIP22 try-and-increment returns the first usable counter over the inner hash", "statement": "Same as C18 for the CIP22 variant: the message is compressed once with the CRH and the XOF input at attempt c is c || extra || CRH(message); a CRH failure is returned before any attempt.", "quantifier": "all hashers, messages, extra data, domains", "why_tests_cant": "As C18.", "anchors": ["crates/bls-crypto/src/hash_to_curve/try_and_increment_cip22.rs: hash_with_attempt_cip22"]}
{"id": "C20", "title": "Message and extra data are bound unambiguously (violated without CIP22)", "statement": "Different (message, extra data) pairs are hashed from different byte strings. Holds for CIP22 with a fixed-length injective CRH; violated for the plain variant, where moving bytes between extra data and message gives the same hash, so a signature on one pair verifies for the other.", "quantifier": "all pairs of (message, extra data)", "why_tests_cant": "Requires reasoning about all splits; the tests use one.", "anchors": ["crates/bls-crypto/src/hash_to_curve/try_and_increment.rs: hash_with_attempt", "crates/bls-crypto/src/hash_to_curve/try_and_increment_cip22.rs: hash_with_attempt_cip22"]}
{"id": "C21", "title": "XOF output length and domain check", "statement": "DirectHasher::xof returns exactly the requested number of bytes for every length, rejects every domain longer than 8 bytes with DomainTooLarge(len) and accepts every other domain; a shorter request is not in general a prefix of a longer one because the length enters the parameters.", "quantifier": "all domains, messages, lengths", "why_tests_cant": "All lengths, in particular non multiples of 32.", "anchors": ["crates/bls-crypto/src/hashers/direct.rs: xof"]}
{"id": "C22", "title": "XOF blocks use pairwise distinct parameters", "statement": "For output lengths below 65536 the node-offset parameter determines both block number and total length, so no two blocks of any two requests share parameters; the CRH parameters are distinct from all of them; for lengths >= 65536 the length is truncated to 16 bits and distinct lengths alias (violated).", "quantifier": "all pairs of (block, length) requests", "why_tests_cant": "Pairs of requests cannot be enumerated.", "anchors": ["crates/bls-crypto/src/hashers/direct.rs: xof_digest_length_to_node_offset, crh, xof"]}
{"id": "C23", "title": "hash_length rounds up to a multiple of 32 bytes", "statement": "hash_length(n) is the least multiple of 32 that is >= n, with the floating point arithmetic the code uses, for all n up to 2^53. At 2^53 + 1 the rounding of f64 makes the result smaller than n, and from 2^61 on the multiplication overflows (no caller passes such lengths). The two lengths of the old hash-to-curve, computed in floating point from the number of bits of the field, are the bits rounded up to bytes and to 256-bit blocks.", "quantifier": "all n <= 2^53 for f64, all n for the exact computation; all field sizes", "why_tests_cant": "A test tries a few small n; whether rounding of f64 ever matters needs all n.", "anchors": ["crates/bls-crypto/src/hash_to_curve/mod.rs: hash_length"]}
{"id": "C24", "title": "Sign flag encoding round-trips", "statement": "Decoding the flag byte of an encoded sign flag gives it back, and every byte whose low six bits are clear is the encoding of its decoding; flag extraction ignores the low six bits. The flag made from a sign carries that sign and never means infinity: for every curve point (x, y), the 48 little-endian bytes of x with the flag of y's sign in the last byte decode to exactly (x, y).", "quantifier": "all flags, all bytes and all curve points", "why_tests_cant": "Exhaustive in principle but stated together with the decoder for all field sizes.", "anchors": ["crates/bls-crypto/src/hash_to_curve/mod.rs: YSignFlags"]}
{"id": "C25", "title": "Compat bit extraction equals the deployed logic", "statement": "For every digest, decoding after the compat bit move selects the same x coordinate and the same y sign as the previously deployed logic (bit 376 kept, bit 377 is the sign), except when x = 0 and digest bit 382 is set, which the new code treats as the identity and skips; consequently both hashers return the same point and counter on every message whose first usable counter is below 255 and is not such an exceptional digest.", "quantifier": "all digests, all messages", "why_tests_cant": "The exceptional digest occurs with probability 2^-378.", "anchors": ["crates/bls-crypto/src/hash_to_curve/mod.rs: from_random_bytes, test::compat_hasher", "crates/bls-crypto/src/hash_to_curve/try_and_increment.rs: hash_with_attempt"]}
{"id": "C26", "title": "Bit/byte conversions are inverse", "statement": "bytes_le_to_bits_be and bits_be_to_bytes_le are mutually inverse on byte-aligned input, the byte string denotes the same number as the bits, lengths are ceil(n/8) / min(n, 8*len), and the LE variants are the reversals.", "quantifier": "all byte strings and all bit strings", "why_tests_cant": "All lengths and contents.", "anchors": ["crates/bls-gadgets/src/utils.rs: bits_be_to_bytes_le, bits_le_to_bytes_le, bytes_le_to_bits_be, bytes_le_to_bits_le"]}
{"id": "C27", "title": "Integer encodings are injective fixed-width little-endian", "statement": "encode_u8/u16/u32 return exactly 8/16/32 bits, bit i being bit i of the number; distinct numbers have distinct encodings.", "quantifier": "all numbers", "why_tests_cant": "2^32 numbers.", "anchors": ["crates/epoch-snark/src/encoding.rs: encode_u8, encode_u16, encode_u32"]}
{"id": "C28", "title": "Public key encoding is injective", "statement": "encode_public_key returns 755 bits and two finite curve points with the same encoding are equal; the sign bit flips under negation of any point with y != 0. The point at infinity is encoded too and collides with no finite point unless that point has x = 0.", "quantifier": "all affine points over the quadratic extension satisfying the curve equation", "why_tests_cant": "Injectivity over a 753-bit space.", "anchors": ["crates/epoch-snark/src/encoding.rs: encode_public_key"]}
{"id": "C29", "title": "Signed epoch encoding determines the epoch", "statement": "If two epochs with 16-byte entropies and equal-length padded key lists produce the same CIP22 inner encoding and extra data (bytes), they have the same index, round, entropies, threshold and the same padded public keys; encodings of different padded lengths have different byte lengths.", "quantifier": "all pairs of epoch blocks", "why_tests_cant": "Injectivity over all pairs.", "anchors": ["crates/epoch-snark/src/epoch_block.rs: encode_inner_to_bits_cip22, encode_inner_to_bytes_cip22"]}
{"id": "C30", "title": "First/last epoch encodings determine what the verifier is told", "statement": "The first-epoch encoding determines index, parent entropy, threshold, padded keys; the last-epoch encoding determines index, epoch entropy, threshold, padded keys and aggregate key.", "quantifier": "all pairs of epoch blocks of equal padded size", "why_tests_cant": "Injectivity over all pairs.", "anchors": ["crates/epoch-snark/src/epoch_block.rs: encode_to_bits_cip22, encode_first_epoch_to_bytes_cip22, encode_last_epoch_to_bits_with_aggregated_pk_cip22"]}
{"id": "C31", "title": "Distinct epochs have distinct encodings (violated)", "statement": "Different EpochBlock values have different CIP22 encodings. Violated: missing entropy encodes like sixteen zero bytes, entropies longer than 16 bytes are truncated, and padding is indistinguishable from validators registered with the generator key.", "quantifier": "all pairs of epoch blocks", "why_tests_cant": "Needs adversarially chosen pairs.", "anchors": ["crates/epoch-snark/src/epoch_block.rs: encode_entropy_cip22, encode_inner_to_bits_cip22"]}
{"id": "C32", "title": "Legacy encoding binds only index, threshold and keys", "statement": "The pre-CIP22 encoding is determined by, and determines, (index, maximum_non_signers, keys); it ignores round, entropies and maximum_validators, so epochs differing only there encode equally.", "quantifier": "all pairs of epoch blocks", "why_tests_cant": "All pairs.", "anchors": ["crates/epoch-snark/src/epoch_block.rs: encode_to_bits, encode_to_bytes", "crates/bls-snark-sys/src/snark/epoch_block.rs: encode_epoch_block_to_bytes"]}
{"id": "C33", "title": "Public-input packing is injective and never fails", "statement": "pack splits bits into 376-bit chunks, each interpreted big-endian as a field element; it never fails, it is injective on bit strings of equal length, and returns ceil(n/376) elements.", "quantifier": "all bit strings", "why_tests_cant": "All bit strings.", "anchors": ["crates/epoch-snark/src/gadgets/mod.rs: pack"]}
{"id": "C34", "title": "Verifier accepts exactly when Groth16 accepts the two-digest statement", "statement": "epoch_snark::verify returns Ok iff the Groth16 verifier accepts the proof for the 2 packed field elements computed from the blake2s digests of the first and last epoch encodings; equal public inputs imply equal pairs of digests.", "quantifier": "all first/last epochs, keys, proofs", "why_tests_cant": "All inputs; injectivity of the input map.", "anchors": ["crates/epoch-snark/src/api/verifier.rs: verify", "crates/epoch-snark/src/epoch_block.rs: hash_first_last_epoch_block, hash_to_bits"]}
{"id": "C35", "title": "Zero-test gadget is sound and complete", "statement": "In every satisfying assignment the bit returned by is_eq_zero is 1 iff the field element is 0, and every element has a satisfying assignment.", "quantifier": "all field elements, all (adversarial) witnesses, every prime field", "why_tests_cant": "Soundness quantifies over all malicious witnesses.", "anchors": ["crates/bls-gadgets/src/y_to_bit.rs: FpUtils::is_eq_zero"]}
{"id": "C36", "title": "Half-range (sign) gadget (violated at one value)", "statement": "In every satisfying assignment the bit returned by normalize is 1 iff the element exceeds (p-1)/2. Holds for every element except (p-1)/2 itself, for which both bits are satisfiable.", "quantifier": "all field elements, all witnesses, every odd prime", "why_tests_cant": "The exceptional value is never hit by random tests and soundness quantifies over witnesses.", "anchors": ["crates/bls-gadgets/src/y_to_bit.rs: FpUtils::normalize"]}
{"id": "C37", "title": "In-circuit sign bit of a G2 point equals the native encoding bit", "statement": "In every satisfying assignment the y bit of a G2 point equals the native over-half flag c1 > half or (c1 = 0 and c0 > half), provided no coordinate equals (p-1)/2.", "quantifier": "all y coordinates, all witnesses", "why_tests_cant": "As C35.", "anchors": ["crates/bls-gadgets/src/y_to_bit.rs: YToBitGadget for G2Var", "crates/epoch-snark/src/encoding.rs: encode_public_key"]}
{"id": "C38", "title": "Threshold gadget counts correctly", "statement": "In every satisfying assignment of enforce_maximum_occurrences_in_bitmap the number of positions holding the counted value is at most the maximum (as integers), for any bitmap shorter than half the field size; an honest prover can satisfy it iff the count is within bounds (maximum below half the field).", "quantifier": "all bitmaps, maxima, witnesses", "why_tests_cant": "All bitmaps and witnesses.", "anchors": ["crates/bls-gadgets/src/bitmap.rs: enforce_maximum_occurrences_in_bitmap"]}
{"id": "C39", "title": "Threshold witness counter overflows at 256 (violated)", "statement": "An honest prover can satisfy the threshold gadget whenever the count is within the maximum. Violated: the witness counter is a u8, so with 256 or more non-signers it overflows (panic with overflow checks, wrong witness without) although the statement is true.", "quantifier": "all bitmaps", "why_tests_cant": "Tests use at most tens of validators.", "anchors": ["crates/bls-gadgets/src/bitmap.rs: enforce_maximum_occurrences_in_bitmap"]}
{"id": "C40", "title": "In-circuit aggregate key is the sum of the signers and excludes padding", "statement": "In every satisfying assignment the aggregate public key is the sum of exactly the keys whose bit is set, none of which is the padding key; a bitmap of a different length panics.", "quantifier": "all key lists, bitmaps, witnesses", "why_tests_cant": "All bitmaps.", "anchors": ["crates/bls-gadgets/src/bls.rs: enforce_aggregated_pubkeys, enforce_aggregated_all_pubkeys, enforce_bitmap"]}
{"id": "C41", "title": "In-circuit integer bits equal the native encoding (violated for out-of-range witnesses)", "statement": "The circuit's index/round/threshold bits are the native encodings of those integers. Holds when the witness is in range; the circuit does not enforce the range, so distinct field elements share encodings.", "quantifier": "all field elements and widths", "why_tests_cant": "Malicious witnesses.", "anchors": ["crates/epoch-snark/src/gadgets/mod.rs: fr_to_bits", "crates/epoch-snark/src/gadgets/epoch_data.rs: to_bits"]}
{"id": "C42", "title": "The signed threshold limits non-signers (violated)", "statement": "If the epoch circuit is satisfied, the number of non-signers of each transition is at most the maximum_non_signers value encoded (and signed) in the previous epoch. Violated: the threshold used is a field element of which only the low 32 bits are encoded; witnessed by a satisfying assignment with more non-signers than the encoded threshold. Holds when the threshold witness is below 2^32.", "quantifier": "all satisfying assignments", "why_tests_cant": "Requires a malicious prover.", "anchors": ["crates/epoch-snark/src/gadgets/epoch_data.rs: to_bits", "crates/epoch-snark/src/gadgets/single_update.rs: constrain", "crates/bls-gadgets/src/bitmap.rs: enforce_maximum_occurrences_in_bitmap"]}
{"id": "C43", "title": "Epoch indices increase by one through the chain", "statement": "In every satisfying assignment of the epoch circuit the k-th non-dummy epoch has (field) index first+k, and the encoded last index is first + number of real transitions modulo 2^16, with at least one real transition; it may wrap from 65535 to 0.", "quantifier": "all satisfying assignments with any number of epochs", "why_tests_cant": "Any number of epochs, malicious witnesses.", "anchors": ["crates/epoch-snark/src/gadgets/epoch_data.rs: enforce_next_epoch", "crates/epoch-snark/src/gadgets/epochs.rs: verify_intermediate_epochs"]}
{"id": "C44", "title": "Entropy chain is enforced when the first epoch carries entropy (violated)", "statement": "Each real epoch's parent entropy equals the previous real epoch's entropy whenever the first epoch has entropy. The circuit enforces this only if the witness for the first epoch's own entropy is non-zero; that witness appears in no public input, so a prover can disable the check.", "quantifier": "all satisfying assignments", "why_tests_cant": "Requires a malicious prover.", "anchors": ["crates/epoch-snark/src/gadgets/single_update.rs: constrain", "crates/epoch-snark/src/gadgets/epochs.rs: verify_intermediate_epochs"]}
{"id": "C45", "title": "Circuit soundness: the batch equation covers every real transition", "statement": "In every satisfying assignment: each real transition is signed under the sum of a subset of the previous real epoch's keys with at most (field) previous threshold exclusions; the aggregate signature satisfies the product equation over all real transitions (dummies contribute exactly the generator pair); the exposed first/last bits are those of the initial epoch and the last epoch, the latter with the sum of its keys.", "quantifier": "all satisfying assignments, any number of epochs and validators", "why_tests_cant": "Unbounded chains, malicious witnesses.", "anchors": ["crates/epoch-snark/src/gadgets/epochs.rs: enforce, verify_intermediate_epochs, verify_signature", "crates/epoch-snark/src/gadgets/single_update.rs: constrain"]}
{"id": "C46", "title": "Circuit completeness with padding epochs", "statement": "For every honest chain of transitions (consecutive indices, thresholds respected with fewer than 256 non-signers each (C39), entropies linked and of 16 bytes, finite keys, signers not using the padding key, valid aggregate signatures, and a finite sum of the keys of the last epoch), inserting any number of dummy epochs before the last one yields a satisfiable circuit with the same public statement, with the generator added once per dummy to the aggregate signature - provided no key of the epoch preceding the dummies is the padding key.", "quantifier": "all honest chains, any number of dummies", "why_tests_cant": "All chain lengths and paddings.", "anchors": ["crates/epoch-snark/src/api/prover.rs: prove, to_dummy_update", "crates/epoch-snark/src/gadgets/epochs.rs: verify_intermediate_epochs"]}
{"id": "C47", "title": "Padding validators and padding epochs can be combined (violated)", "statement": "A valid chain whose epochs contain padding validators can be proven with fewer transitions than the circuit size. Violated: dummy updates use an all-true bitmap, which the circuit rejects when any previous key is the padding key.", "quantifier": "all chains with a padding key before a dummy epoch", "why_tests_cant": "Needs the combination of two features that tests exercise separately.", "anchors": ["crates/epoch-snark/src/api/prover.rs: to_dummy_update", "crates/bls-gadgets/src/bls.rs: enforce_aggregated_pubkeys"]}
{"id": "C48", "title": "Prover padding shape", "statement": "prove builds exactly max_transitions updates: all real ones in order, dummies immediately before the last; it panics for zero transitions when max_transitions > 0 and for more transitions than max_transitions; the signature passed to the circuit is the sum of the transition signatures plus one generator per dummy.", "quantifier": "all transition lists and circuit sizes", "why_tests_cant": "All sizes.", "anchors": ["crates/epoch-snark/src/api/prover.rs: prove, to_update, to_dummy_update"]}
{"id": "C49", "title": "In-circuit message bytes equal the native signed bytes", "statement": "For an epoch with in-range fields and 16-byte entropies whose key list has full size, the byte strings hashed in the circuit are exactly the native CIP22 inner encoding and extra data; the exposed first/last bit strings are the native first/last encodings.", "quantifier": "all epochs", "why_tests_cant": "All epochs.", "anchors": ["crates/epoch-snark/src/gadgets/epoch_data.rs: to_bits, hash_bits_to_g1", "crates/epoch-snark/src/epoch_block.rs: encode_inner_to_bytes_cip22"]}
{"id": "C50", "title": "In-circuit XOF parameters equal the native ones", "statement": "For 64-byte output and an 8-byte domain, the parameter block used in the circuit for block i equals the native hasher's parameter block; the circuit's edge-hash parameter block equals the native public-input hash's.", "quantifier": "all block numbers and personalisations", "why_tests_cant": "All personalisations and block numbers.", "anchors": ["crates/bls-gadgets/src/hash_to_group.rs: blake2xs_params, hash_to_bits", "crates/bls-crypto/src/hashers/direct.rs: xof", "crates/epoch-snark/src/gadgets/epoch_bits.rs: verify_edges", "crates/epoch-snark/src/epoch_block.rs: hash_to_bits"]}
{"id": "C51", "title": "In-circuit hash-to-group agrees with native decoding", "statement": "If the allocated point is affine (z = 1), every satisfying assignment of hash_to_group yields cofactor times the point natively decoded from the same digest bits, and the native point satisfies the constraints; so for the native counter both agree.", "quantifier": "all digests, all witnesses", "why_tests_cant": "Malicious witnesses.", "anchors": ["crates/bls-gadgets/src/hash_to_group.rs: HashToGroupGadget::hash_to_group", "crates/bls-crypto/src/hash_to_curve/mod.rs: from_random_bytes"]}
{"id": "C52", "title": "The in-circuit hash is unique for a message (violated: free counter)", "statement": "The circuit fixes the hash of a message. Violated: the counter is an unconstrained witness, so any usable counter (including 255, and counters whose point is killed by the cofactor) is accepted, whereas native verification uses only the first.", "quantifier": "all messages and counters", "why_tests_cant": "Malicious prover.", "anchors": ["crates/epoch-snark/src/gadgets/epoch_data.rs: hash_bits_to_g1", "crates/bls-gadgets/src/hash_to_group.rs: enforce_hash_to_group"]}
{"id": "C53", "title": "Helper proof binds digests to messages (violated)", "statement": "When the CRH->XOF hashing is delegated to the helper proof, the XOF bits used in the circuit are the XOF of the epoch data. Violated: the helper verification result is discarded, so satisfaction does not depend on it and XOF bits are arbitrary; moreover the helper statement hashes only the CRH bits, not counter and extra data.", "quantifier": "all satisfying assignments with a helper", "why_tests_cant": "Malicious prover.", "anchors": ["crates/epoch-snark/src/gadgets/epoch_bits.rs: verify_proof", "crates/epoch-snark/src/gadgets/hash_to_bits.rs: generate_constraints", "crates/epoch-snark/src/api/prover.rs: generate_hash_helper"]}
{"id": "C54", "title": "Multipack gadget exposes exactly the packed bits (up to unconstrained high bits)", "statement": "In every satisfying assignment the low bits of each packed public input equal its chunk; together with a verifier supplying pack(bits) the in-circuit bits equal the verifier's bits. High bits above the chunk are not constrained, so several public inputs are compatible with the same bits.", "quantifier": "all bit strings, all public inputs", "why_tests_cant": "All assignments.", "anchors": ["crates/epoch-snark/src/gadgets/pack.rs: MultipackGadget::pack", "crates/epoch-snark/src/gadgets/mod.rs: pack"]}
{"id": "C55", "title": "FFI sign and verify agree for each flag combination", "statement": "For every flag pair, a signature produced by sign_message is reported verified by verify_signature with the same flags; (non-composite, CIP22) always fails on both with outputs untouched; verify_signature returns true with verified=false for invalid signatures.", "quantifier": "all keys, messages, flags", "why_tests_cant": "All inputs.", "anchors": ["crates/bls-snark-sys/src/signatures.rs: sign_message, verify_signature"]}
{"id": "C56", "title": "FFI outputs are written only on success", "statement": "Each FFI entry point that returns false leaves its output pointers unwritten - except batch_verify_strict, which writes every per-batch result and returns false iff some result is false.", "quantifier": "all inputs", "why_tests_cant": "All failure paths.", "anchors": ["crates/bls-snark-sys/src/signatures.rs", "crates/bls-snark-sys/src/serialization.rs", "crates/bls-snark-sys/src/lib.rs: convert_result_to_bool"]}
{"id": "C57", "title": "batch_verify_strict checks every signature it is given (violated for uneven lists)", "statement": "A true result for a batch means every supplied key/signature pair is covered by the random-exponent check. Violated: with unequal numbers of keys and signatures the extra ones are silently ignored, and an empty list verifies.", "quantifier": "all batches", "why_tests_cant": "All lengths.", "anchors": ["crates/bls-snark-sys/src/signatures.rs: batch_verify_strict"]}
{"id": "C58", "title": "Serialised key lists round-trip through the FFI block", "statement": "read_pubkeys of serialize_pubkeys (followed by arbitrary bytes) returns the same keys in order, reads exactly 96*n bytes, fails iff some chunk fails to decode, at the first such chunk; converting an FFI block gives the block with those keys and 16-byte entropies (None iff null).", "quantifier": "all key lists and buffers", "why_tests_cant": "All lists.", "anchors": ["crates/bls-snark-sys/src/snark/epoch_block.rs: serialize_pubkeys, read_pubkeys, TryFrom<&EpochBlockFFI>, read_epoch_entropy"]}
{"id": "C59", "title": "FFI aggregation subtract yields the complement key", "statement": "If agg is the plain aggregate of a duplicate-free list and removed is a sub-collection, aggregate_public_keys_subtract(agg, removed) returns the aggregate of the remaining keys, whatever was called before.", "quantifier": "all key lists, sublists and call histories", "why_tests_cant": "All histories.", "anchors": ["crates/bls-snark-sys/src/signatures.rs: aggregate_public_keys_subtract", "crates/bls-crypto/src/bls/cache.rs: aggregate"]}
{"id": "C60", "title": "Buffer conversion is total (violated for empty slices)", "statement": "Converting a byte slice to an FFI buffer and back gives the slice. Holds for non-empty slices; an empty slice panics.", "quantifier": "all byte slices", "why_tests_cant": "Empty slice untested.", "anchors": ["crates/bls-snark-sys/src/utils.rs: From<&[u8]> for Buffer, From<&Buffer> for &[u8]"]}
{"id": "C61", "title": "Over-long domains are rejected with an error (violated for the direct hasher)", "statement": "Hashing with a domain longer than 8 bytes returns DomainTooLarge. Holds for xof and for the composite hasher; the direct hasher's crh (hence hash) panics instead. Domains shorter than 8 bytes that differ by trailing zeros are indistinguishable.", "quantifier": "all domains", "why_tests_cant": "All domains.", "anchors": ["crates/bls-crypto/src/hashers/direct.rs: crh, xof", "crates/bls-crypto/src/hashers/composite.rs: crh, xof"]}
{"id": "C62", "title": "Allocated points are bound to their encoding (violated for non-affine witnesses)", "statement": "The bits exposed for an allocated G2 (or G1) point determine the point used in the group equations. Holds if z = 1; the encoding reads the projective x and y directly, so if the allocator leaves z free, different points share an encoding.", "quantifier": "all projective coordinates satisfying the curve equation", "why_tests_cant": "Malicious prover.", "anchors": ["crates/epoch-snark/src/gadgets/mod.rs: g2_to_bits", "crates/bls-gadgets/src/hash_to_group.rs: hash_to_group", "crates/epoch-snark/src/gadgets/epochs.rs: verify_intermediate_epochs (explicit affine conversion of last_apk)"]}
{"id": "C63", "title": "Compressing uncompressed points", "statement": "compress_signature/compress_pubkey of an uncompressed serialisation of a finite point yields its compressed serialisation; short or non-canonical input panics rather than returning false; no curve check is made.", "quantifier": "all byte strings", "why_tests_cant": "All inputs.", "anchors": ["crates/bls-snark-sys/src/serialization.rs: compress_signature, compress_pubkey"]}
{"id": "C64", "title": "The signature gadget is native verification", "statement": "BlsVerifyGadget::verify can be satisfied (for a bitmap of one bit per key) exactly when the number of zero bits is at most maximum_non_signers and this is below half the field's modulus, no signer holds the padding key, and native verification accepts the signature under the aggregate of the keys whose bit is set; batch_verify can be satisfied exactly when native batch_verify_hashes accepts, and fails to synthesise on lists of different lengths.", "quantifier": "all keys, bitmaps, messages, signatures, thresholds, witnesses", "why_tests_cant": "Equivalence over all witnesses cannot be sampled.", "anchors": ["crates/bls-gadgets/src/bls.rs: verify, batch_verify, batch_verify_prepared, enforce_bls_equation", "crates/bls-crypto/src/bls/public.rs: verify_sig", "crates/bls-crypto/src/bls/signature.rs: batch_verify_hashes"]}
{"id": "C65", "title": "Blocks with fewer keys than maximum_validators can be proven (violated)", "statement": "The native encoding pads the keys of a block up to maximum_validators with the padding key; a chain of such blocks can be proven. Violated: to_epoch_data drops maximum_validators, so synthesising the prover's circuit panics for a transition whose block does not have exactly num_validators keys, and for the first block the exposed bits are shorter than the native encoding the verifier hashes.", "quantifier": "all blocks, chains, circuit sizes and prover inputs", "why_tests_cant": "Tests use blocks with full key lists; the statement is about all chains.", "anchors": ["crates/epoch-snark/src/api/prover.rs: to_epoch_data", "crates/epoch-snark/src/gadgets/single_update.rs: constrain", "crates/epoch-snark/src/epoch_block.rs: encode_to_bits_with_aggregated_pk_cip22"]}
{"id": "C66", "title": "Serialised keys and signatures are canonical (violated for infinity)", "statement": "A public key, signature or private key of the prime-order group round-trips through its bytes, whatever follows; a byte stream is accepted exactly if it starts with the serialisation of such an element; points outside the subgroup and non-canonical coordinates are refused. Violated for infinity: every x coordinate with the infinity flag decodes to it. The sign flag agrees with the epoch encoding's sign bit.", "quantifier": "all byte streams, points and scalars", "why_tests_cant": "All byte strings; tests only round-trip samples.", "anchors": ["crates/bls-crypto/src/bls/public.rs: serialize, deserialize", "crates/bls-crypto/src/bls/signature.rs: serialize, deserialize", "crates/bls-crypto/src/bls/secret.rs: PrivateKey (derived)"]}
{"id": "C67", "title": "The C interface does not panic", "statement": "Apart from compress_signature and compress_pubkey, no entry point panics if hashing does not (for verify: if the Groth16 verifier and the readers of its key and proof do not): errors of the Rust calls become the return value false; key generation, aggregation, serialisers and encoders always return true. Deserialisers never panic, on any bytes, and ignore bytes after the object.", "quantifier": "all inputs, flags, random draws, byte strings", "why_tests_cant": "A panic across the C boundary is undefined behaviour; tests cannot cover all inputs.", "anchors": ["crates/bls-snark-sys/src/signatures.rs: all entry points", "crates/bls-snark-sys/src/serialization.rs: deserialize, serialize, deserialize_public_key_cached", "crates/bls-snark-sys/src/snark/epoch_block.rs: TryFrom<&EpochBlockFFI>, encode_epoch_block_to_bytes, encode_epoch_block_to_bytes_cip22"]}
{"id": "C68", "title": "End-to-end completeness", "statement": "For every chain of epochs that is valid natively (native hashes, aggregate signatures, thresholds, indices, entropies, full key lists), the prover's circuit, with any number of dummies, without helper or with any helper proof that meets the constraints of the verifier gadget, is satisfied by the values it assigns for exactly the public inputs the verifier computes from the first and last block, so that the verifier accepts whatever the proof system accepts.", "quantifier": "all chains, circuit sizes, bilinear pairings, compatible hash functions", "why_tests_cant": "Tests run one or two fixed chains; completeness spans native code, prover, circuit and verifier for all chains.", "anchors": ["crates/epoch-snark/src/api/prover.rs: prove", "crates/epoch-snark/src/gadgets/epochs.rs: generate_constraints", "crates/epoch-snark/src/api/verifier.rs: verify", "crates/epoch-snark/src/epoch_block.rs: hash_to_g1_cip22"]}
{"id": "C69", "title": "End-to-end soundness of the public inputs", "statement": "If the circuit is satisfied for the inputs the verifier computes from two blocks then, unless the two edge encodings exhibit a hash collision, the circuit's first and last epoch are those blocks in everything encoded (index, threshold and entropy modulo their widths, padded keys), the last index is the first plus the number of real transitions modulo 2^16, at least one; with affine allocation and unambiguous signs the keys are equal as points, and every transition is signed by keys of the epoch before over a hash of its own encodings.", "quantifier": "all assignments of all circuit variables, all blocks", "why_tests_cant": "Soundness quantifies over malicious witnesses; tests only run honest ones.", "anchors": ["crates/epoch-snark/src/gadgets/epoch_bits.rs: verify_edges", "crates/epoch-snark/src/gadgets/epochs.rs: enforce", "crates/epoch-snark/src/api/verifier.rs: verify", "crates/epoch-snark/src/epoch_block.rs: hash_first_last_epoch_block"]}
{"id": "C70", "title": "A padded last block can be proved (violated)", "statement": "The verifier encodes the aggregate of the real keys of the last block, the circuit that of all padded keys. Hence no satisfying assignment exists for a last block with fewer keys than maximum_validators, unless a hash collision is exhibited.", "quantifier": "all assignments, all blocks with 0 < padding < r", "why_tests_cant": "Shows the absence of any witness; tests use full blocks.", "anchors": ["crates/epoch-snark/src/epoch_block.rs: encode_last_epoch_to_bits_with_aggregated_pk_cip22", "crates/epoch-snark/src/gadgets/epochs.rs: verify_intermediate_epochs"]}
{"id": "C71", "title": "The hash entry points return what is signed", "statement": "hash_direct (signature or proof-of-possession domain), hash_composite and hash_composite_cip22 return the encoding of an element h such that the signing entry point with the corresponding flags signs sk*h for every key sk, and fail (writing nothing) exactly when signing fails; hash_direct_with_attempt returns the same plus the counter; the reported counters are the least usable ones, below 255 so the casts lose nothing, and hash_direct_first_step / hash_crh called with that counter reproduce the digest the element comes from.", "quantifier": "all messages, extra data, keys, hash functions and prior contents of the outputs", "why_tests_cant": "Agreement between entry points has to hold for all messages including those whose first attempts fail.", "anchors": ["crates/bls-snark-sys/src/signatures.rs: hash_direct, hash_direct_with_attempt, hash_composite, hash_crh, hash_direct_first_step, hash_composite_cip22, sign_message, sign_pop"]}
{"id": "C72", "title": "The C verify accepts exactly accepted proofs of the described blocks", "statement": "verify returns true exactly when the keys of both block structures, the verification key and the proof decode and the proof system accepts for the public inputs of the two described blocks; it returns false otherwise and panics only if the external decoders or the proof system do. For key arrays written by serialize_pubkeys this is the proof for those keys.", "quantifier": "all memories, block structures, verification keys, proofs, proof systems", "why_tests_cant": "Malformed memory contents and proofs cannot be enumerated.", "anchors": ["crates/bls-snark-sys/src/snark/mod.rs: verify", "crates/bls-snark-sys/src/snark/epoch_block.rs: read_slice, TryFrom<&EpochBlockFFI>", "crates/epoch-snark/src/api/verifier.rs: verify"]}
{"id": "C73", "title": "Keys, aggregates and encodings handed out by the C interface fit together", "statement": "generate_private_key hands out the key drawn; the key of private_key_to_public_key accepts exactly what sign_message wrote, for all flags; the output of aggregate_signatures is the only signature accepted under the sum of the keys; the bytes of encode_epoch_block_to_bytes_cip22 are those the block described by the same fields is hashed by; encode_epoch_block_to_bytes returns the legacy encoding of exactly the blocks with that index, threshold and keys.", "quantifier": "all keys, lists of keys, messages, flags, blocks", "why_tests_cant": "Composition of entry points over all inputs and list lengths.", "anchors": ["crates/bls-snark-sys/src/signatures.rs: generate_private_key, private_key_to_public_key, aggregate_signatures", "crates/bls-snark-sys/src/snark/epoch_block.rs: encode_epoch_block_to_bytes_cip22, encode_epoch_block_to_bytes"]}
{"id": "C74", "title": "The setup runs on blank circuits and ties the two keys together", "statement": "trusted_setup without the two-proof technique sets up only the epoch circuit, blank and without helper, with the untouched random generator. With it, the helper is set up first for one message of 384 bits per epoch; a failure there stops the setup; the epoch circuit is then set up, with the generator the first setup left, and embeds the verifying key of exactly the helper parameters returned. All blank circuits have the given numbers of epochs, keys and bitmap bits and no value assigned.", "quantifier": "all sizes, random generators and parameter generators", "why_tests_cant": "The only test runs one small setup without helper.", "anchors": ["crates/epoch-snark/src/api/setup.rs: trusted_setup, setup", "crates/epoch-snark/src/gadgets/epochs.rs: ValidatorSetUpdate::empty", "crates/epoch-snark/src/gadgets/single_update.rs: SingleUpdate::empty", "crates/epoch-snark/src/gadgets/epoch_data.rs: EpochData::empty", "crates/epoch-snark/src/gadgets/hash_to_bits.rs: HashToBits::empty"]}
{"id": "C75", "title": "The prover's circuits have the shape of the setup's (violated with a helper and padding)", "statement": "Synthesis of the epoch circuit panics exactly for wrong numbers of keys or bitmap bits, independently of all values. The prover's epoch circuit has the shape of the setup's exactly when it is padded to the same number of updates, every block has num_validators keys, every bitmap as many bits, and the helper keys agree; the maximum of non-signers plays no role. Violated for the helper: generate_hash_helper has one message per real transition while setup and epoch circuit have one per update including dummies, so for a chain shorter than max_transitions the helper circuit has another shape and fewer public inputs than its verifier is given.", "quantifier": "all sizes, blocks, transitions, circuit variables", "why_tests_cant": "No test runs the prover with a helper; sizes cannot be enumerated.", "anchors": ["crates/epoch-snark/src/api/prover.rs: prove, generate_hash_helper", "crates/epoch-snark/src/api/setup.rs: setup", "crates/epoch-snark/src/gadgets/epochs.rs: enforce", "crates/epoch-snark/src/gadgets/single_update.rs: constrain", "crates/epoch-snark/src/gadgets/epoch_bits.rs: verify_proof"]}
{"id": "C76", "title": "The order of G1, and hashes have prime order", "statement": "The curve group of G1 has exactly cofactor times r elements. Hence clearing the cofactor sends every point into the set killed by r; that set has exactly r elements, is generated by any of its non-zero elements and every element of it has exactly cofactor many preimages. Whatever hash_with_attempt or hash_with_attempt_cip22 returns has order exactly r, for every hasher, and so does, or is zero, whatever the circuit's hash_to_group returns, whatever point is allocated.", "quantifier": "all points of the curve, hashers, messages, extra data, circuit assignments", "why_tests_cant": "The group has about 2^377 elements; a test checks the order of a few points.", "anchors": ["crates/bls-crypto/src/hash_to_curve/try_and_increment.rs: hash_with_attempt", "crates/bls-crypto/src/hash_to_curve/try_and_increment_cip22.rs: hash_with_attempt_cip22", "crates/bls-gadgets/src/hash_to_group.rs: hash_to_group, scale_by_cofactor_g1"]}
{"id": "C77", "title": "Hashing is uniform on the non-zero elements and fails with negligible frequency", "statement": "Every non-zero element of the order-r subgroup is yielded by exactly cofactor*2^134 of the 2^512 digests of one attempt, so an attempt fails on exactly 2^512 - cofactor*(r-1)*2^134 digests, fewer than 58 in 100. Over all tables of 255 digests, try-and-increment returns each non-zero element at attempt c equally often (exact number proved) and fails on exactly the 255th power of the number above, less than a 2^-200 part. Both hash variants, with and without compat.", "quantifier": "all group elements, counters, tables of digests", "why_tests_cant": "Counts over 2^512 digests cannot be sampled; 2^-200 cannot be observed.", "anchors": ["crates/bls-crypto/src/hash_to_curve/try_and_increment.rs: hash_with_attempt, NUM_TRIES", "crates/bls-crypto/src/hash_to_curve/try_and_increment_cip22.rs: hash_with_attempt_cip22", "crates/bls-crypto/src/hash_to_curve/mod.rs: from_random_bytes"]}
{"id": "C78", "title": "The scheme on the wire", "statement": "A signature byte string is accepted for key bytes when both decode with nothing left over and the decoded signature verifies under the decoded key. For the encoding of the public key of a non-zero secret and a message whose hash is not the identity, exactly one byte string is accepted: the encoding of what sign returns. For any decodable key other than the identity at most one byte string is accepted per message (no malleability). For an aggregate of signers of one message whose secrets do not sum to zero, exactly the encoded sum of the signatures is accepted under the encoded sum of the keys. Both hashes of the library never return the identity, and with the direct hasher either sign succeeds and exactly its encoding is accepted, or sign fails and nothing is accepted under any key. Violation: under each encoding of the identity key exactly the q encodings of the identity signature are accepted, for every message. Assumed of the pairing: bilinear and not constant on the concrete curve subgroups.", "quantifier": "all byte strings, secrets, messages, extra data, lists of signers, pairings, hashers", "why_tests_cant": "Uniqueness quantifies over all byte strings of all lengths; tests only see accepted encodings they produced themselves.", "anchors": ["crates/bls-crypto/src/bls/public.rs: verify, PublicKey::deserialize", "crates/bls-crypto/src/bls/signature.rs: Signature::deserialize, aggregate", "crates/bls-crypto/src/bls/secret.rs: sign, to_public", "crates/bls-crypto/src/hash_to_curve/try_and_increment.rs: hash"]}
{"id": "C79", "title": "The order of G2, and accepted keys are keys of exactly one secret", "statement": "The curve group of G2 (the sextic twist over Fq2) has exactly its cofactor times r elements. The set killed by r has exactly r elements, equals the cofactor multiples, and each is a multiple of the standard generator, which is also the padding key of short epochs, by exactly one number below r. Hence every byte string accepted as a public key is the key of exactly one secret. Exactly (r-1)+q^2 byte strings are accepted as public keys and (r-1)+q as signatures, with nothing left over.", "quantifier": "all points of the twist, all byte strings", "why_tests_cant": "The group has about 2^753 elements; tests check a few points.", "anchors": ["crates/bls-crypto/src/bls/public.rs: PublicKey::from_sk, deserialize", "crates/bls-crypto/src/bls/signature.rs: deserialize", "crates/epoch-snark/src/epoch_block.rs: padding_pk"]}
{"id": "C80", "title": "The direct hasher is BLAKE2s/BLAKE2Xs with the documented headers", "statement": "For every message, every domain of at most 8 bytes and every output length (below 2^37 bytes for the XOF, whose block counter has 32 bits), the CRH of the direct hasher is RFC 7693 BLAKE2s with a given explicit 32-byte parameter block, and the XOF is the concatenation of the digests for explicit BLAKE2X blocks, the last one cut to the missing bytes. BLAKE2s meets the assumptions made about it elsewhere: 32 bytes on all inputs, the same function natively and in the circuit. With it, a shorter output is not a prefix of a longer one. The model reproduces the test vectors of direct.rs and epoch_block.rs.", "quantifier": "all messages, domains, output lengths, parameter blocks", "why_tests_cant": "Tests compare a handful of inputs; the header layout for all lengths and block numbers is not observable from them.", "anchors": ["crates/bls-crypto/src/hashers/direct.rs: crh, xof, xof_digest_length_to_node_offset", "crates/epoch-snark/src/gadgets/epoch_bits.rs: verify_edges", "crates/epoch-snark/src/epoch_block.rs: blake2, tests"]}
{"id": "C81", "title": "The key cache with real curve arithmetic (violated for aggregated aggregates)", "statement": "The Jacobian formulas used for keys are the group law on all representations. Deserialised keys have one representation per point, so after any history aggregating them gives the sum of the distinct points. Violated for keys that are themselves results of aggregate_public_keys: the same sequence of calls on the same keys can end in different points, depending only on the iteration order of a hash set, because equal points in different representations are counted separately.", "quantifier": "all representations, all cache histories, all iteration orders", "why_tests_cant": "The representation of an aggregate depends on randomised iteration order and on the history; tests only aggregate fresh keys.", "anchors": ["crates/bls-crypto/src/bls/cache.rs: aggregate, WrappedPublicKey", "crates/bls-snark-sys/src/signatures.rs: aggregate_public_keys, aggregate_public_keys_subtract"]}
{"id": "C82", "title": "Sessions of the C interface: ownership, undefined behaviour, and the ideal library", "statement": "For every sequence of calls of the entry points of signatures.rs and serialization.rs: an object behind a pointer never changes or disappears unless a destructor is called on it; a call that returns false allocates and frees nothing; objects live before plus pointers returned equals objects live after plus successful destructor calls. A call is undefined exactly when a pointer argument is not a live object of the declared type (null is only checked by destructors; a second free or a wrong length is not detected). Every session in which only deserialised keys are aggregated behaves as in a library without cache whose keys are group elements. Violated without that restriction: a computed key and its deserialised copy, in different representations, count twice.", "quantifier": "all call sequences, all allocator choices, all iteration orders, all inputs", "why_tests_cant": "Memory errors and cache effects depend on the order of calls, on address reuse and on hash iteration order; tests run one short sequence each and never free.", "anchors": ["crates/bls-snark-sys/src/serialization.rs: destroy_private_key, free_vec, destroy_public_key, destroy_signature, serialize, deserialize", "crates/bls-snark-sys/src/signatures.rs: all entry points", "crates/bls-snark-sys/src/cache.rs: PUBLIC_KEY_CACHE"]}
{"id": "C83", "title": "The statement of the helper proof (violated by the prover's helper)", "statement": "The field elements denoted by the little-endian pieces which the epoch circuit hands to the helper's verifier are those the helper circuit packs big-endian from the same bits, and they determine the bits of a given length. Hence, if the verifier is sound and its result were enforced, the XOF bits of every update are the BLAKE2Xs expansion of exactly its CRH bits; and conversely a helper for the CRHs of the circuit has the expected public inputs. Violated by the prover: its helper hashes the CRH bits in reverse, so its public inputs are the expected ones only if every CRH is a palindrome ending in seven zero bits.", "quantifier": "all bit strings, all circuits, all numbers of updates, all CRH and BLAKE2s functions, all verifiers", "why_tests_cant": "Two circuits over two fields have to agree on chunking and bit order; the tests run them separately, and the verifier's result is discarded, so a mismatch is never observed.", "anchors": ["crates/epoch-snark/src/gadgets/epoch_bits.rs: verify_proof, le_chunks", "crates/epoch-snark/src/gadgets/hash_to_bits.rs: generate_constraints", "crates/epoch-snark/src/gadgets/pack.rs: pack", "crates/epoch-snark/src/api/prover.rs: generate_hash_helper"]}
{"id": "C84", "title": "Concurrent use of the key cache", "statement": "Calls take several steps between which other threads may run, the cache being inconsistent in the middle of a call. Nevertheless, if deserialisation does not panic, every schedule gives each thread exactly the results of some sequence of whole calls in which each thread's calls occur in program order; so each thread observes the results its calls have alone. No two threads are inside the cache at once, no schedule deadlocks, at most five steps are made per call, and every schedule that is fair to the threads completes all calls. Once a panic inside the critical section has poisoned the mutex, the cache is not touched any more and every further call panics.", "quantifier": "all numbers of threads, all programs of calls, all schedules, all deserialisers, all iteration orders of the hash sets", "why_tests_cant": "The tests of the cache are single-threaded; interleavings are exponentially many and chosen by the operating system.", "anchors": ["crates/bls-snark-sys/src/cache.rs: PUBLIC_KEY_CACHE", "crates/bls-snark-sys/src/signatures.rs: aggregate_public_keys, aggregate_public_keys_subtract", "crates/bls-snark-sys/src/serialization.rs: deserialize_public_key_cached", "crates/bls-crypto/src/bls/cache.rs: aggregate, deserialize"]}
{"id": "C85", "title": "The Pedersen hash of the composite hasher", "statement": "Creating the composite hasher never fails: the window of 93 chunks is the largest the order of the curve allows (one more would let coefficients wrap around), and the bases depend only on constants. On at most 19530 bytes the hash is the x coordinate of the sum, over the 560 windows, of the base times a signed base-16 number read off the bits of the message; on more bytes it panics instead of returning an error, also through the C interface, and therefore hashing an epoch block to the curve panics as soon as it stands for 207 keys including padding. Two different messages, of whatever lengths, never have the same coefficients, and their hashes agree exactly if the bases satisfy the relation given by the differences, in which some factor is not a multiple of the group order; keeping only the x coordinate adds no collisions.", "quantifier": "all messages of all lengths, all choices of bases in the subgroup, all epoch blocks", "why_tests_cant": "The tests hash a few short messages; a collision, a wrap-around of a window or the panic at 19531 bytes would not show there.", "anchors": ["crates/bls-crypto/src/hashers/composite.rs: CompositeHasher::new, prng, setup_crh, crh, window::Window", "crates/epoch-snark/src/epoch_block.rs: hash_to_g1_cip22", "crates/bls-snark-sys/src/signatures.rs: hash_crh"]}
{"id": "C86", "title": "Curve arithmetic inside the circuit never meets the exceptions of its formulas", "statement": "The circuit adds points by the formulas of Renes, Costello and Batina on projective coordinates. On G1 these give (0,0,0) exactly if the operands differ by an element of order two, which exists, and the sum otherwise; on G2 they always give the sum, and doubling always gives the double. Nevertheless clearing the cofactor in the circuit (scale_by_cofactor_g1) is exact for every point of the curve, because the exceptional additions fall on zero bits of the cofactor. Summing keys is exact for all lists of keys and bitmaps. The allocation check admits, besides coordinates of points, only (0,0,0): a signer with these coordinates is refused by the comparison with the padding key, and among the keys of the last epoch they make the division by z impossible.", "quantifier": "all coordinates, all points, all lists of keys and bitmaps", "why_tests_cant": "Exceptional operands have negligible probability under random testing; that they never occur is a statement about all points.", "anchors": ["crates/bls-gadgets/src/bls.rs: enforce_aggregated_pubkeys, enforce_aggregated_all_pubkeys, prepare_signature_neg_generator", "crates/bls-gadgets/src/hash_to_group.rs: scale_by_cofactor_g1", "crates/epoch-snark/src/gadgets/epochs.rs: enforce"]}
{"id": "C87", "title": "Machine integers of the C interface (violated for negative and huge values)", "statement": "A c_int length converts to the same usize iff it is not negative, otherwise to one no slice may have. The length of a returned vector survives the conversion to c_int iff it is below 2^31. hash_direct_first_step with a non-negative hash_bytes returns exactly that many bytes and reports that length. Violated: a negative hash_bytes is never refused; with overflow checks it panics, without them -31 to -1 succeed with an empty result and smaller values panic. The epoch encoders report the right length iff there are at most 22754793 validators (or keys); beyond, they succeed and report a wrong, truncated length, with which free_vec would release the vector wrongly. Reading keys with num * 96 beyond 64 bits panics with overflow checks and fails without, and never yields keys.", "quantifier": "all 32-bit lengths, all epochs with fewer than 2^32 keys, all memories, both overflow-check settings", "why_tests_cant": "Boundary values are billions of elements away from what a test can allocate, and the result depends on the build profile.", "anchors": ["crates/bls-snark-sys/src/signatures.rs: hash_crh, hash_direct_first_step", "crates/bls-snark-sys/src/snark/epoch_block.rs: encode_epoch_block_to_bytes, encode_epoch_block_to_bytes_cip22, read_serialized_pubkeys, read_pubkeys", "crates/bls-snark-sys/src/serialization.rs: free_vec", "crates/bls-crypto/src/hashers/direct.rs: xof"]}
{"id": "C88", "title": "Rogue keys and proofs of possession (aggregates alone violated)", "statement": "An accepted aggregate should mean that every listed signer signed. Violated by aggregation alone: for any honest keys and any secret a, the key a g - (sum of the honest keys), which needs no secret but a, makes the signature by a alone acceptable under the aggregate of all. With proofs of possession the gap closes algebraically: a proof of possession for a key a g + c pk with c not 0 is, up to a known factor and summand, a proof of possession by pk over the same bytes, and if the secrets of the other signers are known an aggregate (or multi-message batch) is accepted iff taking out their signatures leaves the honest signer's signature.", "quantifier": "all keys, secrets, messages, hash functions, signatures; all numbers of signers", "why_tests_cant": "Tests aggregate honestly generated keys only; the statement is about keys chosen adversarially.", "anchors": ["crates/bls-crypto/src/bls/public.rs: aggregate, verify, verify_pop", "crates/bls-crypto/src/bls/signature.rs: aggregate, batch_verify", "crates/bls-crypto/src/bls/secret.rs: sign, sign_pop"]}
{"id": "C89", "title": "The bases of the composite hasher", "statement": "CompositeHasher::new draws the bases of the 560 windows from ChaCha20 with a seed from BLAKE2s. Whatever words a generator returns: if the drawing ends, it gives exactly the number of points asked for, all on the curve, all in the subgroup of prime order after the multiplication by the cofactor; the result depends neither on which of two square roots the field code returns nor on how long the loops are followed; the loops have no bound (with a generator stuck at u32::MAX they never end). With the real generator the drawing ends without error or panic and every base generates the whole subgroup (none is zero). A collision of the real hash gives one base as a combination of the others, with factors computed from the two messages.", "quantifier": "all streams of words, all square root functions, all numbers of points; all pairs of messages for the collision", "why_tests_cant": "Tests run the one real seed on a few messages; they do not look at the bases, and cannot show that a collision needs a relation.", "anchors": ["crates/bls-crypto/src/hashers/composite.rs: prng, setup_crh, new, crh"]}
{"id": "C90", "title": "The Pedersen hash over all choices of its bases", "statement": "Over all choices of 560 bases in the subgroup of prime order: two different messages of at most 19530 bytes (of equal or different lengths) collide for exactly one choice in ED_ORDER, and every message that is not empty takes every value equally often; the empty message always hashes to 48 zero bytes. One round of the sampling uses 13 words; of their 2^416 values the same number (2^41) gives each base other than zero, a quarter more gives the zero base, and more than two fifths give a base at all.", "quantifier": "all pairs of messages, all points of the subgroup, all values of the words of a round, all square root functions", "why_tests_cant": "Counting over ED_ORDER^560 choices is out of reach of any test; tests use the one real choice.", "anchors": ["crates/bls-crypto/src/hashers/composite.rs: prng, setup_crh, new, crh"]}
{"id": "C91", "title": "Generated private keys are uniform, zero included", "statement": "PrivateKey::generate returns the first candidate of four masked words below the group order, read as a Montgomery representative, and consumes four words per round. Over all values of the words of n rounds, every scalar is generated equally often, and so is every public key of the subgroup of G2; the choices for which n rounds are not enough number (8 (2^253 - r))^n. Nothing excludes the key zero: its public key is the identity, and then exactly the identity is accepted as a signature of any message that hashes.", "quantifier": "all sequences of words, all numbers of rounds, all scalars and public keys, all messages and hash functions", "why_tests_cant": "Uniformity is a statement about all 2^(256 n) sequences of words; a test of generated keys would not notice a bias or meet the key zero.", "anchors": ["crates/bls-crypto/src/bls/secret.rs: generate, to_public", "crates/bls-snark-sys/src/signatures.rs: generate_private_key"]}
{"id": "C92", "title": "Forging a signature, an aggregate or a proof of possession is as hard as co-Diffie-Hellman", "statement": "With the hash to the curve as a random oracle: a forger may hash, ask for signatures on any messages and for proofs of possession on the honest signer's addresses. It wins with a proof of possession for the honest key, or with an aggregate that PublicKey::verify accepts under the honest key and any further keys, whose secrets it knows or for which verify_pop accepted a proof for another address, on an input that was not signed. From it a solver is built that sees only s g1, s g2 and a random h; for a forger asking at most q questions, if each of the q+1 solvers (one per guess) finds s h with probability at most e, the forger wins with probability at most (q+1) e.", "quantifier": "all forgers (decision trees over the answers), all numbers of questions, all finite sets of hash inputs, all sets of honest addresses, all secrets and oracles (counted)", "why_tests_cant": "Security against all strategies cannot be tested; tests only try signatures by wrong keys or on wrong messages.", "anchors": ["crates/bls-crypto/src/bls/secret.rs: sign, sign_pop", "crates/bls-crypto/src/bls/public.rs: verify, verify_pop, aggregate", "crates/bls-crypto/src/lib.rs: SIG_DOMAIN, POP_DOMAIN"]}
{"id": "C93", "title": "A light client only accepts later blocks of the chain", "statement": "A light client holds block i of a chain in which every block has more honest keys than allowed non-signers, and honest keys sign nothing but the chain's blocks. If it accepts a proof for a block last, then last has the index, threshold, entropy and padded keys of a block j of the chain with i < j <= i + (number of updates of the circuit); or an edge read off the (extracted) assignment and the encoding of block i or of last are two messages that collide under the hash of the edges. Assumed: the accepted proof was made from a satisfying assignment (C108), no signature is forged (C96), points are allocated affinely, and the thresholds fit 32 bits. The last cannot be left out: otherwise the circuit is satisfied for any next block though nobody signed anything.", "quantifier": "all chains of fewer than 2^16 blocks, all sets of honest keys, all assignments of the circuit of any size, all blocks", "why_tests_cant": "A test verifies some proofs of some chains; that nothing else is accepted is a statement about all assignments of the circuit.", "anchors": ["crates/epoch-snark/src/gadgets/epochs.rs: enforce, verify_intermediate_epochs", "crates/epoch-snark/src/gadgets/single_update.rs: constrain", "crates/epoch-snark/src/gadgets/epoch_bits.rs: verify_edges", "crates/epoch-snark/src/api/verifier.rs: verify", "crates/epoch-snark/src/epoch_block.rs: encode_inner_to_bytes_cip22"]}
{"id": "C94", "title": "Hashing to G2", "statement": "The try-and-increment code is generic in the curve. At G1 it is the function of C18 and C19. At G2, with or without the compat feature and in both variants, it returns exactly what the first usable counter below 255 yields, where a 96-byte digest denotes the point whose x has the low 377 bits of its two halves as coordinates, with the root selected by one bit of the second half in the order of the quadratic extension; it fails or panics exactly when the byte hasher does, or with HashToCurveError when no counter is usable. The result has order exactly r, and every element of order r comes from the same number, the cofactor times 2^13, of the 2^768 digests.", "quantifier": "all byte hashers, domains, messages, extra data, both feature settings, both variants, all square root functions of the field", "why_tests_cant": "The tests hash a few messages to G2 and compare with recorded points; equal counts over 2^768 digests and the exact failure conditions cannot be sampled.", "anchors": ["crates/bls-crypto/src/hash_to_curve/mod.rs: from_random_bytes", "crates/bls-crypto/src/hash_to_curve/try_and_increment.rs: hash_with_attempt", "crates/bls-crypto/src/hash_to_curve/try_and_increment_cip22.rs: hash_with_attempt_cip22"]}
{"id": "C95", "title": "Batches cannot be forged", "statement": "In the random oracle model, a forger that may ask for hashes, signatures and proofs of possession and outputs a batch accepted by batch_verify, in which one entry has an aggregate of the honest key, keys with known secrets and keys with accepted proofs of possession, for a message that the honest signer did not sign and that occurs in no other entry, while the keys of the other entries are arbitrary, gives a solver of this problem: from g1, s*g1, g2, s*g2 and h find U, V with e(U, g2) = e(h, s*g2) e(g1, V); with q questions the success falls by at most a factor q + 1. The problem is co-Diffie-Hellman with V = 0, and no linear combination of the given points solves it for more than 2r - 1 of the r^2 instances. Without the condition that the message occurs once the claim is false: batch_verify accepts repeated messages, and a rogue key then cancels the honest one.", "quantifier": "all forgers, all numbers of questions, all finite sets of hash inputs, all batches", "why_tests_cant": "A test can check that some wrong batches are rejected; that none can be found is a reduction over all strategies.", "anchors": ["crates/bls-crypto/src/bls/signature.rs: batch_verify, batch_verify_hashes", "crates/bls-crypto/src/bls/secret.rs: sign, sign_pop", "crates/bls-crypto/src/bls/public.rs: aggregate, verify_pop"]}
{"id": "C96", "title": "Deceiving a light client means forging a batch", "statement": "A satisfying assignment of the epoch circuit is a batch that the native batch_verify accepts: for each transition the sum of its signers and the two signed messages, under the witnessed signature without the generators that stand for dummy epochs, all projected to the subgroups of order r (the circuit checks no subgroup membership). Hence, if the circuit is satisfied for the public inputs of a block of a chain with honest quorums and of a block that is not a later one of the chain, an edge read off the assignment collides with the encoding of one of the two blocks under the hash of the public inputs, or an explicit batch read off the assignment is a forgery in the sense of C95: for an honest key of a block of the chain and a message that it did not sign, with the other keys of the block accounted for by secrets or by proofs of possession, and with the message occurring only once. Whatever counters the prover chose for the hashes, the forgery is for the hash of the code with the counter made part of the message.", "quantifier": "all assignments, all chains with honest quorums, all honest keys, all knowledge about the other keys, all bilinear pairings", "why_tests_cant": "A test can run the verifier on a wrong chain; that every success against it is a signature forgery is a statement about all assignments of the circuit.", "anchors": ["crates/epoch-snark/src/api/verifier.rs: verify", "crates/epoch-snark/src/gadgets/epochs.rs: enforce, verify_intermediate_epochs", "crates/bls-gadgets/src/bls.rs: batch_verify_prepared, enforce_bls_equation", "crates/bls-crypto/src/bls/signature.rs: batch_verify"]}
{"id": "C97", "title": "Uncompressed keys and signatures are on the curve (violated)", "statement": "A public key or signature of the prime-order group round-trips through its uncompressed bytes, whatever follows; points of the curve outside the subgroup and short streams are refused; no stream causes a panic. deserialize_uncompressed accepts exactly the coordinates (x, y) which have order r on the curve y^2 = x^3 + b' through them (y^2 = x^3 is refused), for either sign flag, and any coordinates with the infinity flag. Violated: coordinates off the curve are accepted, for every finite element (x, y) of the subgroup and every u with u^6 different from 1 the coordinates (u^2 x, u^3 y).", "quantifier": "all byte streams, points, and u", "why_tests_cant": "The accepted wrong inputs are a thin set that random bytes never hit; tests round-trip samples.", "anchors": ["crates/bls-crypto/src/bls/public.rs: deserialize_uncompressed, serialize_uncompressed", "crates/bls-crypto/src/bls/signature.rs: deserialize_uncompressed, serialize_uncompressed"]}
{"id": "C98", "title": "Deceiving a light client is as hard as a Diffie-Hellman problem", "statement": "With the hash to G1 as a random oracle, consider an adversary against m honest validators with random secrets: it hashes, asks any of them for signatures and for proofs of possession of their own addresses, and hands out a chain, an assignment of the epoch circuit and a block. It succeeds if the honest validators, who signed only blocks of that chain, are a quorum in each block, every other key of the chain has a proof of possession that the code accepts or a secret that the adversary gives, the circuit is satisfied for the public inputs of a block of the chain and of the block handed out, no edge read off the assignment collides with the encoding of either block, and yet the block is not a later one of the chain. Then one of the m forgers of batches made from the adversary, which play all validators but one with made-up secrets, wins in the sense of C95; and if the solvers of C95's problem made from these succeed with probability at most epsilon each, an adversary asking at most q questions succeeds with probability at most m (q + 1) epsilon.", "quantifier": "all adversaries, all numbers of validators and questions, all finite sets of hash inputs, all sets of addresses, all hash gadgets, all sizes of the circuit", "why_tests_cant": "A bound on the success of every adversary; no test quantifies over adversaries.", "anchors": ["crates/epoch-snark/src/api/verifier.rs: verify", "crates/epoch-snark/src/gadgets/epochs.rs: enforce, verify_intermediate_epochs", "crates/bls-crypto/src/bls/secret.rs: sign, sign_pop", "crates/bls-crypto/src/bls/public.rs: verify_pop", "crates/bls-crypto/src/bls/signature.rs: batch_verify"]}
{"id": "C99", "title": "The fixture, the end-to-end program and the example programs", "statement": "generate_test_data panics exactly for no epochs or if a block does not hash; otherwise block i has index i modulo 2^16, the keys of the secrets drawn in round i, entropy linked to its neighbours and all but the first f validators of the epoch before as signers. It is a chain that the circuit accepts (C43's native chain), if no secret is 0 and no signer's is 1. So the program of tests/e2e.rs (setup, fixture, prove, verify) succeeds, with and without the helper proof, for every number of validators up to 206, every number of faults, every number of epochs from 1 to the maximum (the rest being dummies) below 2^16, every bilinear pairing and every source of secrets, if blocks hash to points, the secrets drawn in the last epoch do not add up to 0, and the proof system accepts the proof made from the satisfying values that the prover assigns (C105); the helper proof may be any that meets the constraints of the verifier gadget, since its result is discarded (violated). With 207 or more validators or no epochs it panics (violated). The example proof.rs uses the largest number of faults below a third, and for no validators panics or goes on with an impossible bound. sign_batch and sum of the test helpers give batches that verify. simple_signature prints a key and signature of sk1 + sk2 + 2 sk3 that it has verified; pop and pop_csv print bytes that decode to a key and a proof of possession that verify, and panic for malformed keys or if hashing fails.", "quantifier": "all numbers of validators, faults and epochs, all random sources, all secrets, messages and key files, all hash functions, all bilinear pairings", "why_tests_cant": "The end-to-end test runs two sizes with one random seed each; the examples are not run at all.", "anchors": ["crates/epoch-snark/tests/fixtures.rs: generate_test_data", "crates/epoch-snark/tests/e2e.rs", "crates/epoch-snark/examples/proof.rs: main", "crates/bls-crypto/src/test_helpers.rs", "crates/bls-crypto/examples/simple_signature.rs: main", "crates/bls-crypto/examples/pop.rs: main", "crates/bls-crypto/examples/pop_csv.rs: main"]}
{"id": "C100", "title": "Exactly which calls of the C interface panic, with the hashes of the library", "statement": "With the direct, composite and CIP22 hashes as the library builds them: init and the first use of a hash never fail. sign_message, verify_signature, hash_composite and hash_composite_cip22 panic, instead of returning false, exactly if the composite hash is selected and the message is too long (violated): more than 19530 bytes with CIP22, more than 19530 bytes together with the extra data and the counter without. Proofs of possession and the direct hash never panic. batch_verify_signature panics exactly if a message is too long and all messages before it hash; batch_verify_strict exactly if the message of some batch is too long, after writing the results of the batches before the first such one and no others. The only error of any of the hashes is HashToCurveError.", "quantifier": "all messages, extra data, flags, keys, signatures and batches, all BLAKE2s functions, all bases of the CRH, both values of the compat feature", "why_tests_cant": "The tests pass messages of a few bytes; a panic that crosses the C boundary aborts the calling process.", "anchors": ["crates/bls-snark-sys/src/signatures.rs: sign_message", "crates/bls-snark-sys/src/signatures.rs: verify_signature", "crates/bls-snark-sys/src/signatures.rs: batch_verify_signature", "crates/bls-snark-sys/src/signatures.rs: batch_verify_strict", "crates/bls-snark-sys/src/signatures.rs: hash_composite", "crates/bls-snark-sys/src/lib.rs: init", "crates/bls-crypto/src/hashers/composite.rs: COMPOSITE_HASHER", "crates/bls-crypto/src/hash_to_curve/try_and_increment.rs: COMPOSITE_HASH_TO_G1", "crates/bls-crypto/src/hash_to_curve/try_and_increment_cip22.rs: COMPOSITE_HASH_TO_G1_CIP22"]}
{"id": "C101", "title": "A light client may follow the chain by any number of proofs; the entropies of the first block mean nothing", "statement": "Let a chain have honest quorums, and let the proofs that are accepted have been made from satisfying assignments that are in range and not forged on the chain (C108). A light client that holds a block with the index, threshold and padded keys of block i, and calls verify for a list of updates, each time from the block it accepted last, ends with a block of the chain: each accepted block is in index, threshold, padded keys and epoch entropy a block of the chain, at least one and at most max blocks after the one before, so that it accepts at most as many updates as there are blocks left; or one of the assignments extracted on the way contains a collision of the hash of the public inputs with the block held and accepted there. Conversely a natively valid chain with linked entropies, cut into pieces of one to max transitions in any way, can be followed to its end if the proof system is complete. Verify reads neither the epoch entropy and round of the first block nor the parent entropy and round of the last. The parent entropy of the first block, which is part of the public inputs, is constrained by nothing (violated): whoever satisfies the circuit from a block satisfies it from the same block with any other parent entropy, with the same updates, signature and helper, or presents a collision for the first edge.", "quantifier": "all chains, lists of updates of any length, held blocks, parent entropies, circuit sizes, hash gadgets, helpers and BLAKE2s functions", "why_tests_cant": "A test verifies one proof from the block it started with; that the encodings of the accepted and of the starting block differ shows only when verification is repeated, and soundness over a sequence is a statement about all adversarial proofs.", "anchors": ["crates/epoch-snark/src/api/verifier.rs: verify", "crates/epoch-snark/src/epoch_block.rs: encode_to_bits_cip22", "crates/epoch-snark/src/epoch_block.rs: hash_first_last_epochs", "crates/epoch-snark/src/gadgets/epochs.rs: enforce", "crates/epoch-snark/src/gadgets/epoch_data.rs: to_bits"]}
{"id": "C102", "title": "Leading a light client away from the chain by many proofs means forging one batch, with a bound that does not grow with the number of proofs", "statement": "Let a chain have honest quorums, keys different in each block and in the subgroup, and let the proofs that are accepted have been made from satisfying assignments (C108) whose thresholds are in range; nothing is assumed about forgeries. If a light client accepts a list of updates, each from the block accepted last, then every accepted block is in index, threshold, epoch entropy and padded keys a block of the chain, at least one and at most max blocks after the one before; or for one update the extracted assignment contains a collision of the hash of the public inputs; or for one update an explicit batch read off the extracted assignment is accepted by the native batch verification for an honest key of a block of the chain and a message that this key did not sign. In the random-oracle model, with m honest validators that sign what the adversary asks for, an adversary asking at most q questions, who may show any number of updates, succeeds with probability at most m (q + 1) times the success of the solver of C95: the bound is that of C98 for a single update.", "quantifier": "all chains, adversaries, numbers of questions, lists of updates of any length, held blocks, circuit sizes, hash gadgets, helpers and BLAKE2s functions", "why_tests_cant": "A statement about every adversary and every number of updates; no test can enumerate adversaries, and a union bound over the updates would only show a bound that grows with them.", "anchors": ["crates/epoch-snark/src/api/verifier.rs: verify", "crates/epoch-snark/src/gadgets/epochs.rs: enforce", "crates/epoch-snark/src/gadgets/epoch_bits.rs: verify_edges", "crates/bls-crypto/src/bls/signature.rs: batch_verify", "crates/bls-crypto/src/bls/secret.rs: sign", "crates/epoch-snark/src/epoch_block.rs: hash_first_last_epochs"]}
{"id": "C103", "title": "The sizes keys and signatures report are the bytes they write, but not for the uncompressed form", "statement": "For every public key, signature and private key, serialized_size is the number of bytes serialize writes, and a successful deserialize takes exactly so many bytes off its stream. The size is also the number of bytes the hashes to the curve read of a candidate, and PUBKEY_BYTES of the C interface. The size of the uncompressed form is violated: uncompressed_size is not overridden, its default is serialized_size, so for every public key it reports 96 for 192 bytes and for every signature 48 for 96; a caller that keeps so many bytes cannot tell a key from its negative.", "quantifier": "all public keys, signatures, private keys, streams and square root functions", "why_tests_cant": "A test compares the sizes for the keys it generates, and no test in the repository calls uncompressed_size; the statement is about every point, including infinity, and every stream.", "anchors": ["crates/bls-crypto/src/bls/public.rs: serialized_size", "crates/bls-crypto/src/bls/public.rs: serialize_uncompressed", "crates/bls-crypto/src/bls/signature.rs: serialized_size", "crates/bls-crypto/src/bls/signature.rs: serialize_uncompressed", "crates/bls-crypto/src/bls/secret.rs: PrivateKey", "crates/bls-crypto/src/hash_to_curve/try_and_increment.rs: hash_with_attempt", "crates/bls-snark-sys/src/snark/epoch_block.rs: PUBKEY_BYTES"]}
{"id": "C104", "title": "Sessions of the whole C interface, and a rule that keeps a client safe", "statement": "C82 for every entry point, including the encoders of epoch blocks (one of which hands out two vectors), the verifier of proofs, and the counters of the two hash entry points that return one. In every session: objects nobody frees stay as they were; a call that returns false writes no pointer and no counter; objects before plus pointers returned is objects after plus successful releases; a call is undefined exactly when an object pointer is not live at its type. A client that passes only pointers it was given and has not released, at the types it was given them with, and releases vectors with the lengths reported, never causes undefined behaviour, provided no vector has 2 GiB; a vector that has is undefined to release with the length reported. The library refines the ideal library, and validators that sign an encoded epoch block through the interface get an aggregate signature that the interface reports as verified.", "quantifier": "all sequences of calls, allocators with fresh addresses, states of heap and cache, iteration orders, messages, numbers of keys and signers", "why_tests_cant": "Memory errors depend on the order of all calls in a client; a test runs a few sequences, and an error of this kind need not be visible when it happens. The tests in the repository call each entry point in isolation and do not release what they get.", "anchors": ["crates/bls-snark-sys/src/snark/epoch_block.rs: encode_epoch_block_to_bytes_cip22", "crates/bls-snark-sys/src/snark/epoch_block.rs: encode_epoch_block_to_bytes", "crates/bls-snark-sys/src/snark/mod.rs: verify", "crates/bls-snark-sys/src/signatures.rs: hash_direct_with_attempt", "crates/bls-snark-sys/src/signatures.rs: hash_composite_cip22", "crates/bls-snark-sys/src/serialization.rs: free_vec", "crates/bls-snark-sys/src/serialization.rs: destroy_public_key"]}
{"id": "C105", "title": "The proof system accepts what the prover makes", "statement": "With Groth16 as setup, prover and verifier use it: the setup fails exactly if the domain has fewer points than constraints and public inputs, or if one of the scalars it inverts is zero, and never panics. A proof made from values that satisfy the constraints is accepted for its public inputs, whatever the randomness of the setup was. Verification with another number of inputs than the key was made for is an error, with the right number it always answers. So the program of C99 (setup, fixture, prove, verify) succeeds with this proof system in it, provided that the constraint system of the epoch circuit, which depends on its shape only, is satisfied by the values that synthesis assigns when the circuit is.", "quantifier": "all constraint systems, domains, randomness of the setup, satisfying values, blinding factors, proofs, inputs; all sizes of the end-to-end program", "why_tests_cant": "A test proves and verifies one or two circuits with one randomness; completeness is an identity of polynomials at the secret point.", "anchors": ["crates/epoch-snark/src/api/setup.rs: trusted_setup", "crates/epoch-snark/src/api/prover.rs: prove", "crates/epoch-snark/src/api/verifier.rs: verify", "crates/epoch-snark/tests/e2e.rs"]}
{"id": "C106", "title": "Accepted proofs can be altered by anybody, and forged by whoever made the setup", "statement": "From an accepted proof anybody makes (r - 1) r different accepted proofs of the same statement, with any key, so that a proof cannot serve as an identifier (violated): the answer for the altered proof is the answer for the proof, including the verifier of epochs. For each choice of the first two elements exactly one third element is accepted, for every statement, true or false: there are as many accepted proofs of a false statement as of a true one. Whoever kept the randomness of the setup makes the verifier of epochs accept any last block after any first block.", "quantifier": "all keys, proofs, inputs, blocks, constraint systems and randomness of the setup", "why_tests_cant": "A test compares fixed proofs; which proofs exist is a statement about all group elements.", "anchors": ["crates/epoch-snark/src/api/verifier.rs: verify", "crates/epoch-snark/src/api/setup.rs: trusted_setup"]}
{"id": "C107", "title": "The prover's proofs do not hide the witness", "statement": "The prover calls create_proof_no_zk (violated, if hiding is expected): two assignments that satisfy the circuit for the same public inputs and differ in a side of a constraint give different proofs, for all but at most N - 1 choices of the secret point of the setup, where N is the size of the domain. With random blinding factors every proof would be as frequent for each witness as for the forger that has none.", "quantifier": "all constraint systems, pairs of satisfying values, randomness of the setup", "why_tests_cant": "Hiding is a statement about the distribution of proofs; a test sees single proofs.", "anchors": ["crates/epoch-snark/src/api/prover.rs: prove"]}
{"id": "C108", "title": "A prover who combines the published elements holds a satisfying assignment", "statement": "Let a prover form the three elements of a proof as any linear combinations of the elements of the proving key, with coefficients chosen before the key is. The coefficients at the elements of the witnesses in the third combination satisfy the constraints together with the public inputs, or the proof is rejected for all but at most (3 N + 1) r^4 of the r^5 choices of the scalars of the setup. For the verifier of epochs: if satisfying values of the constraint system can be decoded to an assignment of the epoch circuit, then these coefficients show what C69 says about the two blocks (the number of epochs, the keys, the thresholds, the signers, the signatures), or the verifier rejects with verificationFailed except for that many setups.", "quantifier": "all constraint systems, linear provers, public inputs, first and last blocks; counted over all scalars of the setup", "why_tests_cant": "A statement about all provers and all setups; a test tries a few wrong proofs.", "anchors": ["crates/epoch-snark/src/api/verifier.rs: verify", "crates/epoch-snark/src/api/prover.rs: prove", "crates/epoch-snark/src/api/setup.rs: trusted_setup", "crates/epoch-snark/src/gadgets/epochs.rs: ValidatorSetUpdate::generate_constraints"]}
{"id": "C109", "title": "A light client that is shown proofs of linear provers stays on the chain", "statement": "C101 and C102 with Groth16 in the verifier, where nothing is assumed of accepted proofs. Updates and the coefficients by which provers will combine the elements of the proving key are chosen before the setup draws its scalars. For all but (number of updates) (3 N + 1) q^4 of the q^5 choices, if a light client that holds block i accepts all updates, then each accepted block is a block of the chain, at least one and at most max after the one before; or the coefficients of a prover, decoded as an assignment of the circuit, contain a collision of the hash of the public inputs; or (C102) an explicit batch read off them is accepted for an honest key of the chain and a message that this key did not sign. Decoded assignments are assumed to have thresholds in range (C42), and without the last case to forge nothing.", "quantifier": "all chains with honest quorums, lists of updates of any length, linear provers, constraint systems whose satisfying values decode to satisfying assignments of the circuit; counted over all scalars of the setup", "why_tests_cant": "A statement about all provers, setups and sequences of updates.", "anchors": ["crates/epoch-snark/src/api/verifier.rs: verify", "crates/epoch-snark/src/api/setup.rs: trusted_setup", "crates/epoch-snark/src/gadgets/epochs.rs: ValidatorSetUpdate::generate_constraints"]}
{"id": "C110", "title": "The setup and every prover build the same constraint system", "statement": "The gadgets allocate variables and emit rank-1 constraints while they run, and read the values of variables only outside setup mode. For is_eq_zero, normalize, y_to_bit, the bound on occurrences and multipack, started from any two constraint systems with as many variables, two successful runs return the same variables, allocate as many and append the same constraints, whatever the values and whether or not in setup mode. Hence the circuits of the bitmap, the square and the signs of points of G1 and G2 that the trusted setup builds are those of every prover. In setup mode, where no value exists, every gadget runs to the end (the bound on occurrences needs an allocated bit).", "quantifier": "all values, assignments and modes, all constraint systems reached before the gadget, all bitmaps of equal length", "why_tests_cant": "Tests compare the setup and the prover only through one accepted proof.", "anchors": ["crates/bls-gadgets/src/y_to_bit.rs: FpUtils::is_eq_zero", "crates/bls-gadgets/src/y_to_bit.rs: FpUtils::normalize", "crates/bls-gadgets/src/bitmap.rs: enforce_maximum_occurrences_in_bitmap", "crates/epoch-snark/src/gadgets/pack.rs: MultipackGadget::pack", "crates/bls-snark-sys/src/snark/test_helpers.rs: TestCircuit::generate_constraints"]}
{"id": "C111", "title": "The emitted rank-1 constraints say what the gadgets claim", "statement": "Given any assignment of the variables that existed before a gadget ran, the new variables can be assigned so that all constraints hold and the output has a given value exactly if: is_eq_zero, the output tells whether the element is zero; normalize, it is the comparison with half the modulus, or the element is that half; y_to_bit of G2, it is the sign of the encoding, outside the same exceptions; the bound on occurrences, no more bits have the value than the maximum and that is below half the modulus; multipack, each element has the bits of its chunk as low bits; allocation of a point, the coordinates satisfy the projective curve equation.", "quantifier": "all constraint systems, all assignments of old and new variables, all outputs, all primes except 2", "why_tests_cant": "Tests only try the assignment that the gadget itself computes.", "anchors": ["crates/bls-gadgets/src/y_to_bit.rs: FpUtils::is_eq_zero", "crates/bls-gadgets/src/y_to_bit.rs: FpUtils::normalize", "crates/bls-gadgets/src/y_to_bit.rs: YToBitGadget::y_to_bit", "crates/bls-gadgets/src/bitmap.rs: enforce_maximum_occurrences_in_bitmap", "crates/epoch-snark/src/gadgets/pack.rs: MultipackGadget::pack"]}
{"id": "C112", "title": "The test circuits accept exactly the right inputs, with the asserted number of constraints (violated for 256 occurrences)", "statement": "The circuits of the unit tests, for all inputs: y_to_bit for G1 emits 1003 constraints and for G2 2014, as the tests assert; with coordinates of a point as witnesses they can be satisfied exactly for points on the curve, with the sign of the point (either, at half the modulus), and the prover's own run satisfies them. The bitmap circuit can be satisfied exactly if the witnesses are bits, no more than the maximum have the value and the maximum is below half; the square circuit exactly if the public input is a square. The setup of each runs to the end. The prover's run ends for wrong witnesses too, and its assignment satisfies the constraints exactly for points on the curve, or for fewer than 256 occurrences not above a maximum below half the modulus. Violated: with 256 or more occurrences the prover's run of a satisfiable bitmap circuit panics.", "quantifier": "all points, bitmaps, maxima, public inputs, witnesses and modes", "why_tests_cant": "The tests sample random points and a few bitmaps.", "anchors": ["crates/bls-gadgets/src/y_to_bit.rs: test_y_to_bit_g1", "crates/bls-gadgets/src/y_to_bit.rs: test_y_to_bit_g2", "crates/bls-gadgets/src/bitmap.rs: BitmapGadget::generate_constraints", "crates/bls-gadgets/src/bitmap.rs: cs_enforce_value", "crates/bls-snark-sys/src/snark/test_helpers.rs: TestCircuit::generate_constraints"]}
{"id": "C113", "title": "Setup, proof and verification of the circuits built from the gadgets", "statement": "The test circuits taken through the proof system, from the constraints their gadgets emit. The matrices read off a constraint system are satisfied exactly by the assignments that satisfy its constraints. The setup, run without values, succeeds exactly if the bitmap is not empty, the domain has a point for every constraint, public input and the constant (1004 and 2015 for the signs of points of G1 and G2, 3 for the square) and two random scalars are not zero. The proof of any value is accepted for its square; without a value there is none. The proof of a bitmap with few enough occurrences (fewer than 256, maximum below half) and of a point on the curve is accepted. The prover also makes a proof for a bitmap with too many occurrences and a point off the curve, with any blinding, and it is rejected but for few setups; so is whatever another prover combines from the elements of the key with values that are not bits within the maximum, not on the curve, or for a public input that is not a square.", "quantifier": "all values, bitmaps, maxima, points, blinding factors, keys, and all provers that combine the elements of the key", "why_tests_cant": "The tests make one proof of one all-true bitmap and one square with a random setup, and never one that should be rejected.", "anchors": ["crates/bls-gadgets/src/bitmap.rs: groth16_ok", "crates/bls-snark-sys/src/snark/epoch_block.rs: groth_proof_from_pointer", "crates/bls-snark-sys/src/snark/test_helpers.rs: TestCircuit::generate_constraints", "crates/bls-gadgets/src/y_to_bit.rs: test_y_to_bit_g1", "crates/bls-gadgets/src/y_to_bit.rs: test_y_to_bit_g2"]}
{"id": "C114", "title": "The epoch data gadgets as rank-1 constraints", "statement": "EpochData::to_bits with fr_to_bits and g2_to_bits, and enforce_next_epoch, as the programs that allocate variables and emit constraints. Given any values of the earlier variables, the new variables can be assigned so that all constraints hold and the results have given values exactly if: enforce_next_epoch, the index is zero or one more than the previous one in the field; fr_to_bits, the bits are the low digits of the canonical representative; g2_to_bits, the bits are those of the two coordinates of x followed by an allowed sign; to_bits, the results are those of five field elements (not bounded by the 16, 8, 32 and 128 bits that are read) and, per key, of a triple meeting the projective curve equation with an allowed sign. The prover's run on any epoch succeeds, satisfies the constraints, and its results are those of the circuit model; without index, round or a key it fails with AssignmentMissing. The setup runs to the end on any data, and on the empty epoch emits the same constraints as every prover: 4985 plus 4008 per key.", "quantifier": "all constraint systems reached before, all assignments of old and new variables, all epochs, numbers of keys and modes", "why_tests_cant": "Tests run the prover's own assignment for a few epochs, and the setup only together with a proof.", "anchors": ["crates/epoch-snark/src/gadgets/epoch_data.rs: EpochData::to_bits", "crates/epoch-snark/src/gadgets/epoch_data.rs: EpochData::enforce_next_epoch", "crates/epoch-snark/src/gadgets/mod.rs: fr_to_bits", "crates/epoch-snark/src/gadgets/mod.rs: g2_to_bits"]}
{"id": "C115", "title": "The aggregation gadgets as rank-1 constraints", "statement": "enforce_bitmap with enforce_maximum_occurrences_in_bitmap and enforce_aggregated_pubkeys, and enforce_aggregated_all_pubkeys, as the programs that allocate variables and emit constraints (comparison with the padding key, conditional select, complete addition of projective coordinates over Fq2). For any values of keys, bits and maximum, the new variables can be assigned so that all constraints of enforce_bitmap hold exactly if no more bits are false than the maximum, the maximum is below half the modulus, and no key with bit set equals the padding key; the result is then forced to the sum of the signers' coordinates by the formulas of the circuit. For keys that meet the projective curve equation: exactly if moreover every signer's coordinates denote a point other than the padding key, and the result then denotes the sum of the signers' points in the group. The sum of all keys can always be satisfied, and has an affine form exactly if all keys denote points and the sum is not zero. The prover's run succeeds and satisfies the constraints when fewer than 256 keys did not sign; with 256 or more it panics under overflow checks though the constraints can be satisfied. Bitmap and keys of different lengths panic. The setup runs to the end exactly if a bit is allocated, and emits the prover's constraints: 2991 plus 66 per key, less 36 if adding the first key to the constant zero emits nothing and less 18 if it is emitted.", "quantifier": "all constraint systems reached before, all assignments of old and new variables, all keys, bits and maxima, all numbers of keys, both modes", "why_tests_cant": "Tests run the prover's own assignment for a few keys and see neither other assignments nor coordinates off the subgroup.", "anchors": ["crates/bls-gadgets/src/bls.rs: BlsVerifyGadget::enforce_bitmap", "crates/bls-gadgets/src/bls.rs: BlsVerifyGadget::enforce_aggregated_pubkeys", "crates/bls-gadgets/src/bls.rs: BlsVerifyGadget::enforce_aggregated_all_pubkeys", "crates/bls-gadgets/src/bitmap.rs: enforce_maximum_occurrences_in_bitmap"]}
{"id": "C116", "title": "The constraints of the whole circuit", "statement": "generate_constraints of the validator set update, as the program that allocates variables and emits constraints in the code's order, with the gadgets for hashing to G1, pairings, BLAKE2s and Groth16 verification as parameters. Every assignment that satisfies the emitted constraints, whoever chose it, gives values of all variables of the circuit that satisfy the relation of C43 to C46, and the two public inputs are the packed hashes of the edges: every real transition has an index one higher than the epoch before, a bitmap with at most the allowed number of non-signers of the epoch before, no signer with the generator as key, a hash of that epoch's bits, and the pairing equation holds for the sums of the signers' keys; the last epoch is real. Circuits of the same size get the same constraints and public inputs in every mode, so the setup's keys are for the prover's constraints. Synthesis ends only if every epoch has the declared number of keys.", "quantifier": "all updates (any numbers of epochs and validators), all constraint systems before, all satisfying assignments, both modes, with and without helper proof", "why_tests_cant": "Tests ask whether the prover's own assignment satisfies the constraints for a handful of updates; they cannot try all assignments of a cheating prover, and do not compare the constraints of setup and prover.", "anchors": ["crates/epoch-snark/src/gadgets/epochs.rs: ValidatorSetUpdate::generate_constraints", "crates/epoch-snark/src/gadgets/epochs.rs: ValidatorSetUpdate::enforce", "crates/epoch-snark/src/gadgets/epochs.rs: ValidatorSetUpdate::verify_intermediate_epochs", "crates/epoch-snark/src/gadgets/single_update.rs: SingleUpdate::constrain", "crates/epoch-snark/src/gadgets/epoch_data.rs: EpochData::constrain", "crates/epoch-snark/src/gadgets/epoch_bits.rs: EpochBits::verify"]}
{"id": "C117", "title": "The prover's run of the whole circuit", "statement": "If the values that prove() hands to generate_constraints satisfy the relation of the circuit, then the run of generate_constraints that allocates variables and emits constraints succeeds, the values it gives to its own variables satisfy every constraint it emits, and its public inputs are the packed hashes. For an honest chain of epochs, padded with any number of dummies, with or without a helper proof that verifies, this is so, and the two public inputs are the ones that the verifier computes from the first and the last block. Where the prover's run succeeds, the setup's run, which has no values, succeeds too on data of the same shape, with the same variables, public inputs and constraints.", "quantifier": "all honest chains of any length, all numbers of validators below the field's order, all numbers of dummies, with and without helper proof and subgroup checks", "why_tests_cant": "Tests synthesize the circuit for a handful of sizes and chains with fixed seeds; they do not show that no honest chain leads to an unsatisfied constraint or a failing synthesis.", "anchors": ["crates/epoch-snark/src/gadgets/epochs.rs: ValidatorSetUpdate::generate_constraints", "crates/epoch-snark/src/gadgets/epochs.rs: ValidatorSetUpdate::empty", "crates/epoch-snark/src/gadgets/single_update.rs: SingleUpdate::constrain", "crates/epoch-snark/src/gadgets/epoch_bits.rs: EpochBits::verify", "crates/epoch-snark/src/api/prover.rs: prove", "crates/epoch-snark/src/api/setup.rs: trusted_setup"]}
{"id": "C118", "title": "From the constraints of the whole circuit to the verdict on epochs", "statement": "Parameters generated from the constraints that generate_constraints emits: for an honest chain, the proof made from the prover's run exists and verify() accepts it for the first and the last block. Conversely, for a prover who combines the published elements linearly, with any coefficients, either the coefficients contain values of all variables of the circuit that show real transitions from the first to the last block (or a collision of the edge hashes), or verify() rejects for all but (3N+1)q^4 of the q^5 choices of the setup's secrets, N being the size of the evaluation domain.", "quantifier": "all honest chains and paddings; all linear strategies, all pairs of blocks with sixteen-byte entropies, all setup randomness outside the counted set, all groups with a non-degenerate pairing", "why_tests_cant": "Tests prove and verify one chain with one setup; they cannot range over cheating provers or over the setup's randomness.", "anchors": ["crates/epoch-snark/src/api/setup.rs: trusted_setup", "crates/epoch-snark/src/api/prover.rs: prove", "crates/epoch-snark/src/api/verifier.rs: verify", "crates/epoch-snark/src/gadgets/epochs.rs: ValidatorSetUpdate::generate_constraints"]}
{"id": "C119", "title": "The hash to G1 as the constraints it emits", "statement": "In every assignment that satisfies the constraints emitted by hash_bits_to_g1, the message hash is the cofactor times a curve point whose x-coordinate and sign are the ones that the XOF of some counter byte, the extra data and the Pedersen hash of the epoch bits prescribes, and the bits passed on are those of the two digests; with the XOF left to the helper, the 512 bits are tied to the point but to nothing else. Whenever the native hash of the message succeeds, the prover's run emits these constraints with values that satisfy them, and the message hash is the native one. The constraints depend on the number of bits only, allocate no public input and are emitted by the setup whenever they are by a prover, so the whole circuit may contain them in place of an assumed hash gadget.", "quantifier": "all messages, extra data and counters, all starting constraint systems, all satisfying assignments, both sign bit conventions, with and without subgroup checks and helper", "why_tests_cant": "Tests hash fixed messages with one seed; they show neither that every satisfying assignment is a hash nor that the honest values satisfy the constraints for every message the native hash accepts.", "anchors": ["crates/epoch-snark/src/gadgets/epoch_data.rs: EpochData::hash_bits_to_g1", "crates/bls-gadgets/src/hash_to_group.rs: HashToGroupGadget::enforce_hash_to_group", "crates/bls-gadgets/src/hash_to_group.rs: HashToGroupGadget::pedersen_hash", "crates/bls-gadgets/src/hash_to_group.rs: hash_to_bits", "crates/bls-gadgets/src/hash_to_group.rs: HashToGroupGadget::hash_to_group", "crates/bls-gadgets/src/hash_to_group.rs: HashToGroupGadget::scale_by_cofactor_g1"]}
{"id": "C120", "title": "The helper circuit as the constraints it emits", "statement": "In every assignment that satisfies the constraints emitted by HashToBits::generate_constraints, the public inputs are packings of some messages with the lengths of the circuit, followed by packings of their 512-bit hashes. For all messages of whole bytes the prover's run succeeds, satisfies its constraints, and its public inputs are those the epoch circuit computes for the messages as CRHs and the hashes as XOFs; with a missing bit it fails. Setup mode with HashToBits::empty succeeds with the same public inputs, variables and constraints. With parameters from that setup, proofs for messages of 384 bits are accepted with those public inputs; and if the XOF bits of the epoch circuit are not the hashes of its CRH bits, any proof combined linearly from the published elements is rejected, but for a fraction (3N+1)/q of the setups.", "quantifier": "all numbers of epochs, all messages, all satisfying assignments, all linear proving strategies, all valid evaluation domains", "why_tests_cant": "The test of the helper generates constraints for fixed messages and asks whether they are satisfied; it cannot show that other XOF bits satisfy nothing, that the setup without values has the same constraints for every number of epochs, or that no forged proof is accepted.", "anchors": ["crates/epoch-snark/src/gadgets/hash_to_bits.rs: HashToBits::generate_constraints", "crates/epoch-snark/src/gadgets/hash_to_bits.rs: HashToBits::empty", "crates/bls-gadgets/src/hash_to_group.rs: hash_to_bits", "crates/epoch-snark/src/gadgets/pack.rs: MultipackGadget::pack", "crates/epoch-snark/src/gadgets/mod.rs: constrain_bool", "crates/epoch-snark/src/api/setup.rs: trusted_setup", "crates/epoch-snark/src/api/prover.rs: generate_hash_helper"]}
{"id": "C121", "title": "A proof is a proof of one statement", "statement": "A proof accepted by the verifier for some public inputs is accepted for others exactly if the verifier computes the same element of the first group from both; whoever has one proof accepted for two lists of inputs has a non-trivial linear relation between elements of the key. For any two fixed lists of inputs and any circuit, all but a fraction N/q of the setups (N the size of the domain) have no proof at all that is accepted for both. Hence, unless the digest collides on the given encodings, a proof of a first and a last block is not accepted for blocks with another first or last encoding; and the helper proof that generate_hash_helper makes from the reversed CRHs is rejected with the CRHs of the epoch circuit, unless these read the same in both directions. With two or more inputs there are, for all inputs and every key, other inputs with the same verdict on every proof.", "quantifier": "all circuits, all proofs whoever made them, all keys, all pairs of public inputs, all blocks, all transitions", "why_tests_cant": "Tests verify the proof they made for the blocks they made it for, at best also for one other pair of blocks and one setup. That no proof whatever serves two claims quantifies over all proofs and counts setups.", "anchors": ["crates/epoch-snark/src/api/verifier.rs: verify", "crates/epoch-snark/src/api/setup.rs: trusted_setup", "crates/epoch-snark/src/api/prover.rs: generate_hash_helper", "crates/epoch-snark/src/gadgets/hash_to_bits.rs: HashToBits::generate_constraints", "crates/epoch-snark/src/gadgets/epoch_bits.rs: EpochBits::verify_proof"]}
{"id": "C122", "title": "The end-to-end program succeeds on the constraints that are emitted", "statement": "The program of tests/e2e.rs, with both circuits synthesised into constraints by the code: trusted_setup runs generate_constraints of the helper circuit and of the epoch circuit without values and makes the keys of exactly these constraint systems; prove runs the same programs with the values of the transitions, makes the helper proof, hands it and its key to the epoch circuit and makes the epoch proof from that run; verify accepts the encodings of the first and the last block. This succeeds for all numbers of validators, faults, transitions and maximal epochs and with or without the helper, whenever the blocks and the dummy block can be hashed, no drawn secret is 0 or 1, the first committee's secrets do not cancel, and the secrets gamma and delta of the setup are not zero. The setup of the helper circuit never fails, and its key has one element per public input and one more.", "quantifier": "all numbers of validators up to 206, of faults, of transitions and of maximal epochs, all secrets of validators and of the setup, both variants with and without helper, all pairings", "why_tests_cant": "The tests make one run with fixed sizes and one seed and take minutes. That every size and every randomness passes, from the emission of the constraints to the last pairing check, is a statement about infinitely many runs.", "anchors": ["crates/epoch-snark/src/api/setup.rs: trusted_setup", "crates/epoch-snark/src/api/prover.rs: prove", "crates/epoch-snark/src/api/prover.rs: generate_hash_helper", "crates/epoch-snark/src/api/verifier.rs: verify", "crates/epoch-snark/src/gadgets/epochs.rs: ValidatorSetUpdate::generate_constraints", "crates/epoch-snark/src/gadgets/hash_to_bits.rs: HashToBits::generate_constraints", "crates/epoch-snark/tests/e2e.rs"]}
{"id": "C123", "title": "Exact size of both circuits, and exactly when a setup succeeds", "statement": "For n+1 validators and k epochs, generate_constraints of the epoch circuit emits exactly 15516 + 4044n + k(12045 + 4081n) constraints and 11349 + 3070n + k(9111 + 3100n) witnesses, plus 18(k+1) of each where the gadget library emits constraints for the first addition to the constant zero, plus those of the gadgets it calls: k times the hash to G1 and the preparation of a point of each group, once the pairing equation and the verifier of the helper proof, and the hashes of the first and the last epoch. It returns two packed inputs. The numbers do not depend on the data, on whether the run is a setup or a proof, or on the bitmaps. The hash to G1 emits 5211 constraints (or 5769), plus the Pedersen hash and either two BLAKE2s hashes or 512 booleans. The helper circuit for k messages of 384 bits emits 1280k + 672(ceil(384k/252) + ceil(512k/252)) constraints, plus two BLAKE2s hashes per message. For a circuit of this size, the library's evaluation domain exists exactly if the constraints, the public inputs and the constant one are at most 2^46 (2^47 for the helper); it is then valid, and smaller than twice this number. The setup succeeds exactly if there is such a domain and gamma and delta are not zero. So the end-to-end program of C122 succeeds on the library's domains whenever these numbers fit.", "quantifier": "all numbers of validators and epochs, all data of the circuit including absent values, all constraint systems to start from, all secrets of the setup", "why_tests_cant": "The repository asserts the numbers for three gadgets, and an example prints that of the whole circuit for the sizes it is given. A circuit that grows with its data would make a key of the setup useless for some proofs only; a missing constraint would not be seen by a test that accepts honest proofs.", "anchors": ["crates/epoch-snark/src/gadgets/epochs.rs: ValidatorSetUpdate::generate_constraints", "crates/epoch-snark/src/gadgets/single_update.rs: SingleUpdate::constrain", "crates/epoch-snark/src/gadgets/epoch_data.rs: EpochData::to_bits", "crates/epoch-snark/src/gadgets/hash_to_bits.rs: HashToBits::generate_constraints", "crates/epoch-snark/src/gadgets/pack.rs: MultipackGadget::pack", "crates/epoch-snark/src/api/setup.rs: trusted_setup", "crates/epoch-snark/examples/constraints.rs"]}
{"id": "C124", "title": "The benchmark ends exactly if the messages can be hashed, and the example prints the exact size", "statement": "The benchmark signs each message with the keys of a committee, verifies each aggregate, all aggregates at once, each batch with random exponents and each signature; every one of its unwraps succeeds exactly if every message can be hashed, for any number of blocks and committees of any sizes, empty ones included. The program that counts constraints panics without validators where overflows are checked; for n+1 validators (below 2^32) and k > 0 epochs, what it prints is 15516 + 4044n + k(12045 + 4081n) plus the cost of the gadgets called, and it prints it whenever a prover's run of this shape succeeds: then it is the number of that run's constraints.", "quantifier": "all messages, keys, committees, numbers of blocks, random exponents; all numbers of validators and epochs", "why_tests_cant": "The benchmark runs one size with random keys; the number printed is not compared with anything.", "anchors": ["crates/bls-crypto/benches/batch_bls.rs: batch_bls_comparison", "crates/epoch-snark/examples/constraints.rs: main"]}
{"id": "C125", "title": "The field's square root ends, never panics and returns a root exactly if there is one", "statement": "The square root with which hashing lifts an x coordinate to the curve (Legendre symbol, then Tonelli and Shanks with the two-adicity and generator of the field) leaves both of its loops after at most as many rounds as the two-adicity, its subtraction of round counters never underflows, and it returns a root of its argument if there is one and nothing otherwise. So hashing to G1 with it meets the assumption that all properties of hashing make on the square root.", "quantifier": "all prime fields with a generator of the given two-adicity, all elements of the field, all numbers of rounds from the two-adicity on; for hashing all hashers, domains, messages and extra data", "why_tests_cant": "An element for which a loop does not end or a counter underflows is hit with negligible probability by random messages when the two-adicity is 46, while a chosen message might hit it; a wrong answer for a residue would make some messages hash to another point than in other implementations.", "anchors": ["crates/bls-crypto/src/hash_to_curve/mod.rs: get_point_from_x", "crates/bls-crypto/src/hash_to_curve/mod.rs: from_random_bytes"]}
{"id": "C126", "title": "The square root that decompresses public keys never panics and is exact, but for pure multiples of u in older versions", "statement": "The square root of the quadratic extension (the complex method with its expects) never panics. In later versions of the field library it returns a root exactly if there is one, as the properties of decompression assume. In earlier versions it also does so, except that it returns nothing for the elements of the base field that are no squares there, all of which have a root: it finds a root of y^2 exactly if y is not a nonzero multiple of u. So a public key of the subgroup that is written can be read back by them exactly if its second coordinate is not a multiple of u; else reading it fails with invalid data.", "quantifier": "all elements of the quadratic extension, all public keys of the subgroup, all bytes that follow, both versions", "why_tests_cant": "One element in q (about 2^377) is affected, so that no random test meets it; that the expects cannot fail depends on -5 being no square.", "anchors": ["crates/bls-crypto/src/bls/public.rs: PublicKey::deserialize", "crates/bls-crypto/src/bls/public.rs: PublicKey::serialize"]}
{"id": "C127", "title": "The multi-scalar multiplication of a batch is the sum of the products", "statement": "The bucket method that batch() of public keys and of signatures calls (windows of a size that depends on the number of points, scalars one treated apart, digits from the lowest limb, running sums over the buckets, doublings between windows) never panics and returns the sum of scalar times base over the shorter of the two lists, for every number of points below 2^64 and all scalars of the given number of bits. So the batch of the model, a sum of products, is what it computes.", "quantifier": "all groups, all lists of bases and scalars of any lengths (below 2^64), all numbers of bits but zero; all exponents of the scalar field", "why_tests_cant": "Tests use few points and random exponents, so one window size and no scalar zero or one; a wrong bucket or window boundary would only show for certain digits.", "anchors": ["crates/bls-crypto/src/bls/public.rs: PublicKey::batch", "crates/bls-crypto/src/bls/signature.rs: Signature::batch"]}
{"id": "C128", "title": "Batch normalization gives the affine form of every point, whatever the representation", "statement": "The normalization that batch() calls first inverts all z coordinates with one inversion: it never panics, also for no points or only points at infinity, and inverts every element, zeros staying zero. Each point becomes infinity exactly if its z is zero, and (x/z^2, y/z^3) otherwise; so the affine points denote the same group elements. Together with the bucket method, batch() on projective keys or signatures of any representation returns the sum of exponent times point in the group of the curve.", "quantifier": "all fields, all lists of projective points of any representation, points at infinity included; all exponents", "why_tests_cant": "A test with random keys has no point at infinity in the middle of a batch, where skipping zeros could shift the inverses of all others.", "anchors": ["crates/bls-crypto/src/bls/public.rs: PublicKey::batch", "crates/bls-crypto/src/bls/signature.rs: Signature::batch"]}
{"id": "C129", "title": "The field inverse ends and is right, within twice the bits of the modulus", "statement": "The binary Euclidean algorithm on Montgomery forms that computes the witness el_inv of is_eq_zero ends after at most 2 bits + 1 rounds of each loop for every element of a prime field of that many bits. It returns nothing exactly for zero, and otherwise the fully reduced Montgomery form of the inverse. The value of is_eq_zero's witness, zero in place of nothing, satisfies the two constraints of is_eq_zero together with the right bit and no other; for the base field of BLS12-377 within 755 rounds.", "quantifier": "all odd primes, all Montgomery constants prime to the modulus, all elements", "why_tests_cant": "A loop that ends for sampled elements may run forever or lose the invariant for others; the number of rounds depends on the element.", "anchors": ["crates/bls-gadgets/src/y_to_bit.rs: FpUtils::is_eq_zero"]}
{"id": "C130", "title": "Montgomery multiplication and the conversions to and from integers are those of the field", "statement": "The multiplication without a carry limb that every product of field elements uses loses no carry if the modulus has a spare bit, as both moduli of BLS12-377 have, and on Montgomery forms returns the reduced form of the product. into_repr returns the canonical representative, never the modulus, without a subtraction at the end. from_repr accepts exactly the numbers below the modulus, and into_repr gives them back.", "quantifier": "all prime moduli with a spare bit, all bases and numbers of limbs, all elements and integers", "why_tests_cant": "A lost carry or a result equal to the modulus happens for a fraction of about 2^-64 of the inputs or less.", "anchors": ["crates/bls-crypto/src/bls/public.rs: From<&PrivateKey> for PublicKey", "crates/bls-crypto/src/bls/public.rs: PublicKey::batch", "crates/bls-crypto/src/bls/signature.rs: Signature::batch", "crates/bls-gadgets/src/y_to_bit.rs: FpUtils::normalize"]}
{"id": "C131", "title": "Scalar multiplication is the multiple, from the Montgomery form of the exponent to the Jacobian formulas", "statement": "mul of projective points (limbs to bits, leading zeros dropped, double and add with the Jacobian formulas and their case distinctions) returns, for every representation of a point and all limbs, a representation of the multiple by the number of the limbs, on the curve. With into_repr: the public key of a secret key denotes the multiple of the generator of G2, and the raw signature the multiple of the hashed point of G1, by the canonical representative of the secret key, zero included.", "quantifier": "all curves y^2 = x^3 + b in odd characteristic, all representations, all limbs; all secret keys", "why_tests_cant": "The exceptional cases of the formulas (accumulator zero, equal to the base or opposite) occur in a double-and-add only for special exponents.", "anchors": ["crates/bls-crypto/src/bls/public.rs: From<&PrivateKey> for PublicKey", "crates/bls-crypto/src/bls/secret.rs: PrivateKey::sign_raw"]}
{"id": "C132", "title": "The short formulas of the quadratic extension are its arithmetic", "statement": "For the field of the coordinates of public keys: multiplication with three and squaring with two multiplications of the base field, the multiplication by -5 with two doublings, give the product and the square for all elements. The inverse, from one inverse of the base field through Montgomery forms, is nothing exactly for zero and the inverse otherwise; the norm of a nonzero element is never zero.", "quantifier": "all elements of the quadratic extension", "why_tests_cant": "A formula that is wrong on a subset (elements of the base field, multiples of u) may pass tests on random elements.", "anchors": ["crates/bls-crypto/src/bls/public.rs: From<&PrivateKey> for PublicKey", "crates/bls-crypto/src/bls/public.rs: PublicKey::batch"]}
{"id": "C133", "title": "batch() as computed on representations returns the sum of the products", "statement": "PublicKey::batch and Signature::batch from Jacobian coordinates and Montgomery forms to Jacobian coordinates: length check, normalization, into_repr, buckets with mixed additions, running sums, doublings between windows, with the formulas and case distinctions of the curve library. The result is nothing exactly if the numbers of points and exponents differ; otherwise nothing panics, and the result is on the curve and denotes the sum of exponent times point, also if points are equal, opposite or at infinity.", "quantifier": "all lists (below 2^64) of points in any representation, all exponents; both curves", "why_tests_cant": "Equal points in one bucket or opposite running sums need doublings or zeros in the formulas; random keys and exponents never produce them.", "anchors": ["crates/bls-crypto/src/bls/public.rs: PublicKey::batch", "crates/bls-crypto/src/bls/signature.rs: Signature::batch"]}
