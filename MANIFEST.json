{
 "claims": [
  {
   "property": "C01",
   "status": "proved",
   "theorems": [
    "Verif.C01_sign_verify",
    "Verif.C01_hash_error",
    "Verif.C01_sign_total"
   ],
   "note": "For every pairing group, key, message, extra data and hasher; hasher errors propagate."
  },
  {
   "property": "C02",
   "status": "proved",
   "theorems": [
    "Verif.C02_verify_exact",
    "Verif.C02_verify_dlog",
    "Verif.C02_unique",
    "Verif.C02_identity_key"
   ],
   "note": "Verification accepts exactly one group element per (key, message)."
  },
  {
   "property": "C03",
   "status": "proved",
   "theorems": [
    "Verif.C03_domains_distinct",
    "Verif.C03_pop_verify",
    "Verif.C03_domain_dependence",
    "Verif.C03_cross_acceptance"
   ],
   "note": "Signing and possession domains are separated; cross acceptance is characterised exactly."
  },
  {
   "property": "C04",
   "status": "proved",
   "theorems": [
    "Verif.C04_aggregate_verify"
   ],
   "note": "Same-message aggregation for any number of signers."
  },
  {
   "property": "C05",
   "status": "proved",
   "theorems": [
    "Verif.C05_aggregate_perm",
    "Verif.C05_aggregate_grouping",
    "Verif.C05_aggregate_sig_perm",
    "Verif.C05_aggregate_sig_grouping",
    "Verif.C05_aggregate_is_sum"
   ],
   "note": "Aggregation is a sum: independent of order and grouping."
  },
  {
   "property": "C06",
   "status": "proved",
   "theorems": [
    "Verif.C06_uneven",
    "Verif.C06_hash_error",
    "Verif.C06_exact",
    "Verif.C06_complete",
    "Verif.C06_hashes"
   ],
   "note": "Exact acceptance condition of batch_verify, with all error cases."
  },
  {
   "property": "C07",
   "status": "proved",
   "theorems": [
    "Verif.C07_screening_only",
    "Verif.C07_per_signer_guarantee_fails",
    "Verif.C07_perm"
   ],
   "note": "Negative property by design: individually invalid signatures are accepted, proved with an explicit construction."
  },
  {
   "property": "C08",
   "status": "proved",
   "theorems": [
    "Verif.C08_batch_complete",
    "Verif.C08_no_panic",
    "Verif.C08_hash_error",
    "Verif.C08_add_order"
   ],
   "note": "Honest batches are accepted for every random source; no panics; order irrelevant."
  },
  {
   "property": "C09",
   "status": "proved",
   "theorems": [
    "Verif.C09_batch_sound",
    "Verif.C09_security_bound",
    "Verif.C09_table_complete"
   ],
   "note": "Counting bound: fraction of random strings accepting a bad batch is at most 256^-k, hence 2^-128/size."
  },
  {
   "property": "C10",
   "status": "proved",
   "theorems": [
    "Verif.C10_bounds",
    "Verif.C10_mono",
    "Verif.C10_security",
    "Verif.C10_cap_unreached",
    "Verif.C10_decode",
    "Verif.C10_cap_needed"
   ],
   "note": "Byte count formula bounds, monotonicity, security level, cap and decoding."
  },
  {
   "property": "C11",
   "status": "proved",
   "theorems": [
    "Verif.C11_verify_each_iff",
    "Verif.C11_first_error",
    "Verif.C11_each_implies_batch",
    "Verif.C11_empty"
   ],
   "note": "verify_each is exact and stops at the first bad entry."
  },
  {
   "property": "C12",
   "status": "proved",
   "theorems": [
    "Verif.C12_batch_pk",
    "Verif.C12_batch_sig",
    "Verif.C12_batch_valid"
   ],
   "note": "Weighted batching of keys and signatures is linear."
  },
  {
   "property": "C13",
   "status": "proved",
   "theorems": [
    "Verif.C13_history_independence",
    "Verif.C13_aggregate"
   ],
   "note": "For every finite history of calls, with adversarial hash seeds and set iteration orders."
  },
  {
   "property": "C14",
   "status": "proved",
   "theorems": [
    "Verif.C14_agrees_nodup",
    "Verif.C14_violation",
    "Verif.C14_discrepancy",
    "Verif.C14_agrees_iff"
   ],
   "note": "The unrestricted equality is false (C14_violation); C14_agrees_iff says exactly when it holds, C14_agrees_nodup covers duplicate-free lists, C14_discrepancy gives the difference."
  },
  {
   "property": "C15",
   "status": "proved",
   "theorems": [
    "Verif.C15_deserialize_transparent",
    "Verif.C15_cache_bounded",
    "Verif.C15_hit"
   ],
   "note": "Deserialisation cache is transparent and bounded by its capacity."
  },
  {
   "property": "C16",
   "status": "proved",
   "theorems": [
    "Verif.C16_hash_contract",
    "Verif.C16_equivalence",
    "Verif.C16_two_representations"
   ],
   "note": "Hash/equality contract of the wrapped key over projective representatives."
  },
  {
   "property": "C17",
   "status": "proved",
   "theorems": [
    "Verif.C17_threads"
   ],
   "note": "Every call is one step here; that the mutex justifies this is C84."
  },
  {
   "property": "C18",
   "status": "proved",
   "theorems": [
    "Verif.C18_ok_iff",
    "Verif.C18_err_iff",
    "Verif.C18_panic_iff",
    "Verif.C18_direct_total",
    "Verif.C18_never_identity",
    "Verif.C18_sqrt_irrelevant"
   ],
   "note": "Exact ok/err/panic conditions for every hasher; independent of the square root chosen by the field library."
  },
  {
   "property": "C19",
   "status": "proved",
   "theorems": [
    "Verif.C19_ok_iff",
    "Verif.C19_err_iff",
    "Verif.C19_panic_iff",
    "Verif.C19_never_identity"
   ],
   "note": "As C18 for the CIP22 variant."
  },
  {
   "property": "C20",
   "status": "proved",
   "theorems": [
    "Verif.C20_violation_boundary",
    "Verif.C20_violation_signature_transfer",
    "Verif.C20_cip22_inputs_disjoint",
    "Verif.C20_cip22_separates"
   ],
   "note": "Plain variant violates the property (C20_violation_*); CIP22 satisfies it (disjoint XOF inputs, separation)."
  },
  {
   "property": "C21",
   "status": "proved",
   "theorems": [
    "Verif.C21_xof_length",
    "Verif.C21_domain_too_large",
    "Verif.C21_not_prefix"
   ],
   "note": "Lengths below 2^37 bytes (beyond, block numbers overflow the 32-bit field); domain check exact."
  },
  {
   "property": "C22",
   "status": "proved",
   "theorems": [
    "Verif.C22_xof_params_injective",
    "Verif.C22_crh_separate",
    "Verif.C22_violation_alias",
    "Verif.C22_block_injective"
   ],
   "note": "Injectivity below 65536 bytes, for parameters and for the parameter block; aliasing beyond is proved."
  },
  {
   "property": "C23",
   "status": "proved",
   "theorems": [
    "Verif.C23_float",
    "Verif.C23_float_model",
    "Verif.C23_float_limit",
    "Verif.C23_float_nearest",
    "Verif.C23_float_compat",
    "Verif.C23_hash_length"
   ],
   "note": "C23_float is about the f64 arithmetic of the code; C23_float_limit records where it stops being exact; C23_float_nearest states that the modelled rounding is that of IEEE 754."
  },
  {
   "property": "C24",
   "status": "proved",
   "theorems": [
    "Verif.C24_flag_roundtrip",
    "Verif.C24_byte_roundtrip",
    "Verif.C24_decode",
    "Verif.C24_injective",
    "Verif.C24_from_sign",
    "Verif.C24_point_encoding"
   ],
   "note": "All flags, all 256 byte values and all curve points; the square root of the field library is assumed to return a root exactly when there is one."
  },
  {
   "property": "C25",
   "status": "proved",
   "theorems": [
    "Verif.C25_decode_agrees",
    "Verif.C25_hashers_agree",
    "Verif.C25_hashers_agree_g1",
    "Verif.C25_legacy_ok_iff",
    "Verif.C25_last_counter_differs"
   ],
   "note": "Decoding equality for all digests; hasher equality on BLS12-377 G1 unconditional below counter 255; difference at counter 255 proved."
  },
  {
   "property": "C26",
   "status": "proved",
   "theorems": [
    "Verif.C26_bytes_value",
    "Verif.C26_bytes_length",
    "Verif.C26_bits_value",
    "Verif.C26_bits_length",
    "Verif.C26_bits_roundtrip",
    "Verif.C26_bytes_roundtrip",
    "Verif.C26_le_variants",
    "Verif.C26_injective",
    "Verif.C26_not_injective"
   ],
   "note": "Value, length and both round trips, the bit round trip even without byte alignment."
  },
  {
   "property": "C27",
   "status": "proved",
   "theorems": [
    "Verif.C27_bits",
    "Verif.C27_injective"
   ],
   "note": "Exact bit layout and injectivity."
  },
  {
   "property": "C28",
   "status": "proved",
   "theorems": [
    "Verif.C28_length",
    "Verif.C28_injective",
    "Verif.C28_layout",
    "Verif.C28_sign",
    "Verif.C28_sign_lex",
    "Verif.C28_infinity"
   ],
   "note": "Injective over all points of the twist including infinity: no curve point has x = 0, proved from 5 being a non-residue."
  },
  {
   "property": "C29",
   "status": "proved",
   "theorems": [
    "Verif.C29_inner_iff",
    "Verif.C29_inner_determines",
    "Verif.C29_lengths",
    "Verif.C29_keys_determined"
   ],
   "note": "Exact characterisation of when two signed encodings agree; no equal-size hypothesis is needed because byte lengths differ by padded size."
  },
  {
   "property": "C30",
   "status": "proved",
   "theorems": [
    "Verif.C30_first_iff",
    "Verif.C30_last_iff"
   ],
   "note": "Exact characterisation for both encodings."
  },
  {
   "property": "C31",
   "status": "proved",
   "theorems": [
    "Verif.C31_violation_missing_entropy",
    "Verif.C31_violation_long_entropy",
    "Verif.C31_violation_padding",
    "Verif.C31_violation_short_entropy"
   ],
   "note": "The stated property is violated; machine-checked counterexamples for missing, long and short entropies and for padding keys."
  },
  {
   "property": "C32",
   "status": "proved",
   "theorems": [
    "Verif.C32_legacy_iff",
    "Verif.C32_ignores"
   ],
   "note": "Exact characterisation of the legacy encoding."
  },
  {
   "property": "C33",
   "status": "proved",
   "theorems": [
    "Verif.C33_pack_ok",
    "Verif.C33_pack_length",
    "Verif.C33_pack_injective",
    "Verif.C33_not_injective"
   ],
   "note": "Over all bit strings."
  },
  {
   "property": "C34",
   "status": "proved",
   "theorems": [
    "Verif.C34_accepts_iff",
    "Verif.C34_rejects",
    "Verif.C34_public_inputs_injective",
    "Verif.C34_binds"
   ],
   "note": "Groth16 and BLAKE2s are parameters. The binding corollary assumes no collision on the four encodings concerned."
  },
  {
   "property": "C35",
   "status": "proved",
   "theorems": [
    "Verif.C35_sound",
    "Verif.C35_complete"
   ],
   "note": "Any prime field; constants included."
  },
  {
   "property": "C36",
   "status": "proved",
   "theorems": [
    "Verif.C36_exact",
    "Verif.C36_sound",
    "Verif.C36_complete",
    "Verif.C36_violation"
   ],
   "note": "Violated only at (p-1)/2: exact description of the satisfying bits proved."
  },
  {
   "property": "C37",
   "status": "proved",
   "theorems": [
    "Verif.C37_sound",
    "Verif.C37_complete",
    "Verif.C37_exact",
    "Verif.C37_matches_encoding",
    "Verif.C37_violation"
   ],
   "note": "Exact description of the obtainable bits; violation exhibited on a concrete point of the twist (outside any subgroup check, which the circuit omits)."
  },
  {
   "property": "C38",
   "status": "proved",
   "theorems": [
    "Verif.C38_sound",
    "Verif.C38_complete",
    "Verif.C38_exact"
   ],
   "note": "Bitmaps shorter than the modulus. The comparison gadget of ark_r1cs_std is modelled by its bit-level definition."
  },
  {
   "property": "C39",
   "status": "proved",
   "theorems": [
    "Verif.C39_witness_small",
    "Verif.C39_violation"
   ],
   "note": "Violated; proved for both overflow-check settings."
  },
  {
   "property": "C40",
   "status": "proved",
   "theorems": [
    "Verif.C40_exact",
    "Verif.C40_panics",
    "Verif.C40_all"
   ],
   "note": "Curve variable operations are modelled as group operations."
  },
  {
   "property": "C41",
   "status": "proved",
   "theorems": [
    "Verif.C41_in_range",
    "Verif.C41_entropy",
    "Verif.C41_exact",
    "Verif.C41_violation"
   ],
   "note": "In-range equality, exact characterisation, and the violation for every width and value."
  },
  {
   "property": "C42",
   "status": "proved",
   "theorems": [
    "Verif.C42_in_range",
    "Verif.C42_violation"
   ],
   "note": "Violated; for every pair of blocks and every circuit size a satisfying assignment without any signer is constructed. Sound when the threshold witness is below 2^32. External gadget semantics (ark_r1cs_std) in the trusted base."
  },
  {
   "property": "C43",
   "status": "proved",
   "theorems": [
    "Verif.C43_indices",
    "Verif.C43_encoded",
    "Verif.C43_wraps"
   ],
   "note": "Any number of updates and any witness; the wrap from 65535 to 0 is exhibited."
  },
  {
   "property": "C44",
   "status": "proved",
   "theorems": [
    "Verif.C44_enforced",
    "Verif.C44_violation"
   ],
   "note": "Violated; satisfying assignment with unlinked entropies. Sound when the first entropy witness is non-zero."
  },
  {
   "property": "C45",
   "status": "proved",
   "theorems": [
    "Verif.C45_transitions",
    "Verif.C45_edges",
    "Verif.C45_aggregate_encoding"
   ],
   "note": "Any satisfying assignment, any number of updates and validators; circuit keys of the first epoch number n (fixed by the setup)."
  },
  {
   "property": "C46",
   "status": "proved",
   "theorems": [
    "Verif.C46_complete"
   ],
   "note": "Honest chain of any length, any number of dummies; the assignment is the one computed by the prover's code."
  },
  {
   "property": "C47",
   "status": "proved",
   "theorems": [
    "Verif.C47_violation",
    "Verif.C47_prover"
   ],
   "note": "Violated; both for any witness and for the prover's own assignment."
  },
  {
   "property": "C48",
   "status": "proved",
   "theorems": [
    "Verif.C48_shape",
    "Verif.C48_empty",
    "Verif.C48_too_many"
   ],
   "note": "All transition lists and sizes."
  },
  {
   "property": "C49",
   "status": "proved",
   "theorems": [
    "Verif.C49_bits",
    "Verif.C49_witness"
   ],
   "note": "Prover's assignment and, in C49_witness, any witness with the right residues and key encodings."
  },
  {
   "property": "C50",
   "status": "proved",
   "theorems": [
    "Verif.C50_xof_params",
    "Verif.C50_xof",
    "Verif.C50_edge_params",
    "Verif.C50_edge_hash"
   ],
   "note": "Parameter blocks of the circuit's XOF and edge hash equal the native ones for every block number, 8-byte domain and output length that is a multiple of 256 bits; hence equal digests if both BLAKE2s agree on equal parameter blocks (assumed)."
  },
  {
   "property": "C51",
   "status": "proved",
   "theorems": [
    "Verif.C51_sound",
    "Verif.C51_complete",
    "Verif.C51_native",
    "Verif.C51_native_unique"
   ],
   "note": "Sound and complete against native decoding for affine witnesses; native success gives a satisfying assignment with the native element, unique for the native counter. External: square root, BLAKE2s, Pedersen CRH, ark_r1cs_std semantics."
  },
  {
   "property": "C52",
   "status": "proved",
   "theorems": [
    "Verif.C52_exact",
    "Verif.C52_violation_two",
    "Verif.C52_violation_identity",
    "Verif.C52_violation_255"
   ],
   "note": "The accepted hashes are characterised exactly (any counter byte); the uniqueness claim is refuted: two different hashes, the identity, and counter 255 are accepted for suitable BLAKE2s functions."
  },
  {
   "property": "C53",
   "status": "proved",
   "theorems": [
    "Verif.C53_free",
    "Verif.C53_replay",
    "Verif.C53_result_discarded",
    "Verif.C53_forgery",
    "Verif.C53_helper_input"
   ],
   "note": "Refuted: with the helper the XOF bits are free (exact characterisation), the Boolean of the helper verification is discarded, and a signature on any message is accepted for any next block at the level of the whole circuit; the honest helper hashes other bytes."
  },
  {
   "property": "C54",
   "status": "proved",
   "theorems": [
    "Verif.C54_exact",
    "Verif.C54_complete",
    "Verif.C54_binds",
    "Verif.C54_verifier",
    "Verif.C54_slack"
   ],
   "note": "Exact characterisation of the constraints, completeness, binding against the verifier's packing, and the slack in the high bits."
  },
  {
   "property": "C55",
   "status": "proved",
   "theorems": [
    "Verif.C55_sign",
    "Verif.C55_verify",
    "Verif.C55_agree",
    "Verif.C55_bad_flags",
    "Verif.C55_verified_exact",
    "Verif.C55_hash_failure",
    "Verif.C55_pop",
    "Verif.C55_batch_verify"
   ],
   "note": "Exact results of signing and verification for every flag pair; (non-composite, CIP22) refused. A hash failure is reported by verify as verified = false, not as an error."
  },
  {
   "property": "C56",
   "status": "proved",
   "theorems": [
    "Verif.C56_signatures",
    "Verif.C56_serialization",
    "Verif.C56_cached",
    "Verif.C56_strict",
    "Verif.C56_strict_bad_flags"
   ],
   "note": "Every modelled entry point; batch_verify_strict writes its results also when it returns false (exactly characterised); the cached deserialiser may change the cache but not the output."
  },
  {
   "property": "C57",
   "status": "proved",
   "theorems": [
    "Verif.C57_sound",
    "Verif.C57_complete",
    "Verif.C57_violation_surplus",
    "Verif.C57_violation_empty"
   ],
   "note": "Sound up to 2^-128 and complete for equal lengths; violated for unequal lengths: surplus keys or signatures are ignored, keys without signatures verify."
  },
  {
   "property": "C58",
   "status": "proved",
   "theorems": [
    "Verif.C58_read",
    "Verif.C58_ok_iff",
    "Verif.C58_err_iff",
    "Verif.C58_local",
    "Verif.C58_serialize_length",
    "Verif.C58_roundtrip",
    "Verif.C58_block"
   ],
   "note": "Reading is decoding of the 96-byte chunks in order with the first error; only those bytes matter; round trip for keys of the subgroup. ark_serialize's format is part of the model (external)."
  },
  {
   "property": "C59",
   "status": "proved",
   "theorems": [
    "Verif.C59_subtract",
    "Verif.C59_violation_repeated"
   ],
   "note": "Holds for duplicate-free removal lists; repeated removal refuted by C59_violation_repeated."
  },
  {
   "property": "C60",
   "status": "proved",
   "theorems": [
    "Verif.C60_roundtrip",
    "Verif.C60_violation_empty",
    "Verif.C60_message"
   ],
   "note": "Round trip for non-empty slices; empty slices (hence messages with empty extra data) panic."
  },
  {
   "property": "C61",
   "status": "proved",
   "theorems": [
    "Verif.C61_composite",
    "Verif.C61_violation_direct_panics",
    "Verif.C61_violation_hash_panics",
    "Verif.C61_direct_ok",
    "Verif.C61_domain_padding",
    "Verif.C61_domain_separation"
   ],
   "note": "xof and composite hasher return the error; the direct hasher panics (proved); domain padding aliasing proved."
  },
  {
   "property": "C62",
   "status": "proved",
   "theorems": [
    "Verif.C62_affine_binds",
    "Verif.C62_violation",
    "Verif.C62_hash_violation",
    "Verif.C62_hash_replay"
   ],
   "note": "Bound for affine witnesses (C62_affine_binds, C51_sound); refuted for free z for G2 encodings and for the G1 hash (every point up to sign is accepted for a digest). Whether the allocator leaves z free is external and a parameter of the model."
  },
  {
   "property": "C63",
   "status": "proved",
   "theorems": [
    "Verif.C63_signature",
    "Verif.C63_pubkey",
    "Verif.C63_signature_roundtrip",
    "Verif.C63_pubkey_roundtrip",
    "Verif.C63_infinity_panics",
    "Verif.C63_no_curve_check"
   ],
   "note": "Exact result on all byte strings; panics and the missing curve check included."
  },
  {
   "property": "C64",
   "status": "proved",
   "theorems": [
    "Verif.C64_verify_gadget",
    "Verif.C64_batch_gadget",
    "Verif.C64_batch_lengths"
   ],
   "note": "Exact equivalence with the native model. Pairing gadget = native pairing is in the trusted base."
  },
  {
   "property": "C65",
   "status": "proved",
   "theorems": [
    "Verif.C65_panics",
    "Verif.C65_first_differs"
   ],
   "note": "Violated: panic for transitions, shorter bits for the first block."
  },
  {
   "property": "C66",
   "status": "proved",
   "theorems": [
    "Verif.C66_public_key_format",
    "Verif.C66_signature_format",
    "Verif.C66_infinity_format",
    "Verif.C66_sizes",
    "Verif.C66_public_key_iff",
    "Verif.C66_signature_iff",
    "Verif.C66_public_key_roundtrip",
    "Verif.C66_signature_roundtrip",
    "Verif.C66_public_key_outside",
    "Verif.C66_signature_outside",
    "Verif.C66_violation_infinity",
    "Verif.C66_private_key_iff",
    "Verif.C66_sign_bit",
    "Verif.C66_malformed"
   ],
   "note": "Violated for the point at infinity only. ark_serialize's format and the subgroup test are external and written out in the model."
  },
  {
   "property": "C67",
   "status": "proved",
   "theorems": [
    "Verif.C67_signatures",
    "Verif.C67_deserialize",
    "Verif.C67_deserialize_ignores_rest",
    "Verif.C67_rest"
   ],
   "note": "Under the hypothesis that the hash functions do not panic (they do for long domains, C61, but the interface passes constant domains) and 2^248 < r for batch_verify_strict; pointers and lengths are the caller's contract."
  },
  {
   "property": "C68",
   "status": "proved",
   "theorems": [
    "Verif.C68_complete_helper",
    "Verif.C68_complete"
   ],
   "note": "Groth16 itself is a parameter, assumed to accept the proof for the inputs that the prover assigns. With the helper (hash-to-bits proof) the proof need not be a right one, since the result of verifying it is discarded (C53). The pairing is any bilinear map; the two BLAKE2s and the two Pedersen hashes are assumed to agree on the blocks involved."
  },
  {
   "property": "C69",
   "status": "proved",
   "theorems": [
    "Verif.C69_edges",
    "Verif.C69_sound"
   ],
   "note": "The collision alternative names the two messages, since a bare no-collision hypothesis would be false. Thresholds are only bound modulo 2^32 and the counter is free, as C42 and C52 show. C69_edges also covers the helper; C69_sound is without it and assumes affine allocation, which C62 shows is necessary."
  },
  {
   "property": "C70",
   "status": "proved",
   "theorems": [
    "Verif.C70_padded_last",
    "Verif.C70_generator"
   ],
   "note": "The claim is violated: the negation is proved (C70_padded_last), under the hypotheses of C69."
  },
  {
   "property": "C71",
   "status": "proved",
   "theorems": [
    "Verif.C71_direct",
    "Verif.C71_composite",
    "Verif.C71_with_attempt",
    "Verif.C71_attempt_direct",
    "Verif.C71_attempt_cip22",
    "Verif.C71_steps_composite"
   ],
   "note": "The byte encodings of points (affine for hash_direct, unnormalised projective for the composite ones) are parameters; the counter theorems assume the environment is built from try-and-increment as in the code and a correct square root."
  },
  {
   "property": "C72",
   "status": "proved",
   "theorems": [
    "Verif.C72_accepts_iff",
    "Verif.C72_no_panic",
    "Verif.C72_serialized"
   ],
   "note": "Groth16 and its deserialisers are parameters; pointers valid by the caller's contract."
  },
  {
   "property": "C73",
   "status": "proved",
   "theorems": [
    "Verif.C73_keys",
    "Verif.C73_aggregate",
    "Verif.C73_encode_cip22",
    "Verif.C73_encode_legacy"
   ],
   "note": "The random draw is a parameter. c_int lengths are exact below 2^31 bytes."
  },
  {
   "property": "C74",
   "status": "proved",
   "theorems": [
    "Verif.C74_single",
    "Verif.C74_double"
   ],
   "note": "The Groth16 parameter generators are parameters (functions of circuit and random generator)."
  },
  {
   "property": "C75",
   "status": "proved",
   "theorems": [
    "Verif.C75_panic_iff",
    "Verif.C75_setup_synthesised",
    "Verif.C75_setup_truncation",
    "Verif.C75_shape_iff",
    "Verif.C75_nonsigners",
    "Verif.C75_helper_shape_iff",
    "Verif.C75_helper_inputs",
    "Verif.C75_expected_inputs",
    "Verif.C75_padded_helper",
    "Verif.C75_prove"
   ],
   "note": "Shape = numbers of keys, bitmap bits, updates, helper messages and the helper's verifying key; that the R1CS layout depends on nothing else is read off the code, not proved (the model has no R1CS layout). The helper part of the claim is violated: C75_helper_shape_iff, C75_padded_helper."
  },
  {
   "property": "C76",
   "status": "proved",
   "theorems": [
    "Verif.C76_order",
    "Verif.C76_scaled",
    "Verif.C76_subgroup",
    "Verif.C76_fibre",
    "Verif.C76_hash",
    "Verif.C76_hash_cip22",
    "Verif.C76_circuit"
   ],
   "note": "G1 is Mathlib's group of points of y^2 = x^3 + 1 over Fq. The order is proved by an elementary second-moment bound on the number of points together with an element of order r (certificates checked by the kernel); no point-counting result is assumed. The cofactor value is ark_bls12_377's, transcribed."
  },
  {
   "property": "C77",
   "status": "proved",
   "theorems": [
    "Verif.C77_attempt_uniform",
    "Verif.C77_useless_count",
    "Verif.C77_useless_fraction",
    "Verif.C77_result_count",
    "Verif.C77_result_count_cip22",
    "Verif.C77_failure_count",
    "Verif.C77_failure_count_cip22",
    "Verif.C77_failure_fraction"
   ],
   "note": "Counts are over digests and tables of digests of 64 bytes, i.e. the uniform distribution if the hash function behaves as a random function; that it does is not claimed."
  },
  {
   "property": "C78",
   "status": "proved",
   "theorems": [
    "Verif.C78_decoded",
    "Verif.C78_exact",
    "Verif.C78_no_malleability",
    "Verif.C78_identity_key",
    "Verif.C78_aggregate",
    "Verif.C78_hashes",
    "Verif.C78_direct",
    "Verif.C78_hash_value"
   ],
   "note": "Groups are the concrete curve subgroups. The pairing is any bilinear, non-constant map (ark_ec's is not modelled); generation of the key group by the generator and non-degeneracy are proved from C76 and C79. The statement includes the behaviour of the identity key, a violation of uniqueness."
  },
  {
   "property": "C79",
   "status": "proved",
   "theorems": [
    "Verif.C79_order",
    "Verif.C79_subgroup",
    "Verif.C79_generator",
    "Verif.C79_keys",
    "Verif.C79_key_count",
    "Verif.C79_signature_count"
   ],
   "note": "G2 is Mathlib's group of points of the twist over Fq2. The order is proved by the exact moments of the character sums, a descent in the norm form a^2+3f^2 and two checks (the generator has order r, no point has order 2); no point-counting result is assumed."
  },
  {
   "property": "C80",
   "status": "proved",
   "theorems": [
    "Verif.C80_digest_length",
    "Verif.C80_agree",
    "Verif.C80_run",
    "Verif.C80_crh",
    "Verif.C80_xof",
    "Verif.C80_not_prefix",
    "Verif.C80_rfc"
   ],
   "note": "BLAKE2s itself is external and is modelled here after RFC 7693. C80_rfc proves the model equal to an independent rendering of the RFC's pseudocode on all inputs; the vectors of the repository's tests are examples run by the kernel, i.e. tests of the model against the code's recorded behaviour, not proofs."
  },
  {
   "property": "C81",
   "status": "proved",
   "theorems": [
    "Verif.C81_formulas",
    "Verif.C81_canonical",
    "Verif.C81_into_projective",
    "Verif.C81_deserialized",
    "Verif.C81_nondeterministic"
   ],
   "note": "The formulas are those of ark_ec (external, not in /repo), modelled after its source as known. The violation is a concrete session on the generator and its double, evaluated by the kernel; for deserialised keys the property is proved for all histories."
  },
  {
   "property": "C82",
   "status": "proved",
   "theorems": [
    "Verif.C82_frame",
    "Verif.C82_failure",
    "Verif.C82_accounting",
    "Verif.C82_ub",
    "Verif.C82_ub_free",
    "Verif.C82_refines",
    "Verif.C82_duplicate",
    "Verif.C82_curve"
   ],
   "note": "The heap is a map from addresses to typed objects; sizes, alignment and the capacity of vectors (assumed equal to the length after shrink_to_fit) are not modelled, and an empty vector counts as an object. The allocator is any that returns fresh non-null addresses. Calls are sequential; concurrent use of the cache is C84, concurrent use of one object by several threads is not covered. The attempt counters of two hash entry points and the entry points under snark/ are added in C104. The ideal library shares the verification bodies of Model/Ffi (their meaning is C06, C55 and C57); its aggregation, signing, serialisation and memory are stated on group elements. C82_curve is the instance for BLS12-377."
  },
  {
   "property": "C83",
   "status": "proved",
   "theorems": [
    "Verif.C83_values",
    "Verif.C83_unique",
    "Verif.C83_binding",
    "Verif.C83_complete",
    "Verif.C83_prover_helper"
   ],
   "note": "The verifier gadget (external) is a parameter; C83_binding assumes it sound for messages of 384 bits and its result enforced, which the code does not do (C53). Both the agreement and the violation by the prover's helper are proved."
  },
  {
   "property": "C84",
   "status": "proved",
   "theorems": [
    "Verif.C84_linearizable",
    "Verif.C84_interleaving",
    "Verif.C84_observed",
    "Verif.C84_exclusion",
    "Verif.C84_progress",
    "Verif.C84_moves_bounded",
    "Verif.C84_completes",
    "Verif.C84_poison",
    "Verif.C84_panic_poisons"
   ],
   "note": "std's Mutex (exclusion, poisoning) and the scheduler are modelled; memory is sequentially consistent, which the lock ensures. C84_linearizable, C84_interleaving and C84_observed assume that deserialisation does not panic (C84_poison and C84_panic_poisons say what happens otherwise); the remaining theorems assume nothing."
  },
  {
   "property": "C85",
   "status": "proved",
   "theorems": [
    "Verif.C85_window",
    "Verif.C85_setup",
    "Verif.C85_value",
    "Verif.C85_panic",
    "Verif.C85_output",
    "Verif.C85_coefficients",
    "Verif.C85_collision_iff",
    "Verif.C85_collision",
    "Verif.C85_points",
    "Verif.C85_addition",
    "Verif.C85_ffi",
    "Verif.C85_epoch"
   ],
   "note": "The external crate's bowe_hopwood CRH is modelled from its published algorithm (its source is not part of /repo); ChaCha20 and the sampling of the bases are a parameter here and modelled in C89. C85_collision and C85_collision_iff assume that the bases lie in the subgroup of order ED_ORDER, which C89 proves of the bases drawn. C85_panic, C85_ffi and C85_epoch record a panic on long input."
  },
  {
   "property": "C86",
   "status": "proved",
   "theorems": [
    "Verif.C86_add_g1",
    "Verif.C86_add_g2",
    "Verif.C86_double",
    "Verif.C86_neg_eq",
    "Verif.C86_alloc",
    "Verif.C86_aggregate",
    "Verif.C86_aggregate_model",
    "Verif.C86_aggregate_all",
    "Verif.C86_cofactor",
    "Verif.C86_exception"
   ],
   "note": "The formulas are those of ark_r1cs_std 0.1 as published (Renes, Costello and Batina, algorithms 1 and 3); its source is not part of /repo. scalar_mul_le is modelled as double and add from the least significant bit."
  },
  {
   "property": "C87",
   "status": "proved",
   "theorems": [
    "Verif.C87_length_in",
    "Verif.C87_length_out",
    "Verif.C87_hash_bytes",
    "Verif.C87_hash_bytes_negative",
    "Verif.C87_hash_crh",
    "Verif.C87_encode_cip22",
    "Verif.C87_encode_truncates",
    "Verif.C87_encode",
    "Verif.C87_read_pubkeys"
   ],
   "note": "Violated; the negation is proved with witnesses (C87_hash_bytes_negative, C87_encode_truncates). usize has 64 bits, c_int 32. Memory is unbounded in the model: where it says panic for huge lengths the process may run out of memory first."
  },
  {
   "property": "C88",
   "status": "proved",
   "theorems": [
    "Verif.C88_rogue",
    "Verif.C88_known_secrets",
    "Verif.C88_known_secrets_batch",
    "Verif.C88_pop",
    "Verif.C88_pop_rogue"
   ],
   "note": "The attack on aggregation without proofs of possession is a theorem (C88_rogue); whether callers check proofs of possession is outside /repo."
  },
  {
   "property": "C89",
   "status": "proved",
   "theorems": [
    "Verif.C89_bases",
    "Verif.C89_root",
    "Verif.C89_fuel",
    "Verif.C89_diverges",
    "Verif.C89_setup",
    "Verif.C89_collision"
   ],
   "note": "ChaCha20 and the sampling of points are modelled from their published algorithms (rand_chacha, ark_ff, ark_ec; not part of /repo) and reproduce the test vectors of composite.rs (Props/Conformance, tests). The square root is a parameter with SqrtSpec. The number of points of the curve and the primality of ED_ORDER are proved, not assumed."
  },
  {
   "property": "C90",
   "status": "proved",
   "theorems": [
    "Verif.C90_universal",
    "Verif.C90_uniform",
    "Verif.C90_empty",
    "Verif.C90_draw",
    "Verif.C90_accept"
   ],
   "note": "Counting statements over all choices (of bases, or of the words of one round); no probability space, and nothing is claimed about the output of ChaCha20."
  },
  {
   "property": "C91",
   "status": "proved",
   "theorems": [
    "Verif.C91_generate_iff",
    "Verif.C91_uniform",
    "Verif.C91_unfinished",
    "Verif.C91_public",
    "Verif.C91_zero"
   ],
   "note": "Counting statements over the words of the generator, which is a parameter; nothing is claimed about thread_rng. Fr::rand is written out from ark_ff (external)."
  },
  {
   "property": "C92",
   "status": "proved",
   "theorems": [
    "Verif.C92_reduction",
    "Verif.C92_unforgeable"
   ],
   "note": "Counting over all tables of a random oracle with values other than the identity (the hash of the code never returns it); that the code's hash behaves like one is an assumption, and so is the hardness of the problem, which is the hypothesis of C92_unforgeable. The forger is deterministic (coins can be fixed) and its running time is not modelled: the solver runs it once and does one multiplication per question. Proofs of possession of the honest signer are restricted to a set of own addresses, those of others to other addresses, an assumption on the callers of this code. Without proofs of possession see C88."
  },
  {
   "property": "C93",
   "status": "proved",
   "theorems": [
    "Verif.C93_on_chain",
    "Verif.C93_light_client",
    "Verif.C93_verifier",
    "Verif.C93_deceived"
   ],
   "note": "That the accepted proof was made from a satisfying assignment (C108 proves this of linear provers), unforgeability (C92 proves it natively from co-Diffie-Hellman) and the range of the thresholds are hypotheses of C93_verifier; C93_deceived shows that the range cannot be dropped, because the code does not constrain it (C42). Quorum: more honest keys than allowed non-signers, so that every set of signers meets an honest one."
  },
  {
   "property": "C94",
   "status": "proved",
   "theorems": [
    "Verif.C94_generic_g1",
    "Verif.C94_ok_iff",
    "Verif.C94_err_iff",
    "Verif.C94_panic_iff",
    "Verif.C94_cip22_ok_iff",
    "Verif.C94_cip22_err_iff",
    "Verif.C94_cip22_panic_iff",
    "Verif.C94_direct_total",
    "Verif.C94_order",
    "Verif.C94_uniform",
    "Verif.C94_useless_count",
    "Verif.C94_useless_fraction"
   ],
   "note": "Decoding of a pair of field elements from bytes, the order of the quadratic extension and multiplication by the cofactor are ark code, modelled from its source as for C18. The square root is any function that returns a root whenever there is one."
  },
  {
   "property": "C95",
   "status": "proved",
   "theorems": [
    "Verif.C95_reduction",
    "Verif.C95_solved_iff",
    "Verif.C95_linear",
    "Verif.C95_repeated",
    "Verif.C95_unforgeable"
   ],
   "note": "The hash is a random oracle (counted over all tables); hardness of the problem is not proved, only that linear combinations fail. C95_repeated shows that distinct messages, which the code does not check, are needed."
  },
  {
   "property": "C96",
   "status": "proved",
   "theorems": [
    "Verif.C96_native_batch",
    "Verif.C96_forgery",
    "Verif.C96_deceived",
    "Verif.C96_any_counter"
   ],
   "note": "With the hash of the circuit and no helper, nothing is assumed of the hashes in the assignment (C96_any_counter): the forgery is for the hash with an explicit counter, chosen by the prover (C52). C96_deceived, for any hash gadget, assumes that the hash to G1 has the values the assignment uses. Both assume thresholds below 2^32 (not enforced, C42), points allocated in affine form, keys of a block different and in the subgroup, and at most 2^16 updates. The pairing of the circuit is external: bilinear on the curves with values of order dividing r."
  },
  {
   "property": "C97",
   "status": "proved",
   "theorems": [
    "Verif.C97_signature_iff",
    "Verif.C97_public_key_iff",
    "Verif.C97_roundtrip",
    "Verif.C97_outside",
    "Verif.C97_violation_signature",
    "Verif.C97_violation_public_key",
    "Verif.C97_malformed"
   ],
   "note": "The violation is proved (C97_violation_signature, C97_violation_public_key). It rests on the model of ark_ec's deserialize_uncompressed, which multiplies by the order but does not test the equation of the curve; no function of the C interface calls it."
  },
  {
   "property": "C98",
   "status": "proved",
   "theorems": [
    "Verif.C98_gadget",
    "Verif.C98_counters",
    "Verif.C98_forger_wins",
    "Verif.C98_reduction",
    "Verif.C98_light_client"
   ],
   "note": "Random-oracle model; the assumptions of C96 (thresholds below 2^32, affine allocation, keys of a block different and in the subgroup, at most 2^16 updates) are part of success. The counters of the hashes are handed out with the assignment (C98_counters: they exist when the gadget is the oracle; C98_gadget: the gadget of the code is one, for the hash of the code). The soundness of the Groth16 proof is outside the model: the adversary hands out the assignment."
  },
  {
   "property": "C99",
   "status": "proved",
   "theorems": [
    "Verif.C99_fixture",
    "Verif.C99_fixture_panic",
    "Verif.C99_chain",
    "Verif.C99_end_to_end",
    "Verif.C99_too_large",
    "Verif.C99_faults",
    "Verif.C99_helpers",
    "Verif.C99_simple_signature",
    "Verif.C99_pop",
    "Verif.C99_pop_csv"
   ],
   "note": "Completeness of Groth16 for the epoch circuit is a hypothesis of C99_end_to_end: the values that the prover assigns, if they satisfy a circuit of the shape that was set up, give a proof that is accepted for the inputs assigned. C105_end_to_end proves it of the modelled Groth16. Pairing and BLAKE2s gadget as in C43. With the helper, the theorem assumes only that some helper proof is made and meets the gadget's constraints; by C83 it cannot be a proof of what the epoch circuit states."
  },
  {
   "property": "C100",
   "status": "proved",
   "theorems": [
    "Verif.C100_init",
    "Verif.C100_hashes",
    "Verif.C100_errors",
    "Verif.C100_messages",
    "Verif.C100_direct",
    "Verif.C100_composite",
    "Verif.C100_batch",
    "Verif.C100_strict"
   ],
   "note": "Proved as an exact characterisation; that over-long messages panic instead of returning false is a violation of what the interface promises. Lazy initialisation is modelled as computing the value at each use. batch_verify_strict needs 2^248 < r (as C56)."
  },
  {
   "property": "C101",
   "status": "proved",
   "theorems": [
    "Verif.C101_step",
    "Verif.C101_sync",
    "Verif.C101_progress",
    "Verif.C101_not_read",
    "Verif.C101_parent_free",
    "Verif.C101_complete"
   ],
   "note": "Soundness of repeated verification proved, under the hypotheses of C93; that the first block's entropies are not bound is shown by a changed satisfying assignment. Soundness is assumed of the accepted proofs only, since for every statement some proof is accepted (C106)."
  },
  {
   "property": "C102",
   "status": "proved",
   "theorems": [
    "Verif.C102_deceived",
    "Verif.C102_forger_wins",
    "Verif.C102_reduction",
    "Verif.C102_light_client"
   ],
   "note": "Under the hypotheses of C96 and C98 for each update: thresholds below 2^32 (not enforced, C42), points allocated in affine form, the circuit of at most 2^16 updates; C102_deceived also assumes that the hash to G1 has the values the assignments use. The random-oracle part leaves the proof system out: the adversary hands out the assignments, and the honest validators signed only blocks of the chain."
  },
  {
   "property": "C103",
   "status": "proved",
   "theorems": [
    "Verif.C103_serialized_size",
    "Verif.C103_bits",
    "Verif.C103_consumed",
    "Verif.C103_violation_uncompressed",
    "Verif.C103_truncated",
    "Verif.C103_constants"
   ],
   "note": "The default of uncompressed_size and the sizes of points are those of ark_serialize and ark_ec, which are not in the repository. The violation is proved for every key and signature; nothing in the repository calls uncompressed_size."
  },
  {
   "property": "C104",
   "status": "proved",
   "theorems": [
    "Verif.C104_frame",
    "Verif.C104_failure",
    "Verif.C104_attempt",
    "Verif.C104_accounting",
    "Verif.C104_ub",
    "Verif.C104_embeds",
    "Verif.C104_encode",
    "Verif.C104_rule",
    "Verif.C104_rule_start",
    "Verif.C104_large_vec",
    "Verif.C104_refines",
    "Verif.C104_epoch_session",
    "Verif.C104_curve"
   ],
   "note": "Heap and allocator as in C82: typed objects at addresses, fresh non-null addresses, an empty vector counts as an object. Buffers are given by their contents at the time of the call; that they are readable is the caller's obligation and not part of the condition for undefined behaviour. The ideal library shares the body of verify (its meaning is C72). The rule does not exclude panics."
  },
  {
   "property": "C105",
   "status": "proved",
   "theorems": [
    "Verif.C105_setup",
    "Verif.C105_complete",
    "Verif.C105_inputs",
    "Verif.C105_end_to_end"
   ],
   "note": "The generator, prover and verifier of ark_groth16 are modelled from that library's algorithm (its source is not part of /repo). That synthesis of the epoch circuit turns a satisfied circuit into satisfied constraints is a hypothesis of C105_end_to_end, and the helper's proof system a parameter there; C122_end_to_end proves both of the emitted constraints."
  },
  {
   "property": "C106",
   "status": "proved",
   "theorems": [
    "Verif.C106_altered",
    "Verif.C106_different",
    "Verif.C106_third",
    "Verif.C106_count",
    "Verif.C106_trapdoor",
    "Verif.C106_epochs_altered",
    "Verif.C106_epochs_forged"
   ],
   "note": "Whether malleability matters depends on the caller; nothing in the repository uses proofs as identifiers. The pairing is any as in C01."
  },
  {
   "property": "C107",
   "status": "proved",
   "theorems": [
    "Verif.C107_blinded",
    "Verif.C107_distinguished"
   ],
   "note": "Stated for the values that enter the constraints; that two sets of signers give different values in the epoch circuit's system is not shown."
  },
  {
   "property": "C108",
   "status": "proved",
   "theorems": [
    "Verif.C108_epochs",
    "Verif.C108_sound",
    "Verif.C108_unsatisfied_blinded",
    "Verif.C108_unsatisfied"
   ],
   "note": "Provers are linear in the published elements (the algebraic or generic prover) and choose the coefficients before the setup; computational provers in general would need a knowledge assumption. In C108_epochs, that satisfying values decode to a satisfying assignment of the circuit (synthesis) is a hypothesis."
  },
  {
   "property": "C109",
   "status": "proved",
   "theorems": [
    "Verif.C109_sync",
    "Verif.C109_deceived"
   ],
   "note": "Blocks and coefficients are chosen before the setup. Hypotheses of C101, C102 and C108: synthesis of the circuit, thresholds below 2^32 (not enforced, C42), points allocated in affine form."
  },
  {
   "property": "C110",
   "status": "proved",
   "theorems": [
    "Verif.C110_bitmap",
    "Verif.C110_square",
    "Verif.C110_sign_g1",
    "Verif.C110_sign_g2",
    "Verif.C110_gadgets",
    "Verif.C110_setup_runs"
   ],
   "note": "The operations of ark_relations and ark_r1cs_std are written out in the model as those crates define them; their number of constraints agrees with the ones asserted in the tests (C112)."
  },
  {
   "property": "C111",
   "status": "proved",
   "theorems": [
    "Verif.C111_is_eq_zero",
    "Verif.C111_normalize",
    "Verif.C111_sign_g2",
    "Verif.C111_constants",
    "Verif.C111_occurrences",
    "Verif.C111_pack",
    "Verif.C111_point_g1",
    "Verif.C111_point_g2"
   ],
   "note": "Exact in both directions. normalize on half the modulus and a maximum from half the modulus on are the known exceptions (C36 to C38)."
  },
  {
   "property": "C112",
   "status": "proved",
   "theorems": [
    "Verif.C112_sign_g1",
    "Verif.C112_sign_g1_run",
    "Verif.C112_square",
    "Verif.C112_square_run",
    "Verif.C112_bitmap",
    "Verif.C112_bitmap_run",
    "Verif.C112_bitmap_panics",
    "Verif.C112_constraints",
    "Verif.C112_sign_g2",
    "Verif.C112_sign_g2_run",
    "Verif.C112_setup",
    "Verif.C112_sign_g1_decides",
    "Verif.C112_sign_g2_decides",
    "Verif.C112_bitmap_decides"
   ],
   "note": "The violation (256 occurrences) is C112_bitmap_panics; C112_bitmap shows that the constraints can be satisfied there."
  },
  {
   "property": "C113",
   "status": "proved",
   "theorems": [
    "Verif.C113_matrices",
    "Verif.C113_square_setup",
    "Verif.C113_square",
    "Verif.C113_square_missing",
    "Verif.C113_square_sound",
    "Verif.C113_bitmap_setup",
    "Verif.C113_bitmap",
    "Verif.C113_bitmap_wrong",
    "Verif.C113_bitmap_sound",
    "Verif.C113_sign_g1_setup",
    "Verif.C113_sign_g1",
    "Verif.C113_sign_g1_sound",
    "Verif.C113_sign_setup",
    "Verif.C113_sign_g2",
    "Verif.C113_sign_g2_sound"
   ],
   "note": "Soundness is against provers that combine the elements of the key linearly (as C108), for all but few setups, counted. The assertion of ark_groth16 in debug builds that the constraints are satisfied is not modelled."
  },
  {
   "property": "C114",
   "status": "proved",
   "theorems": [
    "Verif.C114_next_epoch",
    "Verif.C114_next_epoch_run",
    "Verif.C114_fr_to_bits",
    "Verif.C114_g2_to_bits",
    "Verif.C114_next_epoch_constraints",
    "Verif.C114_to_bits_constraints",
    "Verif.C114_to_bits",
    "Verif.C114_to_bits_run",
    "Verif.C114_to_bits_setup",
    "Verif.C114_to_bits_shape",
    "Verif.C114_to_bits_missing"
   ],
   "note": "Exact in both directions. The missing bound of index, round, threshold and entropy (C41) and the triple of zeros as key (C86) are present in the emitted constraints; an example beside the theorems shows both."
  },
  {
   "property": "C115",
   "status": "proved",
   "theorems": [
    "Verif.C115_aggregate",
    "Verif.C115_aggregate_sum",
    "Verif.C115_all",
    "Verif.C115_all_sum",
    "Verif.C115_bitmap",
    "Verif.C115_bitmap_sum",
    "Verif.C115_run",
    "Verif.C115_sums_run",
    "Verif.C115_run_panics",
    "Verif.C115_length",
    "Verif.C115_setup",
    "Verif.C115_shape",
    "Verif.C115_constraints"
   ],
   "note": "Exact in both directions. Includes the violation C115_run_panics (the count of non-signers is a u8, C38) at the level of emitted constraints. Whether adding to the constant zero emits constraints is a parameter of the model."
  },
  {
   "property": "C116",
   "status": "proved",
   "theorems": [
    "Verif.C116_sound",
    "Verif.C116_transitions",
    "Verif.C116_shape",
    "Verif.C116_sizes"
   ],
   "note": "Soundness and shape of the whole circuit at the level of constraints. What the parameters have to satisfy is `OuterGadgets.SoundAt` and `OuterGadgets.Shaped`: the constraints of the hash, pairing, BLAKE2s and Groth16 gadgets force their relations, and do not depend on values."
  },
  {
   "property": "C117",
   "status": "proved",
   "theorems": [
    "Verif.C117_run",
    "Verif.C117_honest",
    "Verif.C117_setup"
   ],
   "note": "Completeness at the level of constraints, for any gadgets that satisfy `OuterGadgets.RunsAt` (hash to G1, pairings, BLAKE2s, Groth16 verifier: run on values that satisfy their relation and then satisfy their own constraints), `Keeps` (do not allocate public inputs) and `SetsUp` (succeed at setup where they succeed for the prover)."
  },
  {
   "property": "C118",
   "status": "proved",
   "theorems": [
    "Verif.C118_complete",
    "Verif.C118_sound"
   ],
   "note": "The Groth16 steps are those of C102 to C105 and C113, now on the constraints that the whole circuit emits rather than on an abstract relation. Soundness is against linear (generic-group style) provers with `Closed` constraints."
  },
  {
   "property": "C119",
   "status": "proved",
   "theorems": [
    "Verif.C119_sound",
    "Verif.C119_sound_helper",
    "Verif.C119_run",
    "Verif.C119_shaped",
    "Verif.C119_keeps",
    "Verif.C119_setsUp",
    "Verif.C119_circuit_sound",
    "Verif.C119_circuit_runs"
   ],
   "note": "The Pedersen and BLAKE2s gadgets of arkworks are parameters (`HashGadgets.SoundAt`, `RunsAt`); everything of this repository between them is constraints. The projective coordinates that arkworks' allocation admits are allowed, so the weakness of C62 is part of what is proved about satisfying assignments, and the free counter of C52 too."
  },
  {
   "property": "C120",
   "status": "proved",
   "theorems": [
    "Verif.C120_inputs",
    "Verif.C120_sound",
    "Verif.C120_run",
    "Verif.C120_setup",
    "Verif.C120_complete",
    "Verif.C120_knowledge",
    "Verif.C120_missing"
   ],
   "note": "The BLAKE2s gadget of arkworks over the scalar field is a parameter (`BlakeSoundAt`, `BlakeRunsAt`). Together with C83 this says what the helper proof is worth inside the epoch circuit; that the epoch circuit discards the verdict (`let _ =`) and that the prover reverses the bits are the violations recorded under C53 and C83."
  },
  {
   "property": "C121",
   "status": "proved",
   "theorems": [
    "Verif.C121_prepared",
    "Verif.C121_relation",
    "Verif.C121_binding",
    "Verif.C121_circuit",
    "Verif.C121_unavoidable",
    "Verif.C121_epochs",
    "Verif.C121_helper",
    "Verif.C121_prover_helper"
   ],
   "note": "No assumption on the prover: the count is over the randomness of the setup and holds for every proof, made with or without knowledge of it. `C121_unavoidable` shows that the two lists of inputs have to be fixed before the setup, or a relation between elements of the key be assumed hard to find (`C121_relation`). The helper part uses the gadgets of C120."
  },
  {
   "property": "C122",
   "status": "proved",
   "theorems": [
    "Verif.C122_helper_setup",
    "Verif.C122_end_to_end"
   ],
   "note": "The gadgets of arkworks (pairing, Pedersen and BLAKE2s hash, verifier of the helper proof) are parameters with the hypotheses of C117, C119 and C120; the evaluation domains have to be large enough for the constraint systems, and that of the epoch circuit valid."
  },
  {
   "property": "C123",
   "status": "proved",
   "theorems": [
    "Verif.C123_hash_constraints",
    "Verif.C123_end_to_end",
    "Verif.C123_constraints",
    "Verif.C123_helper_constraints",
    "Verif.C123_domain",
    "Verif.C123_setup"
   ],
   "note": "The numbers of constraints of the gadgets of arkworks that the model takes as parameters (Pedersen hash, BLAKE2s, preparation of points, pairing equation, verifier of the helper proof) are parameters of the formula. The domain is that of ark_poly for a field of given generator and two-adicity; the constants of both fields are checked."
  },
  {
   "property": "C124",
   "status": "proved",
   "theorems": [
    "Verif.C124_blocks",
    "Verif.C124_bench",
    "Verif.C124_constraints",
    "Verif.C124_prints"
   ],
   "note": "The sizes of external gadgets are parameters, as in C123; time measurement, command line and printing are not modelled."
  },
  {
   "property": "C125",
   "status": "proved",
   "theorems": [
    "Verif.C125_sqrt",
    "Verif.C125_fq",
    "Verif.C125_hash"
   ],
   "note": "The algorithm is that of ark_ff, whose source is not in /repo: modelled as known, with the constants of ark_bls12_377 (generator 15, two-adicity 46). That 15 is no square modulo q is proved, not assumed."
  },
  {
   "property": "C126",
   "status": "proved",
   "theorems": [
    "Verif.C126_later",
    "Verif.C126_earlier",
    "Verif.C126_root",
    "Verif.C126_earlier_iff",
    "Verif.C126_public_key"
   ],
   "note": "The algorithm is that of ark_ff, whose source is not in /repo (Cargo.lock pins a git revision labelled 0.1.0); both known versions are modelled, and which one is pinned cannot be checked here. No key with a second coordinate in u Fq is exhibited; the statement is about any that exists."
  },
  {
   "property": "C127",
   "status": "proved",
   "theorems": [
    "Verif.C127_msm",
    "Verif.C127_batch"
   ],
   "note": "The algorithm is that of ark_ec, whose source is not in /repo: modelled as known. Additions are those of the group, not their formulas; windows run one after the other instead of in parallel."
  },
  {
   "property": "C128",
   "status": "proved",
   "theorems": [
    "Verif.C128_inversion",
    "Verif.C128_normalization",
    "Verif.C128_same_points",
    "Verif.C128_batch"
   ],
   "note": "The algorithms are those of ark_ec and ark_ff, whose sources are not in /repo: modelled as known. The single inversion is the inverse of the field."
  },
  {
   "property": "C129",
   "status": "proved",
   "theorems": [
    "Verif.C129_quotient",
    "Verif.C129_inverse",
    "Verif.C129_witness",
    "Verif.C129_base_field"
   ],
   "note": "The algorithm is that of ark_ff, whose source is not in /repo: modelled as known. Numbers are unbounded, carries of the limbs are not modelled."
  },
  {
   "property": "C130",
   "status": "proved",
   "theorems": [
    "Verif.C130_mul",
    "Verif.C130_mul_forms",
    "Verif.C130_into_repr",
    "Verif.C130_from_repr",
    "Verif.C130_round_trip",
    "Verif.C130_fields"
   ],
   "note": "The algorithm is that of ark_ff, whose source is not in /repo: modelled as known. A round over the limbs is one operation on the number they denote; only the carry out of the highest limb is modelled. Squaring is taken to be a multiplication."
  },
  {
   "property": "C131",
   "status": "proved",
   "theorems": [
    "Verif.C131_mul",
    "Verif.C131_mul_form",
    "Verif.C131_public_key",
    "Verif.C131_signature"
   ],
   "note": "The algorithm is that of ark_ec, whose source is not in /repo: modelled as known, the plain double-and-add without an endomorphism. The operations of the base field inside the formulas are those of the field (C130)."
  },
  {
   "property": "C132",
   "status": "proved",
   "theorems": [
    "Verif.C132_mul",
    "Verif.C132_square",
    "Verif.C132_base_inverse",
    "Verif.C132_inverse"
   ],
   "note": "The algorithms are those of ark_ff and ark_bls12_377, whose sources are not in /repo: modelled as known."
  },
  {
   "property": "C133",
   "status": "proved",
   "theorems": [
    "Verif.C133_simulation",
    "Verif.C133_batch",
    "Verif.C133_public_keys",
    "Verif.C133_signatures"
   ],
   "note": "The algorithms are those of ark_ec and ark_ff, whose sources are not in /repo: modelled as known. Windows run one after the other instead of in parallel; the field operations inside the formulas are those of the field (C130, C132)."
  }
 ]
}