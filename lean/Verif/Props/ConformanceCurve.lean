import Verif.Lemmas.CurveEval
import Verif.Props.Sampling

/-!
# Conformance of hash-to-curve

The model of both hash-to-curve functions on the test vectors of the code, from the message bytes to the
compressed point.  Nothing is left as a parameter except the square root, which is any function that
finds roots.  These are tests of the model, not proofs about all inputs.

The inputs are those of `generate_test_data` (`crates/bls-crypto/src/hash_to_curve/mod.rs:215-234`) with
the generator seeded as in the tests.
-/

set_option exponentiation.threshold 1000
set_option maxRecDepth 100000

namespace Verif

/-- The hasher of the code with its actual bases. -/
local notation "theHasher" => compositeHasher blake2s (pedersenCrh edX (crhGenerators realBase))

theorem loop_none {G : Type*} {attempt : ℕ → Outcome BLSError (Option G)} {k n : ℕ}
    (h : attempt k = .ok none) :
    tryLoop attempt (List.range' k (n + 1)) = tryLoop attempt (List.range' (k + 1) n) := by
  rw [List.range'_succ, tryLoop, h, Outcome.bind_ok]

theorem loop_some {G : Type*} {attempt : ℕ → Outcome BLSError (Option G)} {k n : ℕ} {g : G}
    (h : attempt k = .ok (some g)) :
    tryLoop attempt (List.range' k (n + 1)) = .ok (g, k) := by
  rw [List.range'_succ, tryLoop, h, Outcome.bind_ok]

section
variable [DecidableEq G1Point] {compat : Bool} {sqrt : Fq → Option Fq}

/-- One iteration of `TryAndIncrement`, `crates/bls-crypto/src/hash_to_curve/try_and_increment.rs:98-138`. -/
noncomputable def plainAttempt (compat : Bool) (sqrt : Fq → Option Fq) (d m e : Bytes) (c : ℕ) :
    Outcome BLSError (Option G1Point) :=
  ((theHasher).hash d ([UInt8.ofNat c] ++ e ++ m) 64).bind (processCandidate compat sqrt g1Scale)

/-- One iteration of `TryAndIncrementCIP22`,
`crates/bls-crypto/src/hash_to_curve/try_and_increment_cip22.rs:92-133`. -/
noncomputable def cipAttempt (compat : Bool) (sqrt : Fq → Option Fq) (d inner e : Bytes) (c : ℕ) :
    Outcome BLSError (Option G1Point) :=
  ((theHasher).xof d ([UInt8.ofNat c] ++ e ++ inner) 64).bind (processCandidate compat sqrt g1Scale)

theorem plain_reject (hs : SqrtSpec sqrt) (d m e : Bytes) (c : ℕ) (inner cand : Bytes) (r : ℕ)
    (h1 : pedersenCrh edX (crhGenerators realBase) ([UInt8.ofNat c] ++ e ++ m) = .ok inner)
    (h2 : (theHasher).xof d inner 64 = .ok cand) (h3 : 48 ≤ cand.length)
    (h4 : rejectCheck (leValue (cand.take 48)) r = true) :
    plainAttempt compat sqrt d m e c = .ok none := by
  have : (theHasher).hash d ([UInt8.ofNat c] ++ e ++ m) 64 = .ok cand := by
    rw [Hasher.hash, show (theHasher).crh d ([UInt8.ofNat c] ++ e ++ m) 64 = .ok inner from h1,
      Outcome.bind_ok, h2]
  rw [plainAttempt, this, Outcome.bind_ok, processCandidate_reject hs h3 h4]

theorem plain_accept (hs : SqrtSpec sqrt) (d m e : Bytes) (c : ℕ) (inner cand : Bytes) (y X Y : ℕ)
    (h1 : pedersenCrh edX (crhGenerators realBase) ([UInt8.ofNat c] ++ e ++ m) = .ok inner)
    (h2 : (theHasher).xof d inner 64 = .ok cand) (h3 : 48 ≤ cand.length)
    (h4 : acceptCheck (signBit compat) (leValue (cand.take 48)) y = true)
    (h5 : affineCheck X Y (jacMulN FQ_MODULUS 0 (leValue (cand.take 48) % 2 ^ 377, y) g1CofactorBits
      (leValue (cand.take 48) % 2 ^ 377, y, 1)) = true) :
    ∃ P, plainAttempt compat sqrt d m e c = .ok (some P) ∧ serializeSignature P = encodeXY X Y := by
  have : (theHasher).hash d ([UInt8.ofNat c] ++ e ++ m) 64 = .ok cand := by
    rw [Hasher.hash, show (theHasher).crh d ([UInt8.ofNat c] ++ e ++ m) 64 = .ok inner from h1,
      Outcome.bind_ok, h2]
  rw [plainAttempt, this, Outcome.bind_ok]
  exact processCandidate_accept hs h3 h4 h5

theorem cip_reject (hs : SqrtSpec sqrt) (d inner e : Bytes) (c : ℕ) (cand : Bytes) (r : ℕ)
    (h2 : (theHasher).xof d ([UInt8.ofNat c] ++ e ++ inner) 64 = .ok cand) (h3 : 48 ≤ cand.length)
    (h4 : rejectCheck (leValue (cand.take 48)) r = true) :
    cipAttempt compat sqrt d inner e c = .ok none := by
  rw [cipAttempt, h2, Outcome.bind_ok, processCandidate_reject hs h3 h4]

theorem cip_accept (hs : SqrtSpec sqrt) (d inner e : Bytes) (c : ℕ) (cand : Bytes) (y X Y : ℕ)
    (h2 : (theHasher).xof d ([UInt8.ofNat c] ++ e ++ inner) 64 = .ok cand) (h3 : 48 ≤ cand.length)
    (h4 : acceptCheck (signBit compat) (leValue (cand.take 48)) y = true)
    (h5 : affineCheck X Y (jacMulN FQ_MODULUS 0 (leValue (cand.take 48) % 2 ^ 377, y) g1CofactorBits
      (leValue (cand.take 48) % 2 ^ 377, y, 1)) = true) :
    ∃ P, cipAttempt compat sqrt d inner e c = .ok (some P) ∧ serializeSignature P = encodeXY X Y := by
  rw [cipAttempt, h2, Outcome.bind_ok]
  exact processCandidate_accept hs h3 h4 h5

theorem start_plain (d m e : Bytes) : tryAndIncrement compat theHasher sqrt g1Scale d m e =
    (tryLoop (plainAttempt compat sqrt d m e) (List.range' 0 255)).map Prod.fst := by
  rw [tryAndIncrement, hashWithAttempt, show hashLength NUM_BYTES = 64 by decide +kernel,
    show NUM_TRIES = 255 from rfl, List.range_eq_range']
  rfl

theorem start_cip22 {d m e inner : Bytes}
    (h1 : pedersenCrh edX (crhGenerators realBase) m = .ok inner) :
    tryAndIncrementCip22 compat theHasher sqrt g1Scale d m e =
      (tryLoop (cipAttempt compat sqrt d inner e) (List.range' 0 255)).map Prod.fst := by
  rw [tryAndIncrementCip22, hashWithAttemptCip22, show hashLength NUM_BYTES = 64 by decide +kernel,
    show NUM_TRIES = 255 from rfl, List.range_eq_range']
  rw [show (theHasher).crh d m 64 = .ok inner from h1, Outcome.bind_ok]
  rfl

omit [DecidableEq G1Point] in
theorem finish {loop : Outcome BLSError (G1Point × ℕ)} {P : G1Point} {k X Y : ℕ} {out : Bytes}
    (h : loop = .ok (P, k)) (hP : serializeSignature P = encodeXY X Y) (ho : encodeXY X Y = out) :
    (loop.map Prod.fst).map serializeSignature = .ok out := by
  subst h; subst ho; rw [← hP]; rfl

/-- `crates/bls-crypto/src/hash_to_curve/mod.rs:417`: 39 bytes, 163 of extra data, 2 attempts. -/
theorem vector_compat_1 (hs : SqrtSpec sqrt) :
    (tryAndIncrement true theHasher sqrt g1Scale (leBytes 8 0x8b1a3a474e3bb098)
      (leBytes 39 0xa3e706705bfae4caa98df44dd79bdc65e8cf8b2eb858abcb3c41eddcef099e242c69ab301f19d9)
      (leBytes 163 0xb1d768b5aa293fd82517b3f22d71da6cc9ef195c2063dab974cf28d9cf3126e931dc3fe3e886080340b1963565da21ece4dcec43f177e1c2f672440777db69ffa902675bac00f14ec2d8bb366c4f99ec1f7f1493571ac07f00eaa174c58f8603399133c25d8350447d14ef0764271717734a3bea711070c7147f140db5e5cc9069be94f49cb83b5d4f47dba52b346ce222368c11b2ea5f7977d613c0a80405a10ad5d9)).map serializeSignature =
    .ok (leBytes 48 0x5cadef14675324e2fcf9bc93b0d118a87513e6d7bce7e61da155d803a90bab57032fc41c1315c8f863b2edcf28e321) := by
  rw [start_plain]
  rw [loop_none (plain_reject hs _ _ _ 0 (leBytes 48 0x6160a612b2f3ec8edbca5b7f5eff9206c5c245a7a73cc5bce80a614325db04a191e659b3104de934e6b94ea8ecb542)
      (leBytes 64 0x31ee054914b4829fbe82c726ce20729c8c3ff6e9c467aee19fca1fb37232057d93016f597d370dbbe732392c1a7bd16b20b29a96a78743f67d98a6a1b02e9a8d) 0xacbf0be5b3ebecf854cbb621d8e10ffccf8a0848139705f066c1a20f416100cc4cded9e0bcefa8b20f8f5e598646b1
      (crhEval_spec _ _ 6 (by norm_num) (by decide +kernel) (by decide +kernel) (by decide +kernel)
        (by decide +kernel)) (by decide +kernel) (by decide +kernel) (by decide +kernel))]
  obtain ⟨P, h, hP⟩ := plain_accept (compat := true) hs (leBytes 8 0x8b1a3a474e3bb098)
      (leBytes 39 0xa3e706705bfae4caa98df44dd79bdc65e8cf8b2eb858abcb3c41eddcef099e242c69ab301f19d9)
      (leBytes 163 0xb1d768b5aa293fd82517b3f22d71da6cc9ef195c2063dab974cf28d9cf3126e931dc3fe3e886080340b1963565da21ece4dcec43f177e1c2f672440777db69ffa902675bac00f14ec2d8bb366c4f99ec1f7f1493571ac07f00eaa174c58f8603399133c25d8350447d14ef0764271717734a3bea711070c7147f140db5e5cc9069be94f49cb83b5d4f47dba52b346ce222368c11b2ea5f7977d613c0a80405a10ad5d9) 1 (leBytes 48 0x18e2caae0879855a006a2c8adcc53f114db855a36de6bfc94dec4581a60f8ab4d570c267d5c720f34bf36d8d33ab763)
      (leBytes 64 0x461c5b5c07dc6c62ba6834e80c48f560622bf663e336286df63ea4b2e1a53b297f16afe03efe8be0f4500154c692e729776826d58a0f02cb9248f72eb4fd9e1f) 0x16de72da7ea0d8f3ac754bb710f24fc81d3f094fbc0a3b9da306468ee1391dd4a98322a2913c2170127fe07a4b0ba0f
      0x5cadef14675324e2fcf9bc93b0d118a87513e6d7bce7e61da155d803a90bab57032fc41c1315c8f863b2edcf28e321
      0x5216a286bb6b84071994fdd628649fd05916a34e7facaed3ea8c4e0d7368038b01f60df0d821f6d6c834c890a9f84a
      (crhEval_spec _ _ 6 (by norm_num) (by decide +kernel) (by decide +kernel) (by decide +kernel)
        (by decide +kernel)) (by decide +kernel) (by decide +kernel) (by decide +kernel) (by decide +kernel)
  exact finish (loop_some h) hP (by decide +kernel)

/-- `crates/bls-crypto/src/hash_to_curve/mod.rs:422`: 133 bytes, 219 of extra data, 3 attempts. -/
theorem vector_compat_6 (hs : SqrtSpec sqrt) :
    (tryAndIncrement true theHasher sqrt g1Scale (leBytes 8 0x9c774c0dd267e7b0)
      (leBytes 133 0x43999d7244a954d7c88dd26b1f9ede1f9068ca67c1876d91b1e0e844d2059c72ebbc9c2eb62a8d820d762b382088d1e28b744e703893c535866614a3829b778e904a632a1c02d6753e61d02ff7056cff796b2a8fd83c523b90a2063e9ce8bf522c6c5ab04e4e8aa89ee1767b33fd6f6e8f675dce02db00e37a9089cec41da114439da0dd2d)
      (leBytes 219 0xf8dfc0d85fd7b3606517647f9352549a4233328c837e9df470db330ac2787128feb59af01ee711b7153dd7068e531c8e1b8deb08acda0d5f40b9cbebd062a7505de1a4b6f5544a5e5dc13d059289f4deff663e6abd87a04ae547dbe995b1de394d7710e3909dea5fc6d06be57d2971b8c86d846132a9f294003a7a48f469472a4bce178a9772dacc971053d1573122220e652ef8811974a774fb17d7f4270a2dc89b9a329cea5745790d731f8a31754c7277624bb438ea762900b6861fde98c4c5c0c8447d8d5a6afbdf99e56efecdb4c229f6b66bbf5fdb90c528)).map serializeSignature =
    .ok (leBytes 48 0x80d134c2d522bd0a7a204815c248498d88ba152da41c4b6fe9acbbb0ab88ed45315341a17ca8f9f65db808ca8b00b61c) := by
  rw [start_plain]
  rw [loop_none (plain_reject hs _ _ _ 0 (leBytes 48 0x116b4a4dd8dae0abdabb72676991351386b5ffc0e28559c0556cbca61852b4ef2248aed0ffbd4aaf282c79e8b24cf0d)
      (leBytes 64 0x92127d2be5ad687fb9dc4cde4d9f033af189b6cef771b1670e3b995c74a4e46c900e9f07dc557b3e6bb40eccc786a53c49db52bda523459902d828e55676e481) 0x1447b865d916075362df4cb654b18c8f459ca310c7737bfe49fb605f7e5ddb9d745d48d227e6f3cbbc940c9c2774401
      (crhEval_spec _ _ 11 (by norm_num) (by decide +kernel) (by decide +kernel) (by decide +kernel)
        (by decide +kernel)) (by decide +kernel) (by decide +kernel) (by decide +kernel))]
  rw [loop_none (plain_reject hs _ _ _ 1 (leBytes 48 0x41b3e3a10ebb52f30a3c500f76d3658d574f5bcab743bd2817d2d2fca3c9693de060675161975a54e413abb8083e95)
      (leBytes 64 0xbf4141ad1aa6c17eedad3d7d66c00ad4680ffbf6c9d6446b34c049b45cc296f96a9988d6c7fa241e9265f8041e3a94fc5458f4ae9c6c3a56beaf734f7f50e352) 0x12983365d62d380851b84c63aec29e8a879ae24d5148585ae2c7609d427820849302202c865fee4e6ff8f3caf58e30e
      (crhEval_spec _ _ 11 (by norm_num) (by decide +kernel) (by decide +kernel) (by decide +kernel)
        (by decide +kernel)) (by decide +kernel) (by decide +kernel) (by decide +kernel))]
  obtain ⟨P, h, hP⟩ := plain_accept (compat := true) hs (leBytes 8 0x9c774c0dd267e7b0)
      (leBytes 133 0x43999d7244a954d7c88dd26b1f9ede1f9068ca67c1876d91b1e0e844d2059c72ebbc9c2eb62a8d820d762b382088d1e28b744e703893c535866614a3829b778e904a632a1c02d6753e61d02ff7056cff796b2a8fd83c523b90a2063e9ce8bf522c6c5ab04e4e8aa89ee1767b33fd6f6e8f675dce02db00e37a9089cec41da114439da0dd2d)
      (leBytes 219 0xf8dfc0d85fd7b3606517647f9352549a4233328c837e9df470db330ac2787128feb59af01ee711b7153dd7068e531c8e1b8deb08acda0d5f40b9cbebd062a7505de1a4b6f5544a5e5dc13d059289f4deff663e6abd87a04ae547dbe995b1de394d7710e3909dea5fc6d06be57d2971b8c86d846132a9f294003a7a48f469472a4bce178a9772dacc971053d1573122220e652ef8811974a774fb17d7f4270a2dc89b9a329cea5745790d731f8a31754c7277624bb438ea762900b6861fde98c4c5c0c8447d8d5a6afbdf99e56efecdb4c229f6b66bbf5fdb90c528) 2 (leBytes 48 0x13becd7ac14cfb2d7b292dfd31fa7c9ef2678d0c5d4cc26a5931dc7c3f0887cadaa26460bd3b3b105264cd9d2dba21d)
      (leBytes 64 0xc3e4170d37e54a6f698a6d3c4d076a3abb001181ffac9b77e4e02a149b2ba7a8183aaac3257c136461ea985f5cd66986c2d3ca0e0208e7fb6bf719a8309703fd) 0xd886132a5f73ebc49357685c881bd0a75e1a4ab787884b62b6c2fb772d32c119eb20ff13da1a0febf794bab6aadf5f
      0xd134c2d522bd0a7a204815c248498d88ba152da41c4b6fe9acbbb0ab88ed45315341a17ca8f9f65db808ca8b00b61c
      0x1959a5524b5f5dd2301302769fae54a4520e1975ea454bbc5e12c3904c1aca2ff1c4bd846c2cdfc5d9aaed1474bcb2f
      (crhEval_spec _ _ 11 (by norm_num) (by decide +kernel) (by decide +kernel) (by decide +kernel)
        (by decide +kernel)) (by decide +kernel) (by decide +kernel) (by decide +kernel) (by decide +kernel)
  exact finish (loop_some h) hP (by decide +kernel)

/-- `crates/bls-crypto/src/hash_to_curve/mod.rs:424`: 151 bytes, 60 of extra data, 1 attempt. -/
theorem vector_compat_8 (hs : SqrtSpec sqrt) :
    (tryAndIncrement true theHasher sqrt g1Scale (leBytes 8 0x96df180c25ba729d)
      (leBytes 151 0xefc8d1b33ad0fd31925e1dba40a5d5ddefe4efed89611f2b6e654eaabea5457593b5a7f06ad0b01bf035df9616f34a70b7b833613cd59ce0b604346a32b3776af73274a77b8f3417d01676449dcbdf0787a11bd271185167fcc88909b5e7672b0f3fa24e43e626e1a9e1415d84dd9896b2d77f4861b5245271e56d0e3e1f78a8660d38f74f4dcd074e191ec5ed0e4f225771c59941d837)
      (leBytes 60 0x33f767a0b9441cb1e741281aa3263911da4adc00062350fbc482ddee7b140c9ad85765cffde85861b34e08aff5cc34968fb409bd26063af02ec2b5bd)).map serializeSignature =
    .ok (leBytes 48 0x80dc206f627ce2f00ebaa9b3b86c58a9665b06d960d463b6ce26e2a9519b150a52288e422d667d260ca313887ada54de) := by
  rw [start_plain]
  obtain ⟨P, h, hP⟩ := plain_accept (compat := true) hs (leBytes 8 0x96df180c25ba729d)
      (leBytes 151 0xefc8d1b33ad0fd31925e1dba40a5d5ddefe4efed89611f2b6e654eaabea5457593b5a7f06ad0b01bf035df9616f34a70b7b833613cd59ce0b604346a32b3776af73274a77b8f3417d01676449dcbdf0787a11bd271185167fcc88909b5e7672b0f3fa24e43e626e1a9e1415d84dd9896b2d77f4861b5245271e56d0e3e1f78a8660d38f74f4dcd074e191ec5ed0e4f225771c59941d837)
      (leBytes 60 0x33f767a0b9441cb1e741281aa3263911da4adc00062350fbc482ddee7b140c9ad85765cffde85861b34e08aff5cc34968fb409bd26063af02ec2b5bd) 0 (leBytes 48 0xd08db5d30305234286da289727986fabe4fc553a86f54e1683424f840a3950e3d61cb01ce72632c12424694c3eb5c1)
      (leBytes 64 0x4b5d90f18768667eeb8b5ee87db5f24281926864d633984f8a6259ba2802a0b1cebeffefae7d470de091f8ee67bb7da503bce3fc4aa8b85419932c08d92342d5) 0xb3b277966c8fb1bf4a0d7189eca59fd2095593c9d51eb8bfaff857e3ca59d40a205f338427b4030a6bed1d0d2d59c8
      0xdc206f627ce2f00ebaa9b3b86c58a9665b06d960d463b6ce26e2a9519b150a52288e422d667d260ca313887ada54de
      0x15e42289bcf08499ed17ddd1644ba831fa3889e1f9007c0bb6afc9e34334671b1a0b4b277c923e7adb3868f3293b307
      (crhEval_spec _ _ 7 (by norm_num) (by decide +kernel) (by decide +kernel) (by decide +kernel)
        (by decide +kernel)) (by decide +kernel) (by decide +kernel) (by decide +kernel) (by decide +kernel)
  exact finish (loop_some h) hP (by decide +kernel)

/-- `crates/bls-crypto/src/hash_to_curve/mod.rs:439`: 110 bytes, 151 of extra data, 2 attempts. -/
theorem vector_cip22_0 (hs : SqrtSpec sqrt) :
    (tryAndIncrementCip22 true theHasher sqrt g1Scale (leBytes 8 0x2d4e03d8d8e81075)
      (leBytes 110 0x58e7bcaa844858fb8580f3f760d7f1c248b4c9f7692fc112fd3bb9982cb8671cd3b84e55f0b788b5e78d0609df9f7c4d3af54a16d9fc95cbf341af0139334b06c665763fef95cc96265a45f18cc55efaaa2a119a6cd6aa2ad772435f25dc29a5d9f78cc11b08d73c62bee590caa1)
      (leBytes 151 0xcb17391968cd5f01a516df249826e9a644cd6b9a9f629d440731aaa45f7ba40a398d8d28c0e9dd61e17b02ed1bd973eee58cba1961647b40bec0b26ff52dee3288aa8f6f0ad1ce84a505520a310ba3cb938ab5e196796b279e863192c7d788d1ec34971f0420b2500b0b7341046683d3eddbdb47f6957166729762ef22f35155949764b624dff8cc8e66cab4ec309db72ce4c8717be2a0)).map serializeSignature =
    .ok (leBytes 48 0xd4e11e307d2e58d538ff8efbe71072d45a27438474637a3b92635d4c9eb857e420fd894a615fa24909ef3abf444bc2) := by
  have hi : pedersenCrh edX (crhGenerators realBase)
      (leBytes 110 0x58e7bcaa844858fb8580f3f760d7f1c248b4c9f7692fc112fd3bb9982cb8671cd3b84e55f0b788b5e78d0609df9f7c4d3af54a16d9fc95cbf341af0139334b06c665763fef95cc96265a45f18cc55efaaa2a119a6cd6aa2ad772435f25dc29a5d9f78cc11b08d73c62bee590caa1) =
      .ok (leBytes 48 0x13cfe0b389cf8f9329964e9d1b11912cb8ab759fa67ccba190d19acd1b1f414afbd594d7da6c7fb3abd048b27a7c84c) :=
    crhEval_spec _ _ 4 (by norm_num) (by decide +kernel) (by decide +kernel) (by decide +kernel)
      (by decide +kernel)
  rw [start_cip22 hi]
  rw [loop_none (cip_reject hs _ _ _ 0
      (leBytes 64 0x75521ada0225a6b074d26a48673fb866e95082b677994b3d7f117a412c3fdc5bbeb625426c72ab126cf8e46ca52a1b2f973075eebac9edb3d3ba897f7ad6685a) 0x3776718c6a11758820300235ffe7b2793d6c37b79139324be48f955f043eaaaca781871bb8822db0f669aa0d582942
      (by decide +kernel) (by decide +kernel) (by decide +kernel))]
  obtain ⟨P, h, hP⟩ := cip_accept (compat := true) hs (leBytes 8 0x2d4e03d8d8e81075)
      (leBytes 48 0x13cfe0b389cf8f9329964e9d1b11912cb8ab759fa67ccba190d19acd1b1f414afbd594d7da6c7fb3abd048b27a7c84c)
      (leBytes 151 0xcb17391968cd5f01a516df249826e9a644cd6b9a9f629d440731aaa45f7ba40a398d8d28c0e9dd61e17b02ed1bd973eee58cba1961647b40bec0b26ff52dee3288aa8f6f0ad1ce84a505520a310ba3cb938ab5e196796b279e863192c7d788d1ec34971f0420b2500b0b7341046683d3eddbdb47f6957166729762ef22f35155949764b624dff8cc8e66cab4ec309db72ce4c8717be2a0) 1
      (leBytes 64 0xa26b90313d5fd3dc9c90c03b096d0d74350b7a2c9798f0d24e2e826efd07945f4a6bb39f89d391cba153107cf9b19e2aea02ade27eee8e9d87aab94c5a4b8256) 0x8a8e9fb99e9d75f25ea8e11998730fab7a69a0e12ac83f0580f11c4d81784455ff7c90fdec3fac8256190723580972
      0xd4e11e307d2e58d538ff8efbe71072d45a27438474637a3b92635d4c9eb857e420fd894a615fa24909ef3abf444bc2
      0x884bd2cd7a8b538f6806a62120b366c9d9c9cbb4a39c6ba935036f93a9bbaa52b132a1d1635bfa02102a14e067ef49
      (by decide +kernel) (by decide +kernel) (by decide +kernel) (by decide +kernel)
  exact finish (loop_some h) hP (by decide +kernel)

/-- `crates/bls-crypto/src/hash_to_curve/mod.rs:440`: 39 bytes, 163 of extra data, 1 attempt. -/
theorem vector_cip22_1 (hs : SqrtSpec sqrt) :
    (tryAndIncrementCip22 true theHasher sqrt g1Scale (leBytes 8 0x8b1a3a474e3bb098)
      (leBytes 39 0xa3e706705bfae4caa98df44dd79bdc65e8cf8b2eb858abcb3c41eddcef099e242c69ab301f19d9)
      (leBytes 163 0xb1d768b5aa293fd82517b3f22d71da6cc9ef195c2063dab974cf28d9cf3126e931dc3fe3e886080340b1963565da21ece4dcec43f177e1c2f672440777db69ffa902675bac00f14ec2d8bb366c4f99ec1f7f1493571ac07f00eaa174c58f8603399133c25d8350447d14ef0764271717734a3bea711070c7147f140db5e5cc9069be94f49cb83b5d4f47dba52b346ce222368c11b2ea5f7977d613c0a80405a10ad5d9)).map serializeSignature =
    .ok (leBytes 48 0x16dc79012361ec4a3fdc66c502aaf95d3db2560550d7fb405d8019e960cecb9b0f0bb58cc423cf5305a1d8a77f0ca30) := by
  have hi : pedersenCrh edX (crhGenerators realBase)
      (leBytes 39 0xa3e706705bfae4caa98df44dd79bdc65e8cf8b2eb858abcb3c41eddcef099e242c69ab301f19d9) =
      .ok (leBytes 48 0x154381a7555d93c63840290338c2146d61951c89aa02928b645876256b97c4941a393dbf356f845e582f52053eba62f) :=
    crhEval_spec _ _ 2 (by norm_num) (by decide +kernel) (by decide +kernel) (by decide +kernel)
      (by decide +kernel)
  rw [start_cip22 hi]
  obtain ⟨P, h, hP⟩ := cip_accept (compat := true) hs (leBytes 8 0x8b1a3a474e3bb098)
      (leBytes 48 0x154381a7555d93c63840290338c2146d61951c89aa02928b645876256b97c4941a393dbf356f845e582f52053eba62f)
      (leBytes 163 0xb1d768b5aa293fd82517b3f22d71da6cc9ef195c2063dab974cf28d9cf3126e931dc3fe3e886080340b1963565da21ece4dcec43f177e1c2f672440777db69ffa902675bac00f14ec2d8bb366c4f99ec1f7f1493571ac07f00eaa174c58f8603399133c25d8350447d14ef0764271717734a3bea711070c7147f140db5e5cc9069be94f49cb83b5d4f47dba52b346ce222368c11b2ea5f7977d613c0a80405a10ad5d9) 0
      (leBytes 64 0x906ac81799ea453f6857a008657bac9066f6f2d7d41847da39ab916b0bf72d9dafd948928f9f52d4adc80b3d95e7aa37322099b94c2af8ac65e075673e74f9f3) 0xfcf8aa0d521e2aecb9a4cf56e24c61c40c47da95c2b8841bf4a23822f8e014dc0c5b1c723d8cb16773f3d72e1c8d09
      0x16dc79012361ec4a3fdc66c502aaf95d3db2560550d7fb405d8019e960cecb9b0f0bb58cc423cf5305a1d8a77f0ca30
      0xb005dd5c6c301b601f2d26eb2aff3ff3bfa5d57c5e9864366a0e588f27f8e38f533933d48daf404d8122767175e6e9
      (by decide +kernel) (by decide +kernel) (by decide +kernel) (by decide +kernel)
  exact finish (loop_some h) hP (by decide +kernel)

/-- `crates/bls-crypto/src/hash_to_curve/mod.rs:443`: 167 bytes, 176 of extra data, 3 attempts. -/
theorem vector_cip22_4 (hs : SqrtSpec sqrt) :
    (tryAndIncrementCip22 true theHasher sqrt g1Scale (leBytes 8 0x73f533f3baacb496)
      (leBytes 167 0xb46dba315bf53b3def3358f89188707920ca28a8294ab6e61b71ffbb853431c9a66f7591e0fa25e3875afb0cd59ba1212c4754674d81b9d8fd7f2808a83a4b97a892a22c6de6535550bb83ec71b3045cc136bb9cb57c023b11b0f31d5099f6207fd89e9e87fed46e3a36ab4a5634fea3474c2f0c5e879d15d8f9dc715d41059fa8ed1cf3f2621ad4a3f63f4a5ba4e711d6f32bb6be0d402e09576219ae49bae7ea74d2f248859d)
      (leBytes 176 0xd7f12afd9e62c5345719857ce49b28c0d76db13e66caa83e60e6d40fbc5d3fbde9324ec1aba3a59a4586ad2d59d61e55d36b711cf6efdd55e49345e5cea7e25b812deff1aed932e96a2ed5aa69ad747fbc581c82265681dfda0ef011f39ac340b3a290453ff600a5416eeb84e92f79cecf8161e1c2336b19ec979d34875f10d5a123325de17d2b352161a741c2e421e224642e1286d01d23a98329d1aac4aefe334ccd2afd9184d66f85d885bf685c1c)).map serializeSignature =
    .ok (leBytes 48 0x99fa5dd497743095f7ff87aeade853bdc797841536cfcd916b2096265f1f09b267b0af1daa4e03a569df902c115c3d) := by
  have hi : pedersenCrh edX (crhGenerators realBase)
      (leBytes 167 0xb46dba315bf53b3def3358f89188707920ca28a8294ab6e61b71ffbb853431c9a66f7591e0fa25e3875afb0cd59ba1212c4754674d81b9d8fd7f2808a83a4b97a892a22c6de6535550bb83ec71b3045cc136bb9cb57c023b11b0f31d5099f6207fd89e9e87fed46e3a36ab4a5634fea3474c2f0c5e879d15d8f9dc715d41059fa8ed1cf3f2621ad4a3f63f4a5ba4e711d6f32bb6be0d402e09576219ae49bae7ea74d2f248859d) =
      .ok (leBytes 48 0xc41625299441aba65c329c07a03e94e8699eb4da4bada095ace0e182bf0ecd60c6dc45fcbff2c4741a87738d51f2b2) :=
    crhEval_spec _ _ 5 (by norm_num) (by decide +kernel) (by decide +kernel) (by decide +kernel)
      (by decide +kernel)
  rw [start_cip22 hi]
  rw [loop_none (cip_reject hs _ _ _ 0
      (leBytes 64 0xe7b3fe26f8afce6093b0e6510bf0a7e49fdb4d71848a28a3c886c2549a78889464a35cb940c7546f51da8450065b1354be0d9a54bb08f16b0c7a2d789ea52a1c) 0x0
      (by decide +kernel) (by decide +kernel) (by decide +kernel))]
  rw [loop_none (cip_reject hs _ _ _ 1
      (leBytes 64 0x4b7d6fb5c8f755bbd2472e00146eff21283850ed6b989035d9b2eabca27d7eb5ecc6625f5c4f50562445e45afe91a07db1001151a40f6e72761ad98ad79701b8) 0x119fff51aedd5465c2d21693eb868de3499be6b6325af2d81b6193f7e502e4d95ef6b49adf5d8e70da3cee418fc3e7e
      (by decide +kernel) (by decide +kernel) (by decide +kernel))]
  obtain ⟨P, h, hP⟩ := cip_accept (compat := true) hs (leBytes 8 0x73f533f3baacb496)
      (leBytes 48 0xc41625299441aba65c329c07a03e94e8699eb4da4bada095ace0e182bf0ecd60c6dc45fcbff2c4741a87738d51f2b2)
      (leBytes 176 0xd7f12afd9e62c5345719857ce49b28c0d76db13e66caa83e60e6d40fbc5d3fbde9324ec1aba3a59a4586ad2d59d61e55d36b711cf6efdd55e49345e5cea7e25b812deff1aed932e96a2ed5aa69ad747fbc581c82265681dfda0ef011f39ac340b3a290453ff600a5416eeb84e92f79cecf8161e1c2336b19ec979d34875f10d5a123325de17d2b352161a741c2e421e224642e1286d01d23a98329d1aac4aefe334ccd2afd9184d66f85d885bf685c1c) 2
      (leBytes 64 0xb18ed6451bfcd5c045e0a854f26f2dc0bac61c3dbdf9f61e9114c150d1bee67293df79d7ce1b9a26a70d83f4b935eb840e40c8f5497d77db46ddf52c85464277) 0xfa1c4d500d807d6059ae3d86adad6fac796a4200dfa9260c0a427a9983a5398cb845ed2ab6c67b1e2b7b12bfb480b1
      0x99fa5dd497743095f7ff87aeade853bdc797841536cfcd916b2096265f1f09b267b0af1daa4e03a569df902c115c3d
      0x22f6c27e73cb716a2e2983a16695e3d9e4684aac969c4c9631b5ef0b186eccd74150eb51a35dbdabbae64e15544e78
      (by decide +kernel) (by decide +kernel) (by decide +kernel) (by decide +kernel)
  exact finish (loop_some h) hP (by decide +kernel)

/-- `crates/bls-crypto/src/hash_to_curve/mod.rs:445`: 133 bytes, 219 of extra data, 1 attempt. -/
theorem vector_cip22_6 (hs : SqrtSpec sqrt) :
    (tryAndIncrementCip22 true theHasher sqrt g1Scale (leBytes 8 0x9c774c0dd267e7b0)
      (leBytes 133 0x43999d7244a954d7c88dd26b1f9ede1f9068ca67c1876d91b1e0e844d2059c72ebbc9c2eb62a8d820d762b382088d1e28b744e703893c535866614a3829b778e904a632a1c02d6753e61d02ff7056cff796b2a8fd83c523b90a2063e9ce8bf522c6c5ab04e4e8aa89ee1767b33fd6f6e8f675dce02db00e37a9089cec41da114439da0dd2d)
      (leBytes 219 0xf8dfc0d85fd7b3606517647f9352549a4233328c837e9df470db330ac2787128feb59af01ee711b7153dd7068e531c8e1b8deb08acda0d5f40b9cbebd062a7505de1a4b6f5544a5e5dc13d059289f4deff663e6abd87a04ae547dbe995b1de394d7710e3909dea5fc6d06be57d2971b8c86d846132a9f294003a7a48f469472a4bce178a9772dacc971053d1573122220e652ef8811974a774fb17d7f4270a2dc89b9a329cea5745790d731f8a31754c7277624bb438ea762900b6861fde98c4c5c0c8447d8d5a6afbdf99e56efecdb4c229f6b66bbf5fdb90c528)).map serializeSignature =
    .ok (leBytes 48 0xfb641b259c0c40b20750dd05ba2ce0eec455c993292979cb48368c3a175a237f56595b3ac9c2bf483e501c829d1d24) := by
  have hi : pedersenCrh edX (crhGenerators realBase)
      (leBytes 133 0x43999d7244a954d7c88dd26b1f9ede1f9068ca67c1876d91b1e0e844d2059c72ebbc9c2eb62a8d820d762b382088d1e28b744e703893c535866614a3829b778e904a632a1c02d6753e61d02ff7056cff796b2a8fd83c523b90a2063e9ce8bf522c6c5ab04e4e8aa89ee1767b33fd6f6e8f675dce02db00e37a9089cec41da114439da0dd2d) =
      .ok (leBytes 48 0x849a25135944b217c0223baa5594876c52dc8d4a9e16b78dcc6fde1bce28137c0b08658fe2026551fa846f77ddb1ec) :=
    crhEval_spec _ _ 4 (by norm_num) (by decide +kernel) (by decide +kernel) (by decide +kernel)
      (by decide +kernel)
  rw [start_cip22 hi]
  obtain ⟨P, h, hP⟩ := cip_accept (compat := true) hs (leBytes 8 0x9c774c0dd267e7b0)
      (leBytes 48 0x849a25135944b217c0223baa5594876c52dc8d4a9e16b78dcc6fde1bce28137c0b08658fe2026551fa846f77ddb1ec)
      (leBytes 219 0xf8dfc0d85fd7b3606517647f9352549a4233328c837e9df470db330ac2787128feb59af01ee711b7153dd7068e531c8e1b8deb08acda0d5f40b9cbebd062a7505de1a4b6f5544a5e5dc13d059289f4deff663e6abd87a04ae547dbe995b1de394d7710e3909dea5fc6d06be57d2971b8c86d846132a9f294003a7a48f469472a4bce178a9772dacc971053d1573122220e652ef8811974a774fb17d7f4270a2dc89b9a329cea5745790d731f8a31754c7277624bb438ea762900b6861fde98c4c5c0c8447d8d5a6afbdf99e56efecdb4c229f6b66bbf5fdb90c528) 0
      (leBytes 64 0xf1f0b920ad8ea53f432eb6b34fb47f695da5df3d6710eb71c26331ac753dd9ff5156fe9ca3616f9fd571d796d4e5ccadb3d7ae526f423a9ac27a02abb8f206a3) 0x1d67a68a6db9c76545902973f43fff99cf06a260b227b536212cfa19287f8f08b18666ec670c6c8d3bc23ec10dacb4
      0xfb641b259c0c40b20750dd05ba2ce0eec455c993292979cb48368c3a175a237f56595b3ac9c2bf483e501c829d1d24
      0x5426d1adaaa02b5795b79143a5a81e52638cdc42a63608265ff28134dc688095dc415befa13c7b816e22fb83ff533
      (by decide +kernel) (by decide +kernel) (by decide +kernel) (by decide +kernel)
  exact finish (loop_some h) hP (by decide +kernel)

/-- `crates/bls-crypto/src/hash_to_curve/mod.rs:477`: 237 bytes, 88 of extra data, 1 attempt. -/
theorem vector_plain_2 (hs : SqrtSpec sqrt) :
    (tryAndIncrement false theHasher sqrt g1Scale (leBytes 8 0xf25f3e7297b6af12)
      (leBytes 237 0x61acd0743f757bfb285d11a2b9155fdd98a74e6ea6f0e324244c6880bc01fd0b7e387d4d5ea60aed23c1d626c4a293e42b24b79dd00661c243692f76cd05e8f2e73a9ae6a1d70a0f48ceaafbcd1cd276933287634b4857cb2c317050b722be02fedbe6488d231f90dcfbfd8e95efc4b5595a207b2f2b2f324d0e995211cd27f67cd53d5f7ec0d1cc5fdc8432abab47794e1d5c1920c96a04ea95a30b792d53bc2546248af0b9c3069feff871567eab27f2658c40e47b2e4b3961ad41ab6456c9f72c7776da2a62702cb48db48e8804c332f4d73439e248aeb49c18aad7d7505bd5eda44aea8d9d907f9be16cbd)
      (leBytes 88 0xab958b4a5db01dd92b089cbe197574b899b6f6e27696e4a2414dd4850071e531ee364e341310837ff2d72d4154f10365c02cf04da2d6f76510f1667abb238189995e0f11cfcdf5895a42845b05ce08a3cab5b3245ba24aec)).map serializeSignature =
    .ok (leBytes 48 0x815d588cdf50f32514ba350207ecf11c7e6534264e414050136e4bad33b88390060bd4723f3bad6227b328a580bcc8fc) := by
  rw [start_plain]
  obtain ⟨P, h, hP⟩ := plain_accept (compat := false) hs (leBytes 8 0xf25f3e7297b6af12)
      (leBytes 237 0x61acd0743f757bfb285d11a2b9155fdd98a74e6ea6f0e324244c6880bc01fd0b7e387d4d5ea60aed23c1d626c4a293e42b24b79dd00661c243692f76cd05e8f2e73a9ae6a1d70a0f48ceaafbcd1cd276933287634b4857cb2c317050b722be02fedbe6488d231f90dcfbfd8e95efc4b5595a207b2f2b2f324d0e995211cd27f67cd53d5f7ec0d1cc5fdc8432abab47794e1d5c1920c96a04ea95a30b792d53bc2546248af0b9c3069feff871567eab27f2658c40e47b2e4b3961ad41ab6456c9f72c7776da2a62702cb48db48e8804c332f4d73439e248aeb49c18aad7d7505bd5eda44aea8d9d907f9be16cbd)
      (leBytes 88 0xab958b4a5db01dd92b089cbe197574b899b6f6e27696e4a2414dd4850071e531ee364e341310837ff2d72d4154f10365c02cf04da2d6f76510f1667abb238189995e0f11cfcdf5895a42845b05ce08a3cab5b3245ba24aec) 0 (leBytes 48 0xb6d1c7e955c12f2e91bcb0554084d4c716c5a422ed91beadb32dcedb09ade946a06a3cdabd5049abf0aa20036cd505)
      (leBytes 64 0xcc8e2aa2dada0dd2798d35016b4a4ab866ab89c1917666f01bbd106c6bcfb36eec8189a2b7b8f18c1c20aad3f9c48339a13d139a5abdd51d8eccb2d9ad5d41a3) 0xd3469817f4e2a1b16318ab74eab3b2c5b2c9cf3c6a0ca0217ef1cbdd7e48f386a356eb31a4d9fbc27401f7fe1f1086
      0x15d588cdf50f32514ba350207ecf11c7e6534264e414050136e4bad33b88390060bd4723f3bad6227b328a580bcc8fc
      0x19e013e938c2f15b2972eb17c195f6e15251622b4d4f315fd07f4600937127e7c2a4eec4c7729011827d0d7ac1583cb
      (crhEval_spec _ _ 10 (by norm_num) (by decide +kernel) (by decide +kernel) (by decide +kernel)
        (by decide +kernel)) (by decide +kernel) (by decide +kernel) (by decide +kernel) (by decide +kernel)
  exact finish (loop_some h) hP (by decide +kernel)

/-- `crates/bls-crypto/src/hash_to_curve/mod.rs:480`: 78 bytes, 57 of extra data, 2 attempts. -/
theorem vector_plain_5 (hs : SqrtSpec sqrt) :
    (tryAndIncrement false theHasher sqrt g1Scale (leBytes 8 0xf76527205c7f65c6)
      (leBytes 78 0x30de0e23d60469c00d0f9e661834e9cd9ef9fd3689b57074647fb41c81e86bdd9e5199f8b2dd852ab0141ba31dbc7ed27e19275b7f2c7c5baf101dbba4fc8a0c5845f6d98d1e3a2773370374e44)
      (leBytes 57 0x445dede319869ce26e4a658dbfddaeacaa5b1f12ef93836b1ea87dfbf91bba7113ad4e8ae89f3ca24feaab3fd7763b575c79c1943b7218adb9)).map serializeSignature =
    .ok (leBytes 48 0xb446883b0bd910ee7684a6d7e0a2e2a8cffb301a5bfac327e7c4d20c5c22ebf432296aefecd5d563b887a54bf565f3) := by
  rw [start_plain]
  rw [loop_none (plain_reject hs _ _ _ 0 (leBytes 48 0x1a022665c0ef564246e521a9f8b084c31d99f48e7a2344d87d00532d216f4f50168fd1525924d6b2c1784eaa5951e16)
      (leBytes 64 0x2ea8e495b2fdd37b6025095c1b92f909e5d6e05dbea58dd0ddb1b4c31bdae632858d57331759333d6f62a1a1ba6dc07b7ff69621a2b3334d93b1a3e9c0410660) 0x0
      (crhEval_spec _ _ 4 (by norm_num) (by decide +kernel) (by decide +kernel) (by decide +kernel)
        (by decide +kernel)) (by decide +kernel) (by decide +kernel) (by decide +kernel))]
  obtain ⟨P, h, hP⟩ := plain_accept (compat := false) hs (leBytes 8 0xf76527205c7f65c6)
      (leBytes 78 0x30de0e23d60469c00d0f9e661834e9cd9ef9fd3689b57074647fb41c81e86bdd9e5199f8b2dd852ab0141ba31dbc7ed27e19275b7f2c7c5baf101dbba4fc8a0c5845f6d98d1e3a2773370374e44)
      (leBytes 57 0x445dede319869ce26e4a658dbfddaeacaa5b1f12ef93836b1ea87dfbf91bba7113ad4e8ae89f3ca24feaab3fd7763b575c79c1943b7218adb9) 1 (leBytes 48 0xba2ced641eef4f48365d6729a86c74d1c6480eb505bb1d9bc5417bf7069244fc9897d78f5d5dcedd57b418dd35d9f9)
      (leBytes 64 0xae3bbea76473c0b754785a9f08af40210a5ccb8a3355c1f5824a60aafc901b9ed888f3eb30c4b385060492b55705824feedf688533610b749537c84ad240c1d7) 0xa2084eef389d2bf1b20efe744e7d6a48920205534a11b29ad1ce2a93c2fb50d22bc355ad23a15a3bd26e5bf1f88809
      0xb446883b0bd910ee7684a6d7e0a2e2a8cffb301a5bfac327e7c4d20c5c22ebf432296aefecd5d563b887a54bf565f3
      0xc1098e0824d80178b0f10ddac8d9b66e9a26da1aa773c4cec4882824c6dc6e626691cd1dbb5cc5e310179f2ecfdbf1
      (crhEval_spec _ _ 4 (by norm_num) (by decide +kernel) (by decide +kernel) (by decide +kernel)
        (by decide +kernel)) (by decide +kernel) (by decide +kernel) (by decide +kernel) (by decide +kernel)
  exact finish (loop_some h) hP (by decide +kernel)

/-- `crates/bls-crypto/src/hash_to_curve/mod.rs:483`: 151 bytes, 60 of extra data, 1 attempt. -/
theorem vector_plain_8 (hs : SqrtSpec sqrt) :
    (tryAndIncrement false theHasher sqrt g1Scale (leBytes 8 0x96df180c25ba729d)
      (leBytes 151 0xefc8d1b33ad0fd31925e1dba40a5d5ddefe4efed89611f2b6e654eaabea5457593b5a7f06ad0b01bf035df9616f34a70b7b833613cd59ce0b604346a32b3776af73274a77b8f3417d01676449dcbdf0787a11bd271185167fcc88909b5e7672b0f3fa24e43e626e1a9e1415d84dd9896b2d77f4861b5245271e56d0e3e1f78a8660d38f74f4dcd074e191ec5ed0e4f225771c59941d837)
      (leBytes 60 0x33f767a0b9441cb1e741281aa3263911da4adc00062350fbc482ddee7b140c9ad85765cffde85861b34e08aff5cc34968fb409bd26063af02ec2b5bd)).map serializeSignature =
    .ok (leBytes 48 0xdc206f627ce2f00ebaa9b3b86c58a9665b06d960d463b6ce26e2a9519b150a52288e422d667d260ca313887ada54de) := by
  rw [start_plain]
  obtain ⟨P, h, hP⟩ := plain_accept (compat := false) hs (leBytes 8 0x96df180c25ba729d)
      (leBytes 151 0xefc8d1b33ad0fd31925e1dba40a5d5ddefe4efed89611f2b6e654eaabea5457593b5a7f06ad0b01bf035df9616f34a70b7b833613cd59ce0b604346a32b3776af73274a77b8f3417d01676449dcbdf0787a11bd271185167fcc88909b5e7672b0f3fa24e43e626e1a9e1415d84dd9896b2d77f4861b5245271e56d0e3e1f78a8660d38f74f4dcd074e191ec5ed0e4f225771c59941d837)
      (leBytes 60 0x33f767a0b9441cb1e741281aa3263911da4adc00062350fbc482ddee7b140c9ad85765cffde85861b34e08aff5cc34968fb409bd26063af02ec2b5bd) 0 (leBytes 48 0xd08db5d30305234286da289727986fabe4fc553a86f54e1683424f840a3950e3d61cb01ce72632c12424694c3eb5c1)
      (leBytes 64 0x4b5d90f18768667eeb8b5ee87db5f24281926864d633984f8a6259ba2802a0b1cebeffefae7d470de091f8ee67bb7da503bce3fc4aa8b85419932c08d92342d5) 0xfa87ce8158813906f0f84ee2b4a39b4819845f371ff4d65f4369d7d63eee2c0ceafe10abd84bfd7a9cd2e2f2d2a639
      0xdc206f627ce2f00ebaa9b3b86c58a9665b06d960d463b6ce26e2a9519b150a52288e422d667d260ca313887ada54de
      0x4ff81d7bf608a1276987e3565c8eb7fa7f5154e1650bce6388659185d6018e656aa891b836dc18d7553970cd6c4cfa
      (crhEval_spec _ _ 7 (by norm_num) (by decide +kernel) (by decide +kernel) (by decide +kernel)
        (by decide +kernel)) (by decide +kernel) (by decide +kernel) (by decide +kernel) (by decide +kernel)
  exact finish (loop_some h) hP (by decide +kernel)

end

end Verif
