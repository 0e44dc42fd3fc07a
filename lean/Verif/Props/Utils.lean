import Verif.Lemmas.Utils

/-!
# Properties of the bit and byte conversions: C26
-/

namespace Verif

/-- C26: the bytes denote the same number as the bits (bits are most significant first). -/
theorem C26_bytes_value (bits : List Bool) :
    leValue (bitsBeToBytesLe bits) = ofBitsLE bits.reverse :=
  leValue_map_packByte bits.reverse

/-- C26: `n` bits make `⌈n / 8⌉` bytes. -/
theorem C26_bytes_length (bits : List Bool) :
    (bitsBeToBytesLe bits).length = (bits.length + 7) / 8 := by
  unfold bitsBeToBytesLe
  rw [List.length_map, chunks_length (by norm_num), List.length_reverse]
  rfl

/-- C26: the bits taken from bytes denote the number of the bytes, cut to the number of bits
taken. -/
theorem C26_bits_value (bytes : Bytes) (n : ℕ) :
    ofBitsLE (bytesLeToBitsBe bytes n).reverse = leValue bytes % 2 ^ n := by
  unfold bytesLeToBitsBe
  rw [List.reverse_reverse, ofBitsLE_take, flatMap_unpack_value]

/-- C26: number of bits obtained. -/
theorem C26_bits_length (bytes : Bytes) (n : ℕ) :
    (bytesLeToBitsBe bytes n).length = min n (8 * bytes.length) := by
  unfold bytesLeToBitsBe
  rw [List.length_reverse, List.length_take, flatMap_unpack_length]

/-- C26: bits to bytes and back, for every bit string (aligned or not). -/
theorem C26_bits_roundtrip (bits : List Bool) :
    bytesLeToBitsBe (bitsBeToBytesLe bits) bits.length = bits := by
  apply List.reverse_injective
  apply ofBitsLE_inj
  · rw [List.length_reverse, List.length_reverse, C26_bits_length, C26_bytes_length]
    omega
  · rw [C26_bits_value, C26_bytes_value]
    apply Nat.mod_eq_of_lt
    have := ofBitsLE_lt bits.reverse
    rwa [List.length_reverse] at this

/-- C26: bytes to bits and back. -/
theorem C26_bytes_roundtrip (bytes : Bytes) :
    bitsBeToBytesLe (bytesLeToBitsBe bytes (8 * bytes.length)) = bytes := by
  apply leValue_inj
  · rw [C26_bytes_length, C26_bits_length]
    omega
  · rw [C26_bytes_value, C26_bits_value]
    apply Nat.mod_eq_of_lt
    have := leValue_lt bytes
    rw [pow_mul]
    exact this

/-- C26: the little-endian variants are the big-endian ones on reversed bits, and are inverse too. -/
theorem C26_le_variants (bits : List Bool) (bytes : Bytes) (n : ℕ) :
    bitsLeToBytesLe bits = bitsBeToBytesLe bits.reverse ∧
      bytesLeToBitsLe bytes n = (bytesLeToBitsBe bytes n).reverse ∧
      bytesLeToBitsLe (bitsLeToBytesLe bits) bits.length = bits ∧
      bitsLeToBytesLe (bytesLeToBitsLe bytes (8 * bytes.length)) = bytes := by
  refine ⟨rfl, rfl, ?_, ?_⟩
  · unfold bytesLeToBitsLe bitsLeToBytesLe
    have := C26_bits_roundtrip bits.reverse
    rw [List.length_reverse] at this
    rw [this, List.reverse_reverse]
  · unfold bytesLeToBitsLe bitsLeToBytesLe
    rw [List.reverse_reverse]
    exact C26_bytes_roundtrip bytes

/-- C26: bit strings of one length are determined by their bytes; without the length they are not
(leading zeros of the most significant byte are lost). -/
theorem C26_injective {a b : List Bool} (hl : a.length = b.length)
    (h : bitsBeToBytesLe a = bitsBeToBytesLe b) : a = b := by
  have := C26_bits_roundtrip a
  rw [h, hl, C26_bits_roundtrip] at this
  exact this.symm

theorem C26_not_injective : bitsBeToBytesLe [true] = bitsBeToBytesLe [false, true] := by
  apply leValue_inj
  · rw [C26_bytes_length, C26_bytes_length]; rfl
  · rw [C26_bytes_value, C26_bytes_value]; rfl

/-- Concrete case: nine bits, most significant first, denoting 257. -/
example : bitsBeToBytesLe [true, false, false, false, false, false, false, false, true] = [1, 1] :=
  leValue_inj (by rw [C26_bytes_length]; rfl) (by rw [C26_bytes_value]; decide)

example : bytesLeToBitsBe [0x81, 0x01] 9 =
    [true, true, false, false, false, false, false, false, true] := by decide

end Verif
