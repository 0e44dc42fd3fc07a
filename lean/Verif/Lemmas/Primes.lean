import Verif.Lemmas.Pratt
import Mathlib.Tactic.NormNum.Prime

/-! Primality of the two BLS12-377 moduli, by Pratt certificates. -/

namespace Verif

theorem prime_3511 : Nat.Prime 3511 := by
  refine pratt _ 7 12 (List.replicate 1 2 ++ [3, 3, 3, 5, 13]) ?_ (by decide +kernel) (by decide +kernel)
    (by decide +kernel) (by decide +kernel)
  intro s hs
  rw [List.mem_append] at hs
  rcases hs with hs | hs
  · rw [List.eq_of_mem_replicate hs]; exact Nat.prime_two
  · simp only [List.mem_cons, List.not_mem_nil, or_false] at hs
    rcases hs with rfl | rfl | rfl | rfl | rfl
    · norm_num
    · norm_num
    · norm_num
    · norm_num
    · norm_num

theorem prime_126397 : Nat.Prime 126397 := by
  refine pratt _ 5 17 (List.replicate 2 2 ++ [3, 3, 3511]) ?_ (by decide +kernel) (by decide +kernel)
    (by decide +kernel) (by decide +kernel)
  intro s hs
  rw [List.mem_append] at hs
  rcases hs with hs | hs
  · rw [List.eq_of_mem_replicate hs]; exact Nat.prime_two
  · simp only [List.mem_cons, List.not_mem_nil, or_false] at hs
    rcases hs with rfl | rfl | rfl
    · norm_num
    · norm_num
    · exact prime_3511

theorem prime_1832756501 : Nat.Prime 1832756501 := by
  refine pratt _ 2 31 (List.replicate 2 2 ++ [5, 5, 5, 29, 126397]) ?_ (by decide +kernel) (by decide +kernel)
    (by decide +kernel) (by decide +kernel)
  intro s hs
  rw [List.mem_append] at hs
  rcases hs with hs | hs
  · rw [List.eq_of_mem_replicate hs]; exact Nat.prime_two
  · simp only [List.mem_cons, List.not_mem_nil, or_false] at hs
    rcases hs with rfl | rfl | rfl | rfl | rfl
    · norm_num
    · norm_num
    · norm_num
    · norm_num
    · exact prime_126397

theorem prime_49484425527001 : Nat.Prime 49484425527001 := by
  refine pratt _ 14 46 (List.replicate 3 2 ++ [3, 3, 3, 5, 5, 5, 1832756501]) ?_ (by decide +kernel) (by decide +kernel)
    (by decide +kernel) (by decide +kernel)
  intro s hs
  rw [List.mem_append] at hs
  rcases hs with hs | hs
  · rw [List.eq_of_mem_replicate hs]; exact Nat.prime_two
  · simp only [List.mem_cons, List.not_mem_nil, or_false] at hs
    rcases hs with rfl | rfl | rfl | rfl | rfl | rfl | rfl
    · norm_num
    · norm_num
    · norm_num
    · norm_num
    · norm_num
    · norm_num
    · exact prime_1832756501

theorem prime_958612291309063373 : Nat.Prime 958612291309063373 := by
  refine pratt _ 2 60 (List.replicate 2 2 ++ [29, 167, 49484425527001]) ?_ (by decide +kernel) (by decide +kernel)
    (by decide +kernel) (by decide +kernel)
  intro s hs
  rw [List.mem_append] at hs
  rcases hs with hs | hs
  · rw [List.eq_of_mem_replicate hs]; exact Nat.prime_two
  · simp only [List.mem_cons, List.not_mem_nil, or_false] at hs
    rcases hs with rfl | rfl | rfl
    · norm_num
    · norm_num
    · exact prime_49484425527001

theorem prime_9586122913090633729 : Nat.Prime 9586122913090633729 := by
  refine pratt _ 11 64 (List.replicate 46 2 ++ [3, 7, 13, 499]) ?_ (by decide +kernel) (by decide +kernel)
    (by decide +kernel) (by decide +kernel)
  intro s hs
  rw [List.mem_append] at hs
  rcases hs with hs | hs
  · rw [List.eq_of_mem_replicate hs]; exact Nat.prime_two
  · simp only [List.mem_cons, List.not_mem_nil, or_false] at hs
    rcases hs with rfl | rfl | rfl | rfl
    · norm_num
    · norm_num
    · norm_num
    · norm_num

theorem prime_8444461749428370424248824938781546531375899335154063827935233455917409239041 : Nat.Prime 8444461749428370424248824938781546531375899335154063827935233455917409239041 := by
  refine pratt _ 22 253 (List.replicate 47 2 ++ [3, 5, 7, 13, 499, 958612291309063373, 9586122913090633729, 9586122913090633729]) ?_ (by decide +kernel) (by decide +kernel)
    (by decide +kernel) (by decide +kernel)
  intro s hs
  rw [List.mem_append] at hs
  rcases hs with hs | hs
  · rw [List.eq_of_mem_replicate hs]; exact Nat.prime_two
  · simp only [List.mem_cons, List.not_mem_nil, or_false] at hs
    rcases hs with rfl | rfl | rfl | rfl | rfl | rfl | rfl | rfl
    · norm_num
    · norm_num
    · norm_num
    · norm_num
    · norm_num
    · exact prime_958612291309063373
    · exact prime_9586122913090633729
    · exact prime_9586122913090633729

theorem prime_2557 : Nat.Prime 2557 := by
  refine pratt _ 2 12 (List.replicate 2 2 ++ [3, 3, 71]) ?_ (by decide +kernel) (by decide +kernel)
    (by decide +kernel) (by decide +kernel)
  intro s hs
  rw [List.mem_append] at hs
  rcases hs with hs | hs
  · rw [List.eq_of_mem_replicate hs]; exact Nat.prime_two
  · simp only [List.mem_cons, List.not_mem_nil, or_false] at hs
    rcases hs with rfl | rfl | rfl
    · norm_num
    · norm_num
    · norm_num

theorem prime_25537 : Nat.Prime 25537 := by
  refine pratt _ 10 15 (List.replicate 6 2 ++ [3, 7, 19]) ?_ (by decide +kernel) (by decide +kernel)
    (by decide +kernel) (by decide +kernel)
  intro s hs
  rw [List.mem_append] at hs
  rcases hs with hs | hs
  · rw [List.eq_of_mem_replicate hs]; exact Nat.prime_two
  · simp only [List.mem_cons, List.not_mem_nil, or_false] at hs
    rcases hs with rfl | rfl | rfl
    · norm_num
    · norm_num
    · norm_num

theorem prime_47521 : Nat.Prime 47521 := by
  refine pratt _ 17 16 (List.replicate 5 2 ++ [3, 3, 3, 5, 11]) ?_ (by decide +kernel) (by decide +kernel)
    (by decide +kernel) (by decide +kernel)
  intro s hs
  rw [List.mem_append] at hs
  rcases hs with hs | hs
  · rw [List.eq_of_mem_replicate hs]; exact Nat.prime_two
  · simp only [List.mem_cons, List.not_mem_nil, or_false] at hs
    rcases hs with rfl | rfl | rfl | rfl | rfl
    · norm_num
    · norm_num
    · norm_num
    · norm_num
    · norm_num

theorem prime_2521 : Nat.Prime 2521 := by
  refine pratt _ 17 12 (List.replicate 3 2 ++ [3, 3, 5, 7]) ?_ (by decide +kernel) (by decide +kernel)
    (by decide +kernel) (by decide +kernel)
  intro s hs
  rw [List.mem_append] at hs
  rcases hs with hs | hs
  · rw [List.eq_of_mem_replicate hs]; exact Nat.prime_two
  · simp only [List.mem_cons, List.not_mem_nil, or_false] at hs
    rcases hs with rfl | rfl | rfl | rfl
    · norm_num
    · norm_num
    · norm_num
    · norm_num

theorem prime_71924131 : Nat.Prime 71924131 := by
  refine pratt _ 2 27 (List.replicate 1 2 ++ [3, 3, 5, 317, 2521]) ?_ (by decide +kernel) (by decide +kernel)
    (by decide +kernel) (by decide +kernel)
  intro s hs
  rw [List.mem_append] at hs
  rcases hs with hs | hs
  · rw [List.eq_of_mem_replicate hs]; exact Nat.prime_two
  · simp only [List.mem_cons, List.not_mem_nil, or_false] at hs
    rcases hs with rfl | rfl | rfl | rfl | rfl
    · norm_num
    · norm_num
    · norm_num
    · norm_num
    · exact prime_2521

theorem prime_6633514200929891813 : Nat.Prime 6633514200929891813 := by
  refine pratt _ 2 63 (List.replicate 2 2 ++ [19, 25537, 47521, 71924131]) ?_ (by decide +kernel) (by decide +kernel)
    (by decide +kernel) (by decide +kernel)
  intro s hs
  rw [List.mem_append] at hs
  rcases hs with hs | hs
  · rw [List.eq_of_mem_replicate hs]; exact Nat.prime_two
  · simp only [List.mem_cons, List.not_mem_nil, or_false] at hs
    rcases hs with rfl | rfl | rfl | rfl
    · norm_num
    · exact prime_25537
    · exact prime_47521
    · exact prime_71924131

theorem prime_53927 : Nat.Prime 53927 := by
  refine pratt _ 5 16 (List.replicate 1 2 ++ [59, 457]) ?_ (by decide +kernel) (by decide +kernel)
    (by decide +kernel) (by decide +kernel)
  intro s hs
  rw [List.mem_append] at hs
  rcases hs with hs | hs
  · rw [List.eq_of_mem_replicate hs]; exact Nat.prime_two
  · simp only [List.mem_cons, List.not_mem_nil, or_false] at hs
    rcases hs with rfl | rfl
    · norm_num
    · norm_num

theorem prime_22433633 : Nat.Prime 22433633 := by
  refine pratt _ 3 25 (List.replicate 5 2 ++ [13, 53927]) ?_ (by decide +kernel) (by decide +kernel)
    (by decide +kernel) (by decide +kernel)
  intro s hs
  rw [List.mem_append] at hs
  rcases hs with hs | hs
  · rw [List.eq_of_mem_replicate hs]; exact Nat.prime_two
  · simp only [List.mem_cons, List.not_mem_nil, or_false] at hs
    rcases hs with rfl | rfl
    · norm_num
    · exact prime_53927

theorem prime_494527005853 : Nat.Prime 494527005853 := by
  refine pratt _ 5 39 (List.replicate 2 2 ++ [3, 11, 167, 22433633]) ?_ (by decide +kernel) (by decide +kernel)
    (by decide +kernel) (by decide +kernel)
  intro s hs
  rw [List.mem_append] at hs
  rcases hs with hs | hs
  · rw [List.eq_of_mem_replicate hs]; exact Nat.prime_two
  · simp only [List.mem_cons, List.not_mem_nil, or_false] at hs
    rcases hs with rfl | rfl | rfl | rfl
    · norm_num
    · norm_num
    · norm_num
    · exact prime_22433633

theorem prime_8263 : Nat.Prime 8263 := by
  refine pratt _ 3 14 (List.replicate 1 2 ++ [3, 3, 3, 3, 3, 17]) ?_ (by decide +kernel) (by decide +kernel)
    (by decide +kernel) (by decide +kernel)
  intro s hs
  rw [List.mem_append] at hs
  rcases hs with hs | hs
  · rw [List.eq_of_mem_replicate hs]; exact Nat.prime_two
  · simp only [List.mem_cons, List.not_mem_nil, or_false] at hs
    rcases hs with rfl | rfl | rfl | rfl | rfl | rfl
    · norm_num
    · norm_num
    · norm_num
    · norm_num
    · norm_num
    · norm_num

theorem prime_76872275827 : Nat.Prime 76872275827 := by
  refine pratt _ 2 37 (List.replicate 1 2 ++ [3, 17, 17, 19, 23, 229, 443]) ?_ (by decide +kernel) (by decide +kernel)
    (by decide +kernel) (by decide +kernel)
  intro s hs
  rw [List.mem_append] at hs
  rcases hs with hs | hs
  · rw [List.eq_of_mem_replicate hs]; exact Nat.prime_two
  · simp only [List.mem_cons, List.not_mem_nil, or_false] at hs
    rcases hs with rfl | rfl | rfl | rfl | rfl | rfl | rfl
    · norm_num
    · norm_num
    · norm_num
    · norm_num
    · norm_num
    · norm_num
    · norm_num

theorem prime_1844934619849 : Nat.Prime 1844934619849 := by
  refine pratt _ 14 41 (List.replicate 3 2 ++ [3, 76872275827]) ?_ (by decide +kernel) (by decide +kernel)
    (by decide +kernel) (by decide +kernel)
  intro s hs
  rw [List.mem_append] at hs
  rcases hs with hs | hs
  · rw [List.eq_of_mem_replicate hs]; exact Nat.prime_two
  · simp only [List.mem_cons, List.not_mem_nil, or_false] at hs
    rcases hs with rfl | rfl
    · norm_num
    · exact prime_76872275827

theorem prime_111286271775829695101 : Nat.Prime 111286271775829695101 := by
  refine pratt _ 2 67 (List.replicate 2 2 ++ [5, 5, 73, 8263, 1844934619849]) ?_ (by decide +kernel) (by decide +kernel)
    (by decide +kernel) (by decide +kernel)
  intro s hs
  rw [List.mem_append] at hs
  rcases hs with hs | hs
  · rw [List.eq_of_mem_replicate hs]; exact Nat.prime_two
  · simp only [List.mem_cons, List.not_mem_nil, or_false] at hs
    rcases hs with rfl | rfl | rfl | rfl | rfl
    · norm_num
    · norm_num
    · norm_num
    · exact prime_8263
    · exact prime_1844934619849

theorem prime_222572543551659390203 : Nat.Prime 222572543551659390203 := by
  refine pratt _ 2 68 (List.replicate 1 2 ++ [111286271775829695101]) ?_ (by decide +kernel) (by decide +kernel)
    (by decide +kernel) (by decide +kernel)
  intro s hs
  rw [List.mem_append] at hs
  rcases hs with hs | hs
  · rw [List.eq_of_mem_replicate hs]; exact Nat.prime_two
  · simp only [List.mem_cons, List.not_mem_nil, or_false] at hs
    rcases hs with rfl
    · exact prime_111286271775829695101

theorem prime_97931919162730131689321 : Nat.Prime 97931919162730131689321 := by
  refine pratt _ 3 77 (List.replicate 3 2 ++ [5, 11, 222572543551659390203]) ?_ (by decide +kernel) (by decide +kernel)
    (by decide +kernel) (by decide +kernel)
  intro s hs
  rw [List.mem_append] at hs
  rcases hs with hs | hs
  · rw [List.eq_of_mem_replicate hs]; exact Nat.prime_two
  · simp only [List.mem_cons, List.not_mem_nil, or_false] at hs
    rcases hs with rfl | rfl | rfl
    · norm_num
    · norm_num
    · exact prime_222572543551659390203

theorem prime_3721412928183745004194199 : Nat.Prime 3721412928183745004194199 := by
  refine pratt _ 13 82 (List.replicate 1 2 ++ [19, 97931919162730131689321]) ?_ (by decide +kernel) (by decide +kernel)
    (by decide +kernel) (by decide +kernel)
  intro s hs
  rw [List.mem_append] at hs
  rcases hs with hs | hs
  · rw [List.eq_of_mem_replicate hs]; exact Nat.prime_two
  · simp only [List.mem_cons, List.not_mem_nil, or_false] at hs
    rcases hs with rfl | rfl
    · norm_num
    · exact prime_97931919162730131689321

theorem prime_40897 : Nat.Prime 40897 := by
  refine pratt _ 5 16 (List.replicate 6 2 ++ [3, 3, 71]) ?_ (by decide +kernel) (by decide +kernel)
    (by decide +kernel) (by decide +kernel)
  intro s hs
  rw [List.mem_append] at hs
  rcases hs with hs | hs
  · rw [List.eq_of_mem_replicate hs]; exact Nat.prime_two
  · simp only [List.mem_cons, List.not_mem_nil, or_false] at hs
    rcases hs with rfl | rfl | rfl
    · norm_num
    · norm_num
    · norm_num

theorem prime_408971 : Nat.Prime 408971 := by
  refine pratt _ 2 19 (List.replicate 1 2 ++ [5, 40897]) ?_ (by decide +kernel) (by decide +kernel)
    (by decide +kernel) (by decide +kernel)
  intro s hs
  rw [List.mem_append] at hs
  rcases hs with hs | hs
  · rw [List.eq_of_mem_replicate hs]; exact Nat.prime_two
  · simp only [List.mem_cons, List.not_mem_nil, or_false] at hs
    rcases hs with rfl | rfl
    · norm_num
    · exact prime_40897

theorem prime_4777599223 : Nat.Prime 4777599223 := by
  refine pratt _ 3 33 (List.replicate 1 2 ++ [3, 3, 11, 59, 408971]) ?_ (by decide +kernel) (by decide +kernel)
    (by decide +kernel) (by decide +kernel)
  intro s hs
  rw [List.mem_append] at hs
  rcases hs with hs | hs
  · rw [List.eq_of_mem_replicate hs]; exact Nat.prime_two
  · simp only [List.mem_cons, List.not_mem_nil, or_false] at hs
    rcases hs with rfl | rfl | rfl | rfl | rfl
    · norm_num
    · norm_num
    · norm_num
    · norm_num
    · exact prime_408971

theorem prime_12743 : Nat.Prime 12743 := by
  refine pratt _ 5 14 (List.replicate 1 2 ++ [23, 277]) ?_ (by decide +kernel) (by decide +kernel)
    (by decide +kernel) (by decide +kernel)
  intro s hs
  rw [List.mem_append] at hs
  rcases hs with hs | hs
  · rw [List.eq_of_mem_replicate hs]; exact Nat.prime_two
  · simp only [List.mem_cons, List.not_mem_nil, or_false] at hs
    rcases hs with rfl | rfl
    · norm_num
    · norm_num

theorem prime_5301089 : Nat.Prime 5301089 := by
  refine pratt _ 3 23 (List.replicate 5 2 ++ [13, 12743]) ?_ (by decide +kernel) (by decide +kernel)
    (by decide +kernel) (by decide +kernel)
  intro s hs
  rw [List.mem_append] at hs
  rcases hs with hs | hs
  · rw [List.eq_of_mem_replicate hs]; exact Nat.prime_two
  · simp only [List.mem_cons, List.not_mem_nil, or_false] at hs
    rcases hs with rfl | rfl
    · norm_num
    · exact prime_12743

theorem prime_1693 : Nat.Prime 1693 := by
  refine pratt _ 2 11 (List.replicate 2 2 ++ [3, 3, 47]) ?_ (by decide +kernel) (by decide +kernel)
    (by decide +kernel) (by decide +kernel)
  intro s hs
  rw [List.mem_append] at hs
  rcases hs with hs | hs
  · rw [List.eq_of_mem_replicate hs]; exact Nat.prime_two
  · simp only [List.mem_cons, List.not_mem_nil, or_false] at hs
    rcases hs with rfl | rfl | rfl
    · norm_num
    · norm_num
    · norm_num

theorem prime_8583511 : Nat.Prime 8583511 := by
  refine pratt _ 6 24 (List.replicate 1 2 ++ [3, 5, 13, 13, 1693]) ?_ (by decide +kernel) (by decide +kernel)
    (by decide +kernel) (by decide +kernel)
  intro s hs
  rw [List.mem_append] at hs
  rcases hs with hs | hs
  · rw [List.eq_of_mem_replicate hs]; exact Nat.prime_two
  · simp only [List.mem_cons, List.not_mem_nil, or_false] at hs
    rcases hs with rfl | rfl | rfl | rfl | rfl
    · norm_num
    · norm_num
    · norm_num
    · norm_num
    · exact prime_1693

theorem prime_5187222954756607 : Nat.Prime 5187222954756607 := by
  refine pratt _ 3 53 (List.replicate 1 2 ++ [3, 19, 5301089, 8583511]) ?_ (by decide +kernel) (by decide +kernel)
    (by decide +kernel) (by decide +kernel)
  intro s hs
  rw [List.mem_append] at hs
  rcases hs with hs | hs
  · rw [List.eq_of_mem_replicate hs]; exact Nat.prime_two
  · simp only [List.mem_cons, List.not_mem_nil, or_false] at hs
    rcases hs with rfl | rfl | rfl | rfl
    · norm_num
    · norm_num
    · exact prime_5301089
    · exact prime_8583511

theorem prime_7880826209898991662826602799 : Nat.Prime 7880826209898991662826602799 := by
  refine pratt _ 21 93 (List.replicate 1 2 ++ [3, 53, 4777599223, 5187222954756607]) ?_ (by decide +kernel) (by decide +kernel)
    (by decide +kernel) (by decide +kernel)
  intro s hs
  rw [List.mem_append] at hs
  rcases hs with hs | hs
  · rw [List.eq_of_mem_replicate hs]; exact Nat.prime_two
  · simp only [List.mem_cons, List.not_mem_nil, or_false] at hs
    rcases hs with rfl | rfl | rfl | rfl
    · norm_num
    · norm_num
    · exact prime_4777599223
    · exact prime_5187222954756607

theorem prime_73387170334035996766247648424745786170238574695861388454532790956181 : Nat.Prime 73387170334035996766247648424745786170238574695861388454532790956181 := by
  refine pratt _ 3 226 (List.replicate 2 2 ++ [5, 11, 23, 494527005853, 3721412928183745004194199, 7880826209898991662826602799]) ?_ (by decide +kernel) (by decide +kernel)
    (by decide +kernel) (by decide +kernel)
  intro s hs
  rw [List.mem_append] at hs
  rcases hs with hs | hs
  · rw [List.eq_of_mem_replicate hs]; exact Nat.prime_two
  · simp only [List.mem_cons, List.not_mem_nil, or_false] at hs
    rcases hs with rfl | rfl | rfl | rfl | rfl | rfl
    · norm_num
    · norm_num
    · norm_num
    · exact prime_494527005853
    · exact prime_3721412928183745004194199
    · exact prime_7880826209898991662826602799

theorem prime_258664426012969094010652733694893533536393512754914660539884262666720468348340822774968888139573360124440321458177 : Nat.Prime 258664426012969094010652733694893533536393512754914660539884262666720468348340822774968888139573360124440321458177 := by
  refine pratt _ 15 377 (List.replicate 46 2 ++ [3, 7, 13, 53, 409, 499, 2557, 6633514200929891813, 73387170334035996766247648424745786170238574695861388454532790956181]) ?_ (by decide +kernel) (by decide +kernel)
    (by decide +kernel) (by decide +kernel)
  intro s hs
  rw [List.mem_append] at hs
  rcases hs with hs | hs
  · rw [List.eq_of_mem_replicate hs]; exact Nat.prime_two
  · simp only [List.mem_cons, List.not_mem_nil, or_false] at hs
    rcases hs with rfl | rfl | rfl | rfl | rfl | rfl | rfl | rfl | rfl
    · norm_num
    · norm_num
    · norm_num
    · norm_num
    · norm_num
    · norm_num
    · exact prime_2557
    · exact prime_6633514200929891813
    · exact prime_73387170334035996766247648424745786170238574695861388454532790956181

/-- Order of the prime subgroups of BLS12-377 (`ark_bls12_377::Fr`, external constant). -/
def FR_MODULUS : ℕ := 8444461749428370424248824938781546531375899335154063827935233455917409239041

/-- Base field of BLS12-377 = scalar field of BW6-761 (`ark_bls12_377::Fq` / `ark_bw6_761::Fr`,
external constant). -/
def FQ_MODULUS : ℕ :=
  258664426012969094010652733694893533536393512754914660539884262666720468348340822774968888139573360124440321458177

theorem FR_prime : Nat.Prime FR_MODULUS := prime_8444461749428370424248824938781546531375899335154063827935233455917409239041

theorem FQ_prime : Nat.Prime FQ_MODULUS := prime_258664426012969094010652733694893533536393512754914660539884262666720468348340822774968888139573360124440321458177

instance : Fact (Nat.Prime FR_MODULUS) := ⟨FR_prime⟩
instance : Fact (Nat.Prime FQ_MODULUS) := ⟨FQ_prime⟩

theorem FR_bounds : 2 ^ 252 < FR_MODULUS ∧ FR_MODULUS < 2 ^ 253 := by decide +kernel

theorem FQ_bounds : 2 ^ 376 < FQ_MODULUS ∧ FQ_MODULUS < 2 ^ 377 := by decide +kernel

end Verif
