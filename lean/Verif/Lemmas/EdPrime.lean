import Verif.Lemmas.Ecpp
import Verif.Lemmas.Pratt
import Verif.Model.Pedersen
import Mathlib.Tactic.NormNum.Prime

/-! The order of the prime-order subgroup of the Edwards curve is prime, by a chain of elliptic curve
certificates (helper; models nothing in /repo). -/

set_option exponentiation.threshold 1000
set_option maxRecDepth 20000

namespace Verif

/-- The binary digits of a scalar below the leading one. -/
def scalarBits (n : ℕ) : List Bool :=
  ((List.range (Nat.log2 n)).map n.testBit).reverse

theorem ecpp_prime_1301 : Nat.Prime 1301 := by
  refine pratt 1301 2 12 [2, 2, 5, 5, 13] ?_ (by norm_num) (by norm_num) (by decide +kernel) (by decide +kernel)
  simp only [List.mem_cons, List.not_mem_nil, or_false]
  rintro q h
  rcases h with rfl | rfl | rfl | rfl | rfl
  · norm_num
  · norm_num
  · norm_num
  · norm_num
  · norm_num

theorem ecpp_prime_1399 : Nat.Prime 1399 := by
  refine pratt 1399 13 12 [2, 3, 233] ?_ (by norm_num) (by norm_num) (by decide +kernel) (by decide +kernel)
  simp only [List.mem_cons, List.not_mem_nil, or_false]
  rintro q h
  rcases h with rfl | rfl | rfl
  · norm_num
  · norm_num
  · norm_num

theorem ecpp_prime_184669 : Nat.Prime 184669 := by
  refine pratt 184669 2 19 [2, 2, 3, 11, 1399] ?_ (by norm_num) (by norm_num) (by decide +kernel) (by decide +kernel)
  simp only [List.mem_cons, List.not_mem_nil, or_false]
  rintro q h
  rcases h with rfl | rfl | rfl | rfl | rfl
  · norm_num
  · norm_num
  · norm_num
  · norm_num
  · exact ecpp_prime_1399

theorem ecpp_prime_178020917 : Nat.Prime 178020917 := by
  refine pratt 178020917 2 29 [2, 2, 241, 184669] ?_ (by norm_num) (by norm_num) (by decide +kernel) (by decide +kernel)
  simp only [List.mem_cons, List.not_mem_nil, or_false]
  rintro q h
  rcases h with rfl | rfl | rfl | rfl
  · norm_num
  · norm_num
  · norm_num
  · exact ecpp_prime_184669

theorem ecpp_prime_49bit : Nat.Prime 490539841170007 := by
  refine pratt 490539841170007 6 50 [2, 3, 353, 1301, 178020917] ?_ (by norm_num) (by norm_num) (by decide +kernel) (by decide +kernel)
  simp only [List.mem_cons, List.not_mem_nil, or_false]
  rintro q h
  rcases h with rfl | rfl | rfl | rfl | rfl
  · norm_num
  · norm_num
  · norm_num
  · exact ecpp_prime_1301
  · exact ecpp_prime_178020917

theorem ecpp_prime_94bit : Nat.Prime 18329886627827395744381426291 := by
  refine ecpp 18329886627827395744381426291
    490539841170007
    8227070393250106601945022084
    5484713595500071067963348056
    6635928319231346560906912261
    2199116239180648072645190814
    (scalarBits 490539841170006)
    ?_ ecpp_prime_49bit ?_ ?_ ?_ ?_ ?_ <;> decide +kernel

theorem ecpp_prime_142bit : Nat.Prime 3588731101325728258044531896482345742812577 := by
  refine ecpp 3588731101325728258044531896482345742812577
    18329886627827395744381426291
    569639857353290199689608237536880276636915
    2772247305786012305156093422679484012966328
    2134373412765927798739515807538689475685860
    49301062669882281459561010737366969611573
    (scalarBits 18329886627827395744381426290)
    ?_ ecpp_prime_94bit ?_ ?_ ?_ ?_ ?_ <;> decide +kernel

theorem ecpp_prime_175bit : Nat.Prime 38726617999804832322563685515395327359523386813414107 := by
  refine ecpp 38726617999804832322563685515395327359523386813414107
    3588731101325728258044531896482345742812577
    9367050530864511652547293397463969451462873209199468
    25398273374420959644250953035083735055124959883403993
    30663466061004477260809255010377387170019838623930484
    29828726015914316790480774957025554897325216605253475
    (scalarBits 3588731101325728258044531896482345742812576)
    ?_ ecpp_prime_142bit ?_ ?_ ?_ ?_ ?_ <;> decide +kernel

theorem ecpp_prime_244bit : Nat.Prime 17550940233609423367279716017933257276335095959537211982726001087390726901 := by
  refine ecpp 17550940233609423367279716017933257276335095959537211982726001087390726901
    38726617999804832322563685515395327359523386813414107
    3744718793172918166372185170389843136443721472806476706656121584841851880
    8346792606651753233341362119570981183074179635050055132012748085691476887
    10338658422218670169107164064866970506640304101064537421652405442177242615
    15618785414254827269506578279919349108509610323995780230920735286674699442
    (scalarBits 38726617999804832322563685515395327359523386813414106)
    ?_ ecpp_prime_175bit ?_ ?_ ?_ ?_ ?_ <;> decide +kernel

theorem ecpp_prime_301bit : Nat.Prime 2168856724557563506549216067030669093334942525551085929167220891820908546762128791635110673 := by
  refine ecpp 2168856724557563506549216067030669093334942525551085929167220891820908546762128791635110673
    17550940233609423367279716017933257276335095959537211982726001087390726901
    104863752921761313721948616521574169620700343297157619284331721484161854831564121774868644
    1515813651652883213514109789034828841970428579232162365634368408870046934395795275606652878
    414915400514169248277207375809009841331649812480603180972421001445328115030494697044694479
    2113084558791183845548563539164569260268077849494462741044054821736619271358577319999343559
    (scalarBits 17550940233609423367279716017933257276335095959537211982726001087390726900)
    ?_ ecpp_prime_244bit ?_ ?_ ?_ ?_ ?_ <;> decide +kernel

theorem ed_order_prime : ED_ORDER.Prime := by
  unfold ED_ORDER
  refine ecpp 32333053251621136751331591711861691692049189094364332567435817881934511297123972799646723302813083835942624121493
    2168856724557563506549216067030669093334942525551085929167220891820908546762128791635110673
    2
    0
    5196790985307894785028044233006132303911087251849588177089081918124907009609576861814013143972990831143401540055
    2268381253211794593702672328397746409705141130203683846040333665827712743799271391323005519266792351361253331751
    (scalarBits 2168856724557563506549216067030669093334942525551085929167220891820908546762128791635110672)
    ?_ ecpp_prime_301bit ?_ ?_ ?_ ?_ ?_ <;> decide +kernel

end Verif
