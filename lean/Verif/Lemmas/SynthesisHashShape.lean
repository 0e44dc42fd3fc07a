import Verif.Lemmas.SynthesisProver
import Verif.Lemmas.SynthesisSetup
import Verif.Lemmas.SynthesisInputs
import Verif.Lemmas.SynthesisGroth
import Verif.Model.SynthesisHash
import Verif.Props.CircuitCurve
import Verif.Props.HashGadget

/-! Helper lemmas for hashing to G1 as rank-1 constraints. -/

set_option linter.unusedSectionVars false

namespace Verif


section

variable {p : ℕ} [Fact p.Prime]

theorem alike_g1AddRest (b : ZMod p) (xx yy zz xy xz yz : LinComb p) :
    Alike (g1AddRest b xx yy zz xy xz yz) (g1AddRest b xx yy zz xy xz yz) :=
  (alike_fpMul _ _).bind fun _ => (alike_fpMul _ _).bind fun _ => (alike_fpMul _ _).bind fun _ => 
    (alike_fpMul _ _).bind fun _ => (alike_fpMul _ _).bind fun _ => (alike_fpMul _ _).bind fun _ => 
    alike_pure _

theorem alike_g1Add (b : ZMod p) (u v : G1V p) : Alike (g1Add b u v) (g1Add b u v) :=
  (alike_fpMul _ _).bind fun _ => (alike_fpMul _ _).bind fun _ => (alike_fpMul _ _).bind fun _ => 
    (alike_fpMul _ _).bind fun _ => (alike_fpMul _ _).bind fun _ => (alike_fpMul _ _).bind fun _ => 
    alike_g1AddRest _ _ _ _ _ _ _

theorem alike_g1Double (b : ZMod p) (v : G1V p) : Alike (g1Double b v) (g1Double b v) :=
  (alike_fpMul _ _).bind fun _ => (alike_fpMul _ _).bind fun _ => (alike_fpMul _ _).bind fun _ => 
    (alike_fpMul _ _).bind fun _ => (alike_fpMul _ _).bind fun _ => (alike_fpMul _ _).bind fun _ => 
    (alike_fpMul _ _).bind fun _ => (alike_fpMul _ _).bind fun _ => (alike_fpMul _ _).bind fun _ => 
    (alike_fpMul _ _).bind fun _ => (alike_fpMul _ _).bind fun _ => alike_pure _

theorem alike_g1AddAssign (drop : Bool) (b : ZMod p) (acc : Option (G1V p)) (v : G1V p) :
    Alike (g1AddAssign drop b acc v) (g1AddAssign drop b acc v) := by
  cases acc with
  | some u => exact alike_g1Add _ _ _
  | none =>
    cases drop with
    | true => exact alike_pure _
    | false => exact alike_g1AddRest _ _ _ _ _ _ _

theorem alike_scalarMulLeV (drop : Bool) (b : ZMod p) (bits : List Bool) (res : Option (G1V p))
    (v : G1V p) : Alike (scalarMulLeV drop b bits res v) (scalarMulLeV drop b bits res v) := by
  induction bits generalizing res v with
  | nil => exact alike_pure _
  | cons c cs ih => exact (alike_g1AddAssign _ _ _ _).bind fun _ => (alike_g1Double _ _).bind fun _ => ih _ _

theorem alike_scaleByCofactorV (drop : Bool) (v : G1V p) : Alike (scaleByCofactorV drop v) (scaleByCofactorV drop v) :=
  (alike_scalarMulLeV _ _ _ _ _).bind fun _ => alike_pure _

end

section

variable {G : HashGadgets} (hp : ∀ m, Alike (G.pedersen m) (G.pedersen m)) (hb : ∀ m q, Alike (G.blake m q) (G.blake m q))
include hp

theorem alike_pedersenBitsV (m : List (List BoolV)) : Alike (pedersenBitsV G m) (pedersenBitsV G m) :=
  (hp m).bind fun _ => (alike_toBitsLe _).bind fun _ => alike_pure _

omit hp
include hb

theorem alike_hashToBitsV (N : HashNative) (m : List BoolV) (l : UInt16) (q : Bytes) (generate : Bool) :
    Alike (hashToBitsV G N m l q generate) (hashToBitsV G N m l q generate) := by
  unfold hashToBitsV
  split
  · split
    · exact alike_panic _
    · exact (alike_mapM (forall₂_same' (fun _ => hb _ _) _)).bind fun _ => alike_pure _
  · exact alike_mapM (forall₂_same' (fun _ => alike_boolWitness _ _) _)

omit hb

theorem alike_hashToGroupRest (N : HashNative) (compat drop : Bool) (xof : List BoolV) (t : BoolV) :
    Alike (hashToGroupRest N compat drop xof t) (hashToGroupRest N compat drop xof t) :=
  (alike_allocPointG1 _ _ _ _ _ _ _).bind fun _ => (alike_toBitsLe _).bind fun _ => (alike_normalize _).bind fun _ =>
    (alike_forM (forall₂_same' (fun _ => alike_boolEnforceEqual _ _) _)).bind fun _ => (alike_boolEnforceEqual _ _).bind fun _ =>
      alike_scaleByCofactorV _ _

theorem alike_hashToGroupV (N : HashNative) (compat drop : Bool) (xof : List BoolV) :
    Alike (hashToGroupV N compat drop xof) (hashToGroupV N compat drop xof) := by
  unfold hashToGroupV
  split
  · exact alike_panic _
  · split
    · exact alike_panic _
    · exact alike_hashToGroupRest _ _ _ _ _

include hp hb

theorem alike_enforceHashToGroupV (N : HashNative) (compat drop : Bool) (counter : List BoolV)
    (m extra : List (List BoolV)) (generate : Bool) :
    Alike (enforceHashToGroupV G N compat drop counter m extra generate) (enforceHashToGroupV G N compat drop counter m extra generate) :=
  (alike_pedersenBitsV hp _).bind fun _ => (alike_hashToBitsV hb _ _ _ _ _).bind fun _ =>
    (alike_hashToGroupV _ _ _ _).bind fun _ => alike_pure _

theorem alike_hashBitsToG1V (N : HashNative) (compat drop generate : Bool) (xs ys : List BoolV) :
    Alike (hashBitsToG1V G N compat drop generate xs ys) (hashBitsToG1V G N compat drop generate xs ys) :=
  (alike_mapM (forall₂_same' (fun _ => alike_boolWitness _ _) _)).bind fun _ => alike_enforceHashToGroupV hp hb _ _ _ _ _ _ _

end

section

variable {p : ℕ} [Fact p.Prime]

theorem keeps_g1AddRest (b : ZMod p) (xx yy zz xy xz yz : LinComb p) :
    KeepsInputs (g1AddRest b xx yy zz xy xz yz) :=
  (keeps_fpMul _ _).bind fun _ => (keeps_fpMul _ _).bind fun _ => (keeps_fpMul _ _).bind fun _ => 
    (keeps_fpMul _ _).bind fun _ => (keeps_fpMul _ _).bind fun _ => (keeps_fpMul _ _).bind fun _ => 
    keeps_pure _

theorem keeps_g1Add (b : ZMod p) (u v : G1V p) : KeepsInputs (g1Add b u v) :=
  (keeps_fpMul _ _).bind fun _ => (keeps_fpMul _ _).bind fun _ => (keeps_fpMul _ _).bind fun _ => 
    (keeps_fpMul _ _).bind fun _ => (keeps_fpMul _ _).bind fun _ => (keeps_fpMul _ _).bind fun _ => 
    keeps_g1AddRest _ _ _ _ _ _ _

theorem keeps_g1Double (b : ZMod p) (v : G1V p) : KeepsInputs (g1Double b v) :=
  (keeps_fpMul _ _).bind fun _ => (keeps_fpMul _ _).bind fun _ => (keeps_fpMul _ _).bind fun _ => 
    (keeps_fpMul _ _).bind fun _ => (keeps_fpMul _ _).bind fun _ => (keeps_fpMul _ _).bind fun _ => 
    (keeps_fpMul _ _).bind fun _ => (keeps_fpMul _ _).bind fun _ => (keeps_fpMul _ _).bind fun _ => 
    (keeps_fpMul _ _).bind fun _ => (keeps_fpMul _ _).bind fun _ => keeps_pure _

theorem keeps_g1AddAssign (drop : Bool) (b : ZMod p) (acc : Option (G1V p)) (v : G1V p) :
    KeepsInputs (g1AddAssign drop b acc v) := by
  cases acc with
  | some u => exact keeps_g1Add _ _ _
  | none =>
    cases drop with
    | true => exact keeps_pure _
    | false => exact keeps_g1AddRest _ _ _ _ _ _ _

theorem keeps_scalarMulLeV (drop : Bool) (b : ZMod p) (bits : List Bool) (res : Option (G1V p))
    (v : G1V p) : KeepsInputs (scalarMulLeV drop b bits res v) := by
  induction bits generalizing res v with
  | nil => exact keeps_pure _
  | cons c cs ih => exact (keeps_g1AddAssign _ _ _ _).bind fun _ => (keeps_g1Double _ _).bind fun _ => ih _ _

theorem keeps_scaleByCofactorV (drop : Bool) (v : G1V p) : KeepsInputs (scaleByCofactorV drop v) :=
  (keeps_scalarMulLeV _ _ _ _ _).bind fun _ => keeps_pure _

end

section

variable {G : HashGadgets} (hp : ∀ m, KeepsInputs (G.pedersen m)) (hb : ∀ m q, KeepsInputs (G.blake m q))
include hp

theorem keeps_pedersenBitsV (m : List (List BoolV)) : KeepsInputs (pedersenBitsV G m) :=
  (hp m).bind fun _ => (keeps_toBitsLe _).bind fun _ => keeps_pure _

omit hp
include hb

theorem keeps_hashToBitsV (N : HashNative) (m : List BoolV) (l : UInt16) (q : Bytes) (generate : Bool) :
    KeepsInputs (hashToBitsV G N m l q generate) := by
  unfold hashToBitsV
  split
  · split
    · exact keeps_panic
    · exact (keeps_mapM (fun _ => hb _ _) _).bind fun _ => keeps_pure _
  · exact keeps_mapM (fun _ => keeps_boolWitness _) _

omit hb

theorem keeps_hashToGroupRest (N : HashNative) (compat drop : Bool) (xof : List BoolV) (t : BoolV) :
    KeepsInputs (hashToGroupRest N compat drop xof t) :=
  (keeps_allocPointG1 _ _ _ _).bind fun _ => (keeps_toBitsLe _).bind fun _ => (keeps_normalize _).bind fun _ =>
    (keeps_forM (fun _ => keeps_boolEnforceEqual _ _) _).bind fun _ => (keeps_boolEnforceEqual _ _).bind fun _ =>
      keeps_scaleByCofactorV _ _

theorem keeps_hashToGroupV (N : HashNative) (compat drop : Bool) (xof : List BoolV) :
    KeepsInputs (hashToGroupV N compat drop xof) := by
  unfold hashToGroupV
  split
  · exact keeps_panic
  · split
    · exact keeps_panic
    · exact keeps_hashToGroupRest _ _ _ _ _

include hp hb

theorem keeps_enforceHashToGroupV (N : HashNative) (compat drop : Bool) (counter : List BoolV)
    (m extra : List (List BoolV)) (generate : Bool) :
    KeepsInputs (enforceHashToGroupV G N compat drop counter m extra generate) :=
  (keeps_pedersenBitsV hp _).bind fun _ => (keeps_hashToBitsV hb _ _ _ _ _).bind fun _ =>
    (keeps_hashToGroupV _ _ _ _).bind fun _ => keeps_pure _

theorem keeps_hashBitsToG1V (N : HashNative) (compat drop generate : Bool) (xs ys : List BoolV) :
    KeepsInputs (hashBitsToG1V G N compat drop generate xs ys) :=
  (keeps_mapM (fun _ => keeps_boolWitness _) _).bind fun _ => keeps_enforceHashToGroupV hp hb _ _ _ _ _ _ _

end

section

variable {p : ℕ} [Fact p.Prime]

theorem follows_g1AddRest (b : ZMod p) (xx yy zz xy xz yz : LinComb p) :
    SetupFollows (g1AddRest b xx yy zz xy xz yz) (g1AddRest b xx yy zz xy xz yz) :=
  (follows_fpMul _ _).bind fun _ => (follows_fpMul _ _).bind fun _ => (follows_fpMul _ _).bind fun _ => 
    (follows_fpMul _ _).bind fun _ => (follows_fpMul _ _).bind fun _ => (follows_fpMul _ _).bind fun _ => 
    follows_pure _

theorem follows_g1Add (b : ZMod p) (u v : G1V p) : SetupFollows (g1Add b u v) (g1Add b u v) :=
  (follows_fpMul _ _).bind fun _ => (follows_fpMul _ _).bind fun _ => (follows_fpMul _ _).bind fun _ => 
    (follows_fpMul _ _).bind fun _ => (follows_fpMul _ _).bind fun _ => (follows_fpMul _ _).bind fun _ => 
    follows_g1AddRest _ _ _ _ _ _ _

theorem follows_g1Double (b : ZMod p) (v : G1V p) : SetupFollows (g1Double b v) (g1Double b v) :=
  (follows_fpMul _ _).bind fun _ => (follows_fpMul _ _).bind fun _ => (follows_fpMul _ _).bind fun _ => 
    (follows_fpMul _ _).bind fun _ => (follows_fpMul _ _).bind fun _ => (follows_fpMul _ _).bind fun _ => 
    (follows_fpMul _ _).bind fun _ => (follows_fpMul _ _).bind fun _ => (follows_fpMul _ _).bind fun _ => 
    (follows_fpMul _ _).bind fun _ => (follows_fpMul _ _).bind fun _ => follows_pure _

theorem follows_g1AddAssign (drop : Bool) (b : ZMod p) (acc : Option (G1V p)) (v : G1V p) :
    SetupFollows (g1AddAssign drop b acc v) (g1AddAssign drop b acc v) := by
  cases acc with
  | some u => exact follows_g1Add _ _ _
  | none =>
    cases drop with
    | true => exact follows_pure _
    | false => exact follows_g1AddRest _ _ _ _ _ _ _

theorem follows_scalarMulLeV (drop : Bool) (b : ZMod p) (bits : List Bool) (res : Option (G1V p))
    (v : G1V p) : SetupFollows (scalarMulLeV drop b bits res v) (scalarMulLeV drop b bits res v) := by
  induction bits generalizing res v with
  | nil => exact follows_pure _
  | cons c cs ih => exact (follows_g1AddAssign _ _ _ _).bind fun _ => (follows_g1Double _ _).bind fun _ => ih _ _

theorem follows_scaleByCofactorV (drop : Bool) (v : G1V p) : SetupFollows (scaleByCofactorV drop v) (scaleByCofactorV drop v) :=
  (follows_scalarMulLeV _ _ _ _ _).bind fun _ => follows_pure _

end

section

variable {G : HashGadgets} (hp : ∀ m, SetupFollows (G.pedersen m) (G.pedersen m)) (hb : ∀ m q, SetupFollows (G.blake m q) (G.blake m q))
include hp

theorem follows_pedersenBitsV (m : List (List BoolV)) : SetupFollows (pedersenBitsV G m) (pedersenBitsV G m) :=
  (hp m).bind fun _ => (follows_toBitsLe _).bind fun _ => follows_pure _

omit hp
include hb

theorem follows_hashToBitsV (N : HashNative) (m : List BoolV) (l : UInt16) (q : Bytes) (generate : Bool) :
    SetupFollows (hashToBitsV G N m l q generate) (hashToBitsV G N m l q generate) := by
  unfold hashToBitsV
  split
  · split
    · exact follows_panic _
    · exact (follows_mapM (forall₂_same' (fun _ => hb _ _) _)).bind fun _ => follows_pure _
  · exact follows_mapM (forall₂_same' (fun _ => follows_boolWitness _ _) _)

omit hb

theorem follows_hashToGroupRest (N : HashNative) (compat drop : Bool) (xof : List BoolV) (t : BoolV) :
    SetupFollows (hashToGroupRest N compat drop xof t) (hashToGroupRest N compat drop xof t) :=
  (follows_allocPointG1 _ _ _ _ _ _ _).bind fun _ => (follows_toBitsLe _).bind fun _ => (follows_normalize _).bind fun _ =>
    (follows_forM (forall₂_same' (fun _ => follows_boolEnforceEqual _ _) _)).bind fun _ => (follows_boolEnforceEqual _ _).bind fun _ =>
      follows_scaleByCofactorV _ _

theorem follows_hashToGroupV (N : HashNative) (compat drop : Bool) (xof : List BoolV) :
    SetupFollows (hashToGroupV N compat drop xof) (hashToGroupV N compat drop xof) := by
  unfold hashToGroupV
  split
  · exact follows_panic _
  · split
    · exact follows_panic _
    · exact follows_hashToGroupRest _ _ _ _ _

include hp hb

theorem follows_enforceHashToGroupV (N : HashNative) (compat drop : Bool) (counter : List BoolV)
    (m extra : List (List BoolV)) (generate : Bool) :
    SetupFollows (enforceHashToGroupV G N compat drop counter m extra generate) (enforceHashToGroupV G N compat drop counter m extra generate) :=
  (follows_pedersenBitsV hp _).bind fun _ => (follows_hashToBitsV hb _ _ _ _ _).bind fun _ =>
    (follows_hashToGroupV _ _ _ _).bind fun _ => follows_pure _

theorem follows_hashBitsToG1V (N : HashNative) (compat drop generate : Bool) (xs ys : List BoolV) :
    SetupFollows (hashBitsToG1V G N compat drop generate xs ys) (hashBitsToG1V G N compat drop generate xs ys) :=
  (follows_mapM (forall₂_same' (fun _ => follows_boolWitness _ _) _)).bind fun _ => follows_enforceHashToGroupV hp hb _ _ _ _ _ _ _

end

end Verif
