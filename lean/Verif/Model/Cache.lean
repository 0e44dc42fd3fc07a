import Verif.Basic
import Mathlib.Algebra.Group.Basic

/-!
# The public key cache

Models `crates/bls-crypto/src/bls/cache.rs` and the global cache of
`crates/bls-snark-sys/src/cache.rs`.

Here a public key is a projective representation `(x, y, z)`, because `WrappedPublicKey` compares
representations.  The curve arithmetic on representations is a parameter (`CurveOps`).
-/

namespace Verif

/-- Coordinates of a `G2Projective` (ark_ec, external), as accessed at
`crates/bls-crypto/src/bls/cache.rs:102` and `cache.rs:109`. -/
structure JacRep (F : Type*) where
  x : F
  y : F
  z : F
  deriving DecidableEq, Repr

/-- Arithmetic on representations (ark_ec, external): `pt` is the denoted group element; addition
and subtraction are only assumed to be correct on denoted elements - the resulting representation
is unspecified.  Used at `crates/bls-crypto/src/bls/cache.rs:35,43,75,80`. -/
structure CurveOps (F G : Type*) [AddCommGroup G] where
  pt : JacRep F → G
  zero : JacRep F
  add : JacRep F → JacRep F → JacRep F
  sub : JacRep F → JacRep F → JacRep F
  pt_zero : pt zero = 0
  pt_add : ∀ a b, pt (add a b) = pt a + pt b
  pt_sub : ∀ a b, pt (sub a b) = pt a - pt b

section
variable {F : Type*} [DecidableEq F]

/-- `PartialEq for WrappedPublicKey`, `crates/bls-crypto/src/bls/cache.rs:94-104`. -/
def wrappedEq (a b : JacRep F) : Bool := a.x = b.x && a.y = b.y && a.z = b.z

/-- `Hash for WrappedPublicKey`, `crates/bls-crypto/src/bls/cache.rs:106-111`: only `y` is fed to
the hasher `hy` (the seeded `SipHash` of one `HashSet`, an arbitrary function). -/
def wrappedHash (hy : F → ℕ) (a : JacRep F) : ℕ := hy a.y

/-- `std::collections::HashSet<WrappedPublicKey>` (external), used at
`crates/bls-crypto/src/bls/cache.rs:16,34,66`: its elements (in an arbitrary order) and its seeded
hash function. -/
structure KeySet (F : Type*) where
  elems : List (JacRep F)
  hy : F → ℕ

/-- `HashSet::contains` (external), behind `difference` at `crates/bls-crypto/src/bls/cache.rs:74,79`: an
equal element is found only among those with an equal hash. -/
def KeySet.contains (s : KeySet F) (k : JacRep F) : Bool :=
  s.elems.any fun k' => wrappedHash s.hy k' = wrappedHash s.hy k && wrappedEq k' k

/-- `HashSet::insert` (external), used at `crates/bls-crypto/src/bls/cache.rs:68`. -/
def KeySet.insert (s : KeySet F) (k : JacRep F) : KeySet F :=
  if s.contains k then s else { s with elems := s.elems ++ [k] }

/-- `HashSet::difference` (external), used at `crates/bls-crypto/src/bls/cache.rs:74,79`; the
iteration order is the arbitrary rearrangement `shuffle`. -/
def KeySet.difference (s t : KeySet F) (shuffle : List (JacRep F) → List (JacRep F)) :
    List (JacRep F) :=
  shuffle (s.elems.filter fun k => !t.contains k)

/-- `PublicKeyCache`, `crates/bls-crypto/src/bls/cache.rs:14-22`.  `de` is the `LruCache`, most
recently used entry first. -/
structure PublicKeyCache (F : Type*) where
  keys : KeySet F
  combined : JacRep F
  de : List (Bytes × JacRep F)

/-- Capacity of the deserialisation cache, `crates/bls-crypto/src/bls/cache.rs:36`. -/
def LRU_CAP : ℕ := 512

variable {G : Type*} [AddCommGroup G] (ops : CurveOps F G)

/-- `PublicKeyCache::new`, `crates/bls-crypto/src/bls/cache.rs:32-38`. -/
def PublicKeyCache.new (hy : F → ℕ) : PublicKeyCache F := ⟨⟨[], hy⟩, ops.zero, []⟩

/-- `PublicKeyCache::clear_cache`, `crates/bls-crypto/src/bls/cache.rs:41-45`. -/
def PublicKeyCache.clearCache (c : PublicKeyCache F) (hy : F → ℕ) : PublicKeyCache F :=
  { c with keys := ⟨[], hy⟩, combined := ops.zero, de := [] }

/-- `LruCache::get` (lru 0.7.8, external), used at `crates/bls-crypto/src/bls/cache.rs:50`: a hit
moves the entry to the front. -/
def lruGet (l : List (Bytes × JacRep F)) (data : Bytes) :
    Option (JacRep F) × List (Bytes × JacRep F) :=
  match l.find? fun e => e.1 = data with
  | some e => (some e.2, e :: l.filter fun e' => e'.1 ≠ data)
  | none => (none, l)

/-- `LruCache::put` (lru 0.7.8, external), used at `crates/bls-crypto/src/bls/cache.rs:57`: insert
at the front, replacing an entry with the same key, evicting the least recently used entry when
full. -/
def lruPut (l : List (Bytes × JacRep F)) (data : Bytes) (k : JacRep F) :
    List (Bytes × JacRep F) :=
  (data, k) :: (l.filter fun e' => e'.1 ≠ data).take (LRU_CAP - 1)

/-- `PublicKeyCache::deserialize`, `crates/bls-crypto/src/bls/cache.rs:49-61`; `deser` is
`PublicKey::deserialize` on the byte string. -/
def PublicKeyCache.deserialize {ε : Type*} (deser : Bytes → Outcome ε (JacRep F))
    (c : PublicKeyCache F) (data : Bytes) : Outcome ε (JacRep F) × PublicKeyCache F :=
  match lruGet c.de data with
  | (some k, de') => (.ok k, { c with de := de' })
  | (none, de') =>
    match deser data with
    | .ok k => (.ok k, { c with de := lruPut de' data k })
    | .err e => (.err e, { c with de := de' })
    | .panic => (.panic, { c with de := de' })

/-- `PublicKeyCache::aggregate`, `crates/bls-crypto/src/bls/cache.rs:65-87`.  `hy` is the seed of
the freshly created set, `sh1`, `sh2` the iteration orders of the two `difference` loops. -/
def PublicKeyCache.aggregate (c : PublicKeyCache F) (publicKeys : List (JacRep F)) (hy : F → ℕ)
    (sh1 sh2 : List (JacRep F) → List (JacRep F)) : JacRep F × PublicKeyCache F :=
  let keys := publicKeys.foldl KeySet.insert ⟨[], hy⟩
  let combined := (c.keys.difference keys sh1).foldl ops.sub c.combined
  let combined := (keys.difference c.keys sh2).foldl ops.add combined
  (combined, { c with keys := keys, combined := combined })

end

/-- A call on the cache (public API of `PublicKeyCache`), with the non-determinism of the hash sets
it creates made explicit: seeds and iteration orders (`crates/bls-crypto/src/bls/cache.rs:41-87`;
the last two constructors with the surrounding FFI code of
`crates/bls-snark-sys/src/signatures.rs:428-482`, executed under the mutex of
`crates/bls-snark-sys/src/cache.rs:5-6`). -/
inductive CacheCall (F : Type*) where
  | aggregate (keys : List (JacRep F)) (hy : F → ℕ)
      (sh1 sh2 : List (JacRep F) → List (JacRep F))
  | deserialize (data : Bytes)
  | clear (hy : F → ℕ)
  | aggregateSubtract (agg : JacRep F) (keys : List (JacRep F)) (hy : F → ℕ)
      (sh1 sh2 : List (JacRep F) → List (JacRep F))

/-- The iteration orders of a call (`crates/bls-crypto/src/bls/cache.rs:74,79`) are rearrangements (what a
`HashSet` iterator guarantees, external). -/
def CacheCall.Fair {F : Type*} : CacheCall F → Prop
  | .aggregate _ _ sh1 sh2 => (∀ l, (sh1 l).Perm l) ∧ ∀ l, (sh2 l).Perm l
  | .deserialize _ => True
  | .clear _ => True
  | .aggregateSubtract _ _ _ sh1 sh2 => (∀ l, (sh1 l).Perm l) ∧ ∀ l, (sh2 l).Perm l

section
variable {F : Type*} [DecidableEq F] {G : Type*} [AddCommGroup G] (ops : CurveOps F G)
variable {ε : Type*} (deser : Bytes → Outcome ε (JacRep F))

/-- One call: the returned representation (or error) and the new cache.  `aggregate`,
`deserialize`, `clear_cache`: `crates/bls-crypto/src/bls/cache.rs:41-87`;
`aggregate_public_keys_subtract`: `crates/bls-snark-sys/src/signatures.rs:469-474`. -/
def CacheCall.step (c : PublicKeyCache F) : CacheCall F →
    Outcome ε (Option (JacRep F)) × PublicKeyCache F
  | .aggregate keys hy sh1 sh2 =>
    let (k, c') := c.aggregate ops keys hy sh1 sh2
    (.ok (some k), c')
  | .deserialize data =>
    let (k, c') := c.deserialize deser data
    (k.map some, c')
  | .clear hy => (.ok none, c.clearCache ops hy)
  | .aggregateSubtract agg keys hy sh1 sh2 =>
    let (k, c') := c.aggregate ops keys hy sh1 sh2
    (.ok (some (ops.sub agg k)), c')

/-- A history of calls on the cache (`&mut self`, or the mutex, serialises them:
`crates/bls-snark-sys/src/cache.rs:5-6`). -/
def runCalls (c : PublicKeyCache F) : List (CacheCall F) →
    List (Outcome ε (Option (JacRep F))) × PublicKeyCache F
  | [] => ([], c)
  | call :: rest =>
    let (o, c') := call.step ops deser c
    let (os, c'') := runCalls c' rest
    (o :: os, c'')

end

/-- All interleavings of the threads' programs: `Interleave progs tr` says that `tr` (calls tagged
with thread numbers) is a merge of the programs preserving each program's order.  Each call is one
critical section of the mutex at `crates/bls-snark-sys/src/cache.rs:5-6`. -/
inductive Interleave {α : Type*} : List (List α) → List (ℕ × α) → Prop
  | done (progs : List (List α)) (h : ∀ p ∈ progs, p = []) : Interleave progs []
  | step (progs : List (List α)) (i : ℕ) (a : α) (p : List α) (tr : List (ℕ × α))
      (hi : progs[i]? = some (a :: p)) (h : Interleave (progs.set i p) tr) :
      Interleave progs ((i, a) :: tr)

end Verif
