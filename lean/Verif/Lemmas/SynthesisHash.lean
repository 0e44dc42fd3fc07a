import Verif.Lemmas.SynthesisHashShape

/-! Helper lemmas for hashing to G1 as rank-1 constraints: what they imply, and that they can be run. -/

set_option linter.unusedSectionVars false
set_option linter.unusedVariables false

namespace Verif

section

variable {p : ℕ} [Fact p.Prime]

theorem sound_g1AddRest {ρ : R1Var → ZMod p} (b : ZMod p) (xx yy zz xy xz yz : LinComb p) :
    Sound ρ (g1AddRest b xx yy zz xy xz yz) fun l =>
      pointAtG1 ρ l = ringAddRest b (evalLc ρ xx) (evalLc ρ yy) (evalLc ρ zz) (evalLc ρ xy)
        (evalLc ρ xz) (evalLc ρ yz) := by
  unfold g1AddRest
  refine (sound_fpMul _ _).bind (fun _ => (alike_fpMul _ _).bind fun _ => (alike_fpMul _ _).bind fun _ => 
      (alike_fpMul _ _).bind fun _ => (alike_fpMul _ _).bind fun _ => 
      (alike_fpMul _ _).bind fun _ => alike_pure _)
    fun x0 ex0 => ?_
  refine (sound_fpMul _ _).bind (fun _ => (alike_fpMul _ _).bind fun _ => (alike_fpMul _ _).bind fun _ => 
      (alike_fpMul _ _).bind fun _ => (alike_fpMul _ _).bind fun _ => 
      alike_pure _)
    fun x1 ex1 => ?_
  refine (sound_fpMul _ _).bind (fun _ => (alike_fpMul _ _).bind fun _ => (alike_fpMul _ _).bind fun _ => 
      (alike_fpMul _ _).bind fun _ => alike_pure _)
    fun y0 ey0 => ?_
  refine (sound_fpMul _ _).bind (fun _ => (alike_fpMul _ _).bind fun _ => (alike_fpMul _ _).bind fun _ => 
      alike_pure _)
    fun y1 ey1 => ?_
  refine (sound_fpMul _ _).bind (fun _ => (alike_fpMul _ _).bind fun _ => alike_pure _)
    fun z0 ez0 => ?_
  refine (sound_fpMul _ _).bind (fun _ => alike_pure _)
    fun z1 ez1 => ?_
  refine sound_pure ?_
  simp only [evalLc_lcSub, evalLc_append, evalLc_lcScale] at ex0 ex1 ey0 ey1 ez0 ez1
  ext1
  · simp only [pointAtG1, evalLc_lcSub, ex0, ex1, ringAddRest]; ring
  · simp only [pointAtG1, evalLc_append, ey0, ey1, ringAddRest]; ring
  · simp only [pointAtG1, evalLc_append, ez0, ez1, ringAddRest]; ring

theorem sound_g1Add {ρ : R1Var → ZMod p} (b : ZMod p) (u v : G1V p) :
    Sound ρ (g1Add b u v) fun l => pointAtG1 ρ l = circuitAdd b (pointAtG1 ρ u) (pointAtG1 ρ v) := by
  refine (sound_fpMul _ _).bind (fun _ => (alike_fpMul _ _).bind fun _ => (alike_fpMul _ _).bind fun _ => 
      (alike_fpMul _ _).bind fun _ => (alike_fpMul _ _).bind fun _ => 
      (alike_fpMul _ _).bind fun _ => alike_g1AddRest _ _ _ _ _ _ _)
    fun xx exx => ?_
  refine (sound_fpMul _ _).bind (fun _ => (alike_fpMul _ _).bind fun _ => (alike_fpMul _ _).bind fun _ => 
      (alike_fpMul _ _).bind fun _ => (alike_fpMul _ _).bind fun _ => 
      alike_g1AddRest _ _ _ _ _ _ _)
    fun yy eyy => ?_
  refine (sound_fpMul _ _).bind (fun _ => (alike_fpMul _ _).bind fun _ => (alike_fpMul _ _).bind fun _ => 
      (alike_fpMul _ _).bind fun _ => alike_g1AddRest _ _ _ _ _ _ _)
    fun zz ezz => ?_
  refine (sound_fpMul _ _).bind (fun _ => (alike_fpMul _ _).bind fun _ => (alike_fpMul _ _).bind fun _ => 
      alike_g1AddRest _ _ _ _ _ _ _)
    fun xy exy => ?_
  refine (sound_fpMul _ _).bind (fun _ => (alike_fpMul _ _).bind fun _ => alike_g1AddRest _ _ _ _ _ _ _)
    fun xz exz => ?_
  refine (sound_fpMul _ _).bind (fun _ => alike_g1AddRest _ _ _ _ _ _ _)
    fun yz eyz => ?_
  refine (sound_g1AddRest b _ _ _ _ _ _).mono fun l hl => ?_
  rw [hl, ← ringAdd_eq, exx, eyy, ezz, exy, exz, eyz]
  simp only [evalLc_append]
  rfl

theorem sound_g1Double {ρ : R1Var → ZMod p} (b : ZMod p) (v : G1V p) :
    Sound ρ (g1Double b v) fun l => pointAtG1 ρ l = circuitDouble b (pointAtG1 ρ v) := by
  unfold g1Double
  refine (sound_fpMul _ _).bind (fun _ => (alike_fpMul _ _).bind fun _ => (alike_fpMul _ _).bind fun _ => 
      (alike_fpMul _ _).bind fun _ => (alike_fpMul _ _).bind fun _ => 
      (alike_fpMul _ _).bind fun _ => (alike_fpMul _ _).bind fun _ => 
      (alike_fpMul _ _).bind fun _ => (alike_fpMul _ _).bind fun _ => 
      (alike_fpMul _ _).bind fun _ => (alike_fpMul _ _).bind fun _ => 
      alike_pure _)
    fun xx exx => ?_
  refine (sound_fpMul _ _).bind (fun _ => (alike_fpMul _ _).bind fun _ => (alike_fpMul _ _).bind fun _ => 
      (alike_fpMul _ _).bind fun _ => (alike_fpMul _ _).bind fun _ => 
      (alike_fpMul _ _).bind fun _ => (alike_fpMul _ _).bind fun _ => 
      (alike_fpMul _ _).bind fun _ => (alike_fpMul _ _).bind fun _ => 
      (alike_fpMul _ _).bind fun _ => alike_pure _)
    fun yy eyy => ?_
  refine (sound_fpMul _ _).bind (fun _ => (alike_fpMul _ _).bind fun _ => (alike_fpMul _ _).bind fun _ => 
      (alike_fpMul _ _).bind fun _ => (alike_fpMul _ _).bind fun _ => 
      (alike_fpMul _ _).bind fun _ => (alike_fpMul _ _).bind fun _ => 
      (alike_fpMul _ _).bind fun _ => (alike_fpMul _ _).bind fun _ => 
      alike_pure _)
    fun zz ezz => ?_
  refine (sound_fpMul _ _).bind (fun _ => (alike_fpMul _ _).bind fun _ => (alike_fpMul _ _).bind fun _ => 
      (alike_fpMul _ _).bind fun _ => (alike_fpMul _ _).bind fun _ => 
      (alike_fpMul _ _).bind fun _ => (alike_fpMul _ _).bind fun _ => 
      (alike_fpMul _ _).bind fun _ => alike_pure _)
    fun xy exy => ?_
  refine (sound_fpMul _ _).bind (fun _ => (alike_fpMul _ _).bind fun _ => (alike_fpMul _ _).bind fun _ => 
      (alike_fpMul _ _).bind fun _ => (alike_fpMul _ _).bind fun _ => 
      (alike_fpMul _ _).bind fun _ => (alike_fpMul _ _).bind fun _ => 
      alike_pure _)
    fun xz exz => ?_
  refine (sound_fpMul _ _).bind (fun _ => (alike_fpMul _ _).bind fun _ => (alike_fpMul _ _).bind fun _ => 
      (alike_fpMul _ _).bind fun _ => (alike_fpMul _ _).bind fun _ => 
      (alike_fpMul _ _).bind fun _ => alike_pure _)
    fun yz eyz => ?_
  refine (sound_fpMul _ _).bind (fun _ => (alike_fpMul _ _).bind fun _ => (alike_fpMul _ _).bind fun _ => 
      (alike_fpMul _ _).bind fun _ => (alike_fpMul _ _).bind fun _ => 
      alike_pure _)
    fun yf eyf => ?_
  refine (sound_fpMul _ _).bind (fun _ => (alike_fpMul _ _).bind fun _ => (alike_fpMul _ _).bind fun _ => 
      (alike_fpMul _ _).bind fun _ => alike_pure _)
    fun xf exf => ?_
  refine (sound_fpMul _ _).bind (fun _ => (alike_fpMul _ _).bind fun _ => (alike_fpMul _ _).bind fun _ => 
      alike_pure _)
    fun x1 ex1 => ?_
  refine (sound_fpMul _ _).bind (fun _ => (alike_fpMul _ _).bind fun _ => alike_pure _)
    fun y1 ey1 => ?_
  refine (sound_fpMul _ _).bind (fun _ => alike_pure _)
    fun z ez => ?_
  refine sound_pure ?_
  simp only [evalLc_lcSub, evalLc_append, evalLc_lcScale] at eyf exf ex1 ey1 ez
  ext1
  · simp only [pointAtG1, evalLc_lcSub, exf, ex1, eyy, ezz, exy, exz, eyz, circuitDouble]; ring
  · simp only [pointAtG1, evalLc_append, eyf, ey1, exx, eyy, ezz, exz, circuitDouble]; ring
  · simp only [pointAtG1, evalLc_lcScale, ez, eyy, eyz, circuitDouble]; ring

/-- The coordinates of an accumulator, whose absence is the constant zero. -/
def accAtG1 (ρ : R1Var → ZMod p) : Option (G1V p) → ProjVar (ZMod p)
  | none => ProjVar.zero
  | some v => pointAtG1 ρ v

theorem sound_g1AddAssign {ρ : R1Var → ZMod p} (drop : Bool) (b : ZMod p) (acc : Option (G1V p))
    (v : G1V p) : Sound ρ (g1AddAssign drop b acc v) fun l =>
      CircuitSum b (accAtG1 ρ acc) (pointAtG1 ρ v) (pointAtG1 ρ l) := by
  cases acc with
  | some u => exact (sound_g1Add b u v).mono fun l hl => Or.inl hl
  | none =>
    cases drop with
    | true => exact sound_pure (Or.inr (Or.inl ⟨rfl, rfl⟩))
    | false =>
      refine (sound_g1AddRest b _ _ _ _ _ _).mono fun l hl => Or.inl ?_
      rw [hl, ← ringAdd_eq]
      simp only [evalLc_append, evalLc_lcScale, ringAdd, accAtG1, ProjVar.zero, pointAtG1]
      congr 1 <;> ring

theorem sound_scalarMulLeV {ρ : R1Var → ZMod p} (drop : Bool) (b : ZMod p) (bits : List Bool)
    (res : Option (G1V p)) (v : G1V p) : Sound ρ (scalarMulLeV drop b bits res v) fun r =>
      ScalarMulLe b bits (accAtG1 ρ res) (pointAtG1 ρ v) (accAtG1 ρ r) := by
  induction bits generalizing res v with
  | nil => exact sound_pure rfl
  | cons c cs ih =>
    refine (sound_g1AddAssign drop b res v).bind (fun _ => (alike_g1Double _ _).bind fun _ =>
      alike_scalarMulLeV _ _ _ _ _) fun tmp ht => ?_
    refine (sound_g1Double b v).bind (fun _ => alike_scalarMulLeV _ _ _ _ _) fun d hd => ?_
    refine (ih _ _).mono fun r hr => ⟨_, ht, ?_⟩
    rw [hd] at hr
    cases c
    · exact hr
    · exact hr

theorem sound_scaleByCofactorV {ρ : R1Var → ZMod p} (h1 : ρ .one = 1) (drop : Bool) (v : G1V p) :
    Sound ρ (scaleByCofactorV drop v) fun l =>
      ScalarMulLe 1 cofactorBits ProjVar.zero (pointAtG1 ρ v) (pointAtG1 ρ l) := by
  refine (sound_scalarMulLeV drop 1 _ none v).bind (fun _ => alike_pure _) fun r hr => sound_pure ?_
  cases r with
  | some l => exact hr
  | none =>
    have : pointAtG1 ρ (G1V.ofOption none) = ProjVar.zero := by
      simp [pointAtG1, G1V.ofOption, ProjVar.zero, lcConst, evalLc, h1]
    rw [this]
    exact hr

end

/-! ### bytes and lengths -/

theorem byteBits_uint8 {l : List Bool} (h : l.length = 8) : byteBits (uint8FromBitsLe l) = l := by
  have h2 : ∀ a b c d e f g i : Bool, byteBits (uint8FromBitsLe [a, b, c, d, e, f, g, i]) =
      [a, b, c, d, e, f, g, i] := by decide +kernel
  match l, h with
  | [a, b, c, d, e, f, g, i], _ => exact h2 a b c d e f g i

theorem byteBits_length (b : UInt8) : (byteBits b).length = 8 := by simp [byteBits]

/-- Lists of bits that hold these bytes. -/
def BytesIs (ρ : R1Var → Fq) (m : List (List BoolV)) (bytes : Bytes) : Prop :=
  List.Forall₂ (fun bits b => List.Forall₂ (BitIs ρ) bits (byteBits b)) m bytes

/-- Lists of bits that hold these bytes, in a system. -/
def BytesAt (c : ConstraintSystem FQ_MODULUS) (m : List (List BoolV)) (bytes : Bytes) : Prop :=
  List.Forall₂ (fun bits b => List.Forall₂ (BitAt c) bits (byteBits b)) m bytes

theorem packBytesV_rel {R : BoolV → Bool → Prop} (hc : R (.constant false) false) {xs : List BoolV}
    {ts : List Bool} (h : List.Forall₂ R xs ts) :
    List.Forall₂ (fun bits b => List.Forall₂ R bits (byteBits b)) (packBytesV xs) (packBytes ts) := by
  obtain ⟨h1, h2⟩ := forall₂_chunks (n := 8) (forall₂_reverse h)
  unfold packBytesV packBytes
  rw [List.forall₂_map_left_iff, List.forall₂_map_right_iff]
  generalize chunks 8 xs.reverse = a at h1
  generalize chunks 8 ts.reverse = b at h1 h2
  induction h1 with
  | nil => exact .nil
  | cons hh _ ih =>
    refine .cons ?_ (ih fun c hc => h2 c (List.mem_cons_of_mem _ hc))
    have hle := h2 _ (List.mem_cons_self ..)
    rw [byteBits_uint8 (by rw [List.length_append, List.length_replicate]; omega), hh.length_eq]
    exact forall₂_append' hh (forall₂_replicate hc _)

theorem packBytesV_is {ρ : R1Var → Fq} (h1 : ρ .one = 1) {xs : List BoolV} {ts : List Bool}
    (h : List.Forall₂ (BitIs ρ) xs ts) : BytesIs ρ (packBytesV xs) (packBytes ts) :=
  packBytesV_rel ((bitIs_constant h1).2 rfl) h

theorem packBytesV_at {c : ConstraintSystem FQ_MODULUS} {xs : List BoolV} {ts : List Bool}
    (h : List.Forall₂ (BitAt c) xs ts) : BytesAt c (packBytesV xs) (packBytes ts) :=
  packBytesV_rel (bitAt_constant c false) h

theorem padToBytesV_rel {R : BoolV → Bool → Prop} (hc : R (.constant false) false) {xs : List BoolV}
    {ts : List Bool} (h : List.Forall₂ R xs ts) : List.Forall₂ R (padToBytesV xs) (padToBytes ts) := by
  unfold padToBytesV padToBytes
  rw [h.length_eq]
  exact forall₂_append' h (forall₂_replicate hc _)

theorem flatten_bytes {R : BoolV → Bool → Prop} {m : List (List BoolV)} {bytes : Bytes}
    (h : List.Forall₂ (fun bits b => List.Forall₂ R bits (byteBits b)) m bytes) :
    List.Forall₂ R m.flatten (bytes.flatMap byteBits) := by
  induction h with
  | nil => exact .nil
  | cons h1 _ ih =>
    rw [List.flatten_cons, List.flatMap_cons]
    exact forall₂_append' h1 ih

theorem xofInput_dvd (c : UInt8) (extra m : Bytes) (pedX : Bytes → Fq) :
    8 ∣ (xofInput c extra (pedersenBits pedX m)).length := by
  have h1 : 8 ∣ (extra.flatMap byteBits).length := by
    induction extra with
    | nil => simp
    | cons a l ih =>
      rw [List.flatMap_cons, List.length_append, byteBits_length]
      exact Dvd.dvd.add (dvd_refl 8) ih
  have h2 : 8 ∣ (pedersenBits pedX m).length := by
    rw [pedersenBits_eq, flatMap_unpack_length]; exact dvd_mul_right _ _
  unfold xofInput
  rw [List.length_append, List.length_append, byteBits_length]
  exact ((dvd_refl 8).add h1).add h2

theorem map_testBit_pedersen (x : Fq) :
    (List.range (bitLength FQ_MODULUS)).map x.val.testBit = (fieldBitsBe 377 x).reverse := by
  rw [fieldBitsBe, List.reverse_reverse, bitLength_fq]

/-! ### what the constraints imply -/

/-- What the gadgets called by the hash have to imply. -/
structure HashGadgets.SoundAt (G : HashGadgets) (ρ : R1Var → Fq) (K : Blake2sCore) (pedX : Bytes → Fq) :
    Prop where
  pedersen : ∀ m bytes, BytesIs ρ m bytes → Sound ρ (G.pedersen m) fun x => evalLc ρ x = pedX bytes
  blake : ∀ m ts b, 8 ∣ m.length → List.Forall₂ (BitIs ρ) m ts →
    Sound ρ (G.blake m b) fun r => List.Forall₂ (BitIs ρ) r (K.evaluate ts b)

/-- What the gadgets called by the hash have to keep fixed. -/
structure HashGadgets.Shaped (G : HashGadgets) : Prop where
  pedersen : ∀ m, Alike (G.pedersen m) (G.pedersen m)
  blake : ∀ m b, Alike (G.blake m b) (G.blake m b)

/-- The coordinates that allocation admits. -/
def OnG1 (v : G1Var) : Prop := v.coords.OnCurve 1

/-- The result of clearing the cofactor, as coordinates. -/
theorem scaled_point {v g : G1Var} (hv : OnG1 v)
    (h : ScalarMulLe 1 cofactorBits ProjVar.zero v.coords g.coords) :
    OnG1 g ∧ g.point = G1_COFACTOR • v.point := by
  by_cases h0 : v.coords = ⟨0, 0, 0⟩
  · rw [h0] at h
    have hg := scaleNull h
    have hz : ∀ w : G1Var, w.coords = ⟨0, 0, 0⟩ → w.point = 0 := by
      intro w hw
      unfold G1Var.point
      rw [dif_neg]
      rintro ⟨hz, _⟩
      exact hz (congrArg ProjVar.z hw)
    refine ⟨(C86_alloc ⟨0, 0, 0⟩ g).2.2 (Or.inl hg), ?_⟩
    rw [hz v h0, hz g hg, nsmul_zero]
  · have hd := ((C86_cofactor v hv).2 _ h).1 h0
    have e : g.point = G1_COFACTOR • v.point := hd.point _
    exact ⟨(C86_alloc ⟨0, 0, 0⟩ g).2.2 (Or.inr (by rw [e]; exact hd)), e⟩

section

variable {G : HashGadgets} {ρ : R1Var → Fq} {K : Blake2sCore} {pedX : Bytes → Fq} {N : HashNative}
  {compat drop : Bool}

theorem sound_pedersenBitsV (h1 : ρ .one = 1) (hG : G.SoundAt ρ K pedX) {m : List (List BoolV)}
    {bytes : Bytes} (hm : BytesIs ρ m bytes) :
    Sound ρ (pedersenBitsV G m) fun r => List.Forall₂ (BitIs ρ) r (pedersenBits pedX bytes) := by
  refine (hG.pedersen _ _ hm).bind (fun _ => (alike_toBitsLe _).bind fun _ => alike_pure _) fun x hx => ?_
  refine (sound_toBitsLe h1 x).bind (fun _ => alike_pure _) fun bits hb => sound_pure ?_
  rw [map_testBit_pedersen, hx] at hb
  exact padToBytesV_rel ((bitIs_constant h1).2 rfl) hb

theorem sound_hashToBitsV (h1 : ρ .one = 1) (hG : G.SoundAt ρ K pedX) (hS : G.Shaped)
    {m : List BoolV} {ts : List Bool} (hd : 8 ∣ m.length) (hm : List.Forall₂ (BitIs ρ) m ts) (l : UInt16)
    (q : Bytes) (generate : Bool) :
    Sound ρ (hashToBitsV G N m l q generate) fun r => ∃ xs P, List.Forall₂ (BitIs ρ) r xs ∧
      hashToBitsC K ts l q generate xs = .ok P ∧ P := by
  unfold hashToBitsV hashToBitsC hashToBitsBlake
  cases generate with
  | true =>
    simp only [if_true]
    split
    · exact sound_panic
    · refine (sound_mapM (fun i => hG.blake m ts _ hd hm) (fun _ => hS.blake _ _) _).bind
        (fun _ => alike_pure _) fun bs hbs => sound_pure ⟨_, _, ?_, rfl, rfl⟩
      generalize List.range (l / 256).toNat = is at hbs
      induction hbs with
      | nil => exact .nil
      | cons h2 _ ih =>
        rw [List.flatten_cons, List.flatMap_cons]
        exact forall₂_append' h2 ih
  | false =>
    simp only [Bool.false_eq_true, if_false]
    refine (sound_mapM (fun i => sound_boolWitness h1 _) (fun _ => alike_boolWitness _ _) _).mono
      fun bs hbs => ?_
    have : ∃ xs, List.Forall₂ (BitIs ρ) bs xs := by
      clear hd hm
      generalize List.range 512 = is at hbs
      induction hbs with
      | nil => exact ⟨[], .nil⟩
      | cons h2 _ ih =>
        obtain ⟨t, ht⟩ := h2
        obtain ⟨xs, hxs⟩ := ih
        exact ⟨t :: xs, .cons ht hxs⟩
    obtain ⟨xs, hxs⟩ := this
    refine ⟨xs, _, hxs, rfl, ?_⟩
    rw [← hxs.length_eq, ← hbs.length_eq, List.length_range]

theorem forall₂_getElem? {α β : Type} {R : α → β → Prop} {l : List α} {m : List β}
    (h : List.Forall₂ R l m) (i : ℕ) {a : α} (ha : l[i]? = some a) : ∃ b, m[i]? = some b ∧ R a b := by
  induction h generalizing i with
  | nil => simp at ha
  | cons h1 _ ih =>
    cases i with
    | zero => simp only [List.getElem?_cons_zero, Option.some.injEq] at ha ⊢; subst ha; exact ⟨_, rfl, h1⟩
    | succ i => simpa using ih i (by simpa using ha)

theorem zip_equal {α β : Type} {R : α → Bool → Prop} {S : β → Bool → Prop} {l : List α} {m : List β}
    {x y : List Bool} (h : List.Forall₂ R l x) (h' : List.Forall₂ S m y) :
    List.Forall₂ (fun ab t => R ab.1 t.1 ∧ S ab.2 t.2) (l.zip m) (x.zip y) := by
  induction h generalizing m y with
  | nil => simp
  | cons h1 _ ih =>
    cases h' with
    | nil => simp
    | cons h2 h3 => exact .cons ⟨h1, h2⟩ (ih h3)

theorem sound_equalities (h1 : ρ .one = 1) {l : List (BoolV × BoolV)} {ts : List (Bool × Bool)}
    (h : List.Forall₂ (fun ab t => BitIs ρ ab.1 t.1 ∧ BitIs ρ ab.2 t.2) l ts) :
    Sound ρ (Synth.forM (fun ab => boolEnforceEqual ab.1 ab.2) l) fun _ => ∀ t ∈ ts, t.1 = t.2 := by
  induction h with
  | nil => exact sound_pure (by simp)
  | cons h2 _ ih =>
    refine (sound_boolEnforceEqual h1 h2.1 h2.2).bind (fun _ => alike_forM (forall₂_same'
      (fun _ => alike_boolEnforceEqual _ _) _)) fun _ he => ih.mono fun _ hr t ht => ?_
    rcases List.mem_cons.1 ht with rfl | ht
    · exact he
    · exact hr t ht

theorem sound_hashToGroupV (h1 : ρ .one = 1) {xof : List BoolV} {xs : List Bool}
    (hx : List.Forall₂ (BitIs ρ) xof xs) :
    Sound ρ (hashToGroupV N compat drop xof) fun g => ∃ w sat g',
      hashToGroup OnG1 compat xs w = .ok (sat, g') ∧ sat ∧ OnG1 (g1At ρ g) ∧ (g1At ρ g).point = g' := by
  unfold hashToGroupV
  split
  · exact sound_panic
  · rename_i hlen
    split
    · exact sound_panic
    · rename_i signBit hsb
      obtain ⟨sb, hsb', hsbit⟩ := forall₂_getElem? hx _ hsb
      refine (sound_allocPointG1 1 _ _ _).bind (fun _ => (alike_toBitsLe _).bind fun _ =>
        (alike_normalize _).bind fun _ => (alike_forM (forall₂_same'
          (fun _ => alike_boolEnforceEqual _ _) _)).bind fun _ => (alike_boolEnforceEqual _ _).bind
            fun _ => alike_scaleByCofactorV _ _) fun v hv => ?_
      refine (sound_toBitsLe h1 v.1).bind (fun _ => (alike_normalize _).bind fun _ =>
        (alike_forM (forall₂_same' (fun _ => alike_boolEnforceEqual _ _) _)).bind fun _ =>
          (alike_boolEnforceEqual _ _).bind fun _ => alike_scaleByCofactorV _ _) fun bits hb => ?_
      refine (sound_normalize h1 (.var v.2.1)).bind (fun _ => (alike_forM (forall₂_same'
          (fun _ => alike_boolEnforceEqual _ _) _)).bind fun _ => (alike_boolEnforceEqual _ _).bind
            fun _ => alike_scaleByCofactorV _ _) ?_
      rintro yBit ⟨t, adj, hy, hn⟩
      rw [map_testBit_pedersen] at hb
      refine (sound_equalities h1 (zip_equal hb (forall₂_take' hx X_BITS))).bind (fun _ =>
        (alike_boolEnforceEqual _ _).bind fun _ => alike_scaleByCofactorV _ _) fun _ heq => ?_
      refine (sound_boolEnforceEqual h1 hy hsbit).bind (fun _ => alike_scaleByCofactorV _ _)
        fun _ hse => ?_
      refine (sound_scaleByCofactorV h1 drop v).mono fun g hg => ?_
      obtain ⟨k1, k2⟩ := scaled_point (v := g1At ρ v) (g := g1At ρ g) hv hg
      refine ⟨⟨g1At ρ v, t, adj⟩, (OnG1 (g1At ρ v) ∧ yToBitG1C (.var (g1At ρ v).y) adj t ∧
        (∀ ab ∈ (fieldBitsBe 377 (g1At ρ v).x).reverse.zip (xs.take X_BITS), ab.1 = ab.2) ∧ t = sb), _, ?_,
        ⟨hv, hn, heq, hse⟩, k1, k2⟩
      unfold hashToGroup
      rw [if_neg (by rw [← hx.length_eq]; exact hlen), hsb']

/-- Hashing, soundness. -/
theorem sound_hashBitsToG1V (h1 : ρ .one = 1) (hG : G.SoundAt ρ K pedX) (hS : G.Shaped) (generate : Bool)
    {xs ys : List BoolV} {ts us : List Bool} (hx : List.Forall₂ (BitIs ρ) xs ts)
    (hy : List.Forall₂ (BitIs ρ) ys us) :
    Sound ρ (hashBitsToG1V G N compat drop generate xs ys) fun h => ∃ out,
      hashBitsToG1C OnG1 compat K pedX generate ts us out ∧ h.Is ρ out := by
  refine (sound_mapM (fun i => sound_boolWitness h1 _) (fun _ => alike_boolWitness _ _) _).bind
    (fun _ => alike_enforceHashToGroupV hS.1 hS.2 _ _ _ _ _ _ _) fun counter hc => ?_
  obtain ⟨cs, hcs, hl⟩ : ∃ cs, List.Forall₂ (BitIs ρ) counter cs ∧ cs.length = 8 := by
    have hlen := hc.length_eq
    rw [List.length_range] at hlen
    have : ∃ cs, List.Forall₂ (BitIs ρ) counter cs := by
      clear hlen
      generalize List.range 8 = is at hc
      induction hc with
      | nil => exact ⟨[], .nil⟩
      | cons h2 _ ih =>
        obtain ⟨t, ht⟩ := h2
        obtain ⟨xs, hxs⟩ := ih
        exact ⟨t :: xs, .cons ht hxs⟩
    obtain ⟨cs, hcs⟩ := this
    exact ⟨cs, hcs, by rw [← hcs.length_eq, ← hlen]⟩
  rw [← byteBits_uint8 hl] at hcs
  refine (sound_pedersenBitsV h1 hG (packBytesV_is h1 hx)).bind (fun _ =>
    (alike_hashToBitsV hS.2 _ _ _ _ _).bind fun _ => (alike_hashToGroupV _ _ _ _).bind
      fun _ => alike_pure _) fun crh hcrh => ?_
  have hin : List.Forall₂ (BitIs ρ) (counter ++ (packBytesV ys).flatten ++ crh)
      (xofInput (uint8FromBitsLe cs) (packBytes us) (pedersenBits pedX (packBytes ts))) :=
    forall₂_append' (forall₂_append' hcs (flatten_bytes (packBytesV_is h1 hy))) hcrh
  refine (sound_hashToBitsV h1 hG hS (by rw [hin.length_eq]; exact xofInput_dvd _ _ _ _) hin _ _ _).bind
    (fun _ => (alike_hashToGroupV _ _ _ _).bind fun _ => alike_pure _) ?_
  rintro xof ⟨xb, P, hxb, hP, hPt⟩
  refine (sound_hashToGroupV h1 hxb).bind (fun _ => alike_pure _) ?_
  rintro g ⟨w, sat, g', hw, hsat, hg1, hg2⟩
  refine sound_pure ?_
  refine ⟨⟨g', pedersenBits pedX (packBytes ts), xb⟩,
    ⟨⟨uint8FromBitsLe cs, xb, w⟩, P ∧ sat, ?_, hPt, hsat⟩, hg1, hg2, hcrh, hxb⟩
  unfold hashBitsToG1 enforceHashToGroup
  simp only [hP, hw, Outcome.bind_ok, Outcome.map_ok]

end

section

variable {p : ℕ} [Fact p.Prime]

/-- The coordinates are over allocated variables. -/
def G1Ok (c : ConstraintSystem p) (v : G1V p) : Prop :=
  ∃ x y z, LcAt c v.1 x ∧ LcAt c v.2.1 y ∧ LcAt c v.2.2 z

theorem G1Ok.ext {a c : ConstraintSystem p} {v : G1V p} (h : G1Ok a v) (hg : a.Good) (he : a.Ext c) :
    G1Ok c v := by
  obtain ⟨x, y, z, h1, h2, h3⟩ := h
  exact ⟨x, y, z, h1.ext hg he, h2.ext hg he, h3.ext hg he⟩

theorem step_g1AddRest {cs : ConstraintSystem p} (hg : cs.Good) (b : ZMod p) {xx yy zz xy xz yz : LinComb p}
    {a1 a2 a3 a4 a5 a6 : ZMod p} (hxx : LcAt cs xx a1) (hyy : LcAt cs yy a2) (hzz : LcAt cs zz a3)
    (hxy : LcAt cs xy a4) (hxz : LcAt cs xz a5) (hyz : LcAt cs yz a6) :
    Step cs (g1AddRest b xx yy zz xy xz yz) fun c l => G1Ok c l := by
  have hxyP := hxy.sub (hxx.append hyy)
  have hyzP := hyz.sub (hyy.append hzz)
  have hb3xz := (hxz.sub (hxx.append hzz)).scale (2 * b + b)
  have hyyM := hyy.sub (hzz.scale (2 * b + b))
  have hyyP := hyy.append (hzz.scale (2 * b + b))
  have hxx3 := (hxx.append hxx).append hxx
  refine (step_fpMul hg hyyM hxyP).bind fun c0 x0 g0 e0 hx0 => ?_
  have hxyP := hxyP.ext hg e0
  have hyzP := hyzP.ext hg e0
  have hb3xz := hb3xz.ext hg e0
  have hyyM := hyyM.ext hg e0
  have hyyP := hyyP.ext hg e0
  have hxx3 := hxx3.ext hg e0
  refine (step_fpMul g0 hyzP hb3xz).bind fun c1 x1 g1 e1 hx1 => ?_
  have hxyP := hxyP.ext g0 e1
  have hyzP := hyzP.ext g0 e1
  have hb3xz := hb3xz.ext g0 e1
  have hyyM := hyyM.ext g0 e1
  have hyyP := hyyP.ext g0 e1
  have hxx3 := hxx3.ext g0 e1
  have hx0 := hx0.ext g0 e1
  refine (step_fpMul g1 hyyP hyyM).bind fun c2 y0 g2 e2 hy0 => ?_
  have hxyP := hxyP.ext g1 e2
  have hyzP := hyzP.ext g1 e2
  have hb3xz := hb3xz.ext g1 e2
  have hyyM := hyyM.ext g1 e2
  have hyyP := hyyP.ext g1 e2
  have hxx3 := hxx3.ext g1 e2
  have hx0 := hx0.ext g1 e2
  have hx1 := hx1.ext g1 e2
  refine (step_fpMul g2 hxx3 hb3xz).bind fun c3 y1 g3 e3 hy1 => ?_
  have hxyP := hxyP.ext g2 e3
  have hyzP := hyzP.ext g2 e3
  have hb3xz := hb3xz.ext g2 e3
  have hyyM := hyyM.ext g2 e3
  have hyyP := hyyP.ext g2 e3
  have hxx3 := hxx3.ext g2 e3
  have hx0 := hx0.ext g2 e3
  have hx1 := hx1.ext g2 e3
  have hy0 := hy0.ext g2 e3
  refine (step_fpMul g3 hyyP hyzP).bind fun c4 z0 g4 e4 hz0 => ?_
  have hxyP := hxyP.ext g3 e4
  have hyzP := hyzP.ext g3 e4
  have hb3xz := hb3xz.ext g3 e4
  have hyyM := hyyM.ext g3 e4
  have hyyP := hyyP.ext g3 e4
  have hxx3 := hxx3.ext g3 e4
  have hx0 := hx0.ext g3 e4
  have hx1 := hx1.ext g3 e4
  have hy0 := hy0.ext g3 e4
  have hy1 := hy1.ext g3 e4
  refine (step_fpMul g4 hxyP hxx3).bind fun c5 z1 g5 e5 hz1 => ?_
  have hxyP := hxyP.ext g4 e5
  have hyzP := hyzP.ext g4 e5
  have hb3xz := hb3xz.ext g4 e5
  have hyyM := hyyM.ext g4 e5
  have hyyP := hyyP.ext g4 e5
  have hxx3 := hxx3.ext g4 e5
  have hx0 := hx0.ext g4 e5
  have hx1 := hx1.ext g4 e5
  have hy0 := hy0.ext g4 e5
  have hy1 := hy1.ext g4 e5
  have hz0 := hz0.ext g4 e5
  exact step_pure g5 ⟨_, _, _, hx0.sub hx1, hy0.append hy1, hz0.append hz1⟩

theorem step_g1Add {cs : ConstraintSystem p} (hg : cs.Good) (b : ZMod p) {u v : G1V p} (hu : G1Ok cs u)
    (hv : G1Ok cs v) : Step cs (g1Add b u v) fun c l => G1Ok c l := by
  obtain ⟨a1, a2, a3, ux, uy, uz⟩ := hu
  obtain ⟨b1, b2, b3, vx, vy, vz⟩ := hv
  refine (step_fpMul hg ux vx).bind fun c0 xx g0 e0 hxx => ?_
  have ux := ux.ext hg e0
  have uy := uy.ext hg e0
  have uz := uz.ext hg e0
  have vx := vx.ext hg e0
  have vy := vy.ext hg e0
  have vz := vz.ext hg e0
  refine (step_fpMul g0 uy vy).bind fun c1 yy g1 e1 hyy => ?_
  have ux := ux.ext g0 e1
  have uy := uy.ext g0 e1
  have uz := uz.ext g0 e1
  have vx := vx.ext g0 e1
  have vy := vy.ext g0 e1
  have vz := vz.ext g0 e1
  have hxx := hxx.ext g0 e1
  refine (step_fpMul g1 uz vz).bind fun c2 zz g2 e2 hzz => ?_
  have ux := ux.ext g1 e2
  have uy := uy.ext g1 e2
  have uz := uz.ext g1 e2
  have vx := vx.ext g1 e2
  have vy := vy.ext g1 e2
  have vz := vz.ext g1 e2
  have hxx := hxx.ext g1 e2
  have hyy := hyy.ext g1 e2
  refine (step_fpMul g2 (ux.append uy) (vx.append vy)).bind fun c3 xy g3 e3 hxy => ?_
  have ux := ux.ext g2 e3
  have uy := uy.ext g2 e3
  have uz := uz.ext g2 e3
  have vx := vx.ext g2 e3
  have vy := vy.ext g2 e3
  have vz := vz.ext g2 e3
  have hxx := hxx.ext g2 e3
  have hyy := hyy.ext g2 e3
  have hzz := hzz.ext g2 e3
  refine (step_fpMul g3 (ux.append uz) (vx.append vz)).bind fun c4 xz g4 e4 hxz => ?_
  have ux := ux.ext g3 e4
  have uy := uy.ext g3 e4
  have uz := uz.ext g3 e4
  have vx := vx.ext g3 e4
  have vy := vy.ext g3 e4
  have vz := vz.ext g3 e4
  have hxx := hxx.ext g3 e4
  have hyy := hyy.ext g3 e4
  have hzz := hzz.ext g3 e4
  have hxy := hxy.ext g3 e4
  refine (step_fpMul g4 (uy.append uz) (vy.append vz)).bind fun c5 yz g5 e5 hyz => ?_
  have ux := ux.ext g4 e5
  have uy := uy.ext g4 e5
  have uz := uz.ext g4 e5
  have vx := vx.ext g4 e5
  have vy := vy.ext g4 e5
  have vz := vz.ext g4 e5
  have hxx := hxx.ext g4 e5
  have hyy := hyy.ext g4 e5
  have hzz := hzz.ext g4 e5
  have hxy := hxy.ext g4 e5
  have hxz := hxz.ext g4 e5
  exact step_g1AddRest g5 b hxx hyy hzz hxy hxz hyz

theorem step_g1Double {cs : ConstraintSystem p} (hg : cs.Good) (b : ZMod p) {v : G1V p}
    (hv : G1Ok cs v) : Step cs (g1Double b v) fun c l => G1Ok c l := by
  obtain ⟨b1, b2, b3, vx, vy, vz⟩ := hv
  refine (step_fpMul hg vx vx).bind fun c0 xx g0 e0 hxx => ?_
  have vx := vx.ext hg e0
  have vy := vy.ext hg e0
  have vz := vz.ext hg e0
  refine (step_fpMul g0 vy vy).bind fun c1 yy g1 e1 hyy => ?_
  have vx := vx.ext g0 e1
  have vy := vy.ext g0 e1
  have vz := vz.ext g0 e1
  have hxx := hxx.ext g0 e1
  refine (step_fpMul g1 vz vz).bind fun c2 zz g2 e2 hzz => ?_
  have vx := vx.ext g1 e2
  have vy := vy.ext g1 e2
  have vz := vz.ext g1 e2
  have hxx := hxx.ext g1 e2
  have hyy := hyy.ext g1 e2
  refine (step_fpMul g2 vx vy).bind fun c3 xy g3 e3 hxy => ?_
  have vx := vx.ext g2 e3
  have vy := vy.ext g2 e3
  have vz := vz.ext g2 e3
  have hxx := hxx.ext g2 e3
  have hyy := hyy.ext g2 e3
  have hzz := hzz.ext g2 e3
  refine (step_fpMul g3 vx vz).bind fun c4 xz g4 e4 hxz => ?_
  have vx := vx.ext g3 e4
  have vy := vy.ext g3 e4
  have vz := vz.ext g3 e4
  have hxx := hxx.ext g3 e4
  have hyy := hyy.ext g3 e4
  have hzz := hzz.ext g3 e4
  have hxy := hxy.ext g3 e4
  refine (step_fpMul g4 vy vz).bind fun c5 yz g5 e5 hyz => ?_
  have vx := vx.ext g4 e5
  have vy := vy.ext g4 e5
  have vz := vz.ext g4 e5
  have hxx := hxx.ext g4 e5
  have hyy := hyy.ext g4 e5
  have hzz := hzz.ext g4 e5
  have hxy := hxy.ext g4 e5
  have hxz := hxz.ext g4 e5
  refine (step_fpMul g5 (hyy.append (hzz.scale (2 * b + b))) (hyy.sub (hzz.scale (2 * b + b)))).bind fun c6 yf g6 e6 hyf => ?_
  have vx := vx.ext g5 e6
  have vy := vy.ext g5 e6
  have vz := vz.ext g5 e6
  have hxx := hxx.ext g5 e6
  have hyy := hyy.ext g5 e6
  have hzz := hzz.ext g5 e6
  have hxy := hxy.ext g5 e6
  have hxz := hxz.ext g5 e6
  have hyz := hyz.ext g5 e6
  refine (step_fpMul g6 (hyy.sub (hzz.scale (2 * b + b))) (hxy.append hxy)).bind fun c7 xf g7 e7 hxf => ?_
  have vx := vx.ext g6 e7
  have vy := vy.ext g6 e7
  have vz := vz.ext g6 e7
  have hxx := hxx.ext g6 e7
  have hyy := hyy.ext g6 e7
  have hzz := hzz.ext g6 e7
  have hxy := hxy.ext g6 e7
  have hxz := hxz.ext g6 e7
  have hyz := hyz.ext g6 e7
  have hyf := hyf.ext g6 e7
  refine (step_fpMul g7 ((hxz.append hxz).scale (2 * b + b)) (hyz.append hyz)).bind fun c8 x1 g8 e8 hx1 => ?_
  have vx := vx.ext g7 e8
  have vy := vy.ext g7 e8
  have vz := vz.ext g7 e8
  have hxx := hxx.ext g7 e8
  have hyy := hyy.ext g7 e8
  have hzz := hzz.ext g7 e8
  have hxy := hxy.ext g7 e8
  have hxz := hxz.ext g7 e8
  have hyz := hyz.ext g7 e8
  have hyf := hyf.ext g7 e8
  have hxf := hxf.ext g7 e8
  refine (step_fpMul g8 ((hxx.append hxx).append hxx) ((hxz.append hxz).scale (2 * b + b))).bind fun c9 y1 g9 e9 hy1 => ?_
  have vx := vx.ext g8 e9
  have vy := vy.ext g8 e9
  have vz := vz.ext g8 e9
  have hxx := hxx.ext g8 e9
  have hyy := hyy.ext g8 e9
  have hzz := hzz.ext g8 e9
  have hxy := hxy.ext g8 e9
  have hxz := hxz.ext g8 e9
  have hyz := hyz.ext g8 e9
  have hyf := hyf.ext g8 e9
  have hxf := hxf.ext g8 e9
  have hx1 := hx1.ext g8 e9
  refine (step_fpMul g9 (hyz.append hyz) hyy).bind fun c10 z g10 e10 hz => ?_
  have vx := vx.ext g9 e10
  have vy := vy.ext g9 e10
  have vz := vz.ext g9 e10
  have hxx := hxx.ext g9 e10
  have hyy := hyy.ext g9 e10
  have hzz := hzz.ext g9 e10
  have hxy := hxy.ext g9 e10
  have hxz := hxz.ext g9 e10
  have hyz := hyz.ext g9 e10
  have hyf := hyf.ext g9 e10
  have hxf := hxf.ext g9 e10
  have hx1 := hx1.ext g9 e10
  have hy1 := hy1.ext g9 e10
  exact step_pure g10 ⟨_, _, _, hxf.sub hx1, hyf.append hy1, (hz.scale 2).scale 2⟩

theorem step_g1AddAssign {cs : ConstraintSystem p} (hg : cs.Good) (drop : Bool) (b : ZMod p)
    {acc : Option (G1V p)} {v : G1V p} (ha : ∀ u ∈ acc, G1Ok cs u) (hv : G1Ok cs v) :
    Step cs (g1AddAssign drop b acc v) fun c l => G1Ok c l := by
  cases acc with
  | some u => exact step_g1Add hg b (ha u rfl) hv
  | none =>
    cases drop with
    | true => exact step_pure hg hv
    | false =>
      obtain ⟨x, y, z, h1, h2, h3⟩ := hv
      exact step_g1AddRest hg b (h1.scale 0) (h2.scale 1) (h3.scale 0) ((h1.append h2).scale 1)
        ((h1.append h3).scale 0) ((h2.append h3).scale 1)

theorem step_scalarMulLeV (drop : Bool) (b : ZMod p) (bits : List Bool) :
    ∀ {cs : ConstraintSystem p} {acc : Option (G1V p)} {v : G1V p}, cs.Good → (∀ u ∈ acc, G1Ok cs u) →
      G1Ok cs v → Step cs (scalarMulLeV drop b bits acc v) fun c r => ∀ u ∈ r, G1Ok c u := by
  induction bits with
  | nil => intro cs acc v hg ha hv; exact step_pure hg ha
  | cons t bits ih =>
    intro cs acc v hg ha hv
    refine (step_g1AddAssign hg drop b ha hv).bind fun c1 tmp g1 e1 ht => ?_
    refine (step_g1Double g1 b (hv.ext hg e1)).bind fun c2 d g2 e2 hd => ?_
    refine ih g2 ?_ hd
    intro u hu
    cases t with
    | true =>
      rw [if_pos rfl, Option.mem_some_iff] at hu
      subst hu
      exact ht.ext g1 e2
    | false => exact ((ha u hu).ext hg e1).ext g1 e2

theorem step_scaleOk {cs : ConstraintSystem p} (hg : cs.Good) (drop : Bool) {v : G1V p} (hv : G1Ok cs v) :
    Step cs (scaleByCofactorV drop v) fun c l => G1Ok c l := by
  refine (step_scalarMulLeV drop 1 cofactorBits hg (by simp) hv).bind fun c r g e h => step_pure g ?_
  cases r with
  | some l => exact h l rfl
  | none => exact ⟨_, _, _, lcAt_nil c, lcAt_const c 1, lcAt_nil c⟩

end

/-! ### the constraints can be run -/

theorem step_allocPointG1_ext {p : ℕ} [Fact p.Prime] {cs : ConstraintSystem p} (hg : cs.Good) {b : ZMod p}
    {P : ProjVar (ZMod p)} (hP : P.OnCurve b) {x y z : ConstraintSystem p → Outcome SynthErr (ZMod p)}
    (hx : ∀ c, c.Good → cs.Ext c → c.setup = false → x c = .ok P.x)
    (hy : ∀ c, c.Good → cs.Ext c → c.setup = false → y c = .ok P.y)
    (hz : ∀ c, c.Good → cs.Ext c → c.setup = false → z c = .ok P.z) :
    Step cs (allocPointG1 b x y z) fun cs' v =>
      LcAt cs' v.1 P.x ∧ LcAt cs' v.2.1 P.y ∧ LcAt cs' v.2.2 P.z := by
  refine (step_fpWitness hg (hx cs hg (ext_refl cs))).bind fun c1 vx g1 e1 ax => ?_
  refine (step_fpWitness g1 (hy c1 g1 e1)).bind fun c2 vy g2 e2 ay => ?_
  have ax := ax.ext g1 e2
  refine (step_fpWitness g2 (hz c2 g2 (e1.trans e2))).bind fun c3 vz g3 e3 az => ?_
  have ax := ax.ext g2 e3
  have ay := ay.ext g2 e3
  refine (step_fpMul g3 ay ay).bind fun c4 y2 g4 e4 ay2 => ?_
  have ax := ax.ext g3 e4
  have ay := ay.ext g3 e4
  have az := az.ext g3 e4
  refine (step_fpMul g4 az az).bind fun c5 z2 g5 e5 az2 => ?_
  have ax := ax.ext g4 e5
  have ay := ay.ext g4 e5
  have az := az.ext g4 e5
  have ay2 := ay2.ext g4 e5
  refine (step_fpMul g5 ax ax).bind fun c6 x2 g6 e6 ax2 => ?_
  have ax := ax.ext g5 e6
  have ay := ay.ext g5 e6
  have az := az.ext g5 e6
  have ay2 := ay2.ext g5 e6
  have az2 := az2.ext g5 e6
  refine (step_fpMul g6 ax2 ax).bind fun c7 x3 g7 e7 ax3 => ?_
  have ax := ax.ext g6 e7
  have ay := ay.ext g6 e7
  have az := az.ext g6 e7
  have ay2 := ay2.ext g6 e7
  have az2 := az2.ext g6 e7
  refine (step_enforce g7 az (ay2.sub (az2.scale b)) ax3 ?_).bind fun c8 _ g8 e8 _ =>
    step_pure g8 ⟨ax.ext g7 e8, ay.ext g7 e8, az.ext g7 e8⟩
  unfold ProjVar.OnCurve at hP
  linear_combination hP

/-- What the gadgets called by the hash have to compute. -/
structure HashGadgets.RunsAt (G : HashGadgets) (K : Blake2sCore) (pedX : Bytes → Fq) : Prop where
  pedersen : ∀ {cs m bytes}, cs.Good → cs.setup = false → BytesAt cs m bytes →
    Step cs (G.pedersen m) fun c x => LcAt c x (pedX bytes)
  blake : ∀ {cs m ts b}, cs.Good → cs.setup = false → 8 ∣ m.length → List.Forall₂ (BitAt cs) m ts →
    Step cs (G.blake m b) fun c r => List.Forall₂ (BitAt c) r (K.evaluate ts b)

theorem BytesAt.ext {a c : ConstraintSystem FQ_MODULUS} {m : List (List BoolV)} {bytes : Bytes}
    (h : BytesAt a m bytes) (hg : a.Good) (he : a.Ext c) : BytesAt c m bytes :=
  h.imp fun _ _ hb => bitAts_ext hb hg he

theorem step_scaleByCofactorV {cs : ConstraintSystem FQ_MODULUS} (hg : cs.Good) (hs : cs.setup = false)
    (drop : Bool) {v : G1V FQ_MODULUS} {k : G1Var} (hv : G1At cs v k) (hk : OnG1 k) :
    Step cs (scaleByCofactorV drop v) fun c l => ∃ g, G1At c l g ∧ OnG1 g ∧
      g.point = G1_COFACTOR • k.point := by
  obtain ⟨r, hr, gr, er, x, y, z, k1, k2, k3⟩ := step_scaleOk hg drop ⟨_, _, _, hv⟩
  refine ⟨r, hr, gr, er, ?_⟩
  have hs' : r.2.setup = false := er.setup.trans hs
  have hm := sound_scaleByCofactorV (ρ := r.2.rho) rfl drop v cs r hr (gr.sat hs')
  have hvr := hv.ext hg er
  have e1 : pointAtG1 r.2.rho v = k.coords := by
    unfold pointAtG1
    rw [hvr.1.rho hs', hvr.2.1.rho hs', hvr.2.2.rho hs']
    rfl
  rw [e1, ← g1At_coords] at hm
  obtain ⟨h1, h2⟩ := scaled_point hk hm
  refine ⟨g1At r.2.rho r.1, ⟨?_, ?_, ?_⟩, h1, h2⟩
  · have := k1.rho hs'
    show LcAt _ _ (evalLc r.2.rho r.1.1)
    rw [this]; exact k1
  · have := k2.rho hs'
    show LcAt _ _ (evalLc r.2.rho r.1.2.1)
    rw [this]; exact k2
  · have := k3.rho hs'
    show LcAt _ _ (evalLc r.2.rho r.1.2.2)
    rw [this]; exact k3

section

variable {G : HashGadgets} {K : Blake2sCore} {pedX : Bytes → Fq} {N : HashNative}
  {compat drop : Bool} {cs : ConstraintSystem FQ_MODULUS}

theorem step_pedersenBitsV (hG : G.RunsAt K pedX) (hg : cs.Good) (hs : cs.setup = false)
    {m : List (List BoolV)} {bytes : Bytes} (hm : BytesAt cs m bytes) :
    Step cs (pedersenBitsV G m) fun c r => List.Forall₂ (BitAt c) r (pedersenBits pedX bytes) := by
  refine (hG.pedersen hg hs hm).bind fun c1 x g1 e1 hx => ?_
  refine (step_toBitsLe fq_ne_two g1 hx).bind fun c2 bits g2 e2 hb => step_pure g2 ?_
  rw [map_testBit_pedersen] at hb
  exact padToBytesV_rel (bitAt_constant c2 false) hb

theorem forall₂_range_getD {R : ℕ → Bool → Prop} (l : List Bool) {n : ℕ} (hl : l.length = n)
    (h : ∀ i < n, R i (l.getD i false)) : List.Forall₂ R (List.range n) l := by
  subst hl
  rw [List.forall₂_iff_get]
  refine ⟨by simp, fun i h1 h2 => ?_⟩
  have := h i h2
  rw [List.getD_eq_getElem _ _ h2] at this
  simpa using this

theorem step_hashToBitsV (hG : G.RunsAt K pedX) {B : Blake2s} (hg : cs.Good) (hs : cs.setup = false)
    {m : List BoolV} {ts xs : List Bool} (hd : 8 ∣ m.length) (hm : List.Forall₂ (BitAt cs) m ts)
    {q : Bytes} (hN : ∀ m, N.xof m = directXof B q m 64) {l : UInt16} {generate : Bool} {P : Prop}
    (hw : hashToBitsWitness K B ts l q generate = .ok xs)
    (hc : hashToBitsC K ts l q generate xs = .ok P) (hP : P) :
    Step cs (hashToBitsV G N m l q generate) fun c r => List.Forall₂ (BitAt c) r xs := by
  unfold hashToBitsV
  unfold hashToBitsWitness at hw
  unfold hashToBitsC at hc
  cases generate with
  | true =>
    simp only [if_true] at hw ⊢
    unfold hashToBitsBlake at hw
    by_cases h0 : l % 256 ≠ 0
    · rw [if_pos h0] at hw; cases hw
    · rw [if_neg h0] at hw ⊢
      have hxs := (Outcome.ok.inj hw).symm
      refine (step_mapM (At := fun c b v => List.Forall₂ (BitAt c) b v)
        (vs := (List.range (l / 256).toNat).map fun i =>
          K.evaluate ts (blake2xsParams l (UInt32.ofNat i) q).parameters)
        (fun a c b v hg he h => bitAts_ext h hg he) hg ?_).bind fun c bs g e hb => step_pure g ?_
      · rw [List.forall₂_map_right_iff]
        refine forall₂_same' (fun i c gc ec => ?_) _
        exact hG.blake gc (ec.setup.trans hs) hd (bitAts_ext hm hg ec)
      · rw [hxs, List.flatMap_def]
        generalize (List.range (l / 256).toNat).map _ = vs at hb
        induction hb with
        | nil => exact .nil
        | cons h1 _ ih =>
          rw [List.flatten_cons, List.flatten_cons]
          exact forall₂_append' h1 ih
  | false =>
    simp only [Bool.false_eq_true, if_false] at hw hc ⊢
    have hPl := Outcome.ok.inj hc
    rw [← hPl] at hP
    generalize hx : directXof B q (bitsLeToBytesLe ts) 64 = o at hw
    cases o with
    | err e => cases hw
    | panic => cases hw
    | ok d =>
      have hxs := (Outcome.ok.inj hw).symm
      refine step_mapM (At := BitAt) (fun a c b v hg he h => h.ext hg he) hg
        (forall₂_range_getD xs hP fun i hi c gc ec => ?_)
      refine (step_boolWitness gc fun hsc => ?_).mono fun _ _ _ h => h.1
      unfold xofBitValue bitValues
      rw [bitAts_value (bitAts_ext hm hg ec) hsc, Outcome.bind_ok, hN, hx, hxs]

theorem step_equal_zip {l m : List BoolV} {x y : List Bool} (hg : cs.Good)
    (h : List.Forall₂ (BitAt cs) l x) (h' : List.Forall₂ (BitAt cs) m y)
    (he : ∀ ab ∈ x.zip y, ab.1 = ab.2) :
    Step cs (Synth.forM (fun ab => boolEnforceEqual ab.1 ab.2) (l.zip m)) fun _ _ => True := by
  refine step_equalities (ts := (x.zip y).map Prod.fst) cs hg ?_
  rw [List.forall₂_map_right_iff]
  have hz := zip_equal h h'
  generalize l.zip m = a at hz
  generalize x.zip y = b at hz he
  induction hz with
  | nil => exact .nil
  | cons h1 _ ih =>
    refine .cons ⟨h1.1, ?_⟩ (ih fun ab hab => he ab (List.mem_cons_of_mem _ hab))
    have := he _ (List.mem_cons_self ..)
    rw [this]
    exact h1.2

theorem witness_yBit {sqrt : Fq → Option Fq} {xs : List Bool} {w : GroupVars}
    (h : hashToGroupWitness sqrt compat xs = .ok w) :
    w.yBit = decide (w.point.y.val > halfOf FQ_MODULUS) := by
  unfold hashToGroupWitness at h
  split at h
  · cases h
  · split at h
    · cases h
    · dsimp only at h
      split at h
      · split at h
        · rw [← Outcome.ok.inj h]; rfl
        · rw [← Outcome.ok.inj h]; rfl
        · cases h
      · cases h

theorem step_hashToGroupV (hg : cs.Good) (hs : cs.setup = false) {xof : List BoolV} {xs : List Bool}
    (hx : List.Forall₂ (BitAt cs) xof xs) {w : GroupVars} {sat : Prop} {g' : G1Point}
    (hw : hashToGroupWitness N.sqrt compat xs = .ok w) (hh : hashToGroup OnG1 compat xs w = .ok (sat, g'))
    (hsat : sat) :
    Step cs (hashToGroupV N compat drop xof) fun c g => ∃ k, G1At c g k ∧ OnG1 k ∧ k.point = g' := by
  unfold hashToGroup at hh
  unfold hashToGroupV
  rw [hx.length_eq]
  split at hh
  · cases hh
  · rename_i hlen
    rw [if_neg hlen]
    generalize hsb : xof[SIGN_BIT_POSITION compat]? = o
    cases o with
    | none =>
      have : xs[SIGN_BIT_POSITION compat]? = none := by
        rw [List.getElem?_eq_none_iff] at hsb ⊢
        rw [← hx.length_eq]; exact hsb
      rw [this] at hh
      cases hh
    | some signBit =>
      obtain ⟨sb, hsb', hsbit⟩ := forall₂_getElem? hx _ hsb
      rw [hsb'] at hh
      obtain ⟨e1, e2⟩ := Prod.mk.inj (Outcome.ok.inj hh)
      rw [← e1] at hsat
      obtain ⟨hon, _, heq, hsign⟩ := hsat
      have hval : ∀ c, c.Good → cs.Ext c → c.setup = false →
          groupPointValue N compat xof c = .ok w.point := by
        intro c gc ec hsc
        unfold groupPointValue bitValues
        rw [bitAts_value (bitAts_ext hx hg ec) hsc, Outcome.bind_ok, hw]
      refine (step_allocPointG1_ext (P := w.point.coords) hg hon
        (fun c gc ec hsc => by rw [hval c gc ec hsc, Outcome.map_ok]; rfl)
        (fun c gc ec hsc => by rw [hval c gc ec hsc, Outcome.map_ok]; rfl)
        (fun c gc ec hsc => by rw [hval c gc ec hsc, Outcome.map_ok]; rfl)).bind fun c1 v g1 e1 hv => ?_
      have hv : G1At c1 v w.point := hv
      refine (step_toBitsLe fq_ne_two g1 hv.1).bind fun c2 bits g2 e2' hb => ?_
      rw [map_testBit_pedersen] at hb
      have hv := hv.ext g1 e2'
      refine (step_normalize (el := .var v.2.1) (v := .var w.point.y) fq_ne_two g2 hv.2.1).bind
        fun c3 yBit g3 e3 hy => ?_
      have hv := hv.ext g2 e3
      have hb := bitAts_ext hb g2 e3
      have e03 := (e1.trans e2').trans e3
      refine (step_equal_zip g3 hb (forall₂_take' (bitAts_ext hx hg e03) X_BITS) heq).bind
        fun c4 _ g4 e4 _ => ?_
      have hy := hy.ext g3 e4
      have hv := hv.ext g3 e4
      have e04 := e03.trans e4
      have hyb : decide ((FpVar.var w.point.y).value.val > halfOf FQ_MODULUS) = sb := by
        rw [← hsign, witness_yBit hw]; rfl
      rw [hyb] at hy
      refine (step_boolEnforceEqual g4 hy (hsbit.ext hg e04)).bind fun c5 _ g5 e5 _ => ?_
      refine (step_scaleByCofactorV g5 ((e04.trans e5).setup.trans hs) drop (hv.ext g4 e5) hon).mono
        fun c l _ h => ?_
      obtain ⟨k, k1, k2, k3⟩ := h
      exact ⟨k, k1, k2, k3.trans e2⟩

/-- The parts of the values assigned. -/
theorem witness_parts {B : Blake2s} {pedersen : Bytes → Outcome BLSError Bytes} {sqrt : Fq → Option Fq}
    {generate : Bool} {ts us : List Bool} {w : HashVars}
    (h : hashBitsToG1Witness compat K B pedersen pedX sqrt generate ts us = .ok w) :
    ∃ g c, (@hashWithAttemptCip22 G1Point _ (Classical.decEq _) compat (compositeHasher B pedersen) sqrt
        g1Scale SIG_DOMAIN (packBytes ts) (packBytes us) = .ok (g, c)) ∧ w.counter = UInt8.ofNat c ∧
      hashToBitsWitness K B (xofInput w.counter (packBytes us) (pedersenBits pedX (packBytes ts))) 512
        SIG_DOMAIN generate = .ok w.xofBits ∧
      hashToGroupWitness sqrt compat w.xofBits = .ok w.group := by
  unfold hashBitsToG1Witness at h
  generalize hq : (@hashWithAttemptCip22 G1Point _ (Classical.decEq _) compat (compositeHasher B pedersen)
    sqrt g1Scale SIG_DOMAIN (packBytes ts) (packBytes us)) = q at h
  cases q with
  | err e => cases h
  | panic => cases h
  | ok r =>
    obtain ⟨g, c⟩ := r
    obtain ⟨xb, h1, h2⟩ := (Outcome.bind_eq_ok_iff _ _ _).1 h
    obtain ⟨gw, h3, h4⟩ := (Outcome.map_eq_ok_iff _ _ _).1 h2
    subst h4
    exact ⟨g, c, rfl, rfl, h1, h3⟩

theorem onG1_complete : AllocCompleteG1 OnG1 := by
  intro x y h
  simp only [OnG1, G1Var.coords, ProjVar.OnCurve]
  linear_combination h

/-- Hashing, run. -/
theorem step_hashBitsToG1V (hG : G.RunsAt K pedX) {B : Blake2s} (hB : Blake2sAgree K B)
    {sqrt : Fq → Option Fq} (hsq : SqrtSpec sqrt) {pedersen : Bytes → Outcome BLSError Bytes}
    (hped : ∀ m d, pedersen m = .ok d → d = leBytes 48 (pedX m).val) (hg : cs.Good) (hs : cs.setup = false)
    {generate : Bool} {xs ys : List BoolV} {ts us : List Bool} (hx : List.Forall₂ (BitAt cs) xs ts)
    (hy : List.Forall₂ (BitAt cs) ys us) {out : HashOut G1Point}
    (ho : hashBitsToG1Out compat K B pedersen pedX sqrt generate ts us = .ok out) :
    Step cs (hashBitsToG1V G (hashNative compat B pedersen sqrt) compat drop generate xs ys)
      fun c h => h.At c out := by
  obtain ⟨w, hw, hwo⟩ := (Outcome.map_eq_ok_iff _ _ _).1 ho
  obtain ⟨g, n, ha, hcw, hbw, hgw⟩ := witness_parts hw
  have ha' := ha
  rw [packBytes_eq, packBytes_eq] at ha'
  have hcrh : pedersen (bitsBeToBytesLe ts) = .ok (leBytes 48 (pedX (bitsBeToBytesLe ts)).val) := by
    obtain ⟨d, hd, _⟩ := (@C19_ok_iff _ _ (Classical.decEq _) compat _ _ hsq _ _ _ _ _ _).1 ha'
    rw [← hped _ _ hd]
    exact hd
  obtain ⟨out', w', sat, k1, _, k3, _, k5, k6⟩ := @C51_native (Classical.decEq _) OnG1 onG1_complete compat
    K B hB sqrt hsq pedX pedersen generate ts us hcrh g n ha'
  obtain rfl : out' = out := Outcome.ok.inj (k1.symm.trans ho)
  obtain rfl : w' = w := Outcome.ok.inj (k3.symm.trans hw)
  clear k1 k3
  unfold hashBitsToG1 enforceHashToGroup at k5
  obtain ⟨P, hP, k5⟩ := (Outcome.bind_eq_ok_iff _ _ _).1 k5
  obtain ⟨⟨sat', g'⟩, hr, k5⟩ := (Outcome.map_eq_ok_iff _ _ _).1 k5
  obtain ⟨rfl, rfl⟩ := Prod.mk.inj k5
  obtain ⟨hPt, hsat⟩ := k6
  refine (step_mapM (At := BitAt) (vs := byteBits w'.counter) (fun a c b v hg he h => h.ext hg he) hg ?_).bind
    fun c1 counter g1 e1 hc => ?_
  · refine forall₂_range_getD _ (byteBits_length _) fun i hi c gc ec => ?_
    refine (step_boolWitness gc fun hsc => ?_).mono fun _ _ _ h => h.1
    unfold counterBitValue bitValues
    rw [bitAts_value (bitAts_ext hx hg ec) hsc, Outcome.bind_ok,
      bitAts_value (bitAts_ext hy hg ec) hsc, Outcome.bind_ok]
    have : (hashNative compat B pedersen sqrt).attempt (packBytes ts) (packBytes us) = .ok n := by
      simp only [hashNative]
      rw [ha]
    rw [this, Outcome.map_ok, hcw]
    congr 1
    unfold byteBits
    rw [List.getD_eq_getElem _ _ (by simpa using hi)]
    simp
  have hx := bitAts_ext hx hg e1
  have hy := bitAts_ext hy hg e1
  have s1 := e1.setup.trans hs
  refine (step_pedersenBitsV hG g1 s1 (packBytesV_at hx)).bind fun c2 crh g2 e2 hcrh => ?_
  have hin : List.Forall₂ (BitAt c2) (counter ++ (packBytesV ys).flatten ++ crh)
      (xofInput w'.counter (packBytes us) (pedersenBits pedX (packBytes ts))) :=
    forall₂_append' (forall₂_append' (bitAts_ext hc g1 e2)
      (flatten_bytes (packBytesV_at (bitAts_ext hy g1 e2)))) hcrh
  have s2 := e2.setup.trans s1
  refine (step_hashToBitsV hG (B := B) g2 s2 (by rw [hin.length_eq]; exact xofInput_dvd _ _ _ _) hin
    (fun _ => rfl) hbw hP hPt).bind fun c3 xof g3 e3 hxof => ?_
  have s3 := e3.setup.trans s2
  refine (step_hashToGroupV (N := hashNative compat B pedersen sqrt) g3 s3 hxof hgw hr hsat).bind
    fun c4 g g4 e4 hgp => step_pure g4 ?_
  exact ⟨hgp, bitAts_ext (bitAts_ext hcrh g2 e3) g3 e4, bitAts_ext hxof g3 e4⟩

end

end Verif
