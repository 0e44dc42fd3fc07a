import Verif.Lemmas.SynthesisExact

/-! Helper lemmas: the allocation of points, and the number of constraints of the sign gadgets. -/

set_option linter.unusedSectionVars false

namespace Verif

section

variable {p : ℕ}

/-! ### multiplication -/

theorem alike_fpMul (x y : LinComb p) : Alike (fpMul x y) (fpMul x y) :=
  (alike_newWitness _ _).bind fun _ => (alike_enforce _ _ _).bind fun _ => alike_pure _

theorem alike_fpWitness (f f' : ConstraintSystem p → Outcome SynthErr (ZMod p)) :
    Alike (fpWitness f) (fpWitness f') := (alike_newWitness _ _).bind fun _ => alike_pure _

theorem alike_fp2Witness (f f' : ConstraintSystem p → Outcome SynthErr (ZMod p × ZMod p)) :
    Alike (fp2Witness f) (fp2Witness f') :=
  (alike_fpWitness _ _).bind fun _ => (alike_fpWitness _ _).bind fun _ => alike_pure _

theorem alike_fp2Mul (nr : ZMod p) (x y : Fp2V p) : Alike (fp2Mul nr x y) (fp2Mul nr x y) :=
  (alike_fpMul _ _).bind fun _ => (alike_fpMul _ _).bind fun _ => (alike_fpMul _ _).bind fun _ =>
    alike_pure _

theorem alike_fp2Square (nr : ZMod p) (x : Fp2V p) : Alike (fp2Square nr x) (fp2Square nr x) :=
  (alike_fpMul _ _).bind fun _ => (alike_fpMul _ _).bind fun _ => alike_pure _

theorem alike_fp2MulEquals (nr : ZMod p) (x y z : Fp2V p) :
    Alike (fp2MulEquals nr x y z) (fp2MulEquals nr x y z) :=
  (alike_fpMul _ _).bind fun _ => (alike_enforce _ _ _).bind fun _ => alike_enforce _ _ _

theorem alike_allocPointG1 (b : ZMod p) (x y z x' y' z' : ConstraintSystem p → Outcome SynthErr (ZMod p)) :
    Alike (allocPointG1 b x y z) (allocPointG1 b x' y' z') :=
  (alike_fpWitness _ _).bind fun _ => (alike_fpWitness _ _).bind fun _ =>
    (alike_fpWitness _ _).bind fun _ => (alike_fpMul _ _).bind fun _ => (alike_fpMul _ _).bind fun _ =>
      (alike_fpMul _ _).bind fun _ => (alike_fpMul _ _).bind fun _ => (alike_enforce _ _ _).bind fun _ =>
        alike_pure _

theorem alike_allocPointG2 (nr b0 b1 : ZMod p)
    (x y z x' y' z' : ConstraintSystem p → Outcome SynthErr (ZMod p × ZMod p)) :
    Alike (allocPointG2 nr b0 b1 x y z) (allocPointG2 nr b0 b1 x' y' z') :=
  (alike_fp2Witness _ _).bind fun _ => (alike_fp2Witness _ _).bind fun _ =>
    (alike_fp2Witness _ _).bind fun _ => (alike_fp2Square _ _).bind fun _ =>
      (alike_fp2Square _ _).bind fun _ => (alike_fp2Square _ _).bind fun _ =>
        (alike_fp2Mul _ _ _).bind fun _ => (alike_fp2MulEquals _ _ _ _).bind fun _ => alike_pure _

/-- The value of a variable of the quadratic extension `u ^ 2 = nr`. -/
def Fp2V.at (nr : ZMod p) (ρ : R1Var → ZMod p) (x : Fp2V p) : QuadraticAlgebra (ZMod p) nr 0 :=
  ⟨evalLc ρ x.c0, evalLc ρ x.c1⟩

/-- The variable is over allocated variables and, outside setup mode, has the value `v`. -/
def Fp2At (nr : ZMod p) (cs : ConstraintSystem p) (x : Fp2V p) (v : QuadraticAlgebra (ZMod p) nr 0) :
    Prop := LcAt cs x.c0 v.re ∧ LcAt cs x.c1 v.im

theorem Fp2At.ext {nr : ZMod p} {a b : ConstraintSystem p} {x : Fp2V p}
    {v : QuadraticAlgebra (ZMod p) nr 0} (h : Fp2At nr a x v) (hg : a.Good) (he : a.Ext b) :
    Fp2At nr b x v := ⟨h.1.ext hg he, h.2.ext hg he⟩

end

section

variable {p : ℕ} [Fact p.Prime]

theorem sound_fpMul {ρ : R1Var → ZMod p} (x y : LinComb p) :
    Sound ρ (fpMul x y) fun l => evalLc ρ l = evalLc ρ x * evalLc ρ y := by
  refine Sound.bind sound_any (fun _ => (alike_enforce _ _ _).bind fun _ => alike_pure _) fun v _ => ?_
  refine (sound_enforce _ _ _).bind (fun _ => alike_pure _) fun _ h => sound_pure ?_
  exact h.symm

theorem step_fpMul {cs : ConstraintSystem p} (hg : cs.Good) {x y : LinComb p} {a b : ZMod p}
    (hx : LcAt cs x a) (hy : LcAt cs y b) :
    Step cs (fpMul x y) fun cs' l => LcAt cs' l (a * b) := by
  refine (step_newWitness (x := a * b) hg fun hs => by
    rw [hx.value hs, Outcome.bind_ok, hy.value hs, Outcome.map_ok]).bind fun c1 v g1 e1 hv => ?_
  exact (step_enforce g1 (hx.ext hg e1) (hy.ext hg e1) hv rfl).bind fun c2 _ g2 e2 _ =>
    step_pure g2 (hv.ext g1 e2)

theorem sound_fp2Mul {ρ : R1Var → ZMod p} (nr : ZMod p) (x y : Fp2V p) :
    Sound ρ (fp2Mul nr x y) fun l => l.at nr ρ = x.at nr ρ * y.at nr ρ := by
  refine (sound_fpMul _ _).bind (fun _ => (alike_fpMul _ _).bind fun _ => (alike_fpMul _ _).bind fun _ =>
    alike_pure _) fun v0 h0 => ?_
  refine (sound_fpMul _ _).bind (fun _ => (alike_fpMul _ _).bind fun _ => alike_pure _) fun v1 h1 => ?_
  refine (sound_fpMul _ _).bind (fun _ => alike_pure _) fun t h2 => sound_pure ?_
  rw [evalLc_append, evalLc_append] at h2
  ext
  · simp only [Fp2V.at, evalLc_append, evalLc_lcScale, QuadraticAlgebra.re_mul, h0, h1]; ring
  · simp only [Fp2V.at, evalLc_lcSub, QuadraticAlgebra.im_mul, h0, h1, h2]; ring

theorem sound_fp2Square {ρ : R1Var → ZMod p} (nr : ZMod p) (x : Fp2V p) :
    Sound ρ (fp2Square nr x) fun l => l.at nr ρ = x.at nr ρ ^ 2 := by
  refine (sound_fpMul _ _).bind (fun _ => (alike_fpMul _ _).bind fun _ => alike_pure _) fun v0 h0 => ?_
  refine (sound_fpMul _ _).bind (fun _ => alike_pure _) fun t h2 => sound_pure ?_
  rw [evalLc_append, evalLc_append, evalLc_lcScale] at h2
  rw [pow_two]
  ext
  · simp only [Fp2V.at, evalLc_lcSub, evalLc_lcScale, QuadraticAlgebra.re_mul, h0, h2]; ring
  · simp only [Fp2V.at, evalLc_lcScale, QuadraticAlgebra.im_mul, h0]; ring

theorem sound_fp2MulEquals {ρ : R1Var → ZMod p} (nr : ZMod p) (x y z : Fp2V p) :
    Sound ρ (fp2MulEquals nr x y z) fun _ => x.at nr ρ * y.at nr ρ = z.at nr ρ := by
  refine (sound_fpMul _ _).bind (fun _ => (alike_enforce _ _ _).bind fun _ => alike_enforce _ _ _)
    fun v1 h1 => ?_
  refine (sound_enforce _ _ _).bind (fun _ => alike_enforce _ _ _) fun _ h2 => ?_
  refine (sound_enforce _ _ _).mono fun _ h3 => ?_
  simp only [evalLc_lcSub, evalLc_lcScale, evalLc_append, h1] at h2 h3
  ext
  · simp only [Fp2V.at, QuadraticAlgebra.re_mul]; linear_combination h2
  · simp only [Fp2V.at, QuadraticAlgebra.im_mul]; linear_combination h3 - h2

theorem step_fp2Mul {cs : ConstraintSystem p} (hg : cs.Good) {nr : ZMod p} {x y : Fp2V p}
    {a b : QuadraticAlgebra (ZMod p) nr 0} (hx : Fp2At nr cs x a) (hy : Fp2At nr cs y b) :
    Step cs (fp2Mul nr x y) fun cs' l => Fp2At nr cs' l (a * b) := by
  refine (step_fpMul hg hx.1 hy.1).bind fun c1 v0 g1 e1 h0 => ?_
  have hx1 := hx.ext hg e1
  have hy1 := hy.ext hg e1
  refine (step_fpMul g1 hx1.2 hy1.2).bind fun c2 v1 g2 e2 h1 => ?_
  have hx2 := hx1.ext g1 e2
  have hy2 := hy1.ext g1 e2
  refine (step_fpMul g2 (hx2.1.append hx2.2) (hy2.1.append hy2.2)).bind fun c3 t g3 e3 ht => ?_
  have h0' := (h0.ext g1 e2).ext g2 e3
  have h1' := h1.ext g2 e3
  refine step_pure g3 ⟨?_, ?_⟩
  · have := h0'.append (h1'.scale nr)
    rw [QuadraticAlgebra.re_mul, show a.re * b.re + nr * a.im * b.im =
      a.re * b.re + nr * (a.im * b.im) by ring]
    exact this
  · have := (ht.sub h0').sub h1'
    rw [QuadraticAlgebra.im_mul, show a.re * b.im + a.im * b.re + 0 * a.im * b.im =
      (a.re + a.im) * (b.re + b.im) - a.re * b.re - a.im * b.im by ring]
    exact this

theorem step_fp2Square {cs : ConstraintSystem p} (hg : cs.Good) {nr : ZMod p} {x : Fp2V p}
    {a : QuadraticAlgebra (ZMod p) nr 0} (hx : Fp2At nr cs x a) :
    Step cs (fp2Square nr x) fun cs' l => Fp2At nr cs' l (a ^ 2) := by
  refine (step_fpMul hg hx.1 hx.2).bind fun c1 v0 g1 e1 h0 => ?_
  have hx1 := hx.ext hg e1
  refine (step_fpMul g1 (hx1.1.append hx1.2) (hx1.1.append (hx1.2.scale nr))).bind
    fun c2 t g2 e2 ht => ?_
  have h0' := h0.ext g1 e2
  rw [pow_two]
  refine step_pure g2 ⟨?_, ?_⟩
  · have := ht.sub (h0'.scale (1 + nr))
    rw [QuadraticAlgebra.re_mul, show a.re * a.re + nr * a.im * a.im =
      (a.re + a.im) * (a.re + nr * a.im) - (1 + nr) * (a.re * a.im) by ring]
    exact this
  · have := h0'.scale 2
    rw [QuadraticAlgebra.im_mul, show a.re * a.im + a.im * a.re + 0 * a.im * a.im =
      2 * (a.re * a.im) by ring]
    exact this

theorem step_fp2MulEquals {cs : ConstraintSystem p} (hg : cs.Good) {nr : ZMod p} {x y z : Fp2V p}
    {a b c : QuadraticAlgebra (ZMod p) nr 0} (hx : Fp2At nr cs x a) (hy : Fp2At nr cs y b)
    (hz : Fp2At nr cs z c) (h : a * b = c) :
    Step cs (fp2MulEquals nr x y z) fun _ _ => True := by
  subst h
  refine (step_fpMul hg hx.2 hy.2).bind fun c1 v1 g1 e1 h1 => ?_
  have hx1 := hx.ext hg e1
  have hy1 := hy.ext hg e1
  have hz1 := hz.ext hg e1
  refine (step_enforce g1 hx1.1 hy1.1 (hz1.1.sub (h1.scale nr)) ?_).bind fun c2 _ g2 e2 _ => ?_
  · rw [QuadraticAlgebra.re_mul]; ring
  have hx2 := hx1.ext g1 e2
  have hy2 := hy1.ext g1 e2
  have hz2 := hz1.ext g1 e2
  refine step_enforce g2 (hx2.1.append hx2.2) (hy2.1.append hy2.2)
    ((hz2.2.append hz2.1).append ((h1.ext g1 e2).scale (1 - nr))) ?_
  rw [QuadraticAlgebra.re_mul, QuadraticAlgebra.im_mul]; ring

/-! ### points -/

/-- The coordinates of an allocated point of G1 under an assignment. -/
def pointAtG1 (ρ : R1Var → ZMod p) (v : LinComb p × LinComb p × LinComb p) : ProjVar (ZMod p) :=
  ⟨evalLc ρ v.1, evalLc ρ v.2.1, evalLc ρ v.2.2⟩

theorem sound_allocPointG1 {ρ : R1Var → ZMod p} (b : ZMod p)
    (x y z : ConstraintSystem p → Outcome SynthErr (ZMod p)) :
    Sound ρ (allocPointG1 b x y z) fun v => (pointAtG1 ρ v).OnCurve b := by
  refine Sound.bind sound_any (fun _ => (alike_fpWitness _ _).bind fun _ =>
    (alike_fpWitness _ _).bind fun _ => (alike_fpMul _ _).bind fun _ => (alike_fpMul _ _).bind fun _ =>
      (alike_fpMul _ _).bind fun _ => (alike_fpMul _ _).bind fun _ => (alike_enforce _ _ _).bind fun _ =>
        alike_pure _) fun vx _ => ?_
  refine Sound.bind sound_any (fun _ =>
    (alike_fpWitness _ _).bind fun _ => (alike_fpMul _ _).bind fun _ => (alike_fpMul _ _).bind fun _ =>
      (alike_fpMul _ _).bind fun _ => (alike_fpMul _ _).bind fun _ => (alike_enforce _ _ _).bind fun _ =>
        alike_pure _) fun vy _ => ?_
  refine Sound.bind sound_any (fun _ => (alike_fpMul _ _).bind fun _ => (alike_fpMul _ _).bind fun _ =>
      (alike_fpMul _ _).bind fun _ => (alike_fpMul _ _).bind fun _ => (alike_enforce _ _ _).bind fun _ =>
        alike_pure _) fun vz _ => ?_
  refine (sound_fpMul _ _).bind (fun _ => (alike_fpMul _ _).bind fun _ => (alike_fpMul _ _).bind fun _ =>
    (alike_fpMul _ _).bind fun _ => (alike_enforce _ _ _).bind fun _ => alike_pure _) fun y2 hy2 => ?_
  refine (sound_fpMul _ _).bind (fun _ => (alike_fpMul _ _).bind fun _ =>
    (alike_fpMul _ _).bind fun _ => (alike_enforce _ _ _).bind fun _ => alike_pure _) fun z2 hz2 => ?_
  refine (sound_fpMul _ _).bind (fun _ =>
    (alike_fpMul _ _).bind fun _ => (alike_enforce _ _ _).bind fun _ => alike_pure _) fun x2 hx2 => ?_
  refine (sound_fpMul _ _).bind (fun _ => (alike_enforce _ _ _).bind fun _ => alike_pure _)
    fun x3 hx3 => ?_
  refine (sound_enforce _ _ _).bind (fun _ => alike_pure _) fun _ h => sound_pure ?_
  rw [evalLc_lcSub, evalLc_lcScale, hy2, hz2, hx3, hx2] at h
  simp only [ProjVar.OnCurve, pointAtG1]
  linear_combination h

theorem step_fpWitness {cs : ConstraintSystem p} (hg : cs.Good)
    {f : ConstraintSystem p → Outcome SynthErr (ZMod p)} {x : ZMod p}
    (h : cs.setup = false → f cs = .ok x) :
    Step cs (fpWitness f) fun cs' l => LcAt cs' l x :=
  (step_newWitness hg h).bind fun _ _ g1 _ hv => step_pure g1 hv

theorem step_allocPointG1 {cs : ConstraintSystem p} (hg : cs.Good) {b : ZMod p} {P : ProjVar (ZMod p)}
    (hP : P.OnCurve b) {x y z : ConstraintSystem p → Outcome SynthErr (ZMod p)}
    (hx : ∀ c, c.setup = false → c.setup = cs.setup → x c = .ok P.x)
    (hy : ∀ c, c.setup = false → c.setup = cs.setup → y c = .ok P.y)
    (hz : ∀ c, c.setup = false → c.setup = cs.setup → z c = .ok P.z) :
    Step cs (allocPointG1 b x y z) fun cs' v =>
      LcAt cs' v.1 P.x ∧ LcAt cs' v.2.1 P.y ∧ LcAt cs' v.2.2 P.z := by
  refine (step_fpWitness hg fun hs => hx cs hs rfl).bind fun c1 vx g1 e1 ax => ?_
  refine (step_fpWitness g1 fun hs => hy c1 hs e1.setup).bind fun c2 vy g2 e2 ay => ?_
  have ax := ax.ext g1 e2
  refine (step_fpWitness g2 fun hs => hz c2 hs (e2.setup.trans e1.setup)).bind
    fun c3 vz g3 e3 az => ?_
  have ax := ax.ext g2 e3
  have ay := ay.ext g2 e3
  refine (step_fpMul g3 ay ay).bind fun c4 y2 g4 e4 ay2 => ?_
  have ax := ax.ext g3 e4
  have ay := ay.ext g3 e4
  have az := az.ext g3 e4
  refine (step_fpMul g4 az az).bind fun c5 z2 g5 e5 az2 => ?_
  have ax := ax.ext g4 e5
  have ay := ay.ext g4 e5
  have az := az.ext g4 e5
  have ay2 := ay2.ext g4 e5
  refine (step_fpMul g5 ax ax).bind fun c6 x2 g6 e6 ax2 => ?_
  have ax := ax.ext g5 e6
  have ay := ay.ext g5 e6
  have az := az.ext g5 e6
  have ay2 := ay2.ext g5 e6
  have az2 := az2.ext g5 e6
  refine (step_fpMul g6 ax2 ax).bind fun c7 x3 g7 e7 ax3 => ?_
  have ax := ax.ext g6 e7
  have ay := ay.ext g6 e7
  have az := az.ext g6 e7
  have ay2 := ay2.ext g6 e7
  have az2 := az2.ext g6 e7
  refine (step_enforce g7 az (ay2.sub (az2.scale b)) ax3 ?_).bind fun c8 _ g8 e8 _ =>
    step_pure g8 ⟨ax.ext g7 e8, ay.ext g7 e8, az.ext g7 e8⟩
  unfold ProjVar.OnCurve at hP
  linear_combination hP

end

section

variable {p : ℕ} [Fact p.Prime]

/-- On-curve equation for coordinates of the quadratic extension (`ProjVar.OnCurve`, which is stated
over fields). -/
theorem sound_allocPointG2 {ρ : R1Var → ZMod p} (nr b0 b1 : ZMod p)
    (x y z : ConstraintSystem p → Outcome SynthErr (ZMod p × ZMod p)) :
    Sound ρ (allocPointG2 nr b0 b1 x y z) fun v =>
      v.2.2.at nr ρ * (v.2.1.at nr ρ ^ 2 - ⟨b0, b1⟩ * v.2.2.at nr ρ ^ 2) =
        v.1.at nr ρ * v.1.at nr ρ ^ 2 := by
  refine Sound.bind sound_any (fun _ => (alike_fp2Witness _ _).bind fun _ =>
    (alike_fp2Witness _ _).bind fun _ => (alike_fp2Square _ _).bind fun _ =>
      (alike_fp2Square _ _).bind fun _ => (alike_fp2Square _ _).bind fun _ =>
        (alike_fp2Mul _ _ _).bind fun _ => (alike_fp2MulEquals _ _ _ _).bind fun _ => alike_pure _)
    fun vx _ => ?_
  refine Sound.bind sound_any (fun _ =>
    (alike_fp2Witness _ _).bind fun _ => (alike_fp2Square _ _).bind fun _ =>
      (alike_fp2Square _ _).bind fun _ => (alike_fp2Square _ _).bind fun _ =>
        (alike_fp2Mul _ _ _).bind fun _ => (alike_fp2MulEquals _ _ _ _).bind fun _ => alike_pure _)
    fun vy _ => ?_
  refine Sound.bind sound_any (fun _ => (alike_fp2Square _ _).bind fun _ =>
      (alike_fp2Square _ _).bind fun _ => (alike_fp2Square _ _).bind fun _ =>
        (alike_fp2Mul _ _ _).bind fun _ => (alike_fp2MulEquals _ _ _ _).bind fun _ => alike_pure _)
    fun vz _ => ?_
  refine (sound_fp2Square _ _).bind (fun _ =>
      (alike_fp2Square _ _).bind fun _ => (alike_fp2Square _ _).bind fun _ =>
        (alike_fp2Mul _ _ _).bind fun _ => (alike_fp2MulEquals _ _ _ _).bind fun _ => alike_pure _)
    fun y2 hy2 => ?_
  refine (sound_fp2Square _ _).bind (fun _ => (alike_fp2Square _ _).bind fun _ =>
        (alike_fp2Mul _ _ _).bind fun _ => (alike_fp2MulEquals _ _ _ _).bind fun _ => alike_pure _)
    fun z2 hz2 => ?_
  refine (sound_fp2Square _ _).bind (fun _ =>
        (alike_fp2Mul _ _ _).bind fun _ => (alike_fp2MulEquals _ _ _ _).bind fun _ => alike_pure _)
    fun x2 hx2 => ?_
  refine (sound_fp2Mul _ _ _).bind (fun _ => (alike_fp2MulEquals _ _ _ _).bind fun _ => alike_pure _)
    fun x3 hx3 => ?_
  refine (sound_fp2MulEquals _ _ _ _).bind (fun _ => alike_pure _) fun _ h => sound_pure ?_
  have e : (Fp2V.sub y2 (z2.scale nr b0 b1)).at nr ρ =
      vy.at nr ρ ^ 2 - ⟨b0, b1⟩ * vz.at nr ρ ^ 2 := by
    rw [← hy2, ← hz2]
    ext
    · simp only [Fp2V.at, Fp2V.sub, Fp2V.scale, evalLc_lcSub, evalLc_append, evalLc_lcScale,
        QuadraticAlgebra.re_sub, QuadraticAlgebra.re_mul]
    · simp only [Fp2V.at, Fp2V.sub, Fp2V.scale, evalLc_lcSub, evalLc_append, evalLc_lcScale,
        QuadraticAlgebra.im_sub, QuadraticAlgebra.im_mul]
      ring
  rw [e, hx3, hx2] at h
  rw [h, mul_comm]

theorem step_fp2Witness {cs : ConstraintSystem p} (hg : cs.Good) {nr : ZMod p}
    {f : ConstraintSystem p → Outcome SynthErr (ZMod p × ZMod p)}
    {v : QuadraticAlgebra (ZMod p) nr 0}
    (h : ∀ c, c.setup = false → c.setup = cs.setup → f c = .ok (v.re, v.im)) :
    Step cs (fp2Witness f) fun cs' x => Fp2At nr cs' x v := by
  refine (step_fpWitness (x := v.re) hg fun hs => by rw [h cs hs rfl, Outcome.map_ok]).bind
    fun c1 a g1 e1 ha => ?_
  exact (step_fpWitness (x := v.im) g1 fun hs => by rw [h c1 hs e1.setup, Outcome.map_ok]).bind
    fun c2 b g2 e2 hb => step_pure g2 ⟨ha.ext g1 e2, hb⟩

theorem step_allocPointG2 {cs : ConstraintSystem p} (hg : cs.Good) {nr b0 b1 : ZMod p}
    {X Y Z : QuadraticAlgebra (ZMod p) nr 0} (hP : Z * (Y ^ 2 - ⟨b0, b1⟩ * Z ^ 2) = X * X ^ 2)
    {x y z : ConstraintSystem p → Outcome SynthErr (ZMod p × ZMod p)}
    (hx : ∀ c, c.setup = false → c.setup = cs.setup → x c = .ok (X.re, X.im))
    (hy : ∀ c, c.setup = false → c.setup = cs.setup → y c = .ok (Y.re, Y.im))
    (hz : ∀ c, c.setup = false → c.setup = cs.setup → z c = .ok (Z.re, Z.im)) :
    Step cs (allocPointG2 nr b0 b1 x y z) fun cs' v =>
      Fp2At nr cs' v.1 X ∧ Fp2At nr cs' v.2.1 Y ∧ Fp2At nr cs' v.2.2 Z := by
  refine (step_fp2Witness hg hx).bind fun c1 vx g1 e1 ax => ?_
  refine (step_fp2Witness g1 fun c h h' => hy c h (h'.trans e1.setup)).bind fun c2 vy g2 e2 ay => ?_
  have ax := ax.ext g1 e2
  refine (step_fp2Witness g2 fun c h h' => hz c h (h'.trans (e2.setup.trans e1.setup))).bind
    fun c3 vz g3 e3 az => ?_
  have ax := ax.ext g2 e3
  have ay := ay.ext g2 e3
  refine (step_fp2Square g3 ay).bind fun c4 y2 g4 e4 ay2 => ?_
  have ax := ax.ext g3 e4
  have ay := ay.ext g3 e4
  have az := az.ext g3 e4
  refine (step_fp2Square g4 az).bind fun c5 z2 g5 e5 az2 => ?_
  have ax := ax.ext g4 e5
  have ay := ay.ext g4 e5
  have az := az.ext g4 e5
  have ay2 := ay2.ext g4 e5
  refine (step_fp2Square g5 ax).bind fun c6 x2 g6 e6 ax2 => ?_
  have ax := ax.ext g5 e6
  have ay := ay.ext g5 e6
  have az := az.ext g5 e6
  have ay2 := ay2.ext g5 e6
  have az2 := az2.ext g5 e6
  refine (step_fp2Mul g6 ax2 ax).bind fun c7 x3 g7 e7 ax3 => ?_
  have ax := ax.ext g6 e7
  have ay := ay.ext g6 e7
  have az := az.ext g6 e7
  have ay2 := ay2.ext g6 e7
  have az2 := az2.ext g6 e7
  have hs : Fp2At nr c7 (Fp2V.sub y2 (z2.scale nr b0 b1)) (Y ^ 2 - ⟨b0, b1⟩ * Z ^ 2) := by
    refine ⟨?_, ?_⟩
    · have := ay2.1.sub ((az2.1.scale b0).append (az2.2.scale (nr * b1)))
      rw [QuadraticAlgebra.re_sub, QuadraticAlgebra.re_mul]
      exact this
    · have := ay2.2.sub ((az2.1.scale b1).append (az2.2.scale b0))
      have e : (Y ^ 2 - (⟨b0, b1⟩ : QuadraticAlgebra (ZMod p) nr 0) * Z ^ 2).im =
          (Y ^ 2).im - (b1 * (Z ^ 2).re + b0 * (Z ^ 2).im) := by
        rw [QuadraticAlgebra.im_sub, QuadraticAlgebra.im_mul]
        ring
      rw [e]
      exact this
  refine (step_fp2MulEquals g7 az hs ax3 ?_).bind fun c8 _ g8 e8 _ =>
    step_pure g8 ⟨ax.ext g7 e8, ay.ext g7 e8, az.ext g7 e8⟩
  rw [hP, mul_comm]

end

end Verif
