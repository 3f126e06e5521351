import Verif.Model.EngineBackward
import Verif.Spec.Response
import Verif.Props.Backward
import Verif.Props.Library
import Verif.Props.Rub

/-! # C101: gradients through contacts with friction -/

noncomputable section

namespace LcpPhysics
open Matrix Spec

variable {σ φ : Type} {nz nineq neq : ℕ}

/-! ## The backward pass applies the Jacobian instead of its transpose -/

theorem newton_neg {Q : Matrix (Fin nz) (Fin nz) ℝ} {G : Matrix (Fin nineq) (Fin nz) ℝ}
    {A : Matrix (Fin neq) (Fin nz) ℝ} {F : Matrix (Fin nineq) (Fin nineq) ℝ} {d : Fin nineq → ℝ} {rx : Fin nz → ℝ}
    {dx : Fin nz → ℝ} {ds dz : Fin nineq → ℝ} {dy : Fin neq → ℝ} (h : NewtonStep Q G A F d rx 0 0 0 dx ds dz dy) :
    NewtonStep Q G A F d (-rx) 0 0 0 (-dx) (-ds) (-dz) (-dy) := by
  refine ⟨?_, fun i => ?_, ?_, ?_⟩
  · rw [← h.dual, Matrix.mulVec_neg, Matrix.mulVec_neg, Matrix.mulVec_neg]; abel
  · have := h.compl i
    simp only [Pi.neg_apply, Pi.zero_apply, neg_zero] at this ⊢
    linarith
  · have e : G *ᵥ (-dx) + -ds - F *ᵥ (-dz) = -(G *ᵥ dx + ds - F *ᵥ dz) := by
      rw [Matrix.mulVec_neg, Matrix.mulVec_neg]; abel
    rw [e, h.ineq]; simp
  · rw [Matrix.mulVec_neg, h.eq]; simp

/-- C101: what `backward` returns as gradient with respect to `p` for a loss with gradient `δ` is the derivative of the
solution in the direction `δ`: the loss gradient is multiplied by the Jacobian, not by its transpose. -/
theorem C101_transposed (f : Btrifact) (hf : BtrifactOk f) (P : ℝ → Lcp nz nineq neq) (v : ℝ → Iter nz nineq neq)
    (δ : Fin nz → ℝ) (dv : Iter nz nineq neq) (hc : SolutionCurve P v (onlyP δ) dv) (hs : ∀ i, 0 < (v 0).s i)
    (hz : ∀ i, 0 < (v 0).z i) (hQ : (P 0).Qᵀ = (P 0).Q) (K : Kkt nz nineq neq)
    (hK : pre_factor_kkt f (P 0).Q (P 0).G (P 0).F (P 0).A = .ok K) (ds : List (Fin nineq → ℝ))
    (g : Grads nz nineq neq)
    (hg : lcpBackward f (P 0) K (factorHistory f K.R K.S_LU ds) (v 0) δ = some g) : g.dp = dv.x := by
  have hd : ∀ i, (v 0).z i / (v 0).s i ≠ 0 := fun i => (div_pos (hz i) (hs i)).ne'
  obtain ⟨S', hS', rfl⟩ := Option.map_eq_some_iff.1 hg
  have hw := C44_factor_and_solve f hf _ _ _ _ hQ K hK ds _ hd S' hS' δ 0 0 0
  have hv := solutionCurve_newton hc (fun i => (hs i).ne')
  obtain ⟨h1, h2⟩ := C45_block_lu f hf _ _ _ _ hQ K hK ds _ S' hS'
  have hS := h2.det_ne
  rw [flatBlocks, Matrix.det_submatrix_equiv_self] at hS
  have e : NewtonStep (P 0).Q (P 0).G (P 0).A (P 0).F (fun i => (v 0).z i / (v 0).s i) δ 0 0 0 dv.x dv.s dv.z dv.y := by
    simpa [onlyP] using hv
  exact (C44_newton_unique _ _ _ _ _ hd h1.det_ne hS _ _ _ _ _ _ _ _ _ _ _ _ hw e).1

/-- C101: through every strictly interior solution, in every direction of `p` for which the Newton system has a solution,
there is a curve of problems and solutions; so the derivatives the theorems speak of exist. -/
theorem C101_curve_exists (P : Lcp nz nineq neq) (v : Iter nz nineq neq) (h : SolvesRows P v) (hs : ∀ i, 0 < v.s i)
    (hz : ∀ i, 0 < v.z i) (δ : Fin nz → ℝ) (dv : Iter nz nineq neq)
    (hd : NewtonStep P.Q P.G P.A P.F (fun i => v.z i / v.s i) δ 0 0 0 dv.x dv.s dv.z dv.y) :
    ∃ (Pt : ℝ → Lcp nz nineq neq) (vt : ℝ → Iter nz nineq neq), Pt 0 = P ∧ vt 0 = v ∧
      SolutionCurve Pt vt (onlyP δ) dv := by
  set vt : ℝ → Iter nz nineq neq := fun t =>
    { x := fun k => v.x k + t * dv.x k, y := fun k => v.y k + t * dv.y k
      s := fun i => v.s i * Real.exp (-(dv.z i / v.z i) * t), z := fun i => v.z i * Real.exp (dv.z i / v.z i * t) } with hvt
  set Pt : ℝ → Lcp nz nineq neq := fun t =>
    { Q := P.Q, G := P.G, A := P.A, F := P.F
      p := fun k => -(∑ j, P.Q k j * (vt t).x j + ∑ i, P.G i k * (vt t).z i + ∑ i, P.A i k * (vt t).y i)
      h := fun i => ∑ j, P.G i j * (vt t).x j + (vt t).s i - ∑ j, P.F i j * (vt t).z j
      b := fun i => ∑ j, P.A i j * (vt t).x j } with hPt
  have v0 : vt 0 = v := by simp [hvt]
  have dx : ∀ k, HasDerivAt (fun t => (vt t).x k) (dv.x k) 0 := fun k => by
    simpa [hvt] using ((hasDerivAt_id (0 : ℝ)).mul_const (dv.x k)).const_add (v.x k)
  have dy : ∀ k, HasDerivAt (fun t => (vt t).y k) (dv.y k) 0 := fun k => by
    simpa [hvt] using ((hasDerivAt_id (0 : ℝ)).mul_const (dv.y k)).const_add (v.y k)
  have dexp : ∀ a c : ℝ, HasDerivAt (fun t => a * Real.exp (c * t)) (a * c) 0 := fun a c => by
    have := (((hasDerivAt_id (0 : ℝ)).const_mul c).exp).const_mul a
    simpa using this
  have dz : ∀ i, HasDerivAt (fun t => (vt t).z i) (dv.z i) 0 := fun i => by
    have := dexp (v.z i) (dv.z i / v.z i)
    rwa [mul_div_cancel₀ _ (hz i).ne'] at this
  have ds : ∀ i, HasDerivAt (fun t => (vt t).s i) (dv.s i) 0 := fun i => by
    have := dexp (v.s i) (-(dv.z i / v.z i))
    have e : v.s i * -(dv.z i / v.z i) = dv.s i := by
      have e := hd.compl i
      have := (hs i).ne'
      have := (hz i).ne'
      simp only [Pi.zero_apply, neg_zero] at e
      field_simp at e ⊢
      linarith
    rwa [e] at this
  have dsum : ∀ {n : ℕ} (c : Fin n → ℝ) {x : ℝ → Fin n → ℝ} {x' : Fin n → ℝ},
      (∀ j, HasDerivAt (fun t => x t j) (x' j) 0) → HasDerivAt (fun t => ∑ j, c j * x t j) (∑ j, c j * x' j) 0 :=
    fun c _ _ hx => HasDerivAt.fun_sum fun j _ => (hx j).const_mul (c j)
  refine ⟨Pt, vt, ?_, v0, ?_⟩
  · have e1 : (fun k => -(∑ j, P.Q k j * v.x j + ∑ i, P.G i k * v.z i + ∑ i, P.A i k * v.y i)) = P.p := by
      funext k
      have := h.stat k
      linarith
    have e2 : (fun i => ∑ j, P.G i j * v.x j + v.s i - ∑ j, P.F i j * v.z j) = P.h := by
      funext i
      have := h.ineq i
      linarith
    have e3 : (fun i => ∑ j, P.A i j * v.x j) = P.b := by
      funext i
      have := h.eq i
      linarith
    simp only [hPt, v0, e1, e2, e3]
  · have c0 : ∀ x : ℝ, HasDerivAt (fun _ : ℝ => x) 0 0 := fun x => hasDerivAt_const _ _
    refine ⟨fun t k => ?_, fun t i => ?_, fun t i => ?_, fun t i => ?_, fun i j => c0 _, fun k => ?_, fun i j => c0 _,
      fun i => ?_, fun i j => c0 _, fun i => ?_, fun i j => c0 _, dx, ds, dz, dy⟩
    · simp only [hPt]; ring
    · simp only [hPt]; ring
    · simp only [hPt]; ring
    · simp only [hvt, mul_zero, Real.exp_zero, mul_one]
      rw [mul_mul_mul_comm, ← Real.exp_add]
      simp
    · have e := congrFun hd.dual k
      simp only [Pi.add_apply, Matrix.mulVec, dotProduct, Matrix.transpose_apply, Pi.neg_apply] at e
      have := (((dsum (P.Q k) dx).add (dsum (fun i => P.G i k) dz)).add (dsum (fun i => P.A i k) dy)).neg
      rw [e, neg_neg] at this
      exact this
    · have e := congrFun hd.ineq i
      simp only [Pi.add_apply, Pi.sub_apply, Matrix.mulVec, dotProduct, Pi.neg_apply, Pi.zero_apply, neg_zero] at e
      have := ((dsum (P.G i) dx).add (ds i)).sub (dsum (P.F i) dz)
      rw [e] at this
      exact this
    · have e := congrFun hd.eq i
      simp only [Matrix.mulVec, dotProduct, Pi.neg_apply, Pi.zero_apply, neg_zero] at e
      have := dsum (P.A i) dx
      rw [e] at this
      exact this

/-! ## In a world with contacts -/

theorem finVec_mv {n m : ℕ} (A : Mat) (x : Fin n → ℝ) (i : Fin m) :
    mv A n (finVec x) i = ((Matrix.of fun (i : Fin m) (j : Fin n) => A i j) *ᵥ x) i := by
  unfold mv finVec
  rw [sum_ext]
  rfl

theorem finVec_tmv {n m : ℕ} (A : Mat) (z : Fin m → ℝ) (k : Fin n) :
    tmv A m (finVec z) k = ((Matrix.of fun (i : Fin m) (j : Fin n) => A i j)ᵀ *ᵥ z) k := by
  unfold tmv finVec
  rw [sum_ext]
  rfl

theorem finVec_at {n : ℕ} (x : Fin n → ℝ) (k : ℕ) (h : k < n) : finVec x k = x ⟨k, h⟩ := dif_pos h

/-- The Newton system of the engine's problem, read as the response of velocities to an impulse. -/
theorem newton_response (w : World σ φ) (hj : JointsOk w) (hc : ContactsOk w) (Jf : Mat) (hJ : w.Jf 2 = .ok Jf)
    (u : Vec) (d : Fin (w.contacts.length + 2 * w.contacts.length + w.contacts.length) → ℝ) (gv : Vec)
    (dx : Fin (3 * w.bodies.length) → ℝ)
    (ds dz : Fin (w.contacts.length + 2 * w.contacts.length + w.contacts.length) → ℝ) (dy : Fin w.num_constraints → ℝ)
    (h : NewtonStep (engineProblem w Jf u).Q (engineProblem w Jf u).G (engineProblem w Jf u).A (engineProblem w Jf u).F d
      (fun k => -gv k) 0 0 0 dx ds dz dy) :
    Response w.bodies w.joints w.contacts (finVec d) (asForce gv) (finVec dx) (finVec (-dy)) (finVec (-dz))
      (fun i => finVec (-dz) (w.contacts.length + 2 * i)) (fun i => finVec (-dz) (w.contacts.length + (2 * i + 1)))
      (fun i => finVec (-dz) (3 * w.contacts.length + i)) := by
  have hneg : ∀ {n : ℕ} (x : Fin n → ℝ), finVec (-x) = fun k => -finVec x k := by
    intro n x
    funext k
    unfold finVec
    split <;> simp
  have hrow : ∀ (k : ℕ) (hk : k < w.contacts.length + 2 * w.contacts.length + w.contacts.length),
      finVec (-dz) k = finVec d k * (mv (assembleF (w.E 2) w.mu w.contacts.length (2 * w.contacts.length))
        (w.contacts.length + 2 * w.contacts.length + w.contacts.length) (finVec dz) k -
        mv (assembleG w.Jc Jf w.contacts.length (2 * w.contacts.length)) (3 * w.bodies.length) (finVec dx) k) := by
    intro k hk
    have e := congrFun h.ineq ⟨k, hk⟩
    have c := h.compl ⟨k, hk⟩
    have e1 := finVec_mv (assembleF (w.E 2) w.mu w.contacts.length (2 * w.contacts.length)) dz ⟨k, hk⟩
    have e2 := finVec_mv (assembleG w.Jc Jf w.contacts.length (2 * w.contacts.length)) dx ⟨k, hk⟩
    simp only at e1 e2
    rw [e1, e2, hneg, finVec_at _ _ hk]
    beta_reduce
    rw [finVec_at _ _ hk]
    simp only [Pi.add_apply, Pi.sub_apply, Pi.neg_apply, Pi.zero_apply, neg_zero] at e c
    have e' : ds ⟨k, hk⟩ = ((engineProblem w Jf u).F *ᵥ dz) ⟨k, hk⟩ - ((engineProblem w Jf u).G *ᵥ dx) ⟨k, hk⟩ := by
      linarith
    rw [e'] at c
    have c' : -dz ⟨k, hk⟩ = d ⟨k, hk⟩ *
      (((engineProblem w Jf u).F *ᵥ dz) ⟨k, hk⟩ - ((engineProblem w Jf u).G *ᵥ dx) ⟨k, hk⟩) := by linarith
    exact c'
  have hjp : ∀ (js : List Joint) (l x : Vec), jointPower js (fun k => -l k) x = -jointPower js l x := by
    intro js l x
    simp only [jointPower, neg_mul, Finset.sum_neg_distrib]
  have hcp : ∀ (cs : List Contact) (a b : ℕ → ℝ) (x : Vec),
      contactPower cs (fun k => -a k) (fun k => -b k) x = -contactPower cs a b x := by
    intro cs a b x
    unfold contactPower
    rw [← Finset.sum_neg_distrib]
    refine Finset.sum_congr rfl fun i _ => ?_
    cases cs[i]? with
    | none => simp
    | some c => simp only; ring
  constructor
  · intro x
    have := residual_power { w with v := fun _ => 0 } hj hc Jf hJ (asForce fun k => -gv k) (fun k => -gv k)
      (fun i _ => ⟨rfl, rfl, rfl⟩) (fun k => -gv k) (fun k _ => by simp [mv]) (finVec dx) (finVec dz) (finVec dy) x
    rw [Finset.sum_eq_zero] at this
    · have m0 : momentumPower w.bodies x (fun _ => 0) = 0 := by
        unfold momentumPower; exact Finset.sum_eq_zero fun i _ => by simp [twist]
      have mn : momentumPower w.bodies x (fun k => -finVec dx k) = -momentumPower w.bodies x (finVec dx) := by
        unfold momentumPower
        rw [← Finset.sum_neg_distrib]
        exact Finset.sum_congr rfl fun i _ => by simp only [twist]; ring
      have fn : forcePower w.bodies.length (asForce fun k => -gv k) x = -forcePower w.bodies.length (asForce gv) x := by
        unfold forcePower
        rw [← Finset.sum_neg_distrib]
        exact Finset.sum_congr rfl fun i _ => by simp only [asForce, twist]; ring
      simp only [m0, mn, fn] at this
      have hc' := hcp w.contacts (finVec dz) (fun i => finVec dz (w.contacts.length + 2 * i) -
        finVec dz (w.contacts.length + (2 * i + 1))) x
      rw [hneg, hneg, hjp]
      have e : (fun i => (fun k => -finVec dz k) (w.contacts.length + 2 * i) -
          (fun k => -finVec dz k) (w.contacts.length + (2 * i + 1))) =
          fun i => -(finVec dz (w.contacts.length + 2 * i) - finVec dz (w.contacts.length + (2 * i + 1))) := by
        funext i; ring
      rw [e, hc']
      linarith
    · intro k hk
      have hk := Finset.mem_range.1 hk
      have e := congrFun h.dual ⟨k, hk⟩
      have e1 := finVec_mv w.M dx (⟨k, hk⟩ : Fin (3 * w.bodies.length))
      have e2 := finVec_tmv (n := 3 * w.bodies.length)
        (assembleG w.Jc Jf w.contacts.length (2 * w.contacts.length)) dz ⟨k, hk⟩
      have e3 := finVec_tmv (n := 3 * w.bodies.length) w.Je dy ⟨k, hk⟩
      have e' : mv w.M (3 * w.bodies.length) (finVec dx) k + tmv (assembleG w.Jc Jf w.contacts.length (2 * w.contacts.length))
          (w.contacts.length + 2 * w.contacts.length + w.contacts.length) (finVec dz) k +
          tmv w.Je w.num_constraints (finVec dy) k = gv k := by
        rw [e1, e2, e3]
        simp only [Pi.add_apply, Pi.neg_apply, neg_neg] at e
        exact e
      have e'' : mv w.M (3 * w.bodies.length) (finVec dx) k + -gv k +
          tmv (assembleG w.Jc Jf w.contacts.length (2 * w.contacts.length))
          (w.contacts.length + 2 * w.contacts.length + w.contacts.length) (finVec dz) k +
          tmv w.Je w.num_constraints (finVec dy) k = 0 := by linarith
      exact mul_eq_zero_of_right _ e''
  · rw [← C32_equality_jacobian w hj]
    intro r hr
    obtain ⟨k, hk, rfl⟩ := List.mem_map.1 hr
    have hk := List.mem_range.1 hk
    have e := congrFun h.eq ⟨k, hk⟩
    have e1 := finVec_mv w.Je dx (⟨k, hk⟩ : Fin w.num_constraints)
    rw [e1]
    simp only [Pi.neg_apply, Pi.zero_apply, neg_zero] at e
    exact e
  · intro i hi
    obtain ⟨g1, -⟩ := G_mv w hc Jf hJ (finVec dx) i hi
    rw [hrow i (by omega), g1, F_mv_normal w _ i hi]
    ring
  · intro i hi
    obtain ⟨-, g2, g3, -⟩ := G_mv w hc Jf hJ (finVec dx) i hi
    have f1 := F_mv_fric w (finVec dz) i 0 hi (Or.inl rfl)
    rw [add_zero] at f1
    rw [hrow _ (by omega), hrow (w.contacts.length + (2 * i + 1)) (by omega), g2, g3, f1,
      F_mv_fric w _ i 1 hi (Or.inr rfl), hneg]
    constructor <;> ring
  · intro i hi
    obtain ⟨-, -, -, g4⟩ := G_mv w hc Jf hJ (finVec dx) i hi
    rw [hrow _ (by omega), g4, F_mv_cone w _ i hi, hneg]
    ring

/-- C101: closed form of the response of a body without joints that is touched by one contact only, which presses it
against a held body: `d k` is the weight of the normal row, `d₁`, `d₂` those of the two friction rows and `dγ` that
of the cone.  The normal response does not depend on the tangential push at all, while the tangential one does depend on
the normal push. -/
theorem C101_response_closed (bs : List Body) (js : List Joint) (cs : List Contact) (d : ℕ → ℝ) (f : ℕ → V3) (q l : Vec)
    (pn a b g : ℕ → ℝ) (h : Response bs js cs d f q l pn a b g) (k : ℕ) (hk : k < cs.length) (i : ℕ)
    (hi : i < bs.length) (ν : V2) (ρ : ℝ) (hν : Spec.inner ν ν = 1) (hp : PressesOn cs[k] q q i ν ρ)
    (hj : ∀ j ∈ js, j.i1 ≠ i ∧ i ∉ j.i2)
    (hc : ∀ (q : ℕ) (hq : q < cs.length), q ≠ k → cs[q].i1 ≠ i ∧ cs[q].i2 ≠ i)
    (hm : 0 < (bodyAt bs i).mass ∧ 0 < (bodyAt bs i).ang_inertia) (hd : ∀ r < 4 * cs.length, 0 < d r) :
    let m := (bodyAt bs i).mass
    let I := (bodyAt bs i).ang_inertia
    let κ := 1 / m + ρ ^ 2 / I
    let d₁ := d (cs.length + 2 * k)
    let d₂ := d (cs.length + (2 * k + 1))
    let D := d₁ + d₂ + 1 / d (3 * cs.length + k)
    let free : V3 := ⟨(f i).r / I, (f i).x / m, (f i).y / m⟩
    let u := twist q i
    let Q := (d₁ - d₂) * (meanFriction bs cs[k] * pn k + (d₁ - d₂) * slip ν ρ u) / D - (d₁ + d₂) * slip ν ρ u
    (m + d k) * lift ν u = lift ν (f i) ∧ pn k = -(d k * lift ν u) ∧
      u = rubbed m I ν ρ (pn k) Q free ∧ 0 < d₁ + d₂ - (d₁ - d₂) ^ 2 / D ∧
      slip ν ρ u * (1 + κ * (d₁ + d₂ - (d₁ - d₂) ^ 2 / D)) =
        slip ν ρ free + κ * (d₁ - d₂) * meanFriction bs cs[k] / D * pn k := by
  intro m I κ d₁ d₂ D free u Q
  obtain ⟨hm, hI⟩ := hm
  have hk1 : 0 < d₁ := hd _ (by omega)
  have hk2 : 0 < d₂ := hd _ (by omega)
  have hk3 : 0 < d (3 * cs.length + k) := hd _ (by omega)
  have hD : 0 < D := by positivity
  set c := cs[k] with hcdef
  have hout : ∀ x : Vec, (c.i1 ≠ i → twist (onlyOn (· = i) x) c.i1 = 0) ∧
      (c.i2 ≠ i → twist (onlyOn (· = i) x) c.i2 = 0) := by
    intro x
    constructor <;> intro hne <;> rw [twist_onlyOn, if_neg hne]
  have hon : ∀ x : Vec, twist (onlyOn (· = i) x) i = twist x i := fun x => by rw [twist_onlyOn, if_pos rfl]
  have hrv : (c.i1 ≠ i → twist q c.i1 = 0) ∧ (c.i2 ≠ i → twist q c.i2 = 0) := by
    rcases hp with ⟨h1, h2, -, -, h3, -⟩ | ⟨h1, h2, -, -, h3, -⟩
    · exact ⟨fun h => absurd h1 h, fun _ => h3⟩
    · exact ⟨fun _ => h3, fun h => absurd h1 h⟩
  have key : ∀ x : Vec, I * q (3 * i) * x (3 * i) +
      m * (q (3 * i + 1) * x (3 * i + 1) + q (3 * i + 2) * x (3 * i + 2)) =
      ((f i).r * x (3 * i) + (f i).x * x (3 * i + 1) + (f i).y * x (3 * i + 2)) +
      (pn k * lift ν (twist x i) + (a k - b k) * slip ν ρ (twist x i)) := by
    intro x
    have := body_balance_dyn (v := fun _ => 0) (pt := fun i => a i - b i) (f := f) (l := l) (v' := q) (pn := pn) (bs := bs)
      (js := js) (cs := cs) (fun y => by
        rw [h.dynamics y]
        have : momentumPower bs y (fun _ => 0) = 0 := by
          unfold momentumPower; exact Finset.sum_eq_zero fun i _ => by simp [twist]
        rw [this]; ring) hi hk hj hc x
    rw [← hcdef, (presses_vel hν hp _ (hout x)).1, (presses_vel hν hp _ (hout x)).2, hon] at this
    simpa using this
  have k1 := key fun k => if k = 3 * i then 1 else 0
  have k2 := key fun k => if k = 3 * i + 1 then 1 else 0
  have k3 := key fun k => if k = 3 * i + 2 then 1 else 0
  have q1 : 3 * i + 1 ≠ 3 * i := by omega
  have q2 : 3 * i + 2 ≠ 3 * i := by omega
  have q3 : 3 * i ≠ 3 * i + 1 := by omega
  have q4 : 3 * i + 2 ≠ 3 * i + 1 := by omega
  have q5 : 3 * i ≠ 3 * i + 2 := by omega
  have q6 : 3 * i + 1 ≠ 3 * i + 2 := by omega
  simp only [if_true, if_neg q1, if_neg q2, if_neg q3, if_neg q4, if_neg q5, if_neg q6, lift, slip, twist, tangent,
    Spec.inner] at k1 k2 k3
  have hmne : m ≠ 0 := hm.ne'
  have hIne : I ≠ 0 := hI.ne'
  have hv : u = rubbed m I ν ρ (pn k) (a k - b k) free := by
    simp only [u, twist, rubbed, free, tangent]
    refine V3.ext ?_ ?_ ?_ <;> simp only <;> field_simp <;> linarith
  have hν' := hν
  simp only [Spec.inner] at hν'
  have hl : m * lift ν u = lift ν (f i) + pn k := by
    rw [hv]
    simp only [lift, rubbed, tangent, Spec.inner, free]
    field_simp
    linear_combination (pn k) * hν'
  have hs : slip ν ρ u = slip ν ρ free + κ * (a k - b k) := by
    rw [hv]
    simp only [slip, rubbed, tangent, Spec.inner, κ]
    linear_combination ((a k - b k) / m) * hν'
  have hn := h.normal k hk
  obtain ⟨ha, hb⟩ := h.slip k hk
  have hg := h.cone k hk
  rw [← hcdef, (presses_vel hν hp _ hrv).1] at hn
  rw [← hcdef, (presses_vel hν hp _ hrv).2] at ha hb
  rw [← hcdef] at hg
  have hgD : D * g k = -(meanFriction bs c * pn k + (d₁ - d₂) * slip ν ρ u) := by
    have e : 1 / d (3 * cs.length + k) * g k = -(meanFriction bs c * pn k - (a k + b k)) := by
      rw [hg]; field_simp
    have : D * g k = (d₁ + d₂) * g k + 1 / d (3 * cs.length + k) * g k := by ring
    rw [this, e, ha, hb]
    ring
  have hgk : g k = -(meanFriction bs c * pn k + (d₁ - d₂) * slip ν ρ u) / D := by
    rw [eq_div_iff hD.ne']; linarith
  have hQ : a k - b k = Q := by
    have : a k - b k = -(d₁ + d₂) * slip ν ρ u - (d₁ - d₂) * g k := by rw [ha, hb]; ring
    rw [this, hgk]
    simp only [Q]
    ring
  rw [hQ] at hv hs
  refine ⟨?_, hn, hv, ?_, ?_⟩
  · rw [hn] at hl; linarith
  · rw [sub_pos, div_lt_iff₀ hD]
    have e : (d₁ + d₂) * D = (d₁ + d₂) ^ 2 + (d₁ + d₂) * (1 / d (3 * cs.length + k)) := by simp only [D]; ring
    have : 0 < (d₁ + d₂) * (1 / d (3 * cs.length + k)) := by positivity
    rw [e]
    nlinarith [mul_pos hk1 hk2]
  · have : κ * Q = κ * (d₁ - d₂) * meanFriction bs c / D * pn k -
        slip ν ρ u * (κ * (d₁ + d₂ - (d₁ - d₂) ^ 2 / D)) := by
      simp only [Q]; ring
    rw [this] at hs
    linarith

/-- C101: the gradient the engine's backward pass returns is the response of the velocities to an impulse equal to the
gradient of the loss. -/
theorem C101_backward_response (f : Btrifact) (hf : BtrifactOk f) (w : World σ φ) (hj : JointsOk w) (hc : ContactsOk w)
    (Jf : Mat) (hJ : w.Jf 2 = .ok Jf) (u : Vec) (K : Kkt (3 * w.bodies.length)
      (w.contacts.length + 2 * w.contacts.length + w.contacts.length) w.num_constraints)
    (hK : pre_factor_kkt f (engineProblem w Jf u).Q (engineProblem w Jf u).G (engineProblem w Jf u).F
      (engineProblem w Jf u).A = .ok K)
    (ds : List (Fin (w.contacts.length + 2 * w.contacts.length + w.contacts.length) → ℝ))
    (it : Iter (3 * w.bodies.length) (w.contacts.length + 2 * w.contacts.length + w.contacts.length) w.num_constraints)
    (hs : ∀ i, 0 < it.s i) (hz : ∀ i, 0 < it.z i) (gv G : Vec)
    (hG : engineImpulseGrad f w Jf u K (factorHistory f K.R K.S_LU ds) it gv = some G) :
    ∃ l pn a b g, Response w.bodies w.joints w.contacts (finVec fun i => it.z i / it.s i) (asForce gv) G l pn a b g := by
  have hd : ∀ i, it.z i / it.s i ≠ 0 := fun i => (div_pos (hz i) (hs i)).ne'
  obtain ⟨g, hg, rfl⟩ := Option.map_eq_some_iff.1 hG
  obtain ⟨S', hS', rfl⟩ := Option.map_eq_some_iff.1 hg
  have hsym : (engineProblem w Jf u).Qᵀ = (engineProblem w Jf u).Q := by
    ext i j
    exact C07_mass_matrix_symm w j i j.isLt i.isLt
  have hw := C44_factor_and_solve f hf _ _ _ _ hsym K hK ds _ hd S' hS' (fun k => -gv k) 0 0 0
  exact ⟨_, _, _, _, _, newton_response w hj hc Jf hJ u _ gv _ _ _ _ hw⟩

/-- C101: so is the derivative of the new velocities with respect to the impulse, with the direction of the impulse in
place of the gradient. -/
theorem C101_curve_response (w : World σ φ) (hj : JointsOk w) (hc : ContactsOk w)
    (Jf : Mat) (hJ : w.Jf 2 = .ok Jf) (u : Vec) (P : ℝ → Lcp (3 * w.bodies.length)
      (w.contacts.length + 2 * w.contacts.length + w.contacts.length) w.num_constraints)
    (hP : P 0 = engineProblem w Jf u)
    (v : ℝ → Iter (3 * w.bodies.length) (w.contacts.length + 2 * w.contacts.length + w.contacts.length) w.num_constraints)
    (δ : Vec) (dv : Iter (3 * w.bodies.length) (w.contacts.length + 2 * w.contacts.length + w.contacts.length)
      w.num_constraints) (hcv : SolutionCurve P v (onlyP fun k => δ k) dv) (hs : ∀ i, 0 < (v 0).s i) :
    ∃ l pn a b g, Response w.bodies w.joints w.contacts (finVec fun i => (v 0).z i / (v 0).s i) (asForce δ)
      (finVec (-dv.x)) l pn a b g := by
  have hv := solutionCurve_newton hcv (fun i => (hs i).ne')
  rw [hP] at hv
  have e : NewtonStep (engineProblem w Jf u).Q (engineProblem w Jf u).G (engineProblem w Jf u).A (engineProblem w Jf u).F
      (fun i => (v 0).z i / (v 0).s i) (fun k => δ k) 0 0 0 dv.x dv.s dv.z dv.y := by
    simpa [onlyP] using hv
  exact ⟨_, _, _, _, _, newton_response w hj hc Jf hJ u _ δ _ _ _ _ (newton_neg e)⟩

theorem twist_atBody (i j : ℕ) (e : V3) : twist (atBody i e) j = if j = i then e else 0 := by
  have h1 : ∀ j : ℕ, 3 * j + 1 ≠ 3 * i := by omega
  have h2 : ∀ j : ℕ, 3 * j + 2 ≠ 3 * i := by omega
  have h3 : ∀ j : ℕ, 3 * j + 2 ≠ 3 * i + 1 := by omega
  have h4 : ∀ j : ℕ, 3 * j ≠ 3 * i + 1 := by omega
  have h5 : ∀ j : ℕ, 3 * j ≠ 3 * i + 2 := by omega
  have h6 : ∀ j : ℕ, 3 * j + 1 ≠ 3 * i + 2 := by omega
  by_cases h : j = i
  · subst h
    simp [twist, atBody]
  · have : 3 * j ≠ 3 * i := by omega
    have h' : 3 * j + 1 ≠ 3 * i + 1 := by omega
    have h'' : 3 * j + 2 ≠ 3 * i + 2 := by omega
    rw [if_neg h]
    apply V3.ext <;> simp [twist, atBody, *]

theorem atBody_pair (n i : ℕ) (hi : i < n) (e : V3) (g : Vec) :
    ∑ k ∈ Finset.range (3 * n), g k * atBody i e k =
      (twist g i).r * e.r + (twist g i).x * e.x + (twist g i).y * e.y := by
  have hsub : ({3 * i, 3 * i + 1, 3 * i + 2} : Finset ℕ) ⊆ Finset.range (3 * n) := by
    intro k hk
    simp only [Finset.mem_insert, Finset.mem_singleton] at hk
    rw [Finset.mem_range]
    omega
  rw [← Finset.sum_subset hsub]
  · have a1 : (3 * i : ℕ) ∉ ({3 * i + 1, 3 * i + 2} : Finset ℕ) := by simp
    have a2 : (3 * i + 1 : ℕ) ∉ ({3 * i + 2} : Finset ℕ) := by simp
    rw [Finset.sum_insert a1, Finset.sum_insert a2, Finset.sum_singleton]
    simp [atBody, twist]
    ring
  · intro k _ hk
    simp only [Finset.mem_insert, Finset.mem_singleton, not_or] at hk
    simp [atBody, hk.1, hk.2.1, hk.2.2]

theorem weights_pos {n : ℕ} {s z : Fin (n + 2 * n + n) → ℝ} (hs : ∀ i, 0 < s i) (hz : ∀ i, 0 < z i) :
    ∀ r < 4 * n, 0 < (finVec fun i => z i / s i) r := by
  intro r hr
  rw [finVec_at _ r (by omega)]
  exact div_pos (hz _) (hs _)

/-- C101: if the loss does not depend on the normal velocity of a body in sliding contact, the backward pass says that it
does not depend on the load either. -/
theorem C101_load_ignored (f : Btrifact) (hf : BtrifactOk f) (w : World σ φ) (hj : JointsOk w) (hc : ContactsOk w)
    (Jf : Mat) (hJ : w.Jf 2 = .ok Jf) (u : Vec) (K : Kkt (3 * w.bodies.length)
      (w.contacts.length + 2 * w.contacts.length + w.contacts.length) w.num_constraints)
    (hK : pre_factor_kkt f (engineProblem w Jf u).Q (engineProblem w Jf u).G (engineProblem w Jf u).F
      (engineProblem w Jf u).A = .ok K)
    (ds : List (Fin (w.contacts.length + 2 * w.contacts.length + w.contacts.length) → ℝ))
    (it : Iter (3 * w.bodies.length) (w.contacts.length + 2 * w.contacts.length + w.contacts.length) w.num_constraints)
    (hs : ∀ i, 0 < it.s i) (hz : ∀ i, 0 < it.z i) (k i : ℕ) (ν : V2) (ρ : ℝ)
    (hl : Leans w.bodies w.joints w.contacts k i ν ρ) (gv : Vec) (hgv : lift ν (twist gv i) = 0) (G : Vec)
    (hG : engineImpulseGrad f w Jf u K (factorHistory f K.R K.S_LU ds) it gv = some G) :
    lift ν (twist G i) = 0 := by
  obtain ⟨l, pn, a, b, g, hr⟩ := C101_backward_response f hf w hj hc Jf hJ u K hK ds it hs hz gv G hG
  have hd := weights_pos hs hz
  obtain ⟨h1, -⟩ := C101_response_closed _ _ _ _ _ _ _ _ _ _ _ hr k hl.contact i hl.body ν ρ hl.unit (hl.presses G hr.joints)
    hl.free hl.only hl.mass hd
  have hpos := hd k (by have := hl.contact; omega)
  have hm := hl.mass.1
  rw [show lift ν (asForce gv i) = 0 from hgv] at h1
  exact (mul_eq_zero.1 h1).resolve_left (by positivity)

/-! ## The backward pass does not raise -/

/-- Without a push there is no response. -/
theorem response_zero {bs : List Body} {js : List Joint} {cs : List Contact} {d : ℕ → ℝ} {f : ℕ → V3} {q l : Vec}
    {pn a b g : ℕ → ℝ} (h : Response bs js cs d f q l pn a b g) {k i : ℕ} {ν : V2} {ρ : ℝ} (hl : Leans bs js cs k i ν ρ)
    (hf : f i = 0) (hd : ∀ r < 4 * cs.length, 0 < d r) : pn k = 0 ∧ a k = 0 ∧ b k = 0 ∧ g k = 0 := by
  have hp := hl.presses q h.joints
  have hk := hl.contact
  obtain ⟨h1, h2, -, h4, h5⟩ := C101_response_closed _ _ _ _ _ _ _ _ _ _ _ h k hk i hl.body ν ρ hl.unit hp
    hl.free hl.only hl.mass hd
  have hm := hl.mass.1
  have hI := hl.mass.2
  have hdk := hd k (by omega)
  have e0 : lift ν (twist q i) = 0 := by
    rw [hf, show lift ν (0 : V3) = 0 by simp [lift, Spec.inner]] at h1
    exact (mul_eq_zero.1 h1).resolve_left (by positivity)
  have epn : pn k = 0 := by rw [h2, e0]; simp
  have es : slip ν ρ (twist q i) = 0 := by
    rw [epn, hf] at h5
    have e : slip ν ρ (⟨(0 : V3).r / (bodyAt bs i).ang_inertia, (0 : V3).x / (bodyAt bs i).mass,
        (0 : V3).y / (bodyAt bs i).mass⟩ : V3) = 0 := by simp [slip, Spec.inner]
    rw [e, mul_zero, add_zero] at h5
    refine (mul_eq_zero.1 h5).resolve_right (ne_of_gt ?_)
    have : 0 < 1 / (bodyAt bs i).mass + ρ ^ 2 / (bodyAt bs i).ang_inertia := by positivity
    have := mul_pos this h4
    linarith
  have hrv : (cs[k].i1 ≠ i → twist q cs[k].i1 = 0) ∧ (cs[k].i2 ≠ i → twist q cs[k].i2 = 0) := by
    rcases hp with ⟨h1, h2, -, -, h3, -⟩ | ⟨h1, h2, -, -, h3, -⟩
    · exact ⟨fun h => absurd h1 h, fun _ => h3⟩
    · exact ⟨fun _ => h3, fun h => absurd h1 h⟩
  obtain ⟨ha, hb⟩ := h.slip k hk
  have hg := h.cone k hk
  rw [(presses_vel hl.unit hp _ hrv).2, es] at ha hb
  rw [epn, ha, hb] at hg
  have d1 := hd (cs.length + 2 * k) (by omega)
  have d2 := hd (cs.length + (2 * k + 1)) (by omega)
  have d3 := hd (3 * cs.length + k) (by omega)
  have hg0 : g k = 0 := by
    have e : g k * (1 + d (3 * cs.length + k) * (d (cs.length + 2 * k) + d (cs.length + (2 * k + 1)))) = 0 := by
      linear_combination hg
    exact (mul_eq_zero.1 e).resolve_right (by positivity)
  refine ⟨epn, ?_, ?_, hg0⟩
  · rw [ha, hg0]; simp
  · rw [hb, hg0]; simp

/-- C101: with positive masses, independent constraints and contacts of the kind above, whatever the coefficients of
friction, neither factorisation raises, so the backward pass returns at every interior point. -/
theorem C101_backward_returns (f : Btrifact) (hf : BtrifactOk f) (w : World σ φ) (hj : JointsOk w) (hc : ContactsOk w)
    (Jf : Mat) (hJ : w.Jf 2 = .ok Jf) (u : Vec) (hpos : ∀ b ∈ w.bodies, 0 < b.mass ∧ 0 < b.ang_inertia)
    (hind : Independent w)
    (hl : ∀ k < w.contacts.length, ∃ i ν ρ, Leans w.bodies w.joints w.contacts k i ν ρ) :
    ∃ K, pre_factor_kkt f (engineProblem w Jf u).Q (engineProblem w Jf u).G (engineProblem w Jf u).F
        (engineProblem w Jf u).A = .ok K ∧
      ∀ (ds : List (Fin (w.contacts.length + 2 * w.contacts.length + w.contacts.length) → ℝ))
        (it : Iter (3 * w.bodies.length) (w.contacts.length + 2 * w.contacts.length + w.contacts.length)
          w.num_constraints) (gv : Vec), (∀ i, 0 < it.s i) → (∀ i, 0 < it.z i) →
        ∃ G, engineImpulseGrad f w Jf u K (factorHistory f K.R K.S_LU ds) it gv = some G := by
  set P := engineProblem w Jf u with hP
  have hsym : P.Qᵀ = P.Q := by
    ext i j
    exact C07_mass_matrix_symm w j i j.isLt i.isLt
  have hpd : ∀ v, v ≠ 0 → 0 < v ⬝ᵥ (P.Q *ᵥ v) := by
    intro v hv
    show 0 < v ⬝ᵥ (Matrix.of (fun i j : Fin (3 * w.bodies.length) => w.M i j) *ᵥ v)
    rw [dot_range w.M v (fun k => if hk : k < _ then v ⟨k, hk⟩ else 0) (fun k => dif_pos k.isLt)]
    apply C07_mass_matrix_posdef w hpos
    obtain ⟨k, hk⟩ := Function.ne_iff.1 hv
    exact ⟨k, k.isLt, by rw [dif_pos k.isLt]; exact hk⟩
  have hA : ∀ l, P.Aᵀ *ᵥ l = 0 → l = 0 := by
    intro l hl
    have h0 := hind (finVec l) (fun x => by
      rw [← sum_Je w hj]
      refine Finset.sum_eq_zero fun k hk => ?_
      have := congrFun hl ⟨k, Finset.mem_range.1 hk⟩
      have e := finVec_tmv (n := 3 * w.bodies.length) w.Je l ⟨k, Finset.mem_range.1 hk⟩
      rw [show tmv w.Je w.num_constraints (finVec l) k = 0 from e.trans this, mul_zero])
    funext r
    have := h0 r r.isLt
    rwa [finVec_at _ _ r.isLt] at this
  have hQ : P.Q.det ≠ 0 := by
    intro h0
    obtain ⟨v, hv, hv0⟩ := Matrix.exists_mulVec_eq_zero_iff.2 h0
    have := hpd v hv
    rw [hv0, dotProduct_zero] at this
    exact lt_irrefl _ this
  obtain ⟨K, hK⟩ : ∃ K, pre_factor_kkt f P.Q P.G P.F P.A = .ok K := by
    obtain ⟨K', hK', -⟩ := C45_monotone_never_raises f hf P.Q P.G 0 P.A hsym hpd hA (fun w => by simp)
    have hne : ¬ (P.Q.det = 0 ∨ (P.A * P.Q⁻¹ * P.Aᵀ).det = 0) := by
      intro hor
      obtain ⟨e, he⟩ := (C45_pre_raises_iff f hf P.Q P.G 0 P.A).2 hor
      rw [hK'] at he
      cases he
    cases h : pre_factor_kkt f P.Q P.G P.F P.A with
    | ok K => exact ⟨K, rfl⟩
    | error e => exact absurd ((C45_pre_raises_iff f hf P.Q P.G P.F P.A).1 ⟨e, h⟩) hne
  refine ⟨K, hK, fun ds it gv hs hz => ?_⟩
  set d : Fin (w.contacts.length + 2 * w.contacts.length + w.contacts.length) → ℝ := fun i => it.z i / it.s i with hd
  have hdpos : ∀ i, 0 < d i := fun i => div_pos (hz i) (hs i)
  have hdet : (schur P.Q P.G P.A P.F d).det ≠ 0 := by
    intro h0
    have h0' : (flatBlocks (schur P.Q P.G P.A P.F d)).det = 0 := by
      rw [flatBlocks, Matrix.det_submatrix_equiv_self]; exact h0
    obtain ⟨x, hx, hx0⟩ := Matrix.exists_mulVec_eq_zero_iff.2 h0'
    apply hx
    set x1 : Fin w.num_constraints → ℝ := fun i => x (Fin.castAdd _ i) with hx1
    set x2 : Fin (w.contacts.length + 2 * w.contacts.length + w.contacts.length) → ℝ :=
      fun i => x (Fin.natAdd w.num_constraints i) with hx2
    have ew : x = Fin.addCases x1 x2 := by
      funext i
      induction i using Fin.addCases <;> simp [hx1, hx2]
    rw [ew, schur_mulVec] at hx0
    set y := P.Aᵀ *ᵥ x1 + P.Gᵀ *ᵥ x2 with hy
    have r1 : P.A *ᵥ (P.Q⁻¹ *ᵥ y) = 0 := by
      funext i; have := congrFun hx0 (Fin.castAdd _ i); simpa using this
    have r2 : (P.G *ᵥ (P.Q⁻¹ *ᵥ y)) + P.F *ᵥ x2 + (fun i => x2 i / d i) = 0 := by
      funext i; have := congrFun hx0 (Fin.natAdd w.num_constraints i); simpa using this
    have hQQ : P.Q * P.Q⁻¹ = 1 := Matrix.mul_nonsing_inv _ hQ.isUnit
    have hN : NewtonStep P.Q P.G P.A P.F d (fun k => -(fun _ : ℕ => (0 : ℝ)) k) 0 0 0 (-(P.Q⁻¹ *ᵥ y))
        (fun i => -(x2 i / d i)) x2 x1 := by
      refine ⟨?_, fun i => ?_, ?_, ?_⟩
      · rw [Matrix.mulVec_neg, Matrix.mulVec_mulVec, hQQ, Matrix.one_mulVec, hy]
        funext k
        simp
      · have := (hdpos i).ne'
        simp only [Pi.zero_apply, neg_zero]
        field_simp
        ring
      · funext i
        have := congrFun r2 i
        simp only [Pi.add_apply, Pi.zero_apply] at this
        simp only [Matrix.mulVec_neg, Pi.add_apply, Pi.sub_apply, Pi.neg_apply, Pi.zero_apply, neg_zero]
        linarith
      · rw [Matrix.mulVec_neg, r1]
    have hr := newton_response w hj hc Jf hJ u d (fun _ => 0) _ _ _ _ hN
    have hdp : ∀ r < 4 * w.contacts.length, 0 < finVec d r := weights_pos hs hz
    have hx20 : x2 = 0 := by
      have hn : ∀ (r : ℕ) (hr : r < w.contacts.length + 2 * w.contacts.length + w.contacts.length),
          finVec (-x2) r = 0 → x2 ⟨r, hr⟩ = 0 := by
        intro r hr h
        rw [finVec_at _ _ hr] at h
        simpa using h
      funext r
      obtain ⟨r, hrlt⟩ := r
      apply hn
      have all : ∀ k < w.contacts.length, finVec (-x2) k = 0 ∧ finVec (-x2) (w.contacts.length + 2 * k) = 0 ∧
          finVec (-x2) (w.contacts.length + (2 * k + 1)) = 0 ∧ finVec (-x2) (3 * w.contacts.length + k) = 0 := fun k hk => by
        obtain ⟨i, ν, ρ, hl⟩ := hl k hk
        exact response_zero hr hl (by rfl) hdp
      by_cases c1 : r < w.contacts.length
      · exact (all r c1).1
      · by_cases c2 : r < 3 * w.contacts.length
        · have hh : (r - w.contacts.length) / 2 < w.contacts.length := by omega
          obtain ⟨-, ha, hb, -⟩ := all _ hh
          rcases Nat.mod_two_eq_zero_or_one (r - w.contacts.length) with hm | hm
          · rw [show w.contacts.length + 2 * ((r - w.contacts.length) / 2) = r by omega] at ha
            exact ha
          · rw [show w.contacts.length + (2 * ((r - w.contacts.length) / 2) + 1) = r by omega] at hb
            exact hb
        · obtain ⟨-, -, -, hg⟩ := all (r - 3 * w.contacts.length) (by omega)
          rw [show 3 * w.contacts.length + (r - 3 * w.contacts.length) = r by omega] at hg
          exact hg
    have hdx : P.Q⁻¹ *ᵥ y = 0 := by
      by_contra hne
      have := hpd _ hne
      have e : y = P.Aᵀ *ᵥ x1 := by rw [hy, hx20, Matrix.mulVec_zero, add_zero]
      have e2 : P.Q *ᵥ (P.Q⁻¹ *ᵥ y) = P.Aᵀ *ᵥ x1 := by rw [Matrix.mulVec_mulVec, hQQ, Matrix.one_mulVec, e]
      rw [e2, dot_transpose_mulVec, r1, dotProduct_zero] at this
      exact lt_irrefl _ this
    have hx10 : x1 = 0 := by
      apply hA
      have e : P.Q *ᵥ (P.Q⁻¹ *ᵥ y) = y := by rw [Matrix.mulVec_mulVec, hQQ, Matrix.one_mulVec]
      rw [hdx, Matrix.mulVec_zero, hy, hx20, Matrix.mulVec_zero, add_zero] at e
      exact e.symm
    rw [ew, hx10, hx20]
    funext i
    induction i using Fin.addCases <;> simp
  obtain ⟨S', hS'⟩ := Option.ne_none_iff_exists'.1 (fun h =>
    hdet ((C45_raises_iff_singular f hf P.Q P.G P.F P.A hsym K hK ds d).1 h))
  unfold engineImpulseGrad lcpBackward
  simp only
  rw [hS']
  exact ⟨_, rfl⟩

/-! ## How wrong the gradient is -/

theorem curve_entry {n m p : ℕ} {v : ℝ → Iter n m p} {dx : Fin n → ℝ}
    (hx : ∀ i, HasDerivAt (fun t => (v t).x i) (dx i) 0) (k : ℕ) :
    HasDerivAt (fun t => -finVec (v t).x k) (finVec (-dx) k) 0 := by
  unfold finVec
  by_cases h : k < n
  · simp only [dif_pos h]
    exact (hx ⟨k, h⟩).neg
  · simp only [dif_neg h, neg_zero]
    exact hasDerivAt_const _ _

/-- A velocity reading along a curve of solutions. -/
theorem curve_lift {n m p : ℕ} {v : ℝ → Iter n m p} {dx : Fin n → ℝ}
    (hx : ∀ i, HasDerivAt (fun t => (v t).x i) (dx i) 0) (i : ℕ) (ν : V2) :
    HasDerivAt (fun t => lift ν (twist (fun k => -finVec (v t).x k) i)) (lift ν (twist (finVec (-dx)) i)) 0 := by
  unfold lift Spec.inner twist
  exact ((curve_entry hx (3 * i + 1)).const_mul ν.1).add ((curve_entry hx (3 * i + 2)).const_mul ν.2)

theorem curve_slip {n m p : ℕ} {v : ℝ → Iter n m p} {dx : Fin n → ℝ}
    (hx : ∀ i, HasDerivAt (fun t => (v t).x i) (dx i) 0) (i : ℕ) (ν : V2) (ρ : ℝ) :
    HasDerivAt (fun t => slip ν ρ (twist (fun k => -finVec (v t).x k) i)) (slip ν ρ (twist (finVec (-dx)) i)) 0 := by
  have h1 := curve_lift hx i (tangent ν)
  have h2 := (curve_entry hx (3 * i)).const_mul ρ
  exact h1.add h2

/-- C101: along every curve of solutions in which the load of the body grows, its slip changes, at this rate. -/
theorem C101_load_matters (w : World σ φ) (hj : JointsOk w) (hc : ContactsOk w) (Jf : Mat) (hJ : w.Jf 2 = .ok Jf) (u : Vec)
    (P : ℝ → Lcp (3 * w.bodies.length) (w.contacts.length + 2 * w.contacts.length + w.contacts.length) w.num_constraints)
    (hP : P 0 = engineProblem w Jf u)
    (v : ℝ → Iter (3 * w.bodies.length) (w.contacts.length + 2 * w.contacts.length + w.contacts.length) w.num_constraints)
    (k i : ℕ) (ν : V2) (ρ : ℝ) (hl : Leans w.bodies w.joints w.contacts k i ν ρ)
    (dv : Iter (3 * w.bodies.length) (w.contacts.length + 2 * w.contacts.length + w.contacts.length) w.num_constraints)
    (hcv : SolutionCurve P v (onlyP fun r => atBody i ⟨0, -ν.1, -ν.2⟩ r) dv)
    (hs : ∀ i, 0 < (v 0).s i) (hz : ∀ i, 0 < (v 0).z i) :
    let d := finVec fun i => (v 0).z i / (v 0).s i
    let m := (bodyAt w.bodies i).mass
    let κ := 1 / m + ρ ^ 2 / (bodyAt w.bodies i).ang_inertia
    let d₁ := d (w.contacts.length + 2 * k)
    let d₂ := d (w.contacts.length + (2 * k + 1))
    let D := d₁ + d₂ + 1 / d (3 * w.contacts.length + k)
    0 < d₁ + d₂ - (d₁ - d₂) ^ 2 / D ∧
    HasDerivAt (fun t => slip ν ρ (twist (fun r => -finVec (v t).x r) i))
      (κ * (d₁ - d₂) * meanFriction w.bodies (w.contacts[k]'hl.contact) / D * (d k / (m + d k)) /
        (1 + κ * (d₁ + d₂ - (d₁ - d₂) ^ 2 / D))) 0 := by
  intro d m κ d₁ d₂ D
  obtain ⟨l, pn, a, b, g, hr⟩ := C101_curve_response w hj hc Jf hJ u P hP v _ dv hcv hs
  have hd := weights_pos hs hz
  obtain ⟨h1, h2, -, h4, h5⟩ := C101_response_closed _ _ _ _ _ _ _ _ _ _ _ hr k hl.contact i hl.body ν ρ hl.unit
    (hl.presses _ hr.joints) hl.free hl.only hl.mass hd
  have hpos := hd k (by have := hl.contact; omega)
  have hm : 0 < m := hl.mass.1
  have hI := hl.mass.2
  refine ⟨h4, ?_⟩
  have hcur := curve_slip hcv.dx i ν ρ
  convert hcur using 1
  have hf : asForce (atBody i ⟨0, -ν.1, -ν.2⟩) i = ⟨0, -ν.1, -ν.2⟩ := by
    unfold asForce; rw [twist_atBody, if_pos rfl]
  have hun := hl.unit
  simp only [Spec.inner] at hun
  rw [hf] at h1 h5
  have hN : lift ν (⟨0, -ν.1, -ν.2⟩ : V3) = -1 := by
    simp only [lift, Spec.inner]; linarith
  rw [hN] at h1
  have hlift : lift ν (twist (finVec (-dv.x)) i) = -(1 / (m + d k)) := by
    have : m + d k ≠ 0 := by positivity
    field_simp
    rw [← h1]
    ring
  have hpn : pn k = d k / (m + d k) := by rw [h2, hlift]; simp only [d]; ring
  have hfree : slip ν ρ (⟨(0 : ℝ) / (bodyAt w.bodies i).ang_inertia, -ν.1 / (bodyAt w.bodies i).mass,
      -ν.2 / (bodyAt w.bodies i).mass⟩ : V3) = 0 := by
    simp only [slip, Spec.inner, tangent]; ring
  simp only [hfree, zero_add, hpn] at h5
  have hden : (1 + κ * (d₁ + d₂ - (d₁ - d₂) ^ 2 / D)) ≠ 0 := by
    have hκ : 0 < κ := by positivity
    have := mul_pos hκ h4
    positivity
  rw [div_eq_iff hden]
  exact h5.symm

/-- C101: the gradient of the slip that the backward pass returns is wrong: it pairs to zero with a growing load, although the
slip changes with the load as soon as there is friction and the two friction rows have different weights (which is so
whenever the body slides). -/
theorem C101_wrong_gradient (f : Btrifact) (hf : BtrifactOk f) (w : World σ φ) (hj : JointsOk w) (hc : ContactsOk w)
    (Jf : Mat) (hJ : w.Jf 2 = .ok Jf) (u : Vec) (K : Kkt (3 * w.bodies.length)
      (w.contacts.length + 2 * w.contacts.length + w.contacts.length) w.num_constraints)
    (hK : pre_factor_kkt f (engineProblem w Jf u).Q (engineProblem w Jf u).G (engineProblem w Jf u).F
      (engineProblem w Jf u).A = .ok K)
    (ds : List (Fin (w.contacts.length + 2 * w.contacts.length + w.contacts.length) → ℝ))
    (it : Iter (3 * w.bodies.length) (w.contacts.length + 2 * w.contacts.length + w.contacts.length) w.num_constraints)
    (hit : SolvesRows (engineProblem w Jf u) it) (hs : ∀ i, 0 < it.s i) (hz : ∀ i, 0 < it.z i) (k i : ℕ) (ν : V2) (ρ : ℝ)
    (hl : Leans w.bodies w.joints w.contacts k i ν ρ) (hmu : meanFriction w.bodies (w.contacts[k]'hl.contact) ≠ 0)
    (hne : (finVec fun i => it.z i / it.s i) (w.contacts.length + 2 * k) ≠
      (finVec fun i => it.z i / it.s i) (w.contacts.length + (2 * k + 1))) (G : Vec)
    (hG : engineImpulseGrad f w Jf u K (factorHistory f K.R K.S_LU ds) it
      (atBody i ⟨ρ, (tangent ν).1, (tangent ν).2⟩) = some G) :
    ∃ (P : ℝ → Lcp (3 * w.bodies.length) (w.contacts.length + 2 * w.contacts.length + w.contacts.length) w.num_constraints)
      (v : ℝ → Iter (3 * w.bodies.length) (w.contacts.length + 2 * w.contacts.length + w.contacts.length) w.num_constraints)
      (dv : Iter (3 * w.bodies.length) (w.contacts.length + 2 * w.contacts.length + w.contacts.length) w.num_constraints)
      (D : ℝ), P 0 = engineProblem w Jf u ∧ v 0 = it ∧
      SolutionCurve P v (onlyP fun r => atBody i ⟨0, -ν.1, -ν.2⟩ r) dv ∧
      HasDerivAt (fun t => slip ν ρ (twist (fun r => -finVec (v t).x r) i)) D 0 ∧ D ≠ 0 ∧
      ∑ r ∈ Finset.range (3 * w.bodies.length), G r * atBody i ⟨0, -ν.1, -ν.2⟩ r = 0 := by
  have hd : ∀ i, it.z i / it.s i ≠ 0 := fun i => (div_pos (hz i) (hs i)).ne'
  have hG' := hG
  obtain ⟨g, hg, -⟩ := Option.map_eq_some_iff.1 hG
  obtain ⟨S', hS', -⟩ := Option.map_eq_some_iff.1 hg
  have hsym : (engineProblem w Jf u).Qᵀ = (engineProblem w Jf u).Q := by
    ext i j
    exact C07_mass_matrix_symm w j i j.isLt i.isLt
  have hw := C44_factor_and_solve f hf _ _ _ _ hsym K hK ds _ hd S' hS' (fun r => atBody i ⟨0, -ν.1, -ν.2⟩ r) 0 0 0
  obtain ⟨P, v, hP, hv, hcv⟩ := C101_curve_exists _ it hit hs hz _ _ hw
  have hdw := weights_pos hs hz
  have hk := hl.contact
  subst hv
  obtain ⟨h4, hder⟩ := C101_load_matters w hj hc Jf hJ u P hP v k i ν ρ hl _ hcv hs hz
  refine ⟨P, v, _, _, hP, rfl, hcv, hder, ?_, ?_⟩
  · have hm := hl.mass.1
    have hI := hl.mass.2
    have p1 := hdw k (by omega)
    have p2 := hdw (w.contacts.length + 2 * k) (by omega)
    have p3 := hdw (w.contacts.length + (2 * k + 1)) (by omega)
    have p4 := hdw (3 * w.contacts.length + k) (by omega)
    have hκ : 0 < 1 / (bodyAt w.bodies i).mass + ρ ^ 2 / (bodyAt w.bodies i).ang_inertia := by positivity
    have hden := mul_pos hκ h4
    refine div_ne_zero (mul_ne_zero (div_ne_zero (mul_ne_zero (mul_ne_zero hκ.ne' (sub_ne_zero.2 hne)) hmu) ?_) ?_) ?_
    · positivity
    · positivity
    · positivity
  · rw [atBody_pair _ _ hl.body]
    have h0 := C101_load_ignored f hf w hj hc Jf hJ u K hK ds (v 0) hs hz k i ν ρ hl _ (by
      rw [twist_atBody, if_pos rfl]
      simp only [lift, Spec.inner, tangent]; ring) G hG'
    simp only [lift, Spec.inner] at h0
    linarith

/-- C101: conversely, for the normal velocity, which no tangential push changes, the backward pass returns a gradient that
is not zero in the tangential direction. -/
theorem C101_spurious_gradient (f : Btrifact) (hf : BtrifactOk f) (w : World σ φ) (hj : JointsOk w) (hc : ContactsOk w)
    (Jf : Mat) (hJ : w.Jf 2 = .ok Jf) (u : Vec) (K : Kkt (3 * w.bodies.length)
      (w.contacts.length + 2 * w.contacts.length + w.contacts.length) w.num_constraints)
    (hK : pre_factor_kkt f (engineProblem w Jf u).Q (engineProblem w Jf u).G (engineProblem w Jf u).F
      (engineProblem w Jf u).A = .ok K)
    (ds : List (Fin (w.contacts.length + 2 * w.contacts.length + w.contacts.length) → ℝ))
    (it : Iter (3 * w.bodies.length) (w.contacts.length + 2 * w.contacts.length + w.contacts.length) w.num_constraints)
    (hs : ∀ i, 0 < it.s i) (hz : ∀ i, 0 < it.z i) (k i : ℕ) (ν : V2) (ρ : ℝ)
    (hl : Leans w.bodies w.joints w.contacts k i ν ρ) (hmu : meanFriction w.bodies (w.contacts[k]'hl.contact) ≠ 0)
    (hne : (finVec fun i => it.z i / it.s i) (w.contacts.length + 2 * k) ≠
      (finVec fun i => it.z i / it.s i) (w.contacts.length + (2 * k + 1))) (G : Vec)
    (hG : engineImpulseGrad f w Jf u K (factorHistory f K.R K.S_LU ds) it (atBody i ⟨0, ν.1, ν.2⟩) = some G) :
    ∑ r ∈ Finset.range (3 * w.bodies.length), G r * atBody i ⟨0, (tangent ν).1, (tangent ν).2⟩ r ≠ 0 ∧
    ∀ (P : ℝ → Lcp (3 * w.bodies.length) (w.contacts.length + 2 * w.contacts.length + w.contacts.length) w.num_constraints)
      (v : ℝ → Iter (3 * w.bodies.length) (w.contacts.length + 2 * w.contacts.length + w.contacts.length) w.num_constraints)
      (dv : Iter (3 * w.bodies.length) (w.contacts.length + 2 * w.contacts.length + w.contacts.length) w.num_constraints),
      P 0 = engineProblem w Jf u → v 0 = it →
      SolutionCurve P v (onlyP fun r => atBody i ⟨0, (tangent ν).1, (tangent ν).2⟩ r) dv →
      HasDerivAt (fun t => lift ν (twist (fun r => -finVec (v t).x r) i)) 0 0 := by
  have hd := weights_pos hs hz
  have hk := hl.contact
  have hm := hl.mass.1
  have hI := hl.mass.2
  have p1 := hd k (by omega)
  have p2 := hd (w.contacts.length + 2 * k) (by omega)
  have p3 := hd (w.contacts.length + (2 * k + 1)) (by omega)
  have p4 := hd (3 * w.contacts.length + k) (by omega)
  have hun := hl.unit
  simp only [Spec.inner] at hun
  constructor
  · obtain ⟨l, pn, a, b, g, hr⟩ := C101_backward_response f hf w hj hc Jf hJ u K hK ds it hs hz _ G hG
    obtain ⟨h1, h2, h3, h4, h5⟩ := C101_response_closed _ _ _ _ _ _ _ _ _ _ _ hr k hk i hl.body ν ρ hl.unit
      (hl.presses G hr.joints) hl.free hl.only hl.mass hd
    have hfo : asForce (atBody i ⟨0, ν.1, ν.2⟩) i = ⟨0, ν.1, ν.2⟩ := by
      unfold asForce; rw [twist_atBody, if_pos rfl]
    rw [hfo] at h1 h3 h5
    rw [show lift ν (⟨0, ν.1, ν.2⟩ : V3) = 1 by simp only [lift, Spec.inner]; linarith] at h1
    have hfree : slip ν ρ (⟨(0 : ℝ) / (bodyAt w.bodies i).ang_inertia, ν.1 / (bodyAt w.bodies i).mass,
        ν.2 / (bodyAt w.bodies i).mass⟩ : V3) = 0 := by
      simp only [slip, Spec.inner, tangent]; ring
    simp only [hfree, zero_add] at h5
    have hlift : lift ν (twist G i) ≠ 0 := by
      intro h0; rw [h0, mul_zero] at h1; exact zero_ne_one h1
    have hpn : pn k ≠ 0 := by
      rw [h2]; exact neg_ne_zero.2 (mul_ne_zero p1.ne' hlift)
    have hκ : 0 < 1 / (bodyAt w.bodies i).mass + ρ ^ 2 / (bodyAt w.bodies i).ang_inertia := by positivity
    have hslip : slip ν ρ (twist G i) ≠ 0 := by
      intro h0
      rw [h0, zero_mul] at h5
      refine absurd h5.symm (mul_ne_zero (div_ne_zero (mul_ne_zero (mul_ne_zero hκ.ne' (sub_ne_zero.2 hne)) hmu) ?_) hpn)
      positivity
    rw [atBody_pair _ _ hl.body]
    intro h0
    apply hslip
    simp only [mul_zero, zero_add] at h0
    set Q := ((finVec fun i => it.z i / it.s i) (w.contacts.length + 2 * k) -
      (finVec fun i => it.z i / it.s i) (w.contacts.length + (2 * k + 1))) *
      (meanFriction w.bodies (w.contacts[k]'hk) * pn k + ((finVec fun i => it.z i / it.s i) (w.contacts.length + 2 * k) -
      (finVec fun i => it.z i / it.s i) (w.contacts.length + (2 * k + 1))) * slip ν ρ (twist G i)) /
      ((finVec fun i => it.z i / it.s i) (w.contacts.length + 2 * k) +
      (finVec fun i => it.z i / it.s i) (w.contacts.length + (2 * k + 1)) +
      1 / (finVec fun i => it.z i / it.s i) (3 * w.contacts.length + k)) -
      ((finVec fun i => it.z i / it.s i) (w.contacts.length + 2 * k) +
      (finVec fun i => it.z i / it.s i) (w.contacts.length + (2 * k + 1))) * slip ν ρ (twist G i) with hQ
    have hQ0 : Q = 0 := by
      rw [h3] at h0
      simp only [rubbed, tangent] at h0
      have : Q / (bodyAt w.bodies i).mass = 0 := by
        rw [← h0]
        linear_combination (-(Q / (bodyAt w.bodies i).mass)) * hun
      exact (div_eq_zero_iff.1 this).resolve_right hm.ne'
    rw [h3, hQ0]
    simp only [slip, rubbed, tangent, Spec.inner]
    ring
  · intro P v dv hP hv hcv
    subst hv
    obtain ⟨l, pn, a, b, g, hr⟩ := C101_curve_response w hj hc Jf hJ u P hP v _ dv hcv hs
    obtain ⟨h1, -⟩ := C101_response_closed _ _ _ _ _ _ _ _ _ _ _ hr k hk i hl.body ν ρ hl.unit
      (hl.presses _ hr.joints) hl.free hl.only hl.mass hd
    have hfo : asForce (atBody i ⟨0, (tangent ν).1, (tangent ν).2⟩) i = ⟨0, (tangent ν).1, (tangent ν).2⟩ := by
      unfold asForce; rw [twist_atBody, if_pos rfl]
    rw [hfo, show lift ν (⟨0, (tangent ν).1, (tangent ν).2⟩ : V3) = 0 by
      simp only [lift, Spec.inner, tangent]; ring] at h1
    have h0 : lift ν (twist (finVec (-dv.x)) i) = 0 := (mul_eq_zero.1 h1).resolve_left (by positivity)
    have := curve_lift hcv.dx i ν
    rwa [h0] at this

/-- C101, the exact law for comparison: while the body slides, a larger push `t` towards the floor takes `κ μ t` off the
slip. -/
theorem C101_exact_load (bs : List Body) (js : List Joint) (cs : List Contact) (f f' : ℕ → V3) (v v₁ v₂ l l' : Vec)
    (pn a b g pn' a' b' g' : ℕ → ℝ) (h : ContactLaw bs js cs f v v₁ l pn a b g)
    (h' : ContactLaw bs js cs f' v v₂ l' pn' a' b' g') (k i : ℕ) (ν : V2) (ρ : ℝ) (hl : Leans bs js cs k i ν ρ)
    (hv : ∀ r ∈ jointVels js v, r = 0) (t : ℝ) (ht : 0 ≤ t)
    (hf : f' i = ⟨(f i).r, (f i).x - t * ν.1, (f i).y - t * ν.2⟩) (hmu : 0 ≤ meanFriction bs (cs[k]'hl.contact))
    (hpress : lift ν (freeTwist bs f v i) + meanRestitution bs (cs[k]'hl.contact) * lift ν (twist v i) ≤ 0)
    (hslide : (1 / (bodyAt bs i).mass + ρ ^ 2 / (bodyAt bs i).ang_inertia) *
      (meanFriction bs (cs[k]'hl.contact) * pn' k) ≤ |slip ν ρ (freeTwist bs f v i)|) :
    |slip ν ρ (twist v₂ i)| = |slip ν ρ (twist v₁ i)| -
      (1 / (bodyAt bs i).mass + ρ ^ 2 / (bodyAt bs i).ang_inertia) * (meanFriction bs (cs[k]'hl.contact) * t) := by
  have hk := hl.contact
  have pres : ∀ v', (∀ r ∈ jointVels js v', r = 0) → PressesOn cs[k] v v' i ν ρ := by
    intro v' hv'
    have p1 := hl.presses v hv
    have p2 := hl.presses v' hv'
    have key : ∀ (c : Contact), PressesOn c v v i ν ρ → PressesOn c v' v' i ν ρ → PressesOn c v v' i ν ρ := by
      rintro c (⟨a1, a2, a3, a4, a5, -⟩ | ⟨a1, a2, a3, a4, a5, -⟩) (⟨b1, b2, -, -, b5, -⟩ | ⟨b1, b2, -, -, b5, -⟩)
      · exact Or.inl ⟨a1, a2, a3, a4, a5, b5⟩
      · exact absurd b1 a2
      · exact absurd a1 b2
      · exact Or.inr ⟨a1, a2, a3, a4, a5, b5⟩
    exact key _ p1 p2
  obtain ⟨hP, -⟩ := C97_rub bs js cs f v v₁ l pn a b g h k hk i hl.body ν ρ hl.unit (pres v₁ h.joints) hl.free hl.only hl.mass
  obtain ⟨hP', -⟩ := C97_rub bs js cs f' v v₂ l' pn' a' b' g' h' k hk i hl.body ν ρ hl.unit (pres v₂ h'.joints) hl.free
    hl.only hl.mass
  obtain ⟨-, s1, -⟩ := C97_slip bs js cs f v v₁ l pn a b g h k hk i hl.body ν ρ hl.unit (pres v₁ h.joints) hl.free hl.only
    hl.mass hmu
  obtain ⟨-, s2, -⟩ := C97_slip bs js cs f' v v₂ l' pn' a' b' g' h' k hk i hl.body ν ρ hl.unit (pres v₂ h'.joints) hl.free
    hl.only hl.mass hmu
  have hm := hl.mass.1
  have hI := hl.mass.2
  have hun := hl.unit
  simp only [Spec.inner] at hun
  have ef : slip ν ρ (freeTwist bs f' v i) = slip ν ρ (freeTwist bs f v i) := by
    simp only [slip, freeTwist, hf, tangent, Spec.inner]; ring
  have elift : lift ν (freeTwist bs f' v i) = lift ν (freeTwist bs f v i) - t / (bodyAt bs i).mass := by
    simp only [lift, freeTwist, hf, Spec.inner]
    linear_combination (-(t / (bodyAt bs i).mass)) * hun
  set X := lift ν (freeTwist bs f v i) + meanRestitution bs cs[k] * lift ν (twist v i) with hX
  have e1 : pn k = -((bodyAt bs i).mass * X) := by
    rw [hP, max_eq_right]
    have := mul_nonneg hm.le (neg_nonneg.2 hpress)
    linarith
  have e2 : pn' k = -((bodyAt bs i).mass * X) + t := by
    rw [hP', elift]
    have : -((bodyAt bs i).mass * (lift ν (freeTwist bs f v i) - t / (bodyAt bs i).mass +
        meanRestitution bs cs[k] * lift ν (twist v i))) = -((bodyAt bs i).mass * X) + t := by
      rw [hX]; field_simp; ring
    rw [this, max_eq_right]
    have := mul_nonneg hm.le (neg_nonneg.2 hpress)
    linarith
  have hκ : 0 < 1 / (bodyAt bs i).mass + ρ ^ 2 / (bodyAt bs i).ang_inertia := by positivity
  have hp0 : 0 ≤ pn k := (h.nonneg k hk).1
  have hp : pn' k = pn k + t := by rw [e2, e1]
  have hle : (1 / (bodyAt bs i).mass + ρ ^ 2 / (bodyAt bs i).ang_inertia) * (meanFriction bs cs[k] * pn k) ≤
      (1 / (bodyAt bs i).mass + ρ ^ 2 / (bodyAt bs i).ang_inertia) * (meanFriction bs cs[k] * pn' k) := by
    rw [hp]
    exact mul_le_mul_of_nonneg_left (mul_le_mul_of_nonneg_left (by linarith) hmu) hκ.le
  rw [s1, s2, ef, max_eq_right (by linarith), max_eq_right (by linarith), hp]
  ring

end LcpPhysics
