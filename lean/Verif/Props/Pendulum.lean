import Verif.Props.Hinge
import Verif.Lemmas.Pendulum

/-!
# C126: with shorter steps a pendulum approaches the pendulum equation

A body hinged to the world (constraints.py:13-55) under a constant force.
-/

noncomputable section

namespace LcpPhysics
open Spec Filter Topology

variable {φ : Type}

/-! ## The equation -/

theorem rot_lip (x y : ℝ) (a : V2) : len (rot x a - rot y a) ≤ |x - y| * len a := by
  have h : len (rot x a - rot y a) = √(2 * (1 - Real.cos (x - y)) * (a.1 ^ 2 + a.2 ^ 2)) := by
    unfold len rot
    congr 1
    rw [Real.cos_sub]
    have h1 := Real.sin_sq_add_cos_sq x
    have h2 := Real.sin_sq_add_cos_sq y
    simp only [Prod.fst_sub, Prod.snd_sub]
    linear_combination (a.1 ^ 2 + a.2 ^ 2) * (h1 + h2)
  rw [h]
  refine Real.sqrt_le_iff.2 ⟨mul_nonneg (abs_nonneg _) (len_nonneg _), ?_⟩
  rw [mul_pow, sq_abs]
  have e : len a ^ 2 = a.1 ^ 2 + a.2 ^ 2 := Real.sq_sqrt (by positivity)
  rw [e]
  refine mul_le_mul_of_nonneg_right ?_ (by positivity)
  linarith [one_sub_cos_le (x - y)]

theorem comp_le_len (a : V2) : |a.1| ≤ len a ∧ |a.2| ≤ len a := by
  constructor
  · exact Real.abs_le_sqrt (by nlinarith [sq_nonneg a.2])
  · exact Real.abs_le_sqrt (by nlinarith [sq_nonneg a.1])

/-- The greatest angular acceleration, and how fast it changes with the angle. -/
def accelMax (m I : ℝ) (A : V2) (f : V3) : ℝ := (|f.r| + len A * (|f.x| + |f.y|)) / (I + m * (A.1 ^ 2 + A.2 ^ 2))

def accelSlope (m I : ℝ) (A : V2) (f : V3) : ℝ := len A * (|f.x| + |f.y|) / (I + m * (A.1 ^ 2 + A.2 ^ 2))

theorem accel_bounds {m I : ℝ} (hm : 0 < m) (hI : 0 < I) (A : V2) (f : V3) :
    0 ≤ accelSlope m I A f ∧ (∀ x, |pivotAccel m I A f x| ≤ accelMax m I A f) ∧
    ∀ x y, |pivotAccel m I A f x - pivotAccel m I A f y| ≤ accelSlope m I A f * |x - y| := by
  have hJ : 0 < I + m * (A.1 ^ 2 + A.2 ^ 2) := by positivity
  refine ⟨div_nonneg (mul_nonneg (len_nonneg _) (by positivity)) hJ.le, fun x => ?_, fun x y => ?_⟩
  · unfold pivotAccel accelMax
    rw [abs_div, abs_of_pos hJ]
    refine div_le_div_of_nonneg_right ?_ hJ.le
    obtain ⟨c1, c2⟩ := comp_le_len (rot x A)
    rw [rot_len] at c1 c2
    have h1 : |(rot x A).2 * f.x| ≤ len A * |f.x| := by rw [abs_mul]; exact mul_le_mul_of_nonneg_right c2 (abs_nonneg _)
    have h2 : |(rot x A).1 * f.y| ≤ len A * |f.y| := by rw [abs_mul]; exact mul_le_mul_of_nonneg_right c1 (abs_nonneg _)
    have h3 := abs_sub (f.r + (rot x A).2 * f.x) ((rot x A).1 * f.y)
    have h4 := abs_add_le f.r ((rot x A).2 * f.x)
    linarith
  · unfold pivotAccel accelSlope
    rw [← sub_div, abs_div, abs_of_pos hJ, div_mul_eq_mul_div]
    refine div_le_div_of_nonneg_right ?_ hJ.le
    obtain ⟨c1, c2⟩ := comp_le_len (rot x A - rot y A)
    have c1 := c1.trans (rot_lip x y A)
    have c2 := c2.trans (rot_lip x y A)
    have e : f.r + (rot x A).2 * f.x - (rot x A).1 * f.y - (f.r + (rot y A).2 * f.x - (rot y A).1 * f.y) =
        (rot x A - rot y A).2 * f.x - (rot x A - rot y A).1 * f.y := by simp only [Prod.fst_sub, Prod.snd_sub]; ring
    rw [e]
    refine (abs_sub _ _).trans ?_
    rw [abs_mul, abs_mul]
    have h1 := mul_le_mul_of_nonneg_right c2 (abs_nonneg f.x)
    have h2 := mul_le_mul_of_nonneg_right c1 (abs_nonneg f.y)
    linarith

/-- C126: under its weight, hung up at the distance `ℓ` above its centre, a body has the equation of the pendulum. -/
theorem C126_equation (m I ℓ g θ : ℝ) :
    pivotAccel m I (0, -ℓ) ⟨0, 0, m * g⟩ θ = -(m * g * ℓ / (I + m * ℓ ^ 2)) * Real.sin θ := by
  simp [pivotAccel, rot]
  ring

/-- C126: the pendulum equation has solutions for all spans of time. -/
theorem C126_swings (m I : ℝ) (hm : 0 < m) (hI : 0 < I) (A : V2) (f : V3) (T : ℝ) (hT : 0 ≤ T) (ω0 : ℝ) :
    ∃ θ ω : ℝ → ℝ, Swings (pivotAccel m I A f) T θ ω ∧ θ 0 = 0 ∧ ω 0 = ω0 := by
  obtain ⟨h1, h2, h3⟩ := accel_bounds hm hI A f
  exact swings_exist h2 h3 h1 T hT ω0

/-! ## The recursion -/

/-- The force on body `i` is always `f`. -/
def ConstForce (H : ForceHeap) (n i : ℕ) (f : V3) : Prop := ∀ t fl, forceCat H t n = .ok fl → fl.getD i 0 = f

/-- By how much body `i` has turned. -/
def swung {σ : Type} (w0 w : World σ φ) (i : ℕ) : ℝ := (bodyAt w.bodies i).p.r - (bodyAt w0.bodies i).p.r

section
variable {H : ForceHeap} {lcp : LcpSolver} {mi : ℕ} {collide : ℝ → φ → List Body → Except Err (φ × List Contact)} {dt : ℝ} {n : ℕ}
  {ws : ℕ → World (Option Mat) φ} {i k : ℕ}

theorem PivotRun.plain (h : PivotRun H lcp mi collide dt n ws i k) (hdt : 0 ≤ dt) : PlainRun (pdipmEnv 2 H lcp mi collide) dt n ws :=
  ⟨h.steps, h.inv.good, h.post, hdt⟩

/-- The arm turns with the body. -/
theorem PivotRun.arm (h : PivotRun H lcp mi collide dt n ws i k) (hdt : 0 ≤ dt) (q : ℕ) (hq : q ≤ n) :
    armOf (ws q) i k = rot (swung (ws 0) (ws q) i) (armOf (ws 0) i k) := by
  obtain ⟨⟨j, hj, hkind, hi1, hi2⟩, -⟩ := h.pinned
  obtain ⟨hklt, rfl⟩ := List.getElem?_eq_some_iff.1 hj
  obtain ⟨hk', h1, -⟩ := C28_anchor_rigid _ (ws 0) (ws q) h.inv.good ((h.plain hdt).reaches q hq) k hklt hkind
  simp only [hi1] at h1
  unfold armOf pivotAt swung
  rw [List.getElem?_eq_getElem hk', List.getElem?_eq_getElem hklt]
  exact h1

/-- C126: the recursion of angle and angular velocity. The factor in the second line is the loss of C105, absent in the first step. -/
theorem C126_recursion (h : PivotRun H lcp mi collide dt n ws i k) (hx : Exact lcp) (hdt : 0 ≤ dt) (f : V3)
    (hf : ConstForce H (ws 0).bodies.length i f) (ht : ∀ q < n, (ws (q + 1)).t = (ws q).t + dt)
    (h0 : twist (ws 0).v i = turnAbout (armOf (ws 0) i k) (spinOf (ws 0) i)) (q : ℕ) (hq : q < n) :
    let m := (bodyAt (ws 0).bodies i).mass
    let I := (bodyAt (ws 0).bodies i).ang_inertia
    let A := armOf (ws 0) i k
    spinOf (ws (q + 1)) i = spinOf (ws q) i * spinFactor (if q = 0 then 0 else pivotShare m I A) (spinOf (ws q) i * dt) +
      dt * pivotAccel m I A f (swung (ws 0) (ws q) i) ∧
    swung (ws 0) (ws (q + 1)) i = swung (ws 0) (ws q) i + dt * spinOf (ws (q + 1)) i := by
  intro m I A
  have hden : 0 < I + m * (A.1 ^ 2 + A.2 ^ 2) := by
    obtain ⟨h1, h2⟩ := h.heavy
    have : 0 < I := h2
    have : 0 < m := h1
    positivity
  have hone : ∀ q < n, ∃ ω' : ℝ, (I + m * (A.1 ^ 2 + A.2 ^ 2)) * ω' = I * (twist (ws q).v i).r +
        m * ((armOf (ws q) i k).2 * (twist (ws q).v i).x - (armOf (ws q) i k).1 * (twist (ws q).v i).y) +
        dt * (f.r + (armOf (ws q) i k).2 * f.x - (armOf (ws q) i k).1 * f.y) ∧
      twist (ws (q + 1)).v i = turnAbout (armOf (ws q) i k) ω' ∧ armOf (ws (q + 1)) i k = rot (ω' * dt) (armOf (ws q) i k) := by
    intro q hq
    obtain ⟨i1, i2, i3, i4, i5, i6, i7⟩ := h.at hx q hq.le
    obtain ⟨fuel, hs⟩ := h.steps q hq
    obtain ⟨fl, e, ω', hfl, -, hω, hv, harm, -, -⟩ := C105_step H lcp hx mi collide _ _ i1 i2 fuel dt hs i k
      (by rw [i3]; exact h.body) i4 (h.clear q hq) (by rw [i5, i6]; exact h.heavy)
    rw [i3] at hfl
    rw [hf _ _ hfl, i5, i6, i7] at hω
    rw [ht q hq, add_sub_cancel_left] at harm
    exact ⟨ω', hω, hv, harm⟩
  refine ⟨?_, ?_⟩
  · obtain ⟨ω', hω, hv, -⟩ := hone q hq
    have e1 : spinOf (ws (q + 1)) i = ω' := by unfold spinOf; rw [hv]; rfl
    have hacc : dt * (f.r + (armOf (ws q) i k).2 * f.x - (armOf (ws q) i k).1 * f.y) =
        (I + m * (A.1 ^ 2 + A.2 ^ 2)) * (dt * pivotAccel m I A f (swung (ws 0) (ws q) i)) := by
      unfold pivotAccel
      rw [h.arm hdt q hq.le]
      field_simp
      simp only [A]
      ring
    rw [e1]
    apply mul_left_cancel₀ hden.ne'
    rw [hω, hacc]
    rcases q with _ | q
    · rw [if_pos rfl, h0]
      simp only [turnAbout, spinFactor, A]
      ring
    · rw [if_neg (by omega)]
      obtain ⟨ω0, -, hv0, harm⟩ := hone q (by omega)
      have e2 : spinOf (ws (q + 1)) i = ω0 := by unfold spinOf; rw [hv0]; rfl
      obtain ⟨-, -, -, -, -, -, i7⟩ := h.at hx q (by omega)
      rw [e2, hv0, harm]
      set B := armOf (ws q) i k
      set δ := ω0 * dt
      simp only [turnAbout, rot, spinFactor]
      unfold pivotShare
      have i7 : B.1 ^ 2 + B.2 ^ 2 = A.1 ^ 2 + A.2 ^ 2 := i7
      have e3 : (I + m * (A.1 ^ 2 + A.2 ^ 2)) * (ω0 * (1 - m * (A.1 ^ 2 + A.2 ^ 2) / (I + m * (A.1 ^ 2 + A.2 ^ 2)) * (1 - Real.cos δ)) +
          dt * pivotAccel m I A f (swung (ws 0) (ws (q + 1)) i)) =
          ω0 * ((I + m * (A.1 ^ 2 + A.2 ^ 2)) - m * (A.1 ^ 2 + A.2 ^ 2) * (1 - Real.cos δ)) +
          (I + m * (A.1 ^ 2 + A.2 ^ 2)) * (dt * pivotAccel m I A f (swung (ws 0) (ws (q + 1)) i)) := by
        field_simp
      rw [e3]
      linear_combination (m * ω0 * Real.cos δ) * i7
  · obtain ⟨-, hm⟩ := (h.plain hdt).move q hq
    have := hm i h.body
    unfold swung spinOf
    rw [this, ht q hq, add_sub_cancel_left]
    simp
    ring

/-- The speed of the recursion. -/
theorem pendulum_speed (h : PivotRun H lcp mi collide dt n ws i k) (hx : Exact lcp) (hdt : 0 ≤ dt) (f : V3)
    (hf : ConstForce H (ws 0).bodies.length i f) (ht : ∀ q < n, (ws (q + 1)).t = (ws q).t + dt)
    (h0 : twist (ws 0).v i = turnAbout (armOf (ws 0) i k) (spinOf (ws 0) i)) (T : ℝ) (hT : n * dt ≤ T) (q : ℕ) (hq : q ≤ n) :
    |spinOf (ws q) i| ≤ |spinOf (ws 0) i| + T * accelMax (bodyAt (ws 0).bodies i).mass (bodyAt (ws 0).bodies i).ang_inertia
      (armOf (ws 0) i k) f := by
  obtain ⟨-, hK, -⟩ := accel_bounds h.heavy.1 h.heavy.2 (armOf (ws 0) i k) f
  set K := accelMax (bodyAt (ws 0).bodies i).mass (bodyAt (ws 0).bodies i).ang_inertia (armOf (ws 0) i k) f
  have hK0 : 0 ≤ K := (abs_nonneg _).trans (hK 0)
  have hκ : ∀ q : ℕ, 0 ≤ (if q = 0 then 0 else pivotShare (bodyAt (ws 0).bodies i).mass (bodyAt (ws 0).bodies i).ang_inertia (armOf (ws 0) i k)) ∧
      (if q = 0 then 0 else pivotShare (bodyAt (ws 0).bodies i).mass (bodyAt (ws 0).bodies i).ang_inertia (armOf (ws 0) i k)) < 1 := by
    intro q
    obtain ⟨m0, I0⟩ := h.heavy
    split_ifs
    · exact ⟨le_rfl, one_pos⟩
    · unfold pivotShare
      refine ⟨by positivity, ?_⟩
      rw [div_lt_one (by positivity)]
      linarith
  have key : ∀ q ≤ n, |spinOf (ws q) i| ≤ |spinOf (ws 0) i| + q * dt * K := by
    intro q
    induction q with
    | zero => intro _; simp
    | succ q ih =>
      intro hq
      rw [(C126_recursion h hx hdt f hf ht h0 q (by omega)).1]
      refine (abs_add_le _ _).trans ?_
      rw [abs_mul, abs_mul, abs_of_nonneg hdt]
      have a1 := mul_le_of_le_one_right (abs_nonneg (spinOf (ws q) i)) (spinFactor_abs (δ := spinOf (ws q) i * dt) (hκ q).1 (hκ q).2)
      have a2 := mul_le_mul_of_nonneg_left (hK (swung (ws 0) (ws q) i)) hdt
      have := ih (by omega)
      push_cast
      linarith
  refine (key q hq).trans ?_
  have h1 : (q : ℝ) * dt ≤ n * dt := mul_le_mul_of_nonneg_right (by exact_mod_cast hq) hdt
  have := mul_le_mul_of_nonneg_right (h1.trans hT) hK0
  linarith

/-- The constant of the error, from the greatest acceleration `K`, its slope `L`, the greatest angular velocity `W` and the time. -/
def swingConst (K L W T : ℝ) : ℝ := Real.exp ((1 + 2 * L) * T) * T * (2 * (L * W + W ^ 3) + K)

/-- C126: angle, angular velocity and place of the pendulum are those of the pendulum equation up to first order in the step length. -/
theorem C126_converges (h : PivotRun H lcp mi collide dt n ws i k) (hx : Exact lcp) (hdt : 0 ≤ dt) (hd1 : dt ≤ 1) (f : V3)
    (hf : ConstForce H (ws 0).bodies.length i f) (ht : ∀ q < n, (ws (q + 1)).t = (ws q).t + dt)
    (h0 : twist (ws 0).v i = turnAbout (armOf (ws 0) i k) (spinOf (ws 0) i)) (T : ℝ) (hT : n * dt ≤ T) (θ ω : ℝ → ℝ)
    (hs : Swings (pivotAccel (bodyAt (ws 0).bodies i).mass (bodyAt (ws 0).bodies i).ang_inertia (armOf (ws 0) i k) f) T θ ω)
    (hθ : θ 0 = 0) (hω : ω 0 = spinOf (ws 0) i) :
    let m := (bodyAt (ws 0).bodies i).mass
    let I := (bodyAt (ws 0).bodies i).ang_inertia
    let A := armOf (ws 0) i k
    let W := |ω 0| + T * accelMax m I A f
    let C := swingConst (accelMax m I A f) (accelSlope m I A f) W T
    |spinOf (ws n) i - ω (n * dt)| + |swung (ws 0) (ws n) i - θ (n * dt)| ≤ C * dt ∧
    Spec.dist (bodyAt (ws n).bodies i).pos (pivotAt (ws 0) k - rot (θ (n * dt)) A) ≤ len A * (W ^ 2 * T / 2 + C) * dt := by
  intro m I A W C
  obtain ⟨hL0, hK, hL⟩ := accel_bounds h.heavy.1 h.heavy.2 A f
  have hK0 : 0 ≤ accelMax m I A f := (abs_nonneg _).trans (hK 0)
  have hT0 : 0 ≤ T := le_trans (by positivity) hT
  have hκ0 : 0 ≤ pivotShare m I A ∧ pivotShare m I A < 1 := by
    obtain ⟨m0, I0⟩ := h.heavy
    have m0 : 0 < m := m0
    have I0 : 0 < I := I0
    unfold pivotShare
    refine ⟨by positivity, ?_⟩
    rw [div_lt_one (by positivity)]
    linarith
  have main := swing_error hs hK hL hL0 hκ0.1 hκ0.2 hdt hd1 (fun q => swung (ws 0) (ws q) i) (fun q => spinOf (ws q) i)
    (fun q => if q = 0 then 0 else pivotShare m I A) (fun q => by
      by_cases hq : q = 0
      · exact Or.inl (if_pos hq)
      · exact Or.inr (if_neg hq)) (by rw [hθ]; simp [swung]) hω.symm n hT
    (fun q hq => (C126_recursion h hx hdt f hf ht h0 q hq).1) (fun q hq => (C126_recursion h hx hdt f hf ht h0 q hq).2)
  have main : |spinOf (ws n) i - ω (n * dt)| + |swung (ws 0) (ws n) i - θ (n * dt)| ≤ C * dt := main
  refine ⟨main, ?_⟩
  have hrun : JointRun H lcp mi collide dt n ws := ⟨h.finder, h.steps, h.inv, h.post, hdt⟩
  have hpin : PinnedAt (ws 0).joints k i (pivotAt (ws 0) k) := by
    obtain ⟨⟨j, hj, hkind, hi1, hi2⟩, -⟩ := h.pinned
    exact ⟨j, hj, hkind, hi1, hi2, by unfold pivotAt; rw [hj]⟩
  have hp := C125_pin_any hrun.plain k i h.body (pivotAt (ws 0) k) hpin 0 W (hrun.exact hx) fun q hq => by
    have := pendulum_speed h hx hdt f hf ht h0 T hT (q + 1) hq
    rw [← hω] at this
    exact this
  have hA : Spec.dist (pivotAt (ws 0) k) (bodyAt (ws 0).bodies i).pos = len A := rfl
  rw [hA] at hp
  obtain ⟨t0, t1⟩ := hrun.time
  have hA0 : 0 ≤ len A := len_nonneg _
  have hp' : Spec.dist (carried (bodyAt (ws 0).bodies i) (bodyAt (ws n).bodies i) (pivotAt (ws 0) k)) (pivotAt (ws 0) k) ≤
      len A * (W ^ 2 * T / 2) * dt := by
    refine hp.trans ?_
    have := mul_le_mul_of_nonneg_left (t1.trans hT) (by positivity : 0 ≤ W ^ 2 * dt / 2 * len A)
    linarith
  have hr : len (rot (θ (n * dt)) A - rot (swung (ws 0) (ws n) i) A) ≤ C * dt * len A := by
    refine (rot_lip _ _ _).trans (mul_le_mul_of_nonneg_right ?_ hA0)
    rw [abs_sub_comm]
    linarith [abs_nonneg (spinOf (ws n) i - ω (n * dt))]
  have e : (bodyAt (ws n).bodies i).pos - (pivotAt (ws 0) k - rot (θ (n * dt)) A) =
      (carried (bodyAt (ws 0).bodies i) (bodyAt (ws n).bodies i) (pivotAt (ws 0) k) - pivotAt (ws 0) k) +
      (rot (θ (n * dt)) A - rot (swung (ws 0) (ws n) i) A) := by
    unfold carried swung
    simp only [A, armOf]
    abel
  unfold Spec.dist at hp' ⊢
  rw [e]
  refine (len_add_le _ _).trans ?_
  linarith

end

/-! ## The library's world -/

theorem gravities_one (g : ℝ) (m : ℕ → ℝ) (t : ℝ) : forceCat (gravities g m) t 1 = .ok [⟨0, 0, m 0 * g⟩] := by
  have h : ∀ i, (gravities g m).apply_forces i t = some ⟨0, 0, m i * g⟩ := by
    intro i
    have : (0 : V3) + ⟨0, 0, m i * g⟩ = ⟨0, 0, m i * g⟩ := by apply V3.ext <;> simp
    simp [gravities, ForceHeap.apply_forces, sumForces, Force.set_body, Force.force, this]
  simp [forceCat, h]

/-- C126: a body of the library, hung up anywhere, under gravity, started with any angular velocity: for every span of time there are a
motion that satisfies the pendulum equation and a constant such that with all step lengths the world is made, runs, and stays within the
constant times the step length of the motion. -/
theorem C126_pendulum (g : ℝ) (lcp : LcpSolver) (hx : Exact lcp) (mi cfuel : ℕ) (nc : ℕ → List ℕ)
    (pairs : List Body → List (ℕ × ℕ)) (hpv : ∀ bs, ∀ p ∈ pairs bs, p.1 < bs.length ∧ p.2 < bs.length ∧ p.1 ≠ p.2)
    (fnd : Finder) (b : Body) (hb : b.RectForm) (hm : 0 < b.mass ∧ 0 < b.ang_inertia) (pos : V2) (ω0 : ℝ)
    (hv : b.v = turnAbout (pos - b.pos) ω0) (eps tol : ℝ) (strict : Bool) (T : ℝ) (hT : 0 ≤ T) :
    ∃ θ ω : ℝ → ℝ, Swings (pivotAccel b.mass b.ang_inertia (pos - b.pos) ⟨0, 0, b.mass * g⟩) T θ ω ∧ θ 0 = 0 ∧ ω 0 = ω0 ∧
      ∃ C : ℝ, ∀ dt, 0 ≤ dt → dt ≤ 1 → ∃ ws : ℕ → World (Option Mat) Finder,
        let env := loneEnv (gravities g fun _ => b.mass) lcp mi cfuel nc pairs
        mkWorld env none fnd [b] (pivotJoints b pos) dt eps tol false strict = .done (ws 0) ∧ (∀ n, Steps env dt n ws) ∧
        ∀ n : ℕ, n * dt ≤ T →
          |spinOf (ws n) 0 - ω (n * dt)| ≤ C * dt ∧ |(bodyAt (ws n).bodies 0).p.r - (b.p.r + θ (n * dt))| ≤ C * dt ∧
          Spec.dist (bodyAt (ws n).bodies 0).pos (pos - rot (θ (n * dt)) (pos - b.pos)) ≤ C * dt := by
  obtain ⟨θ, ω, hs, hθ, hω⟩ := C126_swings b.mass b.ang_inertia hm.1 hm.2 (pos - b.pos) ⟨0, 0, b.mass * g⟩ T hT ω0
  refine ⟨θ, ω, hs, hθ, hω, ?_⟩
  set A := pos - b.pos with hA
  set f : V3 := ⟨0, 0, b.mass * g⟩ with hf
  set W := |ω 0| + T * accelMax b.mass b.ang_inertia A f with hW
  set C := swingConst (accelMax b.mass b.ang_inertia A f) (accelSlope b.mass b.ang_inertia A f) W T with hC
  refine ⟨max C (len A * (W ^ 2 * T / 2 + C)), fun dt hdt hd1 => ?_⟩
  obtain ⟨ws, r1, r2, r3, r4, r5, r6⟩ := C105_runs (gravities g fun _ => b.mass) (fun t => ⟨_, gravities_one g _ t⟩) lcp mi cfuel nc pairs
    hpv fnd b hb hm pos dt eps tol strict
  have hb0 : bodyAt (ws 0).bodies 0 = b := by rw [r4]; rfl
  have hsp : spinOf (ws 0) 0 = ω0 := by unfold spinOf; rw [r6, hv]; rfl
  have hpv0 : pivotAt (ws 0) 0 = pos := by
    have : pivotAt (ws 0) 0 = armOf (ws 0) 0 0 + (bodyAt (ws 0).bodies 0).pos := by unfold armOf; abel
    rw [this, r5, hb0]; abel
  refine ⟨ws, r1, fun n => (r2 n).steps, fun n hn => ?_⟩
  obtain ⟨k1, k2⟩ := C126_converges (r2 n) hx hdt hd1 f (fun t fl hfl => by
      rw [r4] at hfl
      rw [show [b].length = 1 from rfl, gravities_one] at hfl
      injection hfl with hfl
      rw [← hfl]; rfl) (fun q _ => r3 q) (by rw [hsp, r6, r5, hv]) T hn θ ω (by rw [hb0, r5]; exact hs) hθ (by rw [hω, hsp])
  simp only [hb0, r5, hpv0] at k1 k2
  have c1 : C * dt ≤ max C (len A * (W ^ 2 * T / 2 + C)) * dt := mul_le_mul_of_nonneg_right (le_max_left _ _) hdt
  have c2 : len A * (W ^ 2 * T / 2 + C) * dt ≤ max C (len A * (W ^ 2 * T / 2 + C)) * dt := mul_le_mul_of_nonneg_right (le_max_right _ _) hdt
  have n1 := abs_nonneg (spinOf (ws n) 0 - ω (n * dt))
  have n2 := abs_nonneg (swung (ws 0) (ws n) 0 - θ (n * dt))
  refine ⟨by linarith, ?_, k2.trans c2⟩
  have e : (bodyAt (ws n).bodies 0).p.r - (b.p.r + θ (n * dt)) = swung (ws 0) (ws n) 0 - θ (n * dt) := by
    unfold swung; rw [hb0]; ring
  rw [e]
  linarith

/-- Example for all of C126: a disc of the library of radius and mass 1, hung up two units above its centre and pushed with angular
velocity 3; its equation is `θ'' = -(40/9) sin θ`. -/
example (mi cfuel : ℕ) (fnd : Finder) (T : ℝ) (hT : 0 ≤ T) : ∃ θ ω : ℝ → ℝ,
    (∀ t ∈ Set.Icc 0 T, HasDerivWithinAt θ (ω t) (Set.Icc 0 T) t) ∧
    (∀ t ∈ Set.Icc 0 T, HasDerivWithinAt ω (-(40 / 9) * Real.sin (θ t)) (Set.Icc 0 T) t) ∧ ω 0 = 3 ∧
    ∃ C : ℝ, ∀ dt, 0 ≤ dt → dt ≤ 1 → ∃ ws : ℕ → World (Option Mat) Finder,
      (∀ n, Steps (loneEnv (gravities 10 fun _ => 1) exactLcp mi cfuel (fun _ => []) (bouncePairs true)) dt n ws) ∧
      ∀ n : ℕ, n * dt ≤ T → |spinOf (ws n) 0 - ω (n * dt)| ≤ C * dt := by
  obtain ⟨θ, ω, hs, -, hω, C, hC⟩ := C126_pendulum 10 exactLcp exactLcp_exact mi cfuel (fun _ => []) (bouncePairs true)
    (bouncePairs_valid true) fnd (mkCircle (.three 0) 1 { mass := 1, vel := .three ⟨3, -6, 0⟩ }) trivial
    (by constructor <;> norm_num [mkCircle, circleInertia]) (0, -2) 3
    (by simp [mkCircle, Body.pos, Arg.toV3, V3.xy, turnAbout]; norm_num) (1 / 10) 0 false T hT
  refine ⟨θ, ω, hs.angle, fun t ht => (hs.speed t ht).congr_deriv ?_, hω, C, fun dt h0 h1 => ?_⟩
  · have : ((0, -2) : V2) - (mkCircle (.three 0) 1 { mass := 1, vel := .three ⟨3, -6, 0⟩ }).pos = (0, -2) := by
      simp [mkCircle, Body.pos, Arg.toV3, V3.xy]
    rw [this]
    rw [C126_equation]
    norm_num [mkCircle, circleInertia]
  · obtain ⟨ws, -, r1, r2⟩ := hC dt h0 h1
    exact ⟨ws, r1, fun n hn => (r2 n hn).1⟩

end LcpPhysics
