import Verif.Props.HalfStab
import Verif.Props.QuietStab
import Mathlib.Analysis.Complex.Trigonometric

/-!
# C111: runs with the stabilisation, for ever

The third order of C111 is summable: because the rotation is braked, the pivot stays for ever within a distance that is
proportional to the step length, and two bodies that are fixed to each other stay for ever within a bounded distance
(world.py:107-120).
-/

noncomputable section

namespace LcpPhysics
open Spec Filter Topology

variable {φ : Type}

/-- A small stabilised turn still brakes by the second order. -/
theorem stab_brake {κ δ : ℝ} (h0 : 0 ≤ κ) (h1 : κ ≤ 1) (hδ : |δ| ≤ 1) :
    δ ^ 2 / 4 ≤ 1 - Real.cos (stabTurn κ (1 / 2) δ) ∧ 1 - Real.cos (stabTurn κ (1 / 2) δ) ≤ 1 / 2 := by
  have hδ2 : δ ^ 2 ≤ 1 := by rw [← sq_abs]; nlinarith [abs_nonneg δ]
  have c0 : 0 ≤ 1 - Real.cos δ := by linarith [Real.cos_le_one δ]
  have c1 : 1 - Real.cos δ ≤ 1 / 2 := by have := Real.one_sub_sq_div_two_le_cos (x := δ); linarith
  set f := 1 - κ * (1 - Real.cos δ) / 2 with hf
  have f0 : 3 / 4 ≤ f := by nlinarith
  have f1 : f ≤ 1 := by nlinarith
  have e : stabTurn κ (1 / 2) δ = δ * f := by unfold stabTurn stabAngle; rw [hf]; ring
  rw [e]
  have hs : (δ * f) ^ 2 ≤ δ ^ 2 := by nlinarith [sq_nonneg δ, mul_nonneg (sq_nonneg δ) (by nlinarith : (0:ℝ) ≤ 1 - f ^ 2)]
  have hs' : 9 / 16 * δ ^ 2 ≤ (δ * f) ^ 2 := by nlinarith [mul_nonneg (sq_nonneg δ) (by nlinarith : (0:ℝ) ≤ f ^ 2 - 9 / 16)]
  have ha : |δ * f| ≤ 1 := by
    rw [← sq_le_one_iff_abs_le_one]; linarith
  have hb := (abs_le.1 (Real.cos_bound ha)).2
  have h4 : |δ * f| ^ 4 ≤ (δ * f) ^ 2 := by
    rw [show |δ * f| ^ 4 = (|δ * f| ^ 2) ^ 2 by ring, sq_abs]
    nlinarith [sq_nonneg (δ * f)]
  refine ⟨by nlinarith, ?_⟩
  have := Real.one_sub_sq_div_two_le_cos (x := δ * f)
  linarith

/-- C111: for ever. Without forces, and with a pivot off the centre, the pivot of a stabilised run never leaves the disc of radius
`4 a |ω| dt / (3 κ)` about where it was, where `a` is the arm and `ω` the angular velocity of the first step. -/
theorem C111_forever (H : ForceHeap) (lcp : LcpSolver) (hx : Exact lcp) (mi : ℕ)
    (collide : ℝ → φ → List Body → Except Err (φ × List Contact)) (dt : ℝ) (ws : ℕ → World (Option Mat) φ) (i k : ℕ)
    (h : ∀ n, StabRun H lcp mi collide dt n ws i k) (hff : ForceFree H (ws 0).bodies.length i) (ha : armOf (ws 0) i k ≠ 0)
    (ht : ∀ q, |(ws (q + 1)).t - (ws q).t| ≤ dt) (hs : |spinOf (ws 1) i| * dt ≤ 1) (n : ℕ) :
    let κ := pivotShare (bodyAt (ws 0).bodies i).mass (bodyAt (ws 0).bodies i).ang_inertia (armOf (ws 0) i k)
    Spec.dist (pivotAt (ws n) k) (pivotAt (ws 0) k) ≤
      len (armOf (ws 0) i k) * (4 * dt / (3 * κ) * (|spinOf (ws 1) i| - |spinOf (ws (n + 1)) i|)) ∧
    Spec.dist (pivotAt (ws n) k) (pivotAt (ws 0) k) ≤ len (armOf (ws 0) i k) * (4 * (|spinOf (ws 1) i| * dt) / (3 * κ)) := by
  intro κ
  obtain ⟨k0, k1⟩ := pivotShare_bounds (h 0).heavy.1 (h 0).heavy.2 ha
  have hdt : 0 ≤ dt := le_trans (abs_nonneg _) (ht 0)
  have hle := fun q => (C111_total H lcp hx mi collide dt (q + 1) ws i k (h _) hff (fun q _ => ht q) hs).1 q (by omega)
  have hδ : ∀ q, |spinOf (ws (q + 1)) i * ((ws (q + 1)).t - (ws q).t)| ≤ |spinOf (ws (q + 1)) i| * dt := fun q => by
    rw [abs_mul]; exact mul_le_mul_of_nonneg_left (ht q) (abs_nonneg _)
  have hδ1 : ∀ q, |spinOf (ws (q + 1)) i * ((ws (q + 1)).t - (ws q).t)| ≤ 1 := fun q =>
    ((hδ q).trans (mul_le_mul_of_nonneg_right (hle q) hdt)).trans hs
  have hbr : ∀ q, κ / 4 * |spinOf (ws (q + 1)) i| * (spinOf (ws (q + 1)) i * ((ws (q + 1)).t - (ws q).t)) ^ 2 ≤
      |spinOf (ws (q + 1)) i| - |spinOf (ws (q + 2)) i| := by
    intro q
    have e := (C111_slows H lcp hx mi collide dt (q + 2) ws i k (h _) hff).2.1 q (by omega)
    obtain ⟨b1, b2⟩ := stab_brake k0.le k1.le (hδ1 q)
    rw [e, abs_mul]
    have k0' : 0 < κ := k0
    have k1' : κ < 1 := k1
    change κ / 4 * _ * _ ≤ _ - _ * |1 - κ * _|
    change _ ≤ 1 - Real.cos (stabTurn κ _ _) at b1
    change 1 - Real.cos (stabTurn κ _ _) ≤ _ at b2
    change _ ≤ _ - _ * |1 - κ * (1 - Real.cos (stabTurn κ _ _))|
    generalize 1 - Real.cos (stabTurn κ (1 / 2) (spinOf (ws (q + 1)) i * ((ws (q + 1)).t - (ws q).t))) = c at b1 b2 ⊢
    have c0 : 0 ≤ c := le_trans (by positivity) b1
    have f0 : 0 ≤ 1 - κ * c := by nlinarith
    rw [abs_of_nonneg f0]
    have := mul_le_mul_of_nonneg_left b1 (mul_nonneg k0'.le (abs_nonneg (spinOf (ws (q + 1)) i)))
    linarith
  have key : Spec.dist (pivotAt (ws n) k) (pivotAt (ws 0) k) ≤
      len (armOf (ws 0) i k) * (4 * dt / (3 * κ) * (|spinOf (ws 1) i| - |spinOf (ws (n + 1)) i|)) := by
    induction n with
    | zero => simp [Spec.dist_self]
    | succ q ih =>
      have h1 := C111_drift H lcp hx mi collide dt (q + 1) ws i k (h _) q (by omega) (hδ1 q)
      have h3 := Spec.dist_triangle (pivotAt (ws (q + 1)) k) (pivotAt (ws q) k) (pivotAt (ws 0) k)
      have h4 : |spinOf (ws (q + 1)) i * ((ws (q + 1)).t - (ws q).t)| ^ 3 / 3 ≤
          4 * dt / (3 * κ) * (|spinOf (ws (q + 1)) i| - |spinOf (ws (q + 2)) i|) := by
        have h5 := mul_le_mul_of_nonneg_left (hbr q) (by positivity : 0 ≤ 4 * dt / (3 * κ))
        refine le_trans ?_ h5
        have h6 := mul_le_mul_of_nonneg_right (hδ q) (sq_nonneg (spinOf (ws (q + 1)) i * ((ws (q + 1)).t - (ws q).t)))
        have e1 : |spinOf (ws (q + 1)) i * ((ws (q + 1)).t - (ws q).t)| ^ 3 =
            |spinOf (ws (q + 1)) i * ((ws (q + 1)).t - (ws q).t)| * (spinOf (ws (q + 1)) i * ((ws (q + 1)).t - (ws q).t)) ^ 2 := by
          rw [pow_succ, sq_abs]; ring
        have hκ : κ ≠ 0 := k0.ne'
        have e2 : 4 * dt / (3 * κ) * (κ / 4 * |spinOf (ws (q + 1)) i| * (spinOf (ws (q + 1)) i * ((ws (q + 1)).t - (ws q).t)) ^ 2) =
            |spinOf (ws (q + 1)) i| * dt * (spinOf (ws (q + 1)) i * ((ws (q + 1)).t - (ws q).t)) ^ 2 / 3 := by
          field_simp
        rw [e1, e2]
        linarith
      have h5 := mul_le_mul_of_nonneg_left h4 (len_nonneg (armOf (ws 0) i k))
      linarith
  refine ⟨key, key.trans (mul_le_mul_of_nonneg_left ?_ (len_nonneg _))⟩
  have hκ : 0 < κ := k0
  have e : 4 * (|spinOf (ws 1) i| * dt) / (3 * κ) = 4 * dt / (3 * κ) * |spinOf (ws 1) i| := by ring
  rw [e]
  refine mul_le_mul_of_nonneg_left ?_ (by positivity)
  linarith [abs_nonneg (spinOf (ws (n + 1)) i)]

/-! ## Two bodies fixed to each other -/

/-- A run of two bodies that are fixed to each other, with the stabilisation. -/
structure StabWeldRun (H : ForceHeap) (lcp : LcpSolver) (mi : ℕ) (collide : ℝ → φ → List Body → Except Err (φ × List Contact))
    (dt : ℝ) (n : ℕ) (ws : ℕ → World (Option Mat) φ) (i j k : ℕ) : Prop where
  finder : FinderOk collide
  steps : Steps (pdipmEnv 2 H lcp mi collide) dt n ws
  inv : EngineInv (ws 0)
  post : (ws 0).post_stab = true
  first : i < (ws 0).bodies.length
  second : j < (ws 0).bodies.length
  two : i ≠ j
  welded : WeldedBy (ws 0).joints i j k
  clear : ∀ c ∈ (ws 0).contacts, (c.i1 ≠ i ∧ c.i2 ≠ i) ∧ (c.i1 ≠ j ∧ c.i2 ≠ j)
  never : NeverTouched collide (ws 0).bodies.length i ∧ NeverTouched collide (ws 0).bodies.length j
  heavy : 0 < (bodyAt (ws 0).bodies i).mass ∧ 0 < (bodyAt (ws 0).bodies j).mass
  inertia : 0 < (bodyAt (ws 0).bodies i).ang_inertia ∧ 0 < (bodyAt (ws 0).bodies j).ang_inertia
  apart : 0 < gapSq (ws 0).bodies i j

theorem StabWeldRun.at {H : ForceHeap} {lcp : LcpSolver} (hx : Exact lcp) {mi : ℕ}
    {collide : ℝ → φ → List Body → Except Err (φ × List Contact)}
    {dt : ℝ} {n : ℕ} {ws : ℕ → World (Option Mat) φ} {i j k : ℕ} (h : StabWeldRun H lcp mi collide dt n ws i j k)
    (hfi : ForceFree H (ws 0).bodies.length i) (hfj : ForceFree H (ws 0).bodies.length j) :
    ∀ q ≤ n, EngineInv (ws q) ∧ (ws q).post_stab = true ∧ (ws q).bodies.length = (ws 0).bodies.length ∧
      WeldedBy (ws q).joints i j k ∧ (bodyAt (ws q).bodies i).mass = (bodyAt (ws 0).bodies i).mass ∧
      (bodyAt (ws q).bodies j).mass = (bodyAt (ws 0).bodies j).mass ∧
      (bodyAt (ws q).bodies i).ang_inertia = (bodyAt (ws 0).bodies i).ang_inertia ∧
      (bodyAt (ws q).bodies j).ang_inertia = (bodyAt (ws 0).bodies j).ang_inertia ∧
      gapSq (ws 0).bodies i j ≤ gapSq (ws q).bodies i j ∧
      ∀ c ∈ (ws q).contacts, (c.i1 ≠ i ∧ c.i2 ≠ i) ∧ (c.i1 ≠ j ∧ c.i2 ≠ j) := by
  intro q
  induction q with
  | zero => intro _; exact ⟨h.inv, h.post, rfl, h.welded, rfl, rfl, rfl, rfl, le_rfl, h.clear⟩
  | succ q ih =>
    intro hq
    obtain ⟨i1, i2, i3, i4, i5, i6, i7, i8, i9, i10⟩ := ih (by omega)
    obtain ⟨fuel, hs⟩ := h.steps q (by omega)
    have hpar := step_dt_params i1.good hs
    have hc1 := posed_consts (posed_step i1.good hs) (i := i) (by rw [i3]; exact h.first)
    have hc2 := posed_consts (posed_step i1.good hs) (i := j) (by rw [i3]; exact h.second)
    obtain ⟨δ₁, -, -, -, -, -, -, -, hle, -, -, hw⟩ := C111_weld H lcp hx mi collide h.finder _ _ i1 i2 fuel dt hs i j k
      (by rw [i3]; exact h.first) (by rw [i3]; exact h.second) h.two i4 i10 (by rw [i3]; exact h.never.1) (by rw [i3]; exact h.never.2)
      (by rw [i5, i6]; exact h.heavy) (by rw [i7, i8]; exact h.inertia) (lt_of_lt_of_le h.apart i9) (by rw [i3]; exact hfi)
      (by rw [i3]; exact hfj)
    exact ⟨step_inv h.finder i1 hs, by rw [hpar.2.2.2.1]; exact i2, by rw [hpar.2.2.2.2.2.1]; exact i3, hw, hc1.1.trans i5,
      hc2.1.trans i6, hc1.2.trans i7, hc2.2.trans i8, i9.trans hle, fun c hc =>
      ⟨untouched_step i1 hs (by rw [i3]; exact h.never.1) c hc, untouched_step i1 hs (by rw [i3]; exact h.never.2) c hc⟩⟩

/-- The share of the pair's moment of inertia that is due to the distance of the two bodies. -/
def weldShare (bs : List Body) (i j : ℕ) : ℝ := reducedMass bs i j * gapSq bs i j / pairInertia bs i j

theorem share_mono {I μ R R' : ℝ} (hI : 0 < I) (hμ : 0 < μ) (hR : 0 < R) (h : R ≤ R') :
    0 < μ * R / (I + μ * R) ∧ μ * R / (I + μ * R) ≤ 1 ∧ μ * R / (I + μ * R) ≤ μ * R' / (I + μ * R') := by
  have h1 : 0 < μ * R := mul_pos hμ hR
  have h2 : μ * R ≤ μ * R' := mul_le_mul_of_nonneg_left h hμ.le
  refine ⟨by positivity, (div_le_one (by linarith)).2 (by linarith), ?_⟩
  rw [div_le_div_iff₀ (by linarith) (by linarith)]
  nlinarith

theorem weld_brakes {P Q m δ δ₁ ω ω' : ℝ} (hm : 0 < m) (hmP : m ≤ P) (hPQ : P ≤ Q) (hδ : |δ| ≤ 1) (h1 : (P + m * δ ^ 2) * δ₁ = P * δ)
    (h2 : Q * ω' = P * ω - m * (δ * δ₁ / 2) * ω) : |ω'| ≤ |ω| * (1 - m / P * δ ^ 2 / 4) := by
  have hP : 0 < P := lt_of_lt_of_le hm hmP
  have hδ2 : δ ^ 2 ≤ 1 := by rw [← sq_abs]; nlinarith [abs_nonneg δ]
  have hden : 0 < P + m * δ ^ 2 := by positivity
  have e : δ₁ = P * δ / (P + m * δ ^ 2) := by rw [eq_div_iff hden.ne']; linarith
  have hx1 : δ ^ 2 / 2 ≤ δ * δ₁ := by
    rw [e, mul_div_assoc', le_div_iff₀ hden]
    nlinarith [mul_nonneg (sq_nonneg δ) (by nlinarith : (0:ℝ) ≤ P - m * δ ^ 2)]
  have hx2 : δ * δ₁ ≤ δ ^ 2 := by
    rw [e, mul_div_assoc', div_le_iff₀ hden]
    nlinarith [mul_nonneg (sq_nonneg δ) (by positivity : (0:ℝ) ≤ m * δ ^ 2)]
  have hf : 0 ≤ P - m * (δ * δ₁ / 2) := by nlinarith
  have e2 : Q * |ω'| = (P - m * (δ * δ₁ / 2)) * |ω| := by
    have : Q * ω' = (P - m * (δ * δ₁ / 2)) * ω := by rw [h2]; ring
    have := congrArg abs this
    rwa [abs_mul, abs_mul, abs_of_pos (lt_of_lt_of_le hP hPQ), abs_of_nonneg hf] at this
  have e3 : P * |ω'| ≤ (P - m * (δ ^ 2 / 4)) * |ω| := by
    calc P * |ω'| ≤ Q * |ω'| := mul_le_mul_of_nonneg_right hPQ (abs_nonneg _)
      _ = _ := e2
      _ ≤ _ := mul_le_mul_of_nonneg_right (by nlinarith) (abs_nonneg _)
  have e4 : |ω'| ≤ (P - m * (δ ^ 2 / 4)) * |ω| / P := by rw [le_div_iff₀ hP]; linarith
  refine e4.trans (le_of_eq ?_)
  field_simp

/-- C111: two bodies that are fixed to each other stay for ever within a bounded distance when their world stabilises; without
the stabilisation their distance exceeds every bound (C106). -/
theorem C111_weld_bounded (H : ForceHeap) (lcp : LcpSolver) (hx : Exact lcp) (mi : ℕ)
    (collide : ℝ → φ → List Body → Except Err (φ × List Contact)) (dt : ℝ) (ws : ℕ → World (Option Mat) φ) (i j k : ℕ)
    (h : ∀ n, StabWeldRun H lcp mi collide dt n ws i j k) (hfi : ForceFree H (ws 0).bodies.length i)
    (hfj : ForceFree H (ws 0).bodies.length j) (ht : ∀ q, |(ws (q + 1)).t - (ws q).t| ≤ dt) (hs : |spinOf (ws 1) i| * dt ≤ 1) :
    let c := weldShare (ws 0).bodies i j
    0 < c ∧
    (∀ n, |spinOf (ws (n + 2)) i| ≤ |spinOf (ws (n + 1)) i| *
      (1 - c * (((ws (n + 1)).t - (ws n).t) * spinOf (ws (n + 1)) i) ^ 2 / 4)) ∧
    ∀ n, gapSq (ws 0).bodies i j ≤ gapSq (ws n).bodies i j ∧
      gapSq (ws n).bodies i j ≤ gapSq (ws 0).bodies i j * Real.exp (2 * (spinOf (ws 1) i * dt) ^ 2 / c) := by
  intro c
  have hdt : 0 ≤ dt := le_trans (abs_nonneg _) (ht 0)
  have hat := fun q => (h q).at hx hfi hfj q le_rfl
  set μ := reducedMass (ws 0).bodies i j with hμd
  set I := (bodyAt (ws 0).bodies i).ang_inertia + (bodyAt (ws 0).bodies j).ang_inertia with hId
  have hI : 0 < I := add_pos (h 0).inertia.1 (h 0).inertia.2
  have hμ : 0 < μ := by
    obtain ⟨h1, h2⟩ := (h 0).heavy
    rw [hμd]; unfold reducedMass; positivity
  have hred : ∀ q, reducedMass (ws q).bodies i j = μ := by
    intro q
    obtain ⟨-, -, -, -, i5, i6, -⟩ := hat q
    rw [hμd]; unfold reducedMass; rw [i5, i6]
  have hP : ∀ q, pairInertia (ws q).bodies i j = I + μ * gapSq (ws q).bodies i j := by
    intro q
    obtain ⟨-, -, -, -, -, -, i7, i8, -⟩ := hat q
    unfold pairInertia; rw [i7, i8, hred q]
  have hR0 := (h 0).apart
  have hge : ∀ q, gapSq (ws 0).bodies i j ≤ gapSq (ws q).bodies i j := fun q => (hat q).2.2.2.2.2.2.2.2.1
  have hc : c = μ * gapSq (ws 0).bodies i j / (I + μ * gapSq (ws 0).bodies i j) := by
    show weldShare _ _ _ = _
    unfold weldShare; rw [hP 0]
  have hc0 : 0 < c := by rw [hc]; exact (share_mono hI hμ hR0 le_rfl).1
  have hc1 : c ≤ 1 := by rw [hc]; exact (share_mono hI hμ hR0 le_rfl).2.1
  have step : ∀ q, ∃ δ₁, (let δ := ((ws (q + 1)).t - (ws q).t) * spinOf (ws (q + 1)) i
      let R := gapSq (ws q).bodies i j
      (I + μ * R) * spinOf (ws (q + 1)) i = pairSpin (ws q).bodies (ws q).v i j ∧
      (I + μ * R + μ * R * δ ^ 2) * δ₁ = (I + μ * R) * δ ∧
      R ≤ gapSq (ws (q + 1)).bodies i j ∧ gapSq (ws (q + 1)).bodies i j ≤ R * (1 + δ ^ 4 * (1 + δ ^ 2) / 4) ∧
      pairSpin (ws (q + 1)).bodies (ws (q + 1)).v i j = pairSpin (ws q).bodies (ws q).v i j -
        μ * R * (δ * δ₁ / 2) * spinOf (ws (q + 1)) i) := by
    intro q
    obtain ⟨i1, i2, i3, i4, i5, i6, i7, i8, i9, i10⟩ := hat q
    obtain ⟨fuel, hs⟩ := (h (q + 1)).steps q (by omega)
    obtain ⟨δ₁, -, a2, a3, -, -, -, -, a8, a9, a10, -⟩ := C111_weld H lcp hx mi collide (h 0).finder _ _ i1 i2 fuel dt hs i j k
      (by rw [i3]; exact (h 0).first) (by rw [i3]; exact (h 0).second) (h 0).two i4 i10 (by rw [i3]; exact (h 0).never.1)
      (by rw [i3]; exact (h 0).never.2) (by rw [i5, i6]; exact (h 0).heavy) (by rw [i7, i8]; exact (h 0).inertia)
      (lt_of_lt_of_le hR0 i9) (by rw [i3]; exact hfi) (by rw [i3]; exact hfj)
    rw [hP q] at a2 a3
    rw [hred q] at a3 a10
    refine ⟨δ₁, a2, ?_, a8, a9, a10⟩
    rw [← a3]; ring
  have hbr : ∀ q, |((ws (q + 1)).t - (ws q).t) * spinOf (ws (q + 1)) i| ≤ 1 → |spinOf (ws (q + 2)) i| ≤ |spinOf (ws (q + 1)) i| *
      (1 - c * (((ws (q + 1)).t - (ws q).t) * spinOf (ws (q + 1)) i) ^ 2 / 4) := by
    intro q hδ
    obtain ⟨δ₁, b1, b2, b3, b4, b5⟩ := step q
    obtain ⟨-, d1, -⟩ := step (q + 1)
    rw [b5, ← b1] at d1
    have hRq := lt_of_lt_of_le hR0 (hge q)
    have := weld_brakes (m := μ * gapSq (ws q).bodies i j) (by positivity) (by linarith)
      (by have := mul_le_mul_of_nonneg_left b3 hμ.le; linarith : I + μ * gapSq (ws q).bodies i j ≤ I + μ * gapSq (ws (q + 1)).bodies i j)
      hδ b2 d1
    refine this.trans (mul_le_mul_of_nonneg_left ?_ (abs_nonneg _))
    have hm := (share_mono hI hμ hR0 (hge q)).2.2
    rw [← hc] at hm
    have := mul_le_mul_of_nonneg_right hm (sq_nonneg (((ws (q + 1)).t - (ws q).t) * spinOf (ws (q + 1)) i))
    linarith
  have hδ : ∀ q, |((ws (q + 1)).t - (ws q).t) * spinOf (ws (q + 1)) i| ≤ dt * |spinOf (ws (q + 1)) i| := fun q => by
    rw [abs_mul]; exact mul_le_mul_of_nonneg_right (ht q) (abs_nonneg _)
  have hle : ∀ q, |spinOf (ws (q + 1)) i| ≤ |spinOf (ws 1) i| ∧ |((ws (q + 1)).t - (ws q).t) * spinOf (ws (q + 1)) i| ≤ 1 := by
    intro q
    have fin : ∀ q, |spinOf (ws (q + 1)) i| ≤ |spinOf (ws 1) i| → |((ws (q + 1)).t - (ws q).t) * spinOf (ws (q + 1)) i| ≤ 1 := by
      intro q hq
      have := mul_le_mul_of_nonneg_left hq hdt
      have := hδ q
      linarith
    induction q with
    | zero => exact ⟨le_rfl, fin 0 le_rfl⟩
    | succ q ih =>
      have : |spinOf (ws (q + 2)) i| ≤ |spinOf (ws 1) i| := by
        refine ((hbr q ih.2).trans ?_).trans ih.1
        refine mul_le_of_le_one_right (abs_nonneg _) ?_
        have : 0 ≤ c * (((ws (q + 1)).t - (ws q).t) * spinOf (ws (q + 1)) i) ^ 2 := by positivity
        linarith
      exact ⟨this, fin (q + 1) this⟩
  refine ⟨hc0, fun n => hbr n (hle n).2, fun n => ⟨hge n, ?_⟩⟩
  have key : gapSq (ws n).bodies i j ≤ gapSq (ws 0).bodies i j *
      Real.exp (2 * dt ^ 2 / c * (spinOf (ws 1) i ^ 2 - spinOf (ws (n + 1)) i ^ 2)) := by
    induction n with
    | zero => simp
    | succ q ih =>
      obtain ⟨δ₁, -, -, -, b4, -⟩ := step q
      have hq := hbr q (hle q).2
      have hone := (hle q).2
      have hdq := hδ q
      set δ := ((ws (q + 1)).t - (ws q).t) * spinOf (ws (q + 1)) i with hδd
      have hδ2 : δ ^ 2 ≤ 1 := by rw [← sq_abs]; nlinarith [abs_nonneg δ]
      have g1 : gapSq (ws (q + 1)).bodies i j ≤ gapSq (ws q).bodies i j * Real.exp (δ ^ 4 / 2) := by
        refine b4.trans (mul_le_mul_of_nonneg_left ?_ (hR0.le.trans (hge q)))
        have := Real.add_one_le_exp (δ ^ 4 / 2)
        have h4 : 0 ≤ δ ^ 4 := by positivity
        change 1 + δ ^ 4 * (1 + δ ^ 2) / 4 ≤ _
        nlinarith
      have hsq : spinOf (ws (q + 2)) i ^ 2 ≤ spinOf (ws (q + 1)) i ^ 2 * (1 - c * δ ^ 2 / 4) := by
        have f0 : 0 ≤ 1 - c * δ ^ 2 / 4 := by nlinarith
        have f1 : (1 - c * δ ^ 2 / 4) ^ 2 ≤ 1 - c * δ ^ 2 / 4 := by
          have : 0 ≤ c * δ ^ 2 := by positivity
          nlinarith
        have := pow_le_pow_left₀ (abs_nonneg _) hq 2
        rw [mul_pow, sq_abs, sq_abs] at this
        exact this.trans (mul_le_mul_of_nonneg_left f1 (sq_nonneg _))
      have g2 : δ ^ 4 / 2 ≤ 2 * dt ^ 2 / c * (spinOf (ws (q + 1)) i ^ 2 - spinOf (ws (q + 2)) i ^ 2) := by
        have h1 : spinOf (ws (q + 1)) i ^ 2 * (c * δ ^ 2 / 4) ≤ spinOf (ws (q + 1)) i ^ 2 - spinOf (ws (q + 2)) i ^ 2 := by linarith
        have h2 := mul_le_mul_of_nonneg_left h1 (by positivity : 0 ≤ 2 * dt ^ 2 / c)
        refine le_trans ?_ h2
        have h3 : δ ^ 2 ≤ dt ^ 2 * spinOf (ws (q + 1)) i ^ 2 := by
          have := pow_le_pow_left₀ (abs_nonneg _) hdq 2
          rwa [mul_pow, sq_abs, sq_abs] at this
        have h4 := mul_le_mul_of_nonneg_right h3 (sq_nonneg δ)
        have e : 2 * dt ^ 2 / c * (spinOf (ws (q + 1)) i ^ 2 * (c * δ ^ 2 / 4)) = dt ^ 2 * spinOf (ws (q + 1)) i ^ 2 * δ ^ 2 / 2 := by
          field_simp
          ring
        rw [e]
        nlinarith
      calc gapSq (ws (q + 1)).bodies i j ≤ gapSq (ws q).bodies i j * Real.exp (δ ^ 4 / 2) := g1
        _ ≤ gapSq (ws 0).bodies i j * Real.exp (2 * dt ^ 2 / c * (spinOf (ws 1) i ^ 2 - spinOf (ws (q + 1)) i ^ 2)) *
            Real.exp (2 * dt ^ 2 / c * (spinOf (ws (q + 1)) i ^ 2 - spinOf (ws (q + 2)) i ^ 2)) := by
          refine mul_le_mul ih (Real.exp_le_exp.2 g2) (Real.exp_pos _).le (by positivity)
        _ = _ := by
          rw [mul_assoc, ← Real.exp_add]
          congr 2
          ring
  refine key.trans (mul_le_mul_of_nonneg_left (Real.exp_le_exp.2 ?_) hR0.le)
  have e : 2 * (spinOf (ws 1) i * dt) ^ 2 / c = 2 * dt ^ 2 / c * spinOf (ws 1) i ^ 2 := by ring
  rw [e]
  refine mul_le_mul_of_nonneg_left ?_ (by positivity)
  linarith [sq_nonneg (spinOf (ws (n + 1)) i)]

/-! ## The runs exist -/

/-- C111: a lone body on a pivot, in a world that stabilises: the run exists, for as long as one likes. -/
theorem C111_runs (H : ForceHeap) (hH : ∀ t, ∃ fl, forceCat H t 1 = .ok fl) (lcp : LcpSolver) (mi cfuel : ℕ) (nc : ℕ → List ℕ)
    (pairs : List Body → List (ℕ × ℕ)) (hpv : ∀ bs, ∀ p ∈ pairs bs, p.1 < bs.length ∧ p.2 < bs.length ∧ p.1 ≠ p.2)
    (fnd : Finder) (b : Body) (hb : b.RectForm) (hm : 0 < b.mass ∧ 0 < b.ang_inertia) (pos : V2) (dt eps tol : ℝ) (strict : Bool) :
    ∃ ws : ℕ → World (Option Mat) Finder,
      mkWorld (loneEnv H lcp mi cfuel nc pairs) none fnd [b] (pivotJoints b pos) dt eps tol true strict = .done (ws 0) ∧
      (∀ n, StabRun H lcp mi (rejectNan (diffCollide cfuel nc pairs)) dt n ws 0 0) ∧
      (∀ n, (ws (n + 1)).t = (ws n).t + dt) ∧ (ws 0).bodies = [b] ∧ armOf (ws 0) 0 0 = pos - b.pos ∧
      twist (ws 0).v 0 = b.v := by
  obtain ⟨ws, q1, q2, q3, q4, -, q6⟩ := quietStab_runs (H := H) (lcp := lcp) (mi := mi) (C12_finder_ok cfuel nc pairs hpv) fnd
    [b] hH (by simp) (by simpa using hb) (fun eps f bs hl => alone_silent cfuel nc hpv eps f bs (by simpa using hl))
    (by
      intro i hi
      have : i = 0 := by simpa using hi
      subst this; exact hm) (pivotJoints b pos)
    (by
      intro j hj
      simp only [pivotJoints, List.mem_singleton] at hj
      subst hj
      exact mkJoint_fix ..)
    (by
      intro j hj
      simp only [pivotJoints, List.mem_singleton] at hj
      subst hj
      simp [mkJoint])
    (by
      intro j hj
      simp only [pivotJoints, List.mem_singleton] at hj
      subst hj
      simp [mkJoint])
    (by
      intro k hk
      have : k = 0 := by simpa [pivotJoints] using hk
      subst this
      exact ⟨_, Or.inl rfl, fun c _ k' hk' => absurd hk' (by omega)⟩) dt eps tol strict
  have hsil : NeverTouched (rejectNan (diffCollide cfuel nc pairs)) (ws 0).bodies.length 0 := by
    intro eps f bs f' cs hl hcs c hc
    rw [alone_silent cfuel nc hpv eps f bs (by rw [hl, q2]; rfl)] at hcs
    injection hcs with hcs
    injection hcs with _ hcs
    subst hcs
    simp at hc
  refine ⟨ws, q1, fun n => ⟨C12_finder_ok cfuel nc pairs hpv, fun q _ => ⟨1, (q6 q).1⟩, (q6 0).2.1.inv, (q6 0).2.1.post,
    by rw [q2]; simp, ?_, fun c hc => ?_, hsil, by rw [q2]; exact hm⟩, fun n => (q6 n).2.2, q2, ?_, ?_⟩
  · rw [q3]
    refine ⟨⟨_, rfl, rfl, rfl, rfl⟩, ?_⟩
    intro q J hq hne
    rcases q with _ | q
    · exact absurd rfl hne
    · simp [pivotJoints] at hq
  · rw [(q6 0).2.1.clear] at hc; simp at hc
  · unfold armOf pivotAt
    rw [q3, q2]
    simp [pivotJoints, mkJoint, bodyAt]
  · rw [q4]
    have := cat3_slice [b.v] 0 (by simp)
    simpa [twist, slice3] using this

/-- C111: two bodies fixed to each other, in a world that stabilises: the run exists, for as long as one likes. -/
theorem C111_weld_runs (H : ForceHeap) (hH : ∀ t, ∃ fl, forceCat H t 2 = .ok fl) (lcp : LcpSolver) (mi cfuel : ℕ) (nc : ℕ → List ℕ)
    (h0 : 0 ∈ nc 1) (h1 : 1 ∈ nc 0) (pairs : List Body → List (ℕ × ℕ))
    (hpv : ∀ bs, ∀ p ∈ pairs bs, p.1 < bs.length ∧ p.2 < bs.length ∧ p.1 ≠ p.2) (fnd : Finder) (b1 b2 : Body)
    (hb : b1.RectForm ∧ b2.RectForm) (hm1 : 0 < b1.mass ∧ 0 < b1.ang_inertia) (hm2 : 0 < b2.mass ∧ 0 < b2.ang_inertia)
    (hne : b1.pos ≠ b2.pos) (dt eps tol : ℝ) (strict : Bool) :
    ∃ ws : ℕ → World (Option Mat) Finder,
      mkWorld (loneEnv H lcp mi cfuel nc pairs) none fnd [b1, b2] [mkFixedJoint [b1, b2] 0 1] dt eps tol true strict =
        .done (ws 0) ∧
      (∀ n, StabWeldRun H lcp mi (rejectNan (diffCollide cfuel nc pairs)) dt n ws 0 1 0) ∧
      (∀ n, (ws (n + 1)).t = (ws n).t + dt) ∧ (ws 0).bodies = [b1, b2] ∧ (ws 0).v = cat3 [b1.v, b2.v] := by
  have hbs : ∀ i < 2, bodyAt [b1, b2] i = if i = 0 then b1 else b2 := by
    intro i hi
    rcases (by omega : i = 0 ∨ i = 1) with rfl | rfl <;> rfl
  obtain ⟨ws, q1, q2, q3, q4, -, q6⟩ := quietStab_runs (H := H) (lcp := lcp) (mi := mi) (C12_finder_ok cfuel nc pairs hpv) fnd
    [b1, b2] hH (by simp) (by simpa using hb) (fun eps f bs hl => pair_silent cfuel h0 h1 hpv eps f bs hl)
    (by
      intro i hi
      rw [hbs i (by simpa using hi)]
      split_ifs
      · exact hm1
      · exact hm2) [mkFixedJoint [b1, b2] 0 1]
    (by
      intro j hj
      rw [List.mem_singleton] at hj
      subst hj
      exact (C28_constructors_fix [b1, b2] 0 none 1 0).2.1)
    (by
      intro j hj
      rw [List.mem_singleton] at hj
      subst hj
      simp [mkFixedJoint])
    (by
      intro j hj
      rw [List.mem_singleton] at hj
      subst hj
      simp [mkFixedJoint])
    (by
      intro k hk
      have : k = 0 := by simpa using hk
      subst this
      exact ⟨_, Or.inl rfl, fun c _ k' hk' => absurd hk' (by omega)⟩) dt eps tol strict
  have hsil : ∀ i, NeverTouched (rejectNan (diffCollide cfuel nc pairs)) (ws 0).bodies.length i := by
    intro i eps f bs f' cs hl hcs c hc
    rw [pair_silent cfuel h0 h1 hpv eps f bs (by rw [hl, q2]; rfl)] at hcs
    injection hcs with hcs
    injection hcs with _ hcs
    subst hcs
    simp at hc
  refine ⟨ws, q1, fun n => ⟨C12_finder_ok cfuel nc pairs hpv, fun q _ => ⟨1, (q6 q).1⟩, (q6 0).2.1.inv, (q6 0).2.1.post,
    by rw [q2]; simp, by rw [q2]; simp, by norm_num, ?_, fun c hc => ?_, ⟨hsil 0, hsil 1⟩, by rw [q2]; exact ⟨hm1.1, hm2.1⟩,
    by rw [q2]; exact ⟨hm1.2, hm2.2⟩, ?_⟩, fun n => (q6 n).2.2, q2, q4⟩
  · rw [q3]
    refine ⟨⟨_, rfl, rfl, rfl, rfl⟩, ?_⟩
    intro q J hq hne
    rcases q with _ | q
    · exact absurd rfl hne
    · simp at hq
  · rw [(q6 0).2.1.clear] at hc; simp at hc
  · rw [q2]
    unfold gapSq
    have hD : offset [b1, b2] 0 1 ≠ 0 := sub_ne_zero.2 hne.symm
    refine lt_of_le_of_ne (by positivity) fun hcon => hD ?_
    exact Prod.ext (squares_zero.1 hcon.symm).1 (squares_zero.1 hcon.symm).2

/-! ## Examples -/

/-- The disc of C105, now stabilised: it starts to turn at 1, comes to rest, and its pivot never leaves a disc of radius 1/4, one
twentieth of the arm; in a hundred steps it moves by less than a hundredth. -/
example (mi cfuel : ℕ) (fnd : Finder) :
    ∃ ws : ℕ → World (Option Mat) Finder,
      mkWorld (loneEnv noForces exactLcp mi cfuel (fun _ => []) (bouncePairs true)) none fnd [spinDisc] (pivotJoints spinDisc (3, 4))
        (1 / 30) (1 / 10) (1 / 1000) true true = .done (ws 0) ∧
      spinOf (ws 1) 0 = 1 ∧ Tendsto (fun n => spinOf (ws n) 0) atTop (𝓝 0) ∧
      (∀ n, Spec.dist (pivotAt (ws n) 0) (pivotAt (ws 0) 0) ≤ 1 / 4) ∧
      ∀ n ≤ 100, Spec.dist (pivotAt (ws n) 0) (pivotAt (ws 0) 0) ≤ 1 / 100 := by
  obtain ⟨ws, h1, h2, h3, h4, h5, h6⟩ := C111_runs noForces (fun t => ⟨_, noForces_cat t 1⟩) exactLcp mi cfuel (fun _ => [])
    (bouncePairs true) (bouncePairs_valid true) fnd spinDisc trivial
    (by constructor <;> norm_num [spinDisc, mkCircle, circleInertia]) (3, 4) (1 / 30) (1 / 10) (1 / 1000) true
  have hff : ForceFree noForces (ws 0).bodies.length 0 := by
    intro t fl hfl
    rw [noForces_cat] at hfl
    injection hfl with hfl
    rw [← hfl, h4]; rfl
  have h5' : armOf (ws 0) 0 0 = (3, 4) := by rw [h5]; simp [spinDisc, mkCircle, Body.pos, Arg.toV3, V3.xy]
  have ha : armOf (ws 0) 0 0 ≠ 0 := by rw [h5']; simp
  have hv : twist (ws 0).v 0 = turnAbout (3, 4) 1 := by
    rw [h6]; simp [spinDisc, mkCircle, Arg.toV3, turnAbout]
  have e0 : spinOf (ws 0) 0 = 1 := by unfold spinOf; rw [hv]; rfl
  have hsl := C111_slows noForces exactLcp exactLcp_exact mi _ (1 / 30) 2 ws 0 0 (h2 2) hff
  have e1 : spinOf (ws 1) 0 = 1 := by
    rw [← e0]
    exact hsl.2.2 (by norm_num) (by rw [e0, h5', hv])
  have hκ : pivotShare (bodyAt (ws 0).bodies 0).mass (bodyAt (ws 0).bodies 0).ang_inertia (armOf (ws 0) 0 0) = 50 / 51 := by
    rw [h4, h5']
    norm_num [pivotShare, bodyAt, spinDisc, mkCircle, circleInertia]
  have ht : ∀ q, |(ws (q + 1)).t - (ws q).t| ≤ 1 / 30 := fun q => by
    rw [h3 q, add_sub_cancel_left]; norm_num
  have hl : len (armOf (ws 0) 0 0) = 5 := by
    rw [h5']; unfold len; rw [show ((3 : ℝ), (4 : ℝ)).1 ^ 2 + ((3 : ℝ), (4 : ℝ)).2 ^ 2 = 5 ^ 2 by norm_num]
    exact Real.sqrt_sq (by norm_num)
  refine ⟨ws, h1, e1, ?_, fun n => ?_, fun n hn => ?_⟩
  · exact C111_stops noForces exactLcp exactLcp_exact mi _ (1 / 30) (by norm_num) ws 0 0 h2 hff ha h3
      (by rw [e1]; have := Real.two_le_pi; norm_num; linarith)
  · have := (C111_forever noForces exactLcp exactLcp_exact mi _ (1 / 30) ws 0 0 h2 hff ha ht (by rw [e1]; norm_num) n).2
    rw [hκ, hl, e1] at this
    norm_num at this
    linarith
  · have := (C111_total noForces exactLcp exactLcp_exact mi _ (1 / 30) n ws 0 0 (h2 n) hff (fun q _ => ht q)
      (by rw [e1]; norm_num)).2 n le_rfl
    rw [hl, e1] at this
    have hn' : (n : ℝ) ≤ 100 := by exact_mod_cast hn
    norm_num at this
    linarith

/-- The factor for the disc: with one half the first step drifts by at most 1/81000 of the arm; with none or with the whole of the
displacement the drift is of the second order. -/
example : len (stabDrift (50 / 51) (1 / 2) (1 / 30)) ≤ 1 / 81000 ∧
    Tendsto (fun δ => len (stabDrift (50 / 51) 0 δ) / δ ^ 2) (𝓝[≠] 0) (𝓝 (1 / 2)) ∧
    Tendsto (fun δ => len (stabDrift (50 / 51) 1 δ) / δ ^ 2) (𝓝[≠] 0) (𝓝 (1 / 2)) ∧
    ¬ ∃ C, ∀ᶠ δ in 𝓝[≠] 0, len (stabDrift (50 / 51) 1 δ) ≤ C * |δ| ^ 3 := by
  have h0 := C111_factor (50 / 51) 0 (by norm_num) (by norm_num) le_rfl zero_le_one
  have h1 := C111_factor (50 / 51) 1 (by norm_num) (by norm_num) zero_le_one le_rfl
  refine ⟨?_, ?_, ?_, fun h => ?_⟩
  · have := h0.2.1 (1 / 30) (by norm_num [abs_of_pos])
    refine this.trans (le_of_eq ?_)
    rw [abs_of_pos (by norm_num)]; norm_num
  · have := h0.1
    rwa [show |(0 : ℝ) - 1 / 2| = 1 / 2 by rw [zero_sub, abs_neg, abs_of_pos (by norm_num)]] at this
  · have := h1.1
    rwa [show |(1 : ℝ) - 1 / 2| = 1 / 2 by rw [abs_of_pos (by norm_num)]; norm_num] at this
  · have := h1.2.2.1 h
    norm_num at this

/-- The squares of C106, now stabilised: the square of their distance, 1600 at the start, never exceeds 1610; without the
stabilisation it exceeds every bound. -/
example (mi cfuel : ℕ) (fnd : Finder) :
    ∃ ws : ℕ → World (Option Mat) Finder,
      mkWorld (loneEnv noForces exactLcp mi cfuel (addNoContact (fun _ => []) 1 0) (bouncePairs true)) none fnd [weldLeft, weldRight]
        [mkFixedJoint [weldLeft, weldRight] 0 1] (1 / 30) (1 / 10) (1 / 1000) true true = .done (ws 0) ∧
      spinOf (ws 1) 0 = 1 ∧ gapSq (ws 0).bodies 0 1 = 1600 ∧
      ∀ n, 1600 ≤ gapSq (ws n).bodies 0 1 ∧ gapSq (ws n).bodies 0 1 ≤ 1610 := by
  have hm : ∀ b ∈ [weldLeft, weldRight], 0 < b.mass ∧ 0 < b.ang_inertia := by
    intro b hb
    simp only [List.mem_cons, List.not_mem_nil, or_false] at hb
    rcases hb with rfl | rfl <;> norm_num [weldLeft, weldRight, rectBase, rectInertia]
  obtain ⟨ws, e1, e2, e3, e4, e5⟩ := C111_weld_runs noForces (fun t => ⟨_, noForces_cat t 2⟩) exactLcp mi cfuel
    (addNoContact (fun _ => []) 1 0) (by simp [addNoContact]) (by simp [addNoContact]) (bouncePairs true) (bouncePairs_valid true) fnd
    weldLeft weldRight ⟨rectBase_rectForm _ _ _, rectBase_rectForm _ _ _⟩ (hm _ (by simp)) (hm _ (by simp))
    (by norm_num [weldLeft, weldRight, rectBase, Body.pos, Arg.toV3, V3.xy]) (1 / 30) (1 / 10) (1 / 1000) true
  have hff : ∀ i, ForceFree noForces (ws 0).bodies.length i := by
    intro i t fl hfl
    rw [noForces_cat] at hfl
    injection hfl with hfl
    rw [← hfl, e4]
    rcases i with _ | _ | i <;> simp
  have hL : pairSpin [weldLeft, weldRight] (cat3 [weldLeft.v, weldRight.v]) 0 1 = 2000 := by
    have t0 : twist (cat3 [weldLeft.v, weldRight.v]) 0 = weldLeft.v := by
      simpa [twist, slice3] using cat3_slice [weldLeft.v, weldRight.v] 0 (by simp)
    have t1 : twist (cat3 [weldLeft.v, weldRight.v]) 1 = weldRight.v := by
      simpa [twist, slice3] using cat3_slice [weldLeft.v, weldRight.v] 1 (by simp)
    unfold pairSpin
    rw [t0, t1]
    norm_num [bodyAt, offset, reducedMass, weldLeft, weldRight, rectBase, rectInertia, Body.pos, Arg.toV3, V3.xy]
  have hg : gapSq (ws 0).bodies 0 1 = 1600 := by
    rw [e4]
    norm_num [gapSq, bodyAt, offset, weldLeft, weldRight, rectBase, Body.pos, Arg.toV3, V3.xy]
  have hP : pairInertia (ws 0).bodies 0 1 = 2000 := by
    unfold pairInertia
    rw [hg, e4]
    norm_num [bodyAt, reducedMass, weldLeft, weldRight, rectBase, rectInertia]
  have hω : spinOf (ws 1) 0 = 1 := by
    obtain ⟨i1, i2, -⟩ := (e2 1).at exactLcp_exact (hff 0) (hff 1) 0 (by norm_num)
    obtain ⟨fuel, hs⟩ := (e2 1).steps 0 (by norm_num)
    obtain ⟨δ₁, -, a2, -⟩ := C111_weld noForces exactLcp exactLcp_exact mi _ (e2 1).finder _ _ i1 i2 fuel _ hs 0 1 0 (e2 1).first
      (e2 1).second (e2 1).two (e2 1).welded (e2 1).clear (e2 1).never.1 (e2 1).never.2 (e2 1).heavy (e2 1).inertia (e2 1).apart
      (hff 0) (hff 1)
    rw [hP, e4, e5, hL] at a2
    linarith
  have hc : weldShare (ws 0).bodies 0 1 = 2 / 5 := by
    unfold weldShare
    rw [hP, hg, e4]
    norm_num [bodyAt, reducedMass, weldLeft, weldRight, rectBase]
  have hb := (C111_weld_bounded noForces exactLcp exactLcp_exact mi _ (1 / 30) ws 0 1 0 e2 (hff 0) (hff 1)
    (fun q => by rw [e3 q, add_sub_cancel_left]; norm_num) (by rw [hω]; norm_num)).2.2
  refine ⟨ws, e1, hω, hg, fun n => ?_⟩
  have := hb n
  rw [hg, hω, hc] at this
  refine ⟨this.1, this.2.trans ?_⟩
  have he : Real.exp (2 * (1 * (1 / 30)) ^ 2 / (2 / 5)) ≤ 1 / (1 - 1 / 180) := by
    have := Real.add_one_le_exp (-(1 / 180 : ℝ))
    rw [Real.exp_neg] at this
    rw [show (2 : ℝ) * (1 * (1 / 30)) ^ 2 / (2 / 5) = 1 / 180 by norm_num]
    rw [le_div_iff₀ (by norm_num)]
    have hp := Real.exp_pos (1 / 180)
    have := mul_le_mul_of_nonneg_left this hp.le
    rw [mul_inv_cancel₀ hp.ne'] at this
    linarith
  calc _ ≤ 1600 * (1 / (1 - 1 / 180) : ℝ) := mul_le_mul_of_nonneg_left he (by norm_num)
    _ ≤ 1610 := by norm_num

end LcpPhysics
