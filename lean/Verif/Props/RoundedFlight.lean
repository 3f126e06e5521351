import Verif.Lemmas.RoundedFlight
import Verif.Spec.RoundedFlight
import Verif.Props.EngineExamples
import Verif.Props.RoundedWorld

/-! # C135: free flight in double precision, engine included -/

noncomputable section

namespace LcpPhysics
open Spec Rounded

variable {A : Arith}

/-- C135: without rounding this is what the engine answers when there are neither constraints nor contacts. -/
theorem C135_exact {φ : Type} (fd : ℕ) (H : ForceHeap) (lcp : LcpSolver) (mi : ℕ)
    (w : World (Option Mat) φ) (dt : ℝ) (hjs : w.joints = []) (hnc : w.contacts = [])
    (hcache : CacheOk w) (hpos : ∀ b ∈ w.bodies, 0 < b.mass ∧ 0 < b.ang_inertia) (hv : ∀ k < 3 * w.bodies.length, w.v k = cat3 (w.bodies.map Body.v) k)
    (fl : List V3) (hf : forceCat H w.t w.bodies.length = .ok fl) (hl : fl.length = w.bodies.length) :
    ∃ e v', pdipmSolve fd H lcp mi w dt = .ok (e, v') ∧ ∀ k < 3 * w.bodies.length, v' k = freeAnswer .exact w.bodies fl dt k := by
  obtain ⟨e, v', h1, h2⟩ := C36_free_flight fd H lcp mi w dt hjs hnc hcache hpos fl hf
  refine ⟨e, v', h1, fun k hk => ?_⟩
  obtain ⟨i, r, hr, rfl⟩ : ∃ i r, r < 3 ∧ k = 3 * i + r := ⟨k / 3, k % 3, Nat.mod_lt _ (by norm_num), (Nat.div_add_mod k 3).symm⟩
  have hi : i < w.bodies.length := by omega
  have hi' : i < fl.length := by omega
  obtain ⟨a1, a2, a3⟩ := h2 i hi hi'
  obtain ⟨m1, m2⟩ := hpos _ (List.getElem_mem hi)
  have hz : i < (List.zipWith (fun b f => fvel3 .exact b.mass b.ang_inertia b.v dt f) w.bodies fl).length := by simp; omega
  have hvl : i < (w.bodies.map Body.v).length := by simpa using hi
  obtain ⟨c1, c2, c3⟩ := cat3_entry _ i hz
  obtain ⟨d1, d2, d3⟩ := cat3_entry _ i hvl
  have key : ∀ m v f : ℝ, 0 < m → v + dt * f / m = fvel .exact m v dt f := by
    intro m v f hm
    change _ = 1 / m * (m * v + dt * f)
    field_simp
  unfold freeAnswer
  interval_cases r
  · rw [add_zero, a1, c1, hv _ (by omega), d1]
    simp only [List.getElem_zipWith, List.getElem_map]
    exact key _ _ _ m2
  · rw [a2, c2, hv _ (by omega), d2]
    simp only [List.getElem_zipWith, List.getElem_map]
    exact key _ _ _ m1
  · rw [a3, c3, hv _ (by omega), d3]
    simp only [List.getElem_zipWith, List.getElem_map]
    exact key _ _ _ m1

/-- C135: the error of a velocity in one step. -/
theorem C135_velocity (h : DoubleArith A) {m v dt f : ℝ} (hm : 0 < m) (hm2 : m ≤ 2 ^ 1000) :
    |fvel A m v dt f - (v + dt * f / m)| ≤ 5 / 2 ^ 53 * (|v| + |dt * f| / m) + (4 / m + 1) * (1 / 2 ^ 1074) := by
  have ht : (1 : ℝ) / 2 ^ 1074 ≤ 1 / 2 ^ 53 * (1 / m) / 1000 := by
    have e1 : (1 : ℝ) / 2 ^ 1000 ≤ 1 / m := one_div_le_one_div_of_le hm hm2
    have e2 : (1 : ℝ) / 2 ^ 1074 ≤ 1 / 2 ^ 53 * (1 / 2 ^ 1000) / 1000 := by
      have e : (2 : ℝ) ^ 1074 = 2 ^ 53 * 2 ^ 1000 * 2 ^ 21 := by rw [← pow_add, ← pow_add]
      rw [e]
      have key : ∀ X Y : ℝ, 0 < X → 0 < Y → 1 / (X * Y * 2 ^ 21) ≤ 1 / X * (1 / Y) / 1000 := by
        intro X Y hX hY
        rw [one_div_mul_one_div, div_div]
        exact one_div_le_one_div_of_le (by positivity) (mul_le_mul_of_nonneg_left (by norm_num) (by positivity))
      exact key _ _ (by positivity) (by positivity)
    have e3 := mul_le_mul_of_nonneg_left e1 (show (0 : ℝ) ≤ 1 / 2 ^ 53 by positivity)
    linarith
  have hs := add_error h.nearest (h.nearest (m * v)).1 (h.nearest (dt * f)).1
  have := vel_scalar hm (by positivity) (by norm_num) (by positivity) ht (any_error h.nearest (1 / m)) (any_error h.nearest (m * v))
    (any_error h.nearest (dt * f)) hs (any_error h.nearest _)
  have c : (5 : ℝ) * (1 / 2 ^ 53) = 5 / 2 ^ 53 := by ring
  rw [c] at this
  exact this

/-- C135: with mass one, the default, a velocity is the old one plus the rounded impulse, rounded once; without a force it is kept as it is. -/
theorem C135_unit_mass (h : DoubleArith A) {v dt f : ℝ} (hv : Rep v) :
    fvel A 1 v dt f = A.rnd (v + A.rnd (dt * f)) ∧ fvel A 1 v dt 0 = v := by
  have r1 : Rep 1 := by simpa using rep_nat 1 (by norm_num) 0 (by norm_num)
  have key : ∀ g, fvel A 1 v dt g = A.rnd (v + A.rnd (dt * g)) := by
    intro g
    unfold fvel
    rw [div_one, nearest_id h.nearest r1, one_mul, one_mul, nearest_id h.nearest hv, nearest_id h.nearest (h.nearest _).1]
  refine ⟨key f, ?_⟩
  rw [key 0, mul_zero, nearest_zero h.nearest, add_zero, nearest_id h.nearest hv]

/-- C135: with other masses a body on which no force acts need not keep its velocity: mass 49 at speed one is slowed down. -/
theorem C135_slows (h : DoubleArith A) (dt : ℝ) : fvel A 49 1 dt 0 = 1 - 1 / 2 ^ 53 := by
  have r49 : Rep 49 := by simpa using rep_nat 49 (by norm_num) 0 (by norm_num)
  have e1 : A.rnd (1 / 49) = (5882252574524729 : ℕ) * (2 : ℝ) ^ (-58 : ℤ) := by
    apply round_near h.nearest _ _ (by norm_num) (by norm_num) (by norm_num)
    rw [abs_lt]
    constructor <;> norm_num
  unfold fvel
  rw [mul_zero, nearest_zero h.nearest, mul_one, nearest_id h.nearest r49, add_zero, nearest_id h.nearest r49, e1]
  have e2 : (1 : ℝ) - 1 / 2 ^ 53 = (9007199254740991 : ℕ) * (2 : ℝ) ^ (-53 : ℤ) := by norm_num
  rw [e2]
  apply round_near h.nearest _ _ (by norm_num) (by norm_num) (by norm_num)
  rw [abs_lt]
  constructor <;> norm_num

/-! ## Many steps -/

theorem vel_run (h : DoubleArith A) {i m B G dt : ℝ} (hi : 0 < i) (hm : Moderate i m) (hB : 0 ≤ B) (n : ℕ) (f V W : ℕ → ℝ)
    (hV : ∀ k, V (k + 1) = fvel A m (V k) dt (f k)) (hW : ∀ k, W (k + 1) = W k + dt * f k / m) (h0 : V 0 = W 0)
    (b1 : ∀ k < n, |V k| ≤ B) (b2 : ∀ k < n, |dt * f k / m| ≤ G) : |V n - W n| ≤ n * velError i B G := by
  have hm0 : 0 < m := lt_of_lt_of_le hi hm.1
  induction n with
  | zero => simp [h0]
  | succ n ih =>
    have ih := ih (fun k hk => b1 k (by omega)) (fun k hk => b2 k (by omega))
    have e := C135_velocity h (v := V n) (dt := dt) (f := f n) hm0 hm.2
    rw [← hV] at e
    have e0 : |dt * f n| / m = |dt * f n / m| := by rw [abs_div, abs_of_pos hm0]
    rw [e0] at e
    have k1 := b1 n (by omega)
    have k2 := b2 n (by omega)
    have e1 : |V (n + 1) - (V n + dt * f n / m)| ≤ velError i B G := by
      refine e.trans ?_
      unfold velError
      refine add_le_add (mul_le_mul_of_nonneg_left (add_le_add k1 k2) (by positivity)) ?_
      refine mul_le_mul_of_nonneg_right ?_ (by positivity)
      have := div_le_div_of_nonneg_left (show (0 : ℝ) ≤ 4 by norm_num) hi hm.1
      linarith
    have e2 : V (n + 1) - W (n + 1) = (V (n + 1) - (V n + dt * f n / m)) + (V n - W n) := by rw [hW]; ring
    rw [e2]
    refine (abs_add_le _ _).trans ?_
    push_cast
    linarith

theorem pose_step (h : DoubleArith A) {p v dt B P : ℝ} (hp : Rep p) (hdt : 0 ≤ dt) (k1 : |v| ≤ B) (k2 : |p| ≤ P) :
    |A.rnd (p + A.rnd (v * dt)) - (p + v * dt)| ≤ poseError dt B P := by
  have hB : 0 ≤ B := (abs_nonneg _).trans k1
  have e1 := any_error h.nearest (v * dt)
  have e2 := add_error h.nearest hp (h.nearest (v * dt)).1
  have e3 : |v * dt| ≤ B * dt := by rw [abs_mul, abs_of_nonneg hdt]; exact mul_le_mul_of_nonneg_right k1 hdt
  have ht : (0 : ℝ) ≤ 1 / 2 ^ 1074 := by positivity
  have hu : (0 : ℝ) ≤ 1 / 2 ^ 53 := by positivity
  have hu1 : (1 : ℝ) / 2 ^ 53 ≤ 1 / 1000 := by norm_num
  have hX : 0 ≤ B * dt := mul_nonneg hB hdt
  unfold poseError
  generalize (1 : ℝ) / 2 ^ 1074 = t at *
  generalize (1 : ℝ) / 2 ^ 53 = u at *
  set r := A.rnd (v * dt)
  set X := B * dt
  have e4 : |p + r| ≤ P + 2 * X + t := by
    have a1 := abs_add_le p r
    have a2 := abs_add_le (r - v * dt) (v * dt)
    rw [sub_add_cancel] at a2
    have a3 : u * |v * dt| ≤ 1 * X := mul_le_mul (by linarith) e3 (abs_nonneg _) (by norm_num)
    linarith
  have e5 := mul_le_mul_of_nonneg_left e4 hu
  have e6 := mul_le_mul_of_nonneg_left e3 hu
  have e7 : u * t ≤ 1 / 1000 * t := mul_le_mul_of_nonneg_right hu1 ht
  have e8 : A.rnd (p + r) - (p + v * dt) = (A.rnd (p + r) - (p + r)) + (r - v * dt) := by ring
  rw [e8]
  refine (abs_add_le _ _).trans ?_
  nlinarith

theorem pose_run (h : DoubleArith A) {dt B P E : ℝ} (hdt : 0 ≤ dt) (hE : 0 ≤ E) (n : ℕ) (V W p q : ℕ → ℝ)
    (hp : ∀ k, p (k + 1) = A.rnd (p k + A.rnd (V (k + 1) * dt))) (hq : ∀ k, q (k + 1) = q k + W (k + 1) * dt) (h0 : p 0 = q 0)
    (hr : Rep (p 0)) (b1 : ∀ k ≤ n, |V k| ≤ B) (b2 : ∀ k < n, |p k| ≤ P) (hVW : ∀ k ≤ n, |V k - W k| ≤ k * E) :
    |p n - q n| ≤ n * (poseError dt B P + dt * (n * E)) := by
  have hrep : ∀ k, Rep (p k) := by
    intro k
    cases k with
    | zero => exact hr
    | succ k => rw [hp]; exact (h.nearest _).1
  suffices H : ∀ k ≤ n, |p k - q k| ≤ k * (poseError dt B P + dt * (n * E)) from H n le_rfl
  intro k
  induction k with
  | zero => intro _; simp [h0]
  | succ k ih =>
    intro hk
    have i1 := ih (by omega)
    have e1 := pose_step h (hrep k) hdt (b1 (k + 1) hk) (b2 k (by omega))
    rw [← hp] at e1
    have e2 := hVW (k + 1) hk
    have e3 : |(V (k + 1) - W (k + 1)) * dt| ≤ dt * (n * E) := by
      rw [abs_mul, abs_of_nonneg hdt, mul_comm]
      refine mul_le_mul_of_nonneg_left (e2.trans ?_) hdt
      exact mul_le_mul_of_nonneg_right (by exact_mod_cast hk) hE
    have e4 : p (k + 1) - q (k + 1) = (p (k + 1) - (p k + V (k + 1) * dt)) + ((p k - q k) + (V (k + 1) - W (k + 1)) * dt) := by
      rw [hq]; ring
    rw [e4]
    have a1 := abs_add_le (p (k + 1) - (p k + V (k + 1) * dt)) ((p k - q k) + (V (k + 1) - W (k + 1)) * dt)
    have a2 := abs_add_le (p k - q k) ((V (k + 1) - W (k + 1)) * dt)
    push_cast
    linarith

/-- C135: velocities and poses after `n` steps of free flight under given forces, engine included, differ from the ones of exact arithmetic
(which converge to the motion of Newton, C124) by at most this, if the computed velocities stay below `B`, the computed coordinates
below `P`, and no step changes a velocity by more than `G`. -/
theorem C135_flight (h : DoubleArith A) {i m I dt B P G : ℝ} (hi : 0 < i) (hm : Moderate i m) (hI : Moderate i I) (hdt : 0 ≤ dt) (hG : 0 ≤ G)
    (f : ℕ → V3) (p v : V3) (hp : RepPose p) (n : ℕ) (bv : ∀ k ≤ n, Below B (freeVel A dt m I f v k))
    (bp : ∀ k < n, Below P (freePose A dt m I f p v k)) (bf : ∀ k < n, Below G (kick dt m I (f k))) :
    Within (n * velError i B G) (freeVel A dt m I f v n) (flightVel dt m I f v n) ∧
    Within (n * (poseError dt B P + dt * (n * velError i B G))) (freePose A dt m I f p v n) (flightPose dt m I f p v n) := by
  have hB : 0 ≤ B := (abs_nonneg _).trans (bv 0 (Nat.zero_le _)).1
  have hE : 0 ≤ velError i B G := by unfold velError; positivity
  have vr := fun k (hk : k ≤ n) => vel_run h hi hI hB k (fun j => (f j).r) (fun j => (freeVel A dt m I f v j).r) (fun j => (flightVel dt m I f v j).r)
    (fun j => rfl) (fun j => by simp [flightVel]) rfl (fun j hj => (bv j (by omega)).1) (fun j hj => (bf j (by omega)).1)
  have vx := fun k (hk : k ≤ n) => vel_run h hi hm hB k (fun j => (f j).x) (fun j => (freeVel A dt m I f v j).x) (fun j => (flightVel dt m I f v j).x)
    (fun j => rfl) (fun j => by simp [flightVel]) rfl (fun j hj => (bv j (by omega)).2.1) (fun j hj => (bf j (by omega)).2.1)
  have vy := fun k (hk : k ≤ n) => vel_run h hi hm hB k (fun j => (f j).y) (fun j => (freeVel A dt m I f v j).y) (fun j => (flightVel dt m I f v j).y)
    (fun j => rfl) (fun j => by simp [flightVel]) rfl (fun j hj => (bv j (by omega)).2.2) (fun j hj => (bf j (by omega)).2.2)
  refine ⟨⟨vr n le_rfl, vx n le_rfl, vy n le_rfl⟩, ?_, ?_, ?_⟩
  · exact pose_run h hdt hE n _ _ (fun j => (freePose A dt m I f p v j).r) (fun j => (flightPose dt m I f p v j).r) (fun j => rfl)
      (fun j => by simp [flightPose, mul_comm]) rfl hp.1 (fun j hj => (bv j hj).1) (fun j hj => (bp j hj).1) vr
  · exact pose_run h hdt hE n _ _ (fun j => (freePose A dt m I f p v j).x) (fun j => (flightPose dt m I f p v j).x) (fun j => rfl)
      (fun j => by simp [flightPose, mul_comm]) rfl hp.2.1 (fun j hj => (bv j hj).2.1) (fun j hj => (bp j hj).2.1) vx
  · exact pose_run h hdt hE n _ _ (fun j => (freePose A dt m I f p v j).y) (fun j => (flightPose dt m I f p v j).y) (fun j => rfl)
      (fun j => by simp [flightPose, mul_comm]) rfl hp.2.2 (fun j hj => (bv j hj).2.2) (fun j hj => (bp j hj).2.2) vy

/-! ## In the world -/

theorem free_bodies (S : WorldSetup) (fuel : ℕ) (w : Circles) (hc : ∀ b ∈ w.bodies, b.isCircle = true) (fl : List V3)
    (hl : fl.length = w.bodies.length) (hp : ∀ bs : List Body, bs.length = w.bodies.length → S.pairs bs = []) :
    ∃ w', strictStep A S (fuel + 1) w (freeAnswer A w.bodies fl S.dt) = .done w' ∧ w'.t = A.rnd (w.t + S.dt) ∧
      w'.bodies.length = w.bodies.length ∧ (∀ b ∈ w'.bodies, b.isCircle = true) ∧ ∀ k < w.bodies.length,
        (bodyAt w'.bodies k).mass = (bodyAt w.bodies k).mass ∧ (bodyAt w'.bodies k).ang_inertia = (bodyAt w.bodies k).ang_inertia ∧
        (bodyAt w'.bodies k).v = fvel3 A (bodyAt w.bodies k).mass (bodyAt w.bodies k).ang_inertia (bodyAt w.bodies k).v S.dt (fl.getD k 0) ∧
        (bodyAt w'.bodies k).p = moved A (bodyAt w.bodies k).p (bodyAt w'.bodies k).v S.dt := by
  set v := freeAnswer A w.bodies fl S.dt with hv
  have hacc : Accepts A S ((setVs w.bodies v).map fun b => move A b S.dt) := by
    intro x hx
    rw [hp _ (by simp [setVs_length])] at hx
    cases hx
  refine ⟨⟨(setVs w.bodies v).map fun b => move A b S.dt, A.rnd (w.t + S.dt)⟩, ?_, rfl, by simp [setVs_length], ?_, ?_⟩
  · unfold strictStep
    rw [strictLoop, if_pos hacc]
    rfl
  · intro b hb
    obtain ⟨c, h1, rfl⟩ := List.mem_map.mp hb
    obtain ⟨i, hi, rfl⟩ := mem_bodyAt h1
    rw [setVs_length] at hi
    rw [setVs_bodyAt _ _ _ hi]
    have := hc _ (bodyAt_mem hi)
    unfold move
    rw [circle_setP (b := { bodyAt w.bodies i with v := slice3 v i }) this, circle_set_form (b := { bodyAt w.bodies i with v := slice3 v i }) this]
    exact this
  · intro k hk
    have hk' : k < (setVs w.bodies v).length := by rwa [setVs_length]
    have e1 : bodyAt ((setVs w.bodies v).map fun b => move A b S.dt) k = move A (bodyAt (setVs w.bodies v) k) S.dt := by
      simp [bodyAt, List.getD_eq_getElem?_getD, hk']
    have hck := hc _ (bodyAt_mem hk)
    have e2 : slice3 v k = fvel3 A (bodyAt w.bodies k).mass (bodyAt w.bodies k).ang_inertia (bodyAt w.bodies k).v S.dt (fl.getD k 0) := by
      have hz : k < (List.zipWith (fun b f => fvel3 A b.mass b.ang_inertia b.v S.dt f) w.bodies fl).length := by simp; omega
      have hkf : k < fl.length := by omega
      rw [hv, freeAnswer, cat3_slice _ _ hz]
      simp [bodyAt, List.getD_eq_getElem?_getD, hk, hkf]
    rw [e1, setVs_bodyAt _ _ _ hk]
    unfold move
    rw [circle_setP (b := { bodyAt w.bodies k with v := slice3 v k }) hck, circle_set_form (b := { bodyAt w.bodies k with v := slice3 v k }) hck]
    exact ⟨rfl, rfl, e2, rfl⟩

/-- C135: in a strict world of circles among which the broad phase sees no pair, `n` calls of `step` return, at the first attempt each, and
move every body as said. -/
theorem C135_world (S : WorldSetup) (fuel : ℕ) (w : Circles) (hc : ∀ b ∈ w.bodies, b.isCircle = true) (fs : ℕ → List V3)
    (hl : ∀ j, (fs j).length = w.bodies.length) (hp : ∀ bs : List Body, bs.length = w.bodies.length → S.pairs bs = []) (n : ℕ) :
    ∃ w', freeRun A S (fuel + 1) fs n w = .done w' ∧ w'.bodies.length = w.bodies.length ∧ ∀ k < w.bodies.length,
      (bodyAt w'.bodies k).v = freeVel A S.dt (bodyAt w.bodies k).mass (bodyAt w.bodies k).ang_inertia (fun j => (fs j).getD k 0)
        (bodyAt w.bodies k).v n ∧
      (bodyAt w'.bodies k).p = freePose A S.dt (bodyAt w.bodies k).mass (bodyAt w.bodies k).ang_inertia (fun j => (fs j).getD k 0)
        (bodyAt w.bodies k).p (bodyAt w.bodies k).v n := by
  suffices H : ∃ w', freeRun A S (fuel + 1) fs n w = .done w' ∧ w'.bodies.length = w.bodies.length ∧ (∀ b ∈ w'.bodies, b.isCircle = true) ∧
      ∀ k < w.bodies.length, (bodyAt w'.bodies k).mass = (bodyAt w.bodies k).mass ∧
      (bodyAt w'.bodies k).ang_inertia = (bodyAt w.bodies k).ang_inertia ∧
      (bodyAt w'.bodies k).v = freeVel A S.dt (bodyAt w.bodies k).mass (bodyAt w.bodies k).ang_inertia (fun j => (fs j).getD k 0)
        (bodyAt w.bodies k).v n ∧
      (bodyAt w'.bodies k).p = freePose A S.dt (bodyAt w.bodies k).mass (bodyAt w.bodies k).ang_inertia (fun j => (fs j).getD k 0)
        (bodyAt w.bodies k).p (bodyAt w.bodies k).v n by
    obtain ⟨w', h1, h2, -, h3⟩ := H
    exact ⟨w', h1, h2, fun k hk => (h3 k hk).2.2⟩
  induction n with
  | zero => exact ⟨w, rfl, rfl, hc, fun k _ => ⟨rfl, rfl, rfl, rfl⟩⟩
  | succ n ih =>
    obtain ⟨w1, h1, h2, h3, h4⟩ := ih
    obtain ⟨w2, k1, -, k2, k3, k4⟩ := free_bodies (A := A) S fuel w1 h3 (fs n) (by rw [h2]; exact hl n) (by rw [h2]; exact hp)
    refine ⟨w2, by rw [freeRun, h1]; exact k1, k2.trans h2, k3, fun k hk => ?_⟩
    obtain ⟨a1, a2, a3, a4⟩ := h4 k hk
    obtain ⟨b1, b2, b3, b4⟩ := k4 k (by omega)
    rw [a1, a2, a3] at b3
    refine ⟨b1.trans a1, b2.trans a2, b3, ?_⟩
    rw [b4, b3, a4]
    rfl

/-! ## Examples -/

/-- A ball of unit mass and inertia that glides to the right is kept on its way exactly. -/
theorem glide_exact {rnd : ℝ → ℝ} (hr : Nearest rnd) : ∀ k ≤ 32,
    freeVel (doubleOf rnd) (1 / 32) 1 1 (fun _ => 0) ⟨0, 1, 0⟩ k = ⟨0, 1, 0⟩ ∧
    freePose (doubleOf rnd) (1 / 32) 1 1 (fun _ => 0) 0 ⟨0, 1, 0⟩ k = ⟨0, (k : ℕ) * (2 : ℝ) ^ (-5 : ℤ), 0⟩ := by
  have hA := rounded_arith hr
  have r1 : Rep 1 := by simpa using rep_nat 1 (by norm_num) 0 (by norm_num)
  have r32 : Rep (1 / 32) := by
    have := rep_nat 1 (by norm_num) (-5) (by norm_num)
    norm_num at this ⊢
    exact this
  have hv : ∀ k, freeVel (doubleOf rnd) (1 / 32) 1 1 (fun _ => 0) ⟨0, 1, 0⟩ k = ⟨0, 1, 0⟩ := by
    intro k
    induction k with
    | zero => rfl
    | succ k ih =>
      rw [freeVel, ih]
      apply V3.ext
      · exact (C135_unit_mass hA (f := 0) rep_zero).2
      · exact (C135_unit_mass hA (f := 0) r1).2
      · exact (C135_unit_mass hA (f := 0) rep_zero).2
  intro k
  induction k with
  | zero => intro _; exact ⟨rfl, by apply V3.ext <;> simp [freePose]⟩
  | succ k ih =>
    intro hk
    refine ⟨hv _, ?_⟩
    rw [freePose, (ih (by omega)).2, hv]
    have z : rnd 0 = 0 := nearest_zero hr
    apply V3.ext
    · change rnd (0 + rnd (0 * (1 / 32))) = 0
      rw [zero_mul, z, add_zero, z]
    · change rnd ((k : ℕ) * (2 : ℝ) ^ (-5 : ℤ) + rnd (1 * (1 / 32))) = ((k + 1 : ℕ) : ℝ) * (2 : ℝ) ^ (-5 : ℤ)
      rw [one_mul, nearest_id hr r32]
      have e : (k : ℝ) * (2 : ℝ) ^ (-5 : ℤ) + 1 / 32 = ((k + 1 : ℕ) : ℝ) * (2 : ℝ) ^ (-5 : ℤ) := by push_cast; norm_num; ring
      rw [e]
      exact nearest_id hr (rep_nat _ (by omega) _ (by norm_num))
    · change rnd (0 + rnd (0 * (1 / 32))) = 0
      rw [zero_mul, z, add_zero, z]

/-- Example for `C135_flight`: the gliding ball, for 32 steps. -/
example : Within (32 * velError 1 1 0) (freeVel (doubleOf rne) (1 / 32) 1 1 (fun _ => 0) ⟨0, 1, 0⟩ 32)
      (flightVel (1 / 32) 1 1 (fun _ => 0) ⟨0, 1, 0⟩ 32) ∧
    Within (32 * (poseError (1 / 32) 1 1 + 1 / 32 * (32 * velError 1 1 0))) (freePose (doubleOf rne) (1 / 32) 1 1 (fun _ => 0) 0 ⟨0, 1, 0⟩ 32)
      (flightPose (1 / 32) 1 1 (fun _ => 0) 0 ⟨0, 1, 0⟩ 32) := by
  have m1 : Moderate 1 1 := ⟨le_rfl, one_le_pow₀ (by norm_num)⟩
  refine C135_flight (rounded_arith rne_nearest) (by norm_num) m1 m1 (by norm_num) le_rfl _ 0 _ ⟨rep_zero, rep_zero, rep_zero⟩ 32 ?_ ?_ ?_
  · intro k hk
    rw [(glide_exact rne_nearest k hk).1]
    simp [Below]
  · intro k hk
    rw [(glide_exact rne_nearest k hk.le).2]
    have hk' : (k : ℝ) ≤ 32 := by exact_mod_cast hk.le
    have h0 : (0 : ℝ) ≤ k * (2 : ℝ) ^ (-5 : ℤ) := by positivity
    refine ⟨by simp, ?_, by simp⟩
    rw [abs_of_nonneg h0]
    norm_num
    linarith
  · intro k _
    simp [Below, kick]

/-- Example for `C135_world`: a single body in a world whose broad phase presents all pairs. -/
example (n : ℕ) : ∃ w', freeRun (doubleOf rne) touchingSetup 1 (fun _ => [⟨0, 0, 1⟩]) n ⟨[unitDisc 3], 0⟩ = .done w' ∧
    (bodyAt w'.bodies 0).v = freeVel (doubleOf rne) 1 1 (1 / 2) (fun _ => ⟨0, 0, 1⟩) 0 n := by
  obtain ⟨w', h1, -, h2⟩ := C135_world (A := doubleOf rne) touchingSetup 0 ⟨[unitDisc 3], 0⟩ (by
      intro b hb
      rw [List.mem_singleton] at hb
      subst hb
      rfl) (fun _ => [⟨0, 0, 1⟩]) (fun _ => rfl) (by
      intro bs hb
      have hb : bs.length = 1 := hb
      obtain ⟨b, rfl⟩ := List.length_eq_one_iff.mp hb
      rfl) n
  refine ⟨w', h1, ?_⟩
  have := (h2 0 (by simp)).1
  have e : circleInertia 1 1 = 1 / 2 := by norm_num [circleInertia]
  change (bodyAt w'.bodies 0).v = freeVel (doubleOf rne) 1 1 (circleInertia 1 1) (fun _ => ⟨0, 0, 1⟩) 0 n at this
  rwa [e] at this

/-- Example for `C135_exact`: the falling ball of `EngineExamples`. -/
example : ∃ e v', pdipmSolve 2 fallForces exactLcp 10 fallWorld 1 = .ok (e, v') ∧
    ∀ k < 3 * fallWorld.bodies.length, v' k = freeAnswer .exact fallWorld.bodies [⟨0, 0, 20⟩] 1 k :=
  C135_exact 2 fallForces exactLcp 10 fallWorld 1 rfl rfl (by intro inv hi; cases hi) (by simp [fallWorld, unitCircle]) (by
    intro k hk
    have hk : k < 3 := by simpa [fallWorld] using hk
    interval_cases k <;> norm_num [fallWorld, cat3]) [⟨0, 0, 20⟩] (fallForces_cat 0) rfl

/-- Example for `C135_slows`: in exact arithmetic the speed is kept. -/
example : fvel .exact 49 1 (1 / 30) 0 = 1 ∧ fvel (doubleOf rne) 49 1 (1 / 30) 0 < 1 := by
  refine ⟨?_, ?_⟩
  · change (1 : ℝ) / 49 * (49 * 1 + 1 / 30 * 0) = 1
    norm_num
  · rw [C135_slows (rounded_arith rne_nearest)]
    norm_num

end LcpPhysics
