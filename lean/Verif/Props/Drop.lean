import Verif.Lemmas.Drop
import Verif.Props.Shortened

/-!
# C128: a ball that bounces on a floor under its weight

The velocities that `World.step_dt` gives a falling ball conserve, in free fall, not the energy but the energy and `γ dt u / 2`.
An elastic floor conserves the same quantity, a step that is cut short adds to it.
-/

noncomputable section

namespace LcpPhysics
open Spec

variable {S : RollScene} {H : ForceHeap} {lcp : LcpSolver} {cfuel : ℕ} {pairs : List Body → List (ℕ × ℕ)} {γ dt eps tol : ℝ}

/-- In every step the ball moves by less than its radius, unless it is about to bounce. -/
def SlowDrop (S : RollScene) (γ dt eps tol : ℝ) (n : ℕ) (ws : ℕ → World (Option Mat) Finder) : Prop :=
  ∀ k < n, (downSpeed (ws k) + dt * γ) * dt < S.r - tol ∨ S.gap (ws k).bodies ≤ eps ∧ 0 ≤ downSpeed (ws k)

theorem drop_chain (D : DropSetting S H lcp cfuel pairs γ dt eps tol) (mi : ℕ) (hr : tol < S.r) {n : ℕ} {g u : ℝ} (hg : 0 ≤ g)
    {ws : ℕ → World (Option Mat) Finder}
    (hrun : BounceRun S (pdipmEnv 2 H lcp mi (rejectNan (diffCollide cfuel (fun _ => []) pairs))) dt eps tol n g u ws)
    (hslow : SlowDrop S γ dt eps tol n ws) :
    (ws 0).t = 0 ∧ S.gap (ws 0).bodies = g ∧ downSpeed (ws 0) = u ∧
    (∀ k ≤ n, -tol ≤ S.gap (ws k).bodies) ∧
    ∀ k < n, ∃ d, Hop dt tol (S.gap (ws k).bodies) (downSpeed (ws (k + 1))) d ∧ (ws (k + 1)).t = (ws k).t + d ∧
      downSpeed (ws (k + 1)) = turned S.e eps (dt * γ) (S.gap (ws k).bodies) (downSpeed (ws k)) ∧
      S.gap (ws (k + 1)).bodies = S.gap (ws k).bodies - downSpeed (ws (k + 1)) * d := by
  obtain ⟨fnd, hmk, hst⟩ := hrun
  obtain ⟨w, hw, hb, he, ht, hz, -⟩ := drop_initial S D.scene D.over H lcp mi cfuel D.fuel pairs fnd dt eps tol D.sees D.pairs D.tol
    g u hg
  rw [hmk] at hw
  injection hw with hw
  subst hw
  have sp : ∀ {w : World (Option Mat) Finder} {g' u' : ℝ}, Bouncing S g u w g' u' → downSpeed w = u' := fun h => by
    unfold downSpeed; rw [h.speed]
  have one : ∀ k < n, (Bouncing S g u (ws k) (S.gap (ws k).bodies) (downSpeed (ws k)) ∧ (ws k).eps = eps ∧ (ws k).tol = tol ∧
      -tol ≤ S.gap (ws k).bodies) →
      (Bouncing S g u (ws (k + 1)) (S.gap (ws (k + 1)).bodies) (downSpeed (ws (k + 1))) ∧ (ws (k + 1)).eps = eps ∧
        (ws (k + 1)).tol = tol ∧ -tol ≤ S.gap (ws (k + 1)).bodies) ∧
      ∃ d, Hop dt tol (S.gap (ws k).bodies) (downSpeed (ws (k + 1))) d ∧ (ws (k + 1)).t = (ws k).t + d ∧
        downSpeed (ws (k + 1)) = turned S.e eps (dt * γ) (S.gap (ws k).bodies) (downSpeed (ws k)) ∧
        S.gap (ws (k + 1)).bodies = S.gap (ws k).bodies - downSpeed (ws (k + 1)) * d := by
    intro k hk ⟨i1, i2, i3, i4⟩
    obtain ⟨fuel, hs⟩ := hst k hk
    have hdt := D.dt
    have hroom : turned S.e (ws k).eps (dt * γ) (S.gap (ws k).bodies) (downSpeed (ws k)) * dt < S.gap (ws k).bodies + S.r := by
      rw [i2]
      rcases hslow k hk with h | ⟨h1, h2⟩
      · have : turned S.e eps (dt * γ) (S.gap (ws k).bodies) (downSpeed (ws k)) ≤ downSpeed (ws k) + dt * γ := by
          unfold turned; split_ifs
          · exact min_le_left _ _
          · exact le_rfl
        have := mul_le_mul_of_nonneg_right this hdt.le
        linarith
      · have : turned S.e eps (dt * γ) (S.gap (ws k).bodies) (downSpeed (ws k)) ≤ 0 := by
          unfold turned; rw [if_pos h1]
          exact (min_le_right _ _).trans (by nlinarith [mul_nonneg D.e h2])
        nlinarith
    obtain ⟨d, hd, j1, j2, j3, j4⟩ := drop_step D.scene D.over D.e D.weight D.exact D.fuel (by rw [i2]; exact D.sees) D.pairs i1
      (by rw [i2]; exact D.eps) (by rw [i3]; exact D.tol) D.dt hs (by linarith) hroom
    rw [i2] at hd j4
    rw [i3] at hd
    have e1 := sp j4
    have e2 := bouncing_gap j4
    rw [← e1] at hd e2
    refine ⟨⟨by rw [e2, e1]; exact j4, j2.trans i2, j3.trans i3, ?_⟩, d, hd, j1, e1, e2⟩
    obtain ⟨j, -, h1, -⟩ := hd
    rw [e2]; linarith
  have all : ∀ k ≤ n, Bouncing S g u (ws k) (S.gap (ws k).bodies) (downSpeed (ws k)) ∧ (ws k).eps = eps ∧ (ws k).tol = tol ∧
      -tol ≤ S.gap (ws k).bodies := by
    intro k
    induction k with
    | zero =>
      intro _
      rw [bouncing_gap hb, sp hb]
      exact ⟨hb, he, ht, by linarith [D.tol]⟩
    | succ k ih => exact fun hk => (one k (by omega) (ih (by omega))).1
  exact ⟨hz, bouncing_gap hb, sp hb, fun k hk => (all k hk).2.2.2, fun k hk => (one k hk (all k (by omega))).2⟩

/-- C128: the energy after a step.  A step that lasts `d` instead of `dt` adds `γ (dt - d) u'`, which is positive; a bounce takes
`(1 - e) u ((1 + e) u + γ dt) / 2`; nothing else changes it. -/
theorem C128_step (S : RollScene) (H : ForceHeap) (lcp : LcpSolver) (mi cfuel : ℕ) (pairs : List Body → List (ℕ × ℕ)) (γ dt eps tol : ℝ)
    (D : DropSetting S H lcp cfuel pairs γ dt eps tol) (hr : tol < S.r) (n : ℕ) (g u : ℝ) (hg : 0 ≤ g)
    (ws : ℕ → World (Option Mat) Finder)
    (hrun : BounceRun S (pdipmEnv 2 H lcp mi (rejectNan (diffCollide cfuel (fun _ => []) pairs))) dt eps tol n g u ws)
    (hslow : SlowDrop S γ dt eps tol n ws) (k : ℕ) (hk : k < n) :
    ∃ d, 0 < d ∧ d ≤ dt ∧ (ws (k + 1)).t = (ws k).t + d ∧ (d < dt → 0 < downSpeed (ws (k + 1))) ∧
      -tol ≤ S.gap (ws (k + 1)).bodies ∧
      (hopEnergy γ dt (S.gap (ws (k + 1)).bodies) (downSpeed (ws (k + 1))) =
          hopEnergy γ dt (S.gap (ws k).bodies) (downSpeed (ws k)) + γ * (dt - d) * downSpeed (ws (k + 1)) ∨
        S.gap (ws k).bodies ≤ eps ∧ downSpeed (ws (k + 1)) = -(S.e * downSpeed (ws k)) ∧
          hopEnergy γ dt (S.gap (ws (k + 1)).bodies) (downSpeed (ws (k + 1))) =
            hopEnergy γ dt (S.gap (ws k).bodies) (downSpeed (ws k)) + γ * (dt - d) * downSpeed (ws (k + 1)) -
              (1 - S.e) * downSpeed (ws k) * ((1 + S.e) * downSpeed (ws k) + dt * γ) / 2) := by
  obtain ⟨-, -, -, q4, q5⟩ := drop_chain D mi hr hg hrun hslow
  obtain ⟨d, hd, h1, h2, h3⟩ := q5 k hk
  obtain ⟨p1, p2⟩ := hop_pos D.dt hd
  refine ⟨d, p1, p2, h1, fun hlt => ?_, q4 _ (by omega), ?_⟩
  · rcases cut_down (by linarith [q4 k (by omega)]) hd with h | h
    · linarith
    · exact pos_of_mul_pos_left h D.dt.le
  · rw [h3, h2]
    rcases energy_step S.e eps γ dt (S.gap (ws k).bodies) (downSpeed (ws k)) d with h | ⟨h0, h, -, h'⟩
    · exact Or.inl h
    · exact Or.inr ⟨h0, h, h'⟩

/-- C128: with restitution 1 the energy grows by what the cut steps add, and by nothing else. -/
theorem C128_elastic (S : RollScene) (H : ForceHeap) (lcp : LcpSolver) (mi cfuel : ℕ) (pairs : List Body → List (ℕ × ℕ))
    (γ dt eps tol : ℝ) (D : DropSetting S H lcp cfuel pairs γ dt eps tol) (he : S.e = 1) (hγ : 0 ≤ γ) (hr : tol < S.r) (n : ℕ)
    (g u : ℝ) (hg : 0 ≤ g) (ws : ℕ → World (Option Mat) Finder)
    (hrun : BounceRun S (pdipmEnv 2 H lcp mi (rejectNan (diffCollide cfuel (fun _ => []) pairs))) dt eps tol n g u ws)
    (hslow : SlowDrop S γ dt eps tol n ws) :
    (∀ k < n, 0 ≤ γ * (dt - ((ws (k + 1)).t - (ws k).t)) * downSpeed (ws (k + 1))) ∧
    ∀ k ≤ n, hopEnergy γ dt (S.gap (ws k).bodies) (downSpeed (ws k)) =
      hopEnergy γ dt g u + ∑ j ∈ Finset.range k, γ * (dt - ((ws (j + 1)).t - (ws j).t)) * downSpeed (ws (j + 1)) := by
  obtain ⟨-, e1, e2, -, -⟩ := drop_chain D mi hr hg hrun hslow
  have st := C128_step S H lcp mi cfuel pairs γ dt eps tol D hr n g u hg ws hrun hslow
  refine ⟨fun k hk => ?_, fun k => ?_⟩
  · obtain ⟨d, h1, h2, h3, h4, -⟩ := st k hk
    rw [h3, add_sub_cancel_left]
    rcases h2.lt_or_eq with h | h
    · exact mul_nonneg (mul_nonneg hγ (by linarith)) (h4 h).le
    · rw [h, sub_self, mul_zero, zero_mul]
  · induction k with
    | zero => intro _; rw [e1, e2]; simp
    | succ k ih =>
      intro hk
      obtain ⟨d, h1, h2, h3, -, -, h5⟩ := st k (by omega)
      rw [Finset.sum_range_succ, ← add_assoc, ← ih (by omega), h3, add_sub_cancel_left]
      rcases h5 with h | ⟨-, -, h⟩
      · exact h
      · rw [h, he]; ring

/-- C128: a ball that falls from rest on a floor with restitution 1 rises higher than it was, if a step before was cut: by at least the
way that the cut step did not go. -/
theorem C128_higher (S : RollScene) (H : ForceHeap) (lcp : LcpSolver) (mi cfuel : ℕ) (pairs : List Body → List (ℕ × ℕ))
    (γ dt eps tol : ℝ) (D : DropSetting S H lcp cfuel pairs γ dt eps tol) (he : S.e = 1) (hγ : 0 < γ) (hr : tol < S.r) (n : ℕ)
    (g : ℝ) (hg : 0 ≤ g) (ws : ℕ → World (Option Mat) Finder)
    (hrun : BounceRun S (pdipmEnv 2 H lcp mi (rejectNan (diffCollide cfuel (fun _ => []) pairs))) dt eps tol n g 0 ws)
    (hslow : SlowDrop S γ dt eps tol n ws) (j k : ℕ) (hjk : j < k) (hk : k ≤ n) (hcut : (ws (j + 1)).t < (ws j).t + dt)
    (hup : downSpeed (ws k) ≤ 0) (hup' : -(γ * dt) ≤ downSpeed (ws k)) :
    0 < (dt - ((ws (j + 1)).t - (ws j).t)) * downSpeed (ws (j + 1)) ∧
    g + (dt - ((ws (j + 1)).t - (ws j).t)) * downSpeed (ws (j + 1)) ≤ S.gap (ws k).bodies := by
  obtain ⟨a1, a2⟩ := C128_elastic S H lcp mi cfuel pairs γ dt eps tol D he hγ.le hr n g 0 hg ws hrun hslow
  obtain ⟨d, h1, h2, h3, h4, -⟩ := C128_step S H lcp mi cfuel pairs γ dt eps tol D hr n g 0 hg ws hrun hslow j (by omega)
  have h4 := h4 (by linarith)
  constructor
  · exact mul_pos (by linarith) h4
  · have p := peak_height (γ := γ) (h := dt) (g := S.gap (ws k).bodies) hup hup'
    rw [a2 k hk] at p
    have := Finset.single_le_sum (f := fun j => γ * (dt - ((ws (j + 1)).t - (ws j).t)) * downSpeed (ws (j + 1)))
      (s := Finset.range k) (fun i hi => a1 i (by have := Finset.mem_range.1 hi; omega)) (Finset.mem_range.2 hjk)
    have e0 : hopEnergy γ dt g 0 = γ * g := by unfold hopEnergy; ring
    rw [e0] at p
    refine le_of_mul_le_mul_left ?_ hγ
    linarith

/-! ## Slow balls are never cut -/

theorem hopState_elastic (eps γ h g u : ℝ) (k : ℕ) :
    hopEnergy γ h (hopState 1 eps γ h g u k).1 (hopState 1 eps γ h g u k).2 = hopEnergy γ h g u := by
  induction k with
  | zero => rfl
  | succ k ih => rw [← ih, hopState, energy_elastic, sub_self, mul_zero, zero_mul, add_zero]

/-- The recursion without cuts is that of the program, for a ball that comes down by less than the contact distance and the tolerance
in a step. -/
theorem hop_falls (D : DropSetting S H lcp cfuel pairs γ dt eps tol) (he1 : S.e ≤ 1) (hγ : 0 ≤ γ) {g u : ℝ} (hg : eps ≤ g) {M : ℝ}
    (hM : energyCap γ dt eps (hopEnergy γ dt g u) ≤ M) (hW : dt * dropSpeed γ dt eps M ≤ eps + tol)
    (hr : dt * dropSpeed γ dt eps M < eps + S.r) (n : ℕ) :
    Falls S.r S.e dt eps tol γ n (hopState S.e eps γ dt g u) (fun _ => dt) := by
  have hc : γ * eps + 3 / 8 * (γ * dt) ^ 2 ≤ M := (le_max_right _ _).trans hM
  have hE : hopEnergy γ dt g u ≤ M := (le_max_left _ _).trans hM
  intro k _
  have kp := hopState_kept D.e he1 hγ D.dt.le hE hc (kept_start D.e he1 hγ D.dt.le hc hg) k
  have rm := kept_room D.e he1 hγ D.dt.le (hopState_capped D.e he1 hγ D.dt.le hE hc k) hc kp
  refine ⟨by linarith [kp.1], rfl, ?_, hop_first ?_, rfl⟩
  · show turned _ _ _ _ _ * dt < _
    linarith
  · show turned _ _ _ _ _ * dt ≤ _
    linarith

/-- C128: a slow ball.  If no fall from the energy `M` brings the ball down by more than the contact distance and the tolerance in a
step, then no step is cut, ever: the clock is that of whole steps, the ball stays above `eps - dt W`, and neither its energy nor its
height grows beyond a bound that does not depend on the number of steps.  With restitution 1 the energy does not change at all. -/
theorem C128_slow (S : RollScene) (H : ForceHeap) (lcp : LcpSolver) (mi cfuel : ℕ) (pairs : List Body → List (ℕ × ℕ))
    (γ dt eps tol : ℝ) (D : DropSetting S H lcp cfuel pairs γ dt eps tol) (he1 : S.e ≤ 1) (hγ : 0 ≤ γ) (n : ℕ) (g u : ℝ)
    (hg : eps ≤ g) (M : ℝ) (hM : hopEnergy γ dt g u ≤ M) (hc : γ * eps + 3 / 8 * (γ * dt) ^ 2 ≤ M)
    (hW : dt * dropSpeed γ dt eps M ≤ eps + tol) (hr : dt * dropSpeed γ dt eps M < eps + S.r)
    (ws : ℕ → World (Option Mat) Finder)
    (hrun : BounceRun S (pdipmEnv 2 H lcp mi (rejectNan (diffCollide cfuel (fun _ => []) pairs))) dt eps tol n g u ws)
    (k : ℕ) (hk : k ≤ n) :
    (ws k).t = k * dt ∧ eps - dt * dropSpeed γ dt eps M ≤ S.gap (ws k).bodies ∧
    hopEnergy γ dt (S.gap (ws k).bodies) (downSpeed (ws k)) ≤ M ∧
    γ * S.gap (ws k).bodies ≤ M + (γ * dt) ^ 2 / 8 ∧
    (S.e = 1 → hopEnergy γ dt (S.gap (ws k).bodies) (downSpeed (ws k)) = hopEnergy γ dt g u) := by
  have hcap : energyCap γ dt eps (hopEnergy γ dt g u) ≤ M := max_le hM hc
  obtain ⟨t, -, -, b⟩ := falls_track D mi (hop_falls D he1 hγ hg hcap hW hr n) (D.eps.trans hg) hrun k hk
  have sp : downSpeed (ws k) = (hopState S.e eps γ dt g u k).2 := by unfold downSpeed; rw [b.speed]
  rw [bouncing_gap b, sp]
  refine ⟨by rw [t]; simp, (hopState_kept D.e he1 hγ D.dt.le hM hc (kept_start D.e he1 hγ D.dt.le hc hg) k).1,
    hopState_capped D.e he1 hγ D.dt.le hM hc k, ?_, fun he => ?_⟩
  · have := height_capped (γ := γ) (h := dt) (g := (hopState S.e eps γ dt g u k).1) (u := (hopState S.e eps γ dt g u k).2)
    linarith [hopState_capped (k := k) D.e he1 hγ D.dt.le hM hc]
  · rw [he]; exact hopState_elastic eps γ dt g u k

/-- C128: with a restitution below 1 a slow ball comes to rest, up to the step length: from some step on it is not higher than
`γ dt² / 2` above the contact distance. -/
theorem C128_settles (S : RollScene) (H : ForceHeap) (lcp : LcpSolver) (mi cfuel : ℕ) (pairs : List Body → List (ℕ × ℕ))
    (γ dt eps tol : ℝ) (D : DropSetting S H lcp cfuel pairs γ dt eps tol) (he1 : S.e < 1) (hγ : 0 < γ) (g u : ℝ)
    (hg : eps ≤ g) (M : ℝ) (hM : hopEnergy γ dt g u ≤ M) (hc : γ * eps + 3 / 8 * (γ * dt) ^ 2 ≤ M)
    (hW : dt * dropSpeed γ dt eps M ≤ eps + tol) (hr : dt * dropSpeed γ dt eps M < eps + S.r) :
    ∃ N, ∀ n, ∀ ws : ℕ → World (Option Mat) Finder,
      BounceRun S (pdipmEnv 2 H lcp mi (rejectNan (diffCollide cfuel (fun _ => []) pairs))) dt eps tol n g u ws →
      ∀ k, N ≤ k → k ≤ n → S.gap (ws k).bodies ≤ eps + γ * dt ^ 2 / 2 ∧
        (downSpeed (ws k) + γ * dt / 2) ^ 2 ≤ (γ * dt) ^ 2 + 2 * γ * (dt * dropSpeed γ dt eps M) := by
  have hcap : energyCap γ dt eps (hopEnergy γ dt g u) ≤ M := max_le hM hc
  obtain ⟨N, hN⟩ := hopState_settles D.e he1 hγ D.dt hM hc (kept_start D.e he1.le hγ.le D.dt.le hc hg)
  refine ⟨N, fun n ws hrun k hk hkn => ?_⟩
  obtain ⟨t, -, -, b⟩ := falls_track D mi (hop_falls D he1.le hγ.le hg hcap hW hr n) (D.eps.trans hg) hrun k hkn
  have sp : downSpeed (ws k) = (hopState S.e eps γ dt g u k).2 := by unfold downSpeed; rw [b.speed]
  have kp := (hopState_kept D.e he1.le hγ.le D.dt.le hM hc (kept_start D.e he1.le hγ.le D.dt.le hc hg) k).1
  have hk' := hN k hk
  rw [bouncing_gap b, sp]
  constructor
  · have := height_capped (γ := γ) (h := dt) (g := (hopState S.e eps γ dt g u k).1) (u := (hopState S.e eps γ dt g u k).2)
    refine le_of_mul_le_mul_left ?_ hγ
    nlinarith
  · unfold hopEnergy at hk'
    have := mul_le_mul_of_nonneg_left kp hγ.le
    nlinarith

/-- C128: such runs exist, of any length. -/
theorem C128_runs (S : RollScene) (H : ForceHeap) (mi cfuel : ℕ) (pairs : List Body → List (ℕ × ℕ))
    (γ dt eps tol : ℝ) (D : DropSetting S H exactLcp cfuel pairs γ dt eps tol) (he1 : S.e ≤ 1) (hγ : 0 ≤ γ) (n : ℕ) (g u : ℝ)
    (hg : eps ≤ g) (M : ℝ) (hM : hopEnergy γ dt g u ≤ M) (hc : γ * eps + 3 / 8 * (γ * dt) ^ 2 ≤ M)
    (hW : dt * dropSpeed γ dt eps M ≤ eps + tol) (hr : dt * dropSpeed γ dt eps M < eps + S.r) (fnd : Finder) :
    ∃ ws, BounceRun S (pdipmEnv 2 H exactLcp mi (rejectNan (diffCollide cfuel (fun _ => []) pairs))) dt eps tol n g u ws :=
  falls_runs D mi fnd (s := hopState S.e eps γ dt g u) (D.eps.trans hg) n (hop_falls D he1 hγ hg (max_le hM hc) hW hr n)

/-! ## Concrete runs -/

/-- The default constants, the gravity 10, a ball of restitution 9/10 dropped from rest from the height 1/2: the speed at the contact
distance is less than 3, the way in a step less than 1/10. -/
theorem dropSpeed_half : (1 / 30 : ℝ) * dropSpeed 10 (1 / 30) (1 / 10) 5 ≤ 1 / 10 + 1 / 1000000 := by
  unfold dropSpeed
  have : √((10 * (1 / 30) : ℝ) ^ 2 / 4 + 2 * (5 - 10 * (1 / 10))) ≤ 17 / 6 := by
    rw [Real.sqrt_le_left (by norm_num)]; norm_num
  linarith

example (fl : Bool) (mi n : ℕ) (fnd : Finder) :
    ∃ ws, BounceRun dropScene (pdipmEnv 2 (dropForces 10) exactLcp mi (rejectNan (diffCollide 66 (fun _ => []) (bouncePairs fl))))
        (1 / 30) (1 / 10) (1 / 1000000) n (1 / 2) 0 ws ∧
      (∀ k ≤ n, (ws k).t = k * (1 / 30) ∧ 0 ≤ dropScene.gap (ws k).bodies + 1 / 1000000 ∧
        dropScene.gap (ws k).bodies ≤ 1 / 2 + 1 / 720) := by
  have D := drop_setting fl 10 (1 / 30) (1 / 10) (1 / 1000000) (by norm_num) (by norm_num) (by norm_num)
  have he1 : dropScene.e ≤ 1 := by norm_num [dropScene, RollScene.e]
  have hr : (1 / 30 : ℝ) * dropSpeed 10 (1 / 30) (1 / 10) 5 < 1 / 10 + dropScene.r := by
    refine dropSpeed_half.trans_lt ?_
    norm_num [dropScene, slideScene]
  obtain ⟨ws, hrun⟩ := C128_runs dropScene (dropForces 10) mi 66 (bouncePairs fl) 10 (1 / 30) (1 / 10) (1 / 1000000) D he1 (by norm_num) n
    (1 / 2) 0 (by norm_num) 5 (by norm_num [hopEnergy]) (by norm_num) dropSpeed_half hr fnd
  refine ⟨ws, hrun, fun k hk => ?_⟩
  obtain ⟨h1, h2, -, h4, -⟩ := C128_slow dropScene (dropForces 10) exactLcp mi 66 (bouncePairs fl) 10 (1 / 30) (1 / 10) (1 / 1000000) D he1
    (by norm_num) n (1 / 2) 0 (by norm_num) 5 (by norm_num [hopEnergy]) (by norm_num) dropSpeed_half hr ws hrun k hk
  exact ⟨h1, by linarith [dropSpeed_half], by linarith⟩

example (fl : Bool) (mi : ℕ) :
    ∃ N, ∀ n, ∀ ws : ℕ → World (Option Mat) Finder, BounceRun dropScene
        (pdipmEnv 2 (dropForces 10) exactLcp mi (rejectNan (diffCollide 66 (fun _ => []) (bouncePairs fl))))
        (1 / 30) (1 / 10) (1 / 1000000) n (1 / 2) 0 ws →
      ∀ k, N ≤ k → k ≤ n → dropScene.gap (ws k).bodies ≤ 1 / 10 + 1 / 180 := by
  have D := drop_setting fl 10 (1 / 30) (1 / 10) (1 / 1000000) (by norm_num) (by norm_num) (by norm_num)
  have he1 : dropScene.e < 1 := by norm_num [dropScene, RollScene.e]
  have hr : (1 / 30 : ℝ) * dropSpeed 10 (1 / 30) (1 / 10) 5 < 1 / 10 + dropScene.r := by
    refine dropSpeed_half.trans_lt ?_
    norm_num [dropScene, slideScene]
  obtain ⟨N, hN⟩ := C128_settles dropScene (dropForces 10) exactLcp mi 66 (bouncePairs fl) 10 (1 / 30) (1 / 10) (1 / 1000000) D he1
    (by norm_num) (1 / 2) 0 (by norm_num) 5 (by norm_num [hopEnergy]) (by norm_num) dropSpeed_half hr
  refine ⟨N, fun n ws hrun k h1 h2 => ?_⟩
  have := (hN n ws hrun k h1 h2).1
  norm_num at this ⊢
  linarith

/-- A floor with restitution 1. -/
def elasticScene : RollScene := { slideScene with eb := 1, ef := 1 }

theorem elastic_setting (fl : Bool) (γ dt eps tol : ℝ) (hdt : 0 < dt) (heps : 0 ≤ eps) (htol : 0 ≤ tol) :
    DropSetting elasticScene (dropForces γ) exactLcp 66 (bouncePairs fl) γ dt eps tol where
  scene := by constructor <;> norm_num [elasticScene, slideScene, RollScene.μ]
  over := by norm_num [elasticScene, slideScene]
  e := by norm_num [elasticScene, RollScene.e]
  weight := fun t => ⟨0, by rw [drop_cat]; simp [elasticScene, slideScene]⟩
  exact := exactLcp_exact
  fuel := le_rfl
  sees := fun bs hb => by
    rcases bouncePairs_one fl bs hb with h | h
    · exact Or.inl h
    · exact Or.inr (Or.inl h)
  pairs := bouncePairs_valid fl
  dt := hdt
  eps := heps
  tol := htol

/-- Nine full steps down from the height 121/200, half a step, the bounce and ten steps up. -/
def bumpTable (k : ℕ) : ℝ × ℝ :=
  if k ≤ 9 then (121 / 200 - k * (k + 1) / 180, k / 3) else
  if k = 10 then (121 / 200 - 1 / 2 - 1 / 18, 10 / 3) else
  (121 / 200 - 1 / 2 - 1 / 18 + ((k : ℝ) - 10) * (31 - k) / 180, ((k : ℝ) - 21) / 3)

theorem bump_falls {r e : ℝ} (hr : 1 ≤ r) (he : e = 1) :
    Falls r e (1 / 30) (1 / 10) (1 / 1000000) 10 21 bumpTable (fun k => if k = 9 then 1 / 60 else 1 / 30) := by
  subst he
  intro k hk
  by_cases h9 : k = 9
  · subst h9
    refine ⟨by norm_num [bumpTable]; linarith, by norm_num [bumpTable, turned], by norm_num [bumpTable]; linarith, ?_,
      by norm_num [bumpTable]⟩
    refine ⟨1, by norm_num, by norm_num [bumpTable], fun i hi => ?_⟩
    interval_cases i; norm_num [bumpTable]
  simp only [h9, if_false]
  refine ⟨?_, ?_, ?_, hop_first ?_, ?_⟩ <;> interval_cases k <;>
    first | exact absurd rfl h9 | (norm_num [bumpTable, turned]; done) | (norm_num [bumpTable]; linarith)

/-- With the default constants and the gravity 10: dropped from the height 0.605 the ball comes to rest at 0.6605…, in step 21. -/
example (fl : Bool) (mi : ℕ) (fnd : Finder) :
    ∃ ws, BounceRun elasticScene (pdipmEnv 2 (dropForces 10) exactLcp mi (rejectNan (diffCollide 66 (fun _ => []) (bouncePairs fl))))
        (1 / 30) (1 / 10) (1 / 1000000) 21 (121 / 200) 0 ws ∧
      SlowDrop elasticScene 10 (1 / 30) (1 / 10) (1 / 1000000) 21 ws ∧ downSpeed (ws 21) = 0 ∧
      elasticScene.gap (ws 0).bodies = 121 / 200 ∧ elasticScene.gap (ws 21).bodies = 1189 / 1800 ∧
      121 / 200 + 1 / 18 ≤ elasticScene.gap (ws 21).bodies := by
  have D := elastic_setting fl 10 (1 / 30) (1 / 10) (1 / 1000000) (by norm_num) (by norm_num) (by norm_num)
  have he : elasticScene.e = 1 := by norm_num [elasticScene, RollScene.e]
  have hr : elasticScene.r = 10 := by norm_num [elasticScene, slideScene]
  have hF := bump_falls (r := elasticScene.r) (by rw [hr]; norm_num) he
  have h0 : bumpTable 0 = (121 / 200, 0) := by norm_num [bumpTable]
  obtain ⟨ws, hrun⟩ := falls_runs D mi fnd (by rw [h0]; norm_num) 21 hF
  have tr := falls_track D mi hF (by rw [h0]; norm_num) hrun
  rw [h0] at hrun
  have sp : ∀ k ≤ 21, downSpeed (ws k) = (bumpTable k).2 := fun k hk => by
    unfold downSpeed; rw [(tr k hk).2.2.2.speed]
  have hs : SlowDrop elasticScene 10 (1 / 30) (1 / 10) (1 / 1000000) 21 ws := by
    intro k hk
    left
    rw [sp k (by omega), hr]
    interval_cases k <;> norm_num [bumpTable]
  have c := (C128_higher elasticScene (dropForces 10) exactLcp mi 66 (bouncePairs fl) 10 (1 / 30) (1 / 10) (1 / 1000000) D he (by norm_num)
    (by rw [hr]; norm_num) 21 (121 / 200) (by norm_num) ws hrun hs 9 21 (by omega) le_rfl
    (by rw [(tr 10 (by omega)).1, (tr 9 (by omega)).1]; norm_num [Finset.sum_range_succ])
    (by rw [sp 21 le_rfl]; norm_num [bumpTable]) (by rw [sp 21 le_rfl]; norm_num [bumpTable])).2
  refine ⟨ws, hrun, hs, by rw [sp 21 le_rfl]; norm_num [bumpTable], ?_, ?_, ?_⟩
  · rw [bouncing_gap (tr 0 (by omega)).2.2.2, h0]
  · rw [bouncing_gap (tr 21 le_rfl).2.2.2]; norm_num [bumpTable]
  · rw [(tr 10 (by omega)).1, (tr 9 (by omega)).1, sp 10 (by omega)] at c
    refine le_trans ?_ c
    norm_num [bumpTable, Finset.sum_range_succ]

end LcpPhysics
