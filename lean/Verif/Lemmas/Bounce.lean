import Verif.Spec.Bounce
import Mathlib.Analysis.Calculus.Deriv.Mul
import Mathlib.Analysis.Calculus.Deriv.Add
import Mathlib.Topology.Order.LocalExtr
import Mathlib.Analysis.SpecificLimits.Basic
import Mathlib.Topology.Instances.Real.Lemmas
import Mathlib.Tactic.LinearCombination

/-! # Times of the steps of a bouncing ball -/

noncomputable section

namespace LcpPhysics
open Spec Filter Topology

/-- `h` is the first of `dt, dt/2, dt/4, …` that takes a ball at the height `g` with speed `u` not deeper than `tol`. -/
def Hop (dt tol g u h : ℝ) : Prop :=
  ∃ j : ℕ, h = dt / 2 ^ j ∧ u * h ≤ g + tol ∧ ∀ i < j, g + tol < u * (dt / 2 ^ i)

theorem hop_unique {dt tol g u h h' : ℝ} (a : Hop dt tol g u h) (b : Hop dt tol g u h') : h = h' := by
  obtain ⟨j, rfl, h1, h2⟩ := a
  obtain ⟨j', rfl, h1', h2'⟩ := b
  rcases lt_trichotomy j j' with h | h | h
  · exact absurd h1 (not_le.2 (h2' j h))
  · rw [h]
  · exact absurd h1' (not_le.2 (h2 j' h))

theorem hop_first {dt tol g u : ℝ} (h : u * dt ≤ g + tol) : Hop dt tol g u dt :=
  ⟨0, by simp, h, fun i hi => by omega⟩

/-- A ball above the floor has a next step. -/
theorem hop_exists {dt tol g u : ℝ} (hg : 0 < g + tol) : ∃ h, Hop dt tol g u h := by
  classical
  have : ∃ j : ℕ, u * (dt / 2 ^ j) ≤ g + tol := by
    have ht : Tendsto (fun j : ℕ => u * (dt / 2 ^ j)) atTop (𝓝 (u * (dt * 0))) := by
      refine Tendsto.const_mul _ ?_
      simp only [div_eq_mul_inv]
      refine Tendsto.const_mul _ ?_
      exact tendsto_inv_atTop_zero.comp (tendsto_pow_atTop_atTop_of_one_lt (one_lt_two : (1 : ℝ) < 2))
    rw [mul_zero, mul_zero] at ht
    exact ((ht.eventually (gt_mem_nhds hg)).mono fun _ h => le_of_lt h).exists
  refine ⟨_, Nat.find this, rfl, Nat.find_spec this, fun i hi => ?_⟩
  exact not_le.1 (Nat.find_min this hi)

theorem hop_pos {dt tol g u h : ℝ} (hdt : 0 < dt) (a : Hop dt tol g u h) : 0 < h ∧ h ≤ dt := by
  obtain ⟨j, rfl, -, -⟩ := a
  refine ⟨by positivity, div_le_self hdt.le (one_le_pow₀ (by norm_num))⟩

/-- A step goes at least half of the way that is left. -/
theorem hop_long {dt tol g u h : ℝ} (hu : 0 < u) (a : Hop dt tol g u h) : h = dt ∨ g + tol < 2 * (u * h) := by
  obtain ⟨j, rfl, -, h2⟩ := a
  cases j with
  | zero => left; simp
  | succ j =>
    right
    have := h2 j (by omega)
    rw [pow_succ]
    calc g + tol < u * (dt / 2 ^ j) := this
      _ = 2 * (u * (dt / (2 ^ j * 2))) := by field_simp

/-- The times of a ball that starts at the height `g` with speed `u`: `Track k T none` says that it is still coming down
after `k` steps, at the time `T`; `Track k T (some τ)`, that it turned round at the time `τ`. -/
inductive Track (dt eps tol g u : ℝ) : ℕ → ℝ → Option ℝ → Prop
  | start : Track dt eps tol g u 0 0 none
  | fall {k : ℕ} {T h : ℝ} : Track dt eps tol g u k T none → eps < g - u * T → Hop dt tol (g - u * T) u h →
      Track dt eps tol g u (k + 1) (T + h) none
  | turn {k : ℕ} {T : ℝ} : Track dt eps tol g u k T none → g - u * T ≤ eps →
      Track dt eps tol g u (k + 1) (T + dt) (some T)
  | leave {k : ℕ} {T τ : ℝ} : Track dt eps tol g u k T (some τ) → Track dt eps tol g u (k + 1) (T + dt) (some τ)

variable {dt eps tol g u : ℝ}

theorem track_unique {k : ℕ} {T T' : ℝ} {o o' : Option ℝ} (a : Track dt eps tol g u k T o)
    (b : Track dt eps tol g u k T' o') : T = T' ∧ o = o' := by
  induction a generalizing T' o' with
  | start => cases b; exact ⟨rfl, rfl⟩
  | fall a hg hh ih =>
    cases b with
    | fall b hg' hh' =>
      obtain ⟨rfl, -⟩ := ih b
      exact ⟨by rw [hop_unique hh hh'], rfl⟩
    | turn b hg' =>
      obtain ⟨rfl, -⟩ := ih b
      exact absurd hg' (not_le.2 hg)
    | leave b => obtain ⟨-, h⟩ := ih b; cases h
  | turn a hg ih =>
    cases b with
    | fall b hg' hh' =>
      obtain ⟨rfl, -⟩ := ih b
      exact absurd hg (not_le.2 hg')
    | turn b hg' => obtain ⟨rfl, -⟩ := ih b; exact ⟨rfl, rfl⟩
    | leave b => obtain ⟨-, h⟩ := ih b; cases h
  | leave a ih =>
    cases b with
    | fall b hg' hh' => obtain ⟨-, h⟩ := ih b; cases h
    | turn b hg' => obtain ⟨-, h⟩ := ih b; cases h
    | leave b => obtain ⟨rfl, h⟩ := ih b; exact ⟨rfl, h⟩

/-- What is true of the times and heights. -/
theorem track_bounds (hdt : 0 < dt) (hu : 0 < u) (hg : 0 ≤ g) (htol : 0 ≤ tol) (heps : 0 ≤ eps) {k : ℕ} {T : ℝ} {o : Option ℝ}
    (a : Track dt eps tol g u k T o) :
    0 ≤ T ∧ (o = none → -tol ≤ g - u * T ∧ -(u * dt) ≤ g - u * T) ∧
    ∀ τ, o = some τ → 0 ≤ τ ∧ τ ≤ T ∧ -tol ≤ g - u * τ ∧ -(u * dt) ≤ g - u * τ ∧ g - u * τ ≤ eps := by
  induction a with
  | start => exact ⟨le_rfl, fun _ => ⟨by linarith, by nlinarith⟩, fun τ h => by cases h⟩
  | fall a hg' hh ih =>
    obtain ⟨h1, h2, -⟩ := ih
    obtain ⟨q1, q2⟩ := hop_pos hdt hh
    obtain ⟨j, hj, h4, -⟩ := hh
    refine ⟨by linarith, fun _ => ⟨by linarith, ?_⟩, fun τ h => by cases h⟩
    nlinarith
  | turn a hg' ih =>
    obtain ⟨h1, h2, -⟩ := ih
    refine ⟨by linarith, fun h => (by cases h), fun τ h => ?_⟩
    injection h with h
    subst h
    obtain ⟨h3, h4⟩ := h2 rfl
    exact ⟨h1, by linarith, h3, h4, hg'⟩
  | leave a ih =>
    obtain ⟨h1, -, h2⟩ := ih
    refine ⟨by linarith, fun h => (by cases h), fun τ h => ?_⟩
    obtain ⟨h3, h4, h5⟩ := h2 τ h
    exact ⟨h3, by linarith, h5⟩

/-- While the ball comes down the time is a fraction of steps. -/
theorem track_grid {k : ℕ} {T : ℝ} {o : Option ℝ} (a : Track dt eps tol g u k T o) (ho : o = none) :
    ∃ c m : ℕ, T = c * dt / 2 ^ m := by
  induction a with
  | start => exact ⟨0, 0, by simp⟩
  | fall a hg' hh ih =>
    obtain ⟨c, m, rfl⟩ := ih rfl
    obtain ⟨j, rfl, -, -⟩ := hh
    refine ⟨c * 2 ^ j + 2 ^ m, m + j, ?_⟩
    push_cast
    rw [pow_add]
    field_simp
  | turn a hg' ih => cases ho
  | leave a ih => cases ho

/-- Off the grid, the times do not change with the start. -/
theorem track_near (hoff : OffGrid dt eps tol g u) {k : ℕ} {T : ℝ} {o : Option ℝ} (a : Track dt eps tol g u k T o) :
    ∀ᶠ p : ℝ × ℝ in 𝓝 (g, u), Track dt eps tol p.1 p.2 k T o := by
  have c1 : ∀ t : ℝ, ContinuousAt (fun p : ℝ × ℝ => p.1 - p.2 * t) (g, u) := fun t => by fun_prop
  have lt : ∀ t x : ℝ, g - u * t < x → ∀ᶠ p : ℝ × ℝ in 𝓝 (g, u), p.1 - p.2 * t < x := fun t x h =>
    (c1 t).eventually (gt_mem_nhds h)
  have gt : ∀ t x : ℝ, x < g - u * t → ∀ᶠ p : ℝ × ℝ in 𝓝 (g, u), x < p.1 - p.2 * t := fun t x h =>
    (c1 t).eventually (lt_mem_nhds h)
  induction a with
  | start => exact Eventually.of_forall fun p => .start
  | @fall k T h a hg' hh ih =>
    have grid' := track_grid (Track.fall a hg' hh) rfl
    obtain ⟨j, hj, h1, h2⟩ := hh
    have e1 := gt T eps hg'
    have e2 : ∀ᶠ p : ℝ × ℝ in 𝓝 (g, u), -tol < p.1 - p.2 * (T + h) := by
      refine gt _ _ (lt_of_le_of_ne (by linarith) ?_)
      obtain ⟨c, m, hc⟩ := grid'
      rw [hc]
      exact (hoff c m).2.symm
    have e3 : ∀ᶠ p : ℝ × ℝ in 𝓝 (g, u), ∀ i ∈ Set.Iio j, p.1 - p.2 * (T + dt / 2 ^ i) < -tol := by
      rw [eventually_all_finite (Set.finite_Iio j)]
      intro i hi
      refine lt _ _ ?_
      have := h2 i hi
      linarith
    filter_upwards [ih, e1, e2, e3] with p q q1 q2 q3
    refine Track.fall q q1 ⟨j, hj, by linarith, fun i hi => ?_⟩
    have := q3 i hi
    linarith
  | @turn k T a hg' ih =>
    obtain ⟨c, m, hc⟩ := track_grid a rfl
    have e1 := lt T eps (lt_of_le_of_ne hg' (by rw [hc]; exact (hoff c m).1))
    filter_upwards [ih, e1] with p q q1
    exact Track.turn q q1.le
  | @leave k T τ a ih =>
    filter_upwards [ih] with p q
    exact Track.leave q

/-- There is a next step. -/
theorem track_next (heps : 0 ≤ eps) (htol : 0 ≤ tol) {k : ℕ} {T : ℝ} {o : Option ℝ}
    (a : Track dt eps tol g u k T o) : ∃ T' o', Track dt eps tol g u (k + 1) T' o' := by
  cases o with
  | none =>
    rcases le_or_gt (g - u * T) eps with h | h
    · exact ⟨_, _, .turn a h⟩
    · obtain ⟨d, hd⟩ := hop_exists (dt := dt) (tol := tol) (g := g - u * T) (u := u) (by linarith)
      exact ⟨_, _, .fall a h hd⟩
  | some τ => exact ⟨_, _, .leave a⟩

theorem track_exists (heps : 0 ≤ eps) (htol : 0 ≤ tol) (k : ℕ) : ∃ T o, Track dt eps tol g u k T o := by
  induction k with
  | zero => exact ⟨_, _, .start⟩
  | succ k ih => obtain ⟨T, o, h⟩ := ih; exact track_next heps htol h

theorem track_turned {k : ℕ} {T τ : ℝ} (a : Track dt eps tol g u k T (some τ)) (n : ℕ) :
    Track dt eps tol g u (k + n) (T + n * dt) (some τ) := by
  induction n with
  | zero => simpa using a
  | succ n ih =>
    have := Track.leave ih
    rw [show T + (n : ℝ) * dt + dt = T + ((n + 1 : ℕ) : ℝ) * dt by push_cast; ring] at this
    exact this

/-- While it comes down, each step takes a full `dt` or half of the rest. -/
theorem track_sinks (hdt : 0 < dt) (hu : 0 < u) (heps : 0 ≤ eps) (htol : 0 ≤ tol) {k : ℕ} {T : ℝ} {o : Option ℝ}
    (a : Track dt eps tol g u k T o) (ho : o = none) :
    ∃ c : ℕ, c ≤ k ∧ u * (c * dt) ≤ u * T ∧ (g - u * T + tol) * 2 ^ (k - c) ≤ g + tol := by
  induction a with
  | start => exact ⟨0, le_rfl, by simp, by simp⟩
  | @fall k T h a hg' hh ih =>
    obtain ⟨c, h1, h2, h3⟩ := ih rfl
    obtain ⟨q1, q2⟩ := hop_pos hdt hh
    have hp : (0 : ℝ) < 2 ^ (k - c) := by positivity
    rcases hop_long hu hh with rfl | hl
    · refine ⟨c + 1, by omega, by push_cast; nlinarith, ?_⟩
      rw [show k + 1 - (c + 1) = k - c by omega]
      nlinarith [mul_pos hu q1]
    · refine ⟨c, by omega, by nlinarith, ?_⟩
      rw [show k + 1 - c = k - c + 1 by omega, pow_succ]
      nlinarith
  | turn a hg' ih => cases ho
  | leave a ih => cases ho

/-- After enough steps the ball has turned round. -/
theorem track_turns (hdt : 0 < dt) (hu : 0 < u) (heps : 0 ≤ eps) (htol : 0 ≤ tol) (hpos : 0 < eps + tol) :
    ∃ N, ∀ k, N ≤ k → ∃ T τ, Track dt eps tol g u k T (some τ) := by
  obtain ⟨c1, hc1⟩ := exists_nat_gt ((g + tol) / (u * dt))
  obtain ⟨c2, hc2⟩ : ∃ c2 : ℕ, (g + tol) / (eps + tol) < 2 ^ c2 := pow_unbounded_of_one_lt _ one_lt_two
  refine ⟨c1 + c2 + 1, fun k hk => ?_⟩
  have key : ∃ k' ≤ k, ∃ T τ, Track dt eps tol g u k' T (some τ) := by
    obtain ⟨T, o, h⟩ := track_exists (dt := dt) (g := g) (u := u) heps htol (c1 + c2)
    cases o with
    | some τ => exact ⟨_, by omega, _, _, h⟩
    | none =>
      rcases le_or_gt (g - u * T) eps with h' | h'
      · exact ⟨_, hk, _, _, .turn h h'⟩
      · exfalso
        obtain ⟨c, q1, q2, q3⟩ := track_sinks hdt hu heps htol h rfl
        have hud : 0 < u * dt := mul_pos hu hdt
        rw [div_lt_iff₀ hud] at hc1
        rw [div_lt_iff₀ hpos] at hc2
        have hc : c < c1 := by
          by_contra hn
          have : (c1 : ℝ) ≤ c := by exact_mod_cast not_lt.1 hn
          nlinarith
        have h2 : (2 : ℝ) ^ c2 ≤ 2 ^ (c1 + c2 - c) := pow_le_pow_right₀ (by norm_num) (by omega)
        have h3 := mul_le_mul_of_nonneg_right h2 hpos.le
        have h4 : (2 : ℝ) ^ (c1 + c2 - c) * (eps + tol) ≤ 2 ^ (c1 + c2 - c) * (g - u * T + tol) :=
          mul_le_mul_of_nonneg_left (by linarith) (by positivity)
        linarith
  obtain ⟨k', hk', T, τ, h⟩ := key
  have := track_turned h (k - k')
  rw [show k' + (k - k') = k by omega] at this
  exact ⟨_, _, this⟩

/-- For a given speed all but countably many heights are off the grid. -/
theorem offGrid_heights (dt eps tol u : ℝ) : {g | ¬ OffGrid dt eps tol g u}.Countable := by
  have : {g | ¬ OffGrid dt eps tol g u} ⊆ ⋃ a : ℕ, ⋃ m : ℕ, {eps + u * (a * dt / 2 ^ m), -tol + u * (a * dt / 2 ^ m)} := by
    intro g hg
    simp only [Set.mem_ofPred_eq, OffGrid, not_forall] at hg
    obtain ⟨a, m, h⟩ := hg
    simp only [Set.mem_iUnion]
    refine ⟨a, m, ?_⟩
    rw [not_and_or, not_not, not_not] at h
    rcases h with h | h
    · left; linarith
    · right; show g = _; linarith
  refine Set.Countable.mono this (Set.countable_iUnion fun a => Set.countable_iUnion fun m => ?_)
  exact (Set.toFinite _).countable

/-- For a given height above the contact distance all but countably many speeds are off the grid. -/
theorem offGrid_speeds (dt eps tol g : ℝ) (h1 : g ≠ eps) (h2 : g ≠ -tol) : {u | ¬ OffGrid dt eps tol g u}.Countable := by
  have : {u | ¬ OffGrid dt eps tol g u} ⊆ ⋃ a : ℕ, ⋃ m : ℕ,
      {(g - eps) / (a * dt / 2 ^ m), (g + tol) / (a * dt / 2 ^ m)} := by
    intro u hu
    simp only [Set.mem_ofPred_eq, OffGrid, not_forall] at hu
    obtain ⟨a, m, h⟩ := hu
    simp only [Set.mem_iUnion]
    refine ⟨a, m, ?_⟩
    rw [not_and_or, not_not, not_not] at h
    have hne : (a * dt / 2 ^ m : ℝ) ≠ 0 := by
      intro h0
      rw [h0, mul_zero, sub_zero] at h
      rcases h with h | h
      · exact h1 h
      · exact h2 h
    rcases h with h | h
    · left; rw [eq_div_iff hne]; linarith
    · right; show u = _; rw [eq_div_iff hne]; linarith
  refine Set.Countable.mono this (Set.countable_iUnion fun a => Set.countable_iUnion fun m => ?_)
  exact (Set.toFinite _).countable

/-- The height of the ball at the time `T`, with restitution `e`. -/
def heightAt (e g u T : ℝ) : Option ℝ → ℝ
  | none => g - u * T
  | some τ => g - u * τ + e * u * (T - τ)

/-- The downward velocity. -/
def speedAt (e u : ℝ) : Option ℝ → ℝ
  | none => u
  | some _ => -(e * u)

/-- The ball keeps close to the path of an ideal one. -/
theorem track_accurate {e : ℝ} (he : 0 ≤ e) (hdt : 0 < dt) (hu : 0 < u) (hg : 0 ≤ g) (htol : 0 ≤ tol) (heps : 0 ≤ eps)
    {k : ℕ} {T : ℝ} {o : Option ℝ} (a : Track dt eps tol g u k T o) :
    |heightAt e g u T o - bouncePath e g u T| ≤ (1 + e) * max eps tol := by
  obtain ⟨h1, h2, h3⟩ := track_bounds hdt hu hg htol heps a
  have m1 : eps ≤ max eps tol := le_max_left _ _
  have m2 : tol ≤ max eps tol := le_max_right _ _
  have hm : 0 ≤ max eps tol := heps.trans m1
  unfold bouncePath
  cases o with
  | none =>
    obtain ⟨q1, -⟩ := h2 rfl
    simp only [heightAt]
    split_ifs with h
    · rw [sub_self, abs_zero]; positivity
    · rw [abs_le]; constructor <;> nlinarith
  | some τ =>
    obtain ⟨q1, q2, q3, q4, q5⟩ := h3 τ rfl
    simp only [heightAt]
    have hT : u * τ ≤ u * T := mul_le_mul_of_nonneg_left q2 hu.le
    split_ifs with h
    · rw [abs_le]; constructor <;> nlinarith
    · rw [abs_le]; constructor <;> nlinarith

end LcpPhysics
