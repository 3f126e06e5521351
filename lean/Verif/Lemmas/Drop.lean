import Verif.Spec.Drop
import Verif.Lemmas.Bounce
import Verif.Props.Bounce

/-! # The recursion of a bouncing ball under its weight -/

noncomputable section

namespace LcpPhysics
open Spec

variable {e eps tol γ h g u d : ℝ}

theorem turned_cases (e eps a g u : ℝ) :
    turned e eps a g u = u + a ∧ (eps < g ∨ u + a ≤ -(e * u)) ∨ g ≤ eps ∧ turned e eps a g u = -(e * u) ∧ -(e * u) ≤ u + a := by
  unfold turned
  split_ifs with h
  · rcases le_total (u + a) (-(e * u)) with h' | h'
    · exact Or.inl ⟨min_eq_left h', Or.inr h'⟩
    · exact Or.inr ⟨h, min_eq_right h', h'⟩
  · exact Or.inl ⟨rfl, Or.inl (not_le.1 h)⟩

/-- One step: the energy grows by the weight's work for the time cut off, and at a bounce it loses what the restitution takes. -/
theorem energy_step (e eps γ h g u d : ℝ) :
    hopEnergy γ h (g - turned e eps (h * γ) g u * d) (turned e eps (h * γ) g u) =
        hopEnergy γ h g u + γ * (h - d) * turned e eps (h * γ) g u ∨
    g ≤ eps ∧ turned e eps (h * γ) g u = -(e * u) ∧ -(e * u) ≤ u + h * γ ∧
      hopEnergy γ h (g - turned e eps (h * γ) g u * d) (turned e eps (h * γ) g u) =
        hopEnergy γ h g u + γ * (h - d) * turned e eps (h * γ) g u - (1 - e) * u * ((1 + e) * u + h * γ) / 2 := by
  rcases turned_cases e eps (h * γ) g u with ⟨h1, -⟩ | ⟨h0, h1, h2⟩
  · left; rw [h1]; unfold hopEnergy; ring
  · right; refine ⟨h0, h1, h2, ?_⟩; rw [h1]; unfold hopEnergy; ring

theorem energy_elastic (eps γ h g u d : ℝ) :
    hopEnergy γ h (g - turned 1 eps (h * γ) g u * d) (turned 1 eps (h * γ) g u) = hopEnergy γ h g u + γ * (h - d) * turned 1 eps (h * γ) g u := by
  rcases energy_step 1 eps γ h g u d with h1 | ⟨-, -, -, h1⟩
  · exact h1
  · rw [h1]; ring

theorem cut_down (hg : 0 ≤ g + tol) (hop : Hop h tol g u d) : d = h ∨ 0 < u * h := by
  obtain ⟨j, rfl, -, h2⟩ := hop
  rcases j with _ | j
  · left; simp
  · right
    have := h2 0 (by omega)
    simp at this
    linarith

/-- The bound of the energy. -/
def energyCap (γ h eps M : ℝ) : ℝ := max M (γ * eps + 3 / 8 * (γ * h) ^ 2)

/-- A bounce of a ball that moves upwards leaves it with little energy. -/
theorem slow_bounce (he : 0 ≤ e) (he1 : e ≤ 1) (hγ : 0 ≤ γ) (hh : 0 ≤ h) (hg : g ≤ eps) (hu : u ≤ 0) (h2 : -(e * u) ≤ u + h * γ) :
    hopEnergy γ h g u - (1 - e) * u * ((1 + e) * u + h * γ) / 2 ≤ γ * eps + 3 / 8 * (γ * h) ^ 2 ∧ hopEnergy γ h g u ≤ γ * eps := by
  unfold hopEnergy
  have ha : 0 ≤ γ * h := mul_nonneg hγ hh
  have hg' : γ * g ≤ γ * eps := mul_le_mul_of_nonneg_left hg hγ
  have h3 : (1 + e) * (-u) ≤ γ * h := by linarith
  set v := -u with hv
  have hv0 : 0 ≤ v := by linarith
  have hu' : u = -v := by rw [hv]; ring
  rw [hu']
  set a := γ * h with ha'
  have hha : h * γ = a := mul_comm _ _
  rw [hha]
  constructor
  · have hev : e * v ≤ a / 2 := by
      have : 2 * (e * v) ≤ (1 + e) * v := by nlinarith
      linarith
    have hev0 : 0 ≤ e * v := mul_nonneg he hv0
    have h5 : (e * v) ^ 2 ≤ (a / 2) ^ 2 := by gcongr
    have h6 : a * (e * v) ≤ a * (a / 2) := mul_le_mul_of_nonneg_left hev ha
    nlinarith
  · have : v ≤ a := by nlinarith
    nlinarith

theorem energy_capped (he : 0 ≤ e) (he1 : e ≤ 1) (hγ : 0 ≤ γ) (hh : 0 ≤ h) :
    hopEnergy γ h (g - turned e eps (h * γ) g u * h) (turned e eps (h * γ) g u) ≤ energyCap γ h eps (hopEnergy γ h g u) := by
  unfold energyCap
  rcases energy_step e eps γ h g u h with h1 | ⟨hg, -, h2, h1⟩
  · rw [h1, sub_self, mul_zero, zero_mul, add_zero]; exact le_max_left _ _
  · rw [h1, sub_self, mul_zero, zero_mul, add_zero]
    rcases le_total u 0 with hu | hu
    · exact (slow_bounce he he1 hγ hh hg hu h2).1.trans (le_max_right _ _)
    · refine le_trans ?_ (le_max_left _ _)
      have : 0 ≤ (1 - e) * u * ((1 + e) * u + h * γ) := by
        have : 0 ≤ 1 - e := by linarith
        positivity
      linarith

/-- How deep the ball can get from here without a new fall. -/
def Kept (e γ h L g u : ℝ) : Prop := L ≤ g ∧ (u < 0 → L ≤ g - h * min (u + h * γ) (-(e * u)))

/-- The speed of the fall to the contact distance. -/
theorem fall_speed (hγ : 0 ≤ γ) (hh : 0 ≤ h) {M : ℝ} (hM : hopEnergy γ h g u ≤ M) (hcap : γ * eps + 3 / 8 * (γ * h) ^ 2 ≤ M) (hg : eps < g) :
    u + h * γ ≤ dropSpeed γ h eps M := by
  unfold dropSpeed
  unfold hopEnergy at hM
  have hg' : γ * eps ≤ γ * g := mul_le_mul_of_nonneg_left hg.le hγ
  have : u + h * γ - γ * h / 2 ≤ √((γ * h) ^ 2 / 4 + 2 * (M - γ * eps)) := by
    refine Real.le_sqrt_of_sq_le ?_
    have e1 : (u + h * γ - γ * h / 2) ^ 2 = u ^ 2 + γ * h * u + (γ * h) ^ 2 / 4 := by ring
    rw [e1]
    linarith
  linarith

/-- In a step that is not cut the ball stays kept. -/
theorem kept_step (he : 0 ≤ e) (he1 : e ≤ 1) (hγ : 0 ≤ γ) (hh : 0 ≤ h) {M : ℝ} (hM : hopEnergy γ h g u ≤ M)
    (hcap : γ * eps + 3 / 8 * (γ * h) ^ 2 ≤ M) (hk : Kept e γ h (eps - h * dropSpeed γ h eps M) g u) :
    Kept e γ h (eps - h * dropSpeed γ h eps M) (g - turned e eps (h * γ) g u * h) (turned e eps (h * γ) g u) := by
  set W := dropSpeed γ h eps M
  obtain ⟨k1, k2⟩ := hk
  have ha : 0 ≤ h * γ := mul_nonneg hh hγ
  -- an upward speed never costs more height than it gives
  have up : ∀ v, v < 0 → h * min (v + h * γ) (-(e * v)) ≤ -(v * h) := by
    intro v hv
    have h1 : min (v + h * γ) (-(e * v)) ≤ -(e * v) := min_le_right _ _
    have h2 : -(e * v) ≤ -v := by nlinarith
    have := mul_le_mul_of_nonneg_left (h1.trans h2) hh
    linarith
  have fin : ∀ v, (v < 0 → eps - h * W ≤ g) → (0 ≤ v → eps - h * W ≤ g - v * h) → Kept e γ h (eps - h * W) (g - v * h) v := by
    intro v h1 h2
    rcases lt_or_ge v 0 with hv | hv
    · have := h1 hv
      refine ⟨by nlinarith, fun _ => by linarith [up v hv]⟩
    · exact ⟨h2 hv, fun h' => absurd h' (not_lt.2 hv)⟩
  refine fin _ (fun _ => k1) (fun hv => ?_)
  by_cases hz : g ≤ eps
  · have ht : turned e eps (h * γ) g u = min (u + h * γ) (-(e * u)) := by unfold turned; rw [if_pos hz]
    rcases lt_or_ge u 0 with hu | hu
    · have := k2 hu
      rw [ht]; linarith
    · have h1 : turned e eps (h * γ) g u ≤ 0 := by
        rw [ht]; exact (min_le_right _ _).trans (by nlinarith)
      nlinarith
  · push Not at hz
    have ht : turned e eps (h * γ) g u = u + h * γ := by unfold turned; rw [if_neg (not_le.2 hz)]
    rw [ht]
    have := mul_le_mul_of_nonneg_left (fall_speed hγ hh hM hcap hz) hh
    linarith

/-- A kept ball is not cut: the next height is above the floor by `eps - h W`. -/
theorem kept_room (he : 0 ≤ e) (he1 : e ≤ 1) (hγ : 0 ≤ γ) (hh : 0 ≤ h) {M : ℝ} (hM : hopEnergy γ h g u ≤ M)
    (hcap : γ * eps + 3 / 8 * (γ * h) ^ 2 ≤ M) (hk : Kept e γ h (eps - h * dropSpeed γ h eps M) g u) :
    turned e eps (h * γ) g u * h ≤ g - (eps - h * dropSpeed γ h eps M) := by
  have := (kept_step he he1 hγ hh hM hcap hk).1
  linarith

/-! ## Runs without cuts -/

/-- Height and downward speed after `k` full steps. -/
def hopState (e eps γ h g u : ℝ) : ℕ → ℝ × ℝ
  | 0 => (g, u)
  | k + 1 =>
    let s := hopState e eps γ h g u k
    (s.1 - turned e eps (h * γ) s.1 s.2 * h, turned e eps (h * γ) s.1 s.2)

theorem hopState_capped (he : 0 ≤ e) (he1 : e ≤ 1) (hγ : 0 ≤ γ) (hh : 0 ≤ h) {M : ℝ} (hM : hopEnergy γ h g u ≤ M)
    (hcap : γ * eps + 3 / 8 * (γ * h) ^ 2 ≤ M) (k : ℕ) :
    hopEnergy γ h (hopState e eps γ h g u k).1 (hopState e eps γ h g u k).2 ≤ M := by
  induction k with
  | zero => exact hM
  | succ k ih => exact (energy_capped he he1 hγ hh).trans (max_le ih hcap)

theorem hopState_add (e eps γ h g u : ℝ) (m k : ℕ) :
    hopState e eps γ h g u (m + k) =
      hopState e eps γ h (hopState e eps γ h g u m).1 (hopState e eps γ h g u m).2 k := by
  induction k with
  | zero => rfl
  | succ k ih => rw [← Nat.add_assoc, hopState, ih, hopState]

theorem hopState_kept (he : 0 ≤ e) (he1 : e ≤ 1) (hγ : 0 ≤ γ) (hh : 0 ≤ h) {M : ℝ} (hM : hopEnergy γ h g u ≤ M)
    (hcap : γ * eps + 3 / 8 * (γ * h) ^ 2 ≤ M) (hk : Kept e γ h (eps - h * dropSpeed γ h eps M) g u) (k : ℕ) :
    Kept e γ h (eps - h * dropSpeed γ h eps M) (hopState e eps γ h g u k).1 (hopState e eps γ h g u k).2 := by
  induction k with
  | zero => exact hk
  | succ k ih => exact kept_step he he1 hγ hh (hopState_capped he he1 hγ hh hM hcap k) hcap ih

/-- A ball that is above the contact distance is kept. -/
theorem kept_start (he : 0 ≤ e) (he1 : e ≤ 1) (hγ : 0 ≤ γ) (hh : 0 ≤ h) {M : ℝ} (hcap : γ * eps + 3 / 8 * (γ * h) ^ 2 ≤ M)
    (hg : eps ≤ g) : Kept e γ h (eps - h * dropSpeed γ h eps M) g u := by
  have ha : 0 ≤ γ * h := mul_nonneg hγ hh
  have hW : γ * h ≤ dropSpeed γ h eps M := by
    unfold dropSpeed
    have : γ * h / 2 ≤ √((γ * h) ^ 2 / 4 + 2 * (M - γ * eps)) := by
      refine Real.le_sqrt_of_sq_le ?_
      nlinarith [sq_nonneg (γ * h)]
    linarith
  have hhW := mul_le_mul_of_nonneg_left hW hh
  have h0 : 0 ≤ h * (γ * h) := mul_nonneg hh ha
  refine ⟨by linarith, fun hu => ?_⟩
  have h1 : min (u + h * γ) (-(e * u)) ≤ γ * h := (min_le_left _ _).trans (by linarith)
  have := mul_le_mul_of_nonneg_left h1 hh
  linarith

/-- The speeds of a ball of bounded energy. -/
theorem speed_capped {M L : ℝ} (hγ : 0 ≤ γ) (hM : hopEnergy γ h g u ≤ M) (hL : L ≤ g) :
    |u + γ * h / 2| ≤ √((γ * h) ^ 2 / 4 + 2 * (M - γ * L)) := by
  refine Real.abs_le_sqrt ?_
  unfold hopEnergy at hM
  have := mul_le_mul_of_nonneg_left hL hγ
  have e1 : (u + γ * h / 2) ^ 2 = u ^ 2 + γ * h * u + (γ * h) ^ 2 / 4 := by ring
  rw [e1]; linarith

/-- With a restitution below 1 the energy comes down to what a ball at rest at the contact distance has, but for `3/8 (γ h)²`. -/
theorem hopState_settles (he : 0 ≤ e) (he1 : e < 1) (hγ : 0 < γ) (hh : 0 < h) {M : ℝ} (hM : hopEnergy γ h g u ≤ M)
    (hcap : γ * eps + 3 / 8 * (γ * h) ^ 2 ≤ M) (hk : Kept e γ h (eps - h * dropSpeed γ h eps M) g u) :
    ∃ N, ∀ k ≥ N, hopEnergy γ h (hopState e eps γ h g u k).1 (hopState e eps γ h g u k).2 ≤ γ * eps + 3 / 8 * (γ * h) ^ 2 := by
  set C := γ * eps + 3 / 8 * (γ * h) ^ 2 with hC
  set s := hopState e eps γ h g u with hs
  have ha : 0 < γ * h := mul_pos hγ hh
  suffices hN : ∃ N, hopEnergy γ h (s N).1 (s N).2 ≤ C by
    obtain ⟨N, hN⟩ := hN
    refine ⟨N, fun k hk => ?_⟩
    obtain ⟨j, rfl⟩ := Nat.exists_eq_add_of_le hk
    rw [hs, hopState_add]
    exact hopState_capped he he1.le hγ.le hh.le hN le_rfl j
  by_contra hn
  push Not at hn
  set L := eps - h * dropSpeed γ h eps M
  set R := √((γ * h) ^ 2 / 4 + 2 * (M - γ * L))
  set δ := (1 - e) * (1 + e) * (γ * h) ^ 2 / 8 with hδ
  have hδ0 : 0 < δ := by
    have : 0 < 1 - e := by linarith
    positivity
  set B := (2 * R + γ * h) / δ with hB
  have hBδ : B * δ = 2 * R + γ * h := by rw [hB]; field_simp
  have hR : ∀ k, |(s k).2 + γ * h / 2| ≤ R := fun k =>
    speed_capped hγ.le (hopState_capped he he1.le hγ.le hh.le hM hcap k) (hopState_kept he he1.le hγ.le hh.le hM hcap hk k).1
  have hR0 : 0 ≤ R := Real.sqrt_nonneg _
  have hB0 : 0 ≤ B := by positivity
  have grow : ∀ k, (s k).2 - B * hopEnergy γ h (s k).1 (s k).2 + γ * h ≤
      (s (k + 1)).2 - B * hopEnergy γ h (s (k + 1)).1 (s (k + 1)).2 := by
    intro k
    have e1 : (s (k + 1)).1 = (s k).1 - turned e eps (h * γ) (s k).1 (s k).2 * h := rfl
    have e2 : (s (k + 1)).2 = turned e eps (h * γ) (s k).1 (s k).2 := rfl
    rcases turned_cases e eps (h * γ) (s k).1 (s k).2 with ⟨h1, -⟩ | ⟨h0, h1, h2⟩
    · have : hopEnergy γ h (s (k + 1)).1 (s (k + 1)).2 = hopEnergy γ h (s k).1 (s k).2 := by
        rw [e1, e2, h1]; unfold hopEnergy; ring
      rw [this, e2, h1]; linarith
    · have hu : γ * h / 2 < (s k).2 := by
        by_contra hlt
        push Not at hlt
        have hk' := hn k
        rcases le_total (s k).2 0 with hu0 | hu0
        · have := (slow_bounce he he1.le hγ.le hh.le h0 hu0 h2).2
          have : 0 ≤ (γ * h) ^ 2 := sq_nonneg _
          linarith
        · unfold hopEnergy at hk'
          have := mul_le_mul_of_nonneg_left h0 hγ.le
          have q1 : (s k).2 ^ 2 ≤ (γ * h / 2) ^ 2 := by gcongr
          have q2 := mul_le_mul_of_nonneg_left hlt ha.le
          nlinarith
      have hE : hopEnergy γ h (s (k + 1)).1 (s (k + 1)).2 =
          hopEnergy γ h (s k).1 (s k).2 - (1 - e) * (s k).2 * ((1 + e) * (s k).2 + h * γ) / 2 := by
        rw [e1, e2, h1]; unfold hopEnergy; ring
      have hl : δ ≤ (1 - e) * (s k).2 * ((1 + e) * (s k).2 + h * γ) / 2 := by
        have h1e : 0 ≤ 1 - e := by linarith
        have q1 : (1 + e) * (γ * h / 2) ≤ (1 + e) * (s k).2 + h * γ := by nlinarith
        have q2 : γ * h / 2 * ((1 + e) * (γ * h / 2)) ≤ (s k).2 * ((1 + e) * (s k).2 + h * γ) :=
          mul_le_mul hu.le q1 (by positivity) (by linarith)
        have q3 := mul_le_mul_of_nonneg_left q2 h1e
        rw [hδ]; linarith
      have q4 := mul_le_mul_of_nonneg_left hl hB0
      have q5 := abs_le.1 (hR k)
      have q6 := abs_le.1 (hR (k + 1))
      rw [hE]
      linarith
  have lin : ∀ k : ℕ, (s 0).2 - B * hopEnergy γ h (s 0).1 (s 0).2 + k * (γ * h) ≤ (s k).2 - B * hopEnergy γ h (s k).1 (s k).2 := by
    intro k
    induction k with
    | zero => simp
    | succ k ih => push_cast; linarith [grow k]
  obtain ⟨k, hk'⟩ := exists_nat_gt ((R - B * C - ((s 0).2 - B * hopEnergy γ h (s 0).1 (s 0).2)) / (γ * h))
  rw [div_lt_iff₀ ha] at hk'
  have q1 := lin k
  have q2 := (abs_le.1 (hR k)).2
  have q3 := mul_le_mul_of_nonneg_left (hn k).le hB0
  linarith

/-- Where the ball turns round its height is its energy. -/
theorem peak_height (hu : u ≤ 0) (hu' : -(γ * h) ≤ u) : hopEnergy γ h g u ≤ γ * g := by
  unfold hopEnergy
  nlinarith

/-- The energy bounds the height. -/
theorem height_capped : γ * g ≤ hopEnergy γ h g u + (γ * h) ^ 2 / 8 := by
  unfold hopEnergy
  nlinarith [sq_nonneg (u + γ * h / 2)]

end LcpPhysics
