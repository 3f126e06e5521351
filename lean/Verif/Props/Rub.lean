import Verif.Props.Impact
import Verif.Spec.Rub

/-!
# C97: a round body in one contact with friction: closed form of the outcome

A concrete scene that meets the hypotheses is at the end of `Props/Rolling.lean`.
-/

noncomputable section

namespace LcpPhysics
open Spec

/-- Momentum balance of a body that is held by no joint and touched by contact `k` only, friction included. -/
theorem body_balance_dyn {bs : List Body} {js : List Joint} {cs : List Contact} {f : ℕ → V3} {v v' l : Vec}
    {pn pt : ℕ → ℝ} (hd : ∀ u : Vec, momentumPower bs u v' = momentumPower bs u v + forcePower bs.length f u +
      jointPower js l u + contactPower cs pn pt u) {i k : ℕ} (hi : i < bs.length) (hk : k < cs.length)
    (hj : ∀ j ∈ js, j.i1 ≠ i ∧ i ∉ j.i2)
    (hc : ∀ (q : ℕ) (hq : q < cs.length), q ≠ k → cs[q].i1 ≠ i ∧ cs[q].i2 ≠ i) (u : Vec) :
    (bodyAt bs i).ang_inertia * v' (3 * i) * u (3 * i) +
      (bodyAt bs i).mass * (v' (3 * i + 1) * u (3 * i + 1) + v' (3 * i + 2) * u (3 * i + 2)) =
    (bodyAt bs i).ang_inertia * v (3 * i) * u (3 * i) +
      (bodyAt bs i).mass * (v (3 * i + 1) * u (3 * i + 1) + v (3 * i + 2) * u (3 * i + 2)) +
      ((f i).r * u (3 * i) + (f i).x * u (3 * i + 1) + (f i).y * u (3 * i + 2)) +
      (pn k * normalVel cs[k] (onlyOn (· = i) u) + pt k * slipVel cs[k] (onlyOn (· = i) u)) := by
  have hd := hd (onlyOn (· = i) u)
  have hj0 : jointPower js l (onlyOn (· = i) u) = 0 := by
    apply jointPower_zero
    intro x hx
    obtain ⟨j, hjm, hx⟩ := List.mem_flatMap.1 hx
    refine jointVel_out (S := (· = i)) ?_ u x hx
    simp only [holds, decide_eq_true_eq, not_or, not_exists, not_and]
    exact ⟨(hj j hjm).1, fun k hk hki => (hj j hjm).2 (hki ▸ hk)⟩
  have hc0 : contactPower cs pn pt (onlyOn (· = i) u) =
      pn k * normalVel cs[k] (onlyOn (· = i) u) + pt k * slipVel cs[k] (onlyOn (· = i) u) := by
    unfold contactPower
    rw [Finset.sum_eq_single k]
    · rw [List.getElem?_eq_getElem hk]
    · intro q hq hqk
      have hq := Finset.mem_range.1 hq
      rw [List.getElem?_eq_getElem hq]
      have := hc q hq hqk
      have ht : ¬ touches (· = i) cs[q] = true := by simpa [touches] using this
      simp [normalVel, slipVel, contactVel_out ht, Spec.inner]
    · intro hn; exact absurd (Finset.mem_range.2 hk) hn
  have hs : (Finset.range bs.length).filter (· = i) = {i} := by
    ext k
    simp only [Finset.mem_filter, Finset.mem_range, Finset.mem_singleton]
    constructor
    · exact fun h => h.2
    · rintro rfl; exact ⟨hi, rfl⟩
  rw [hj0, hc0, momentumPower_onlyOn, momentumPower_onlyOn, forcePower_onlyOn, hs] at hd
  simp only [Finset.sum_singleton, twist, add_zero] at hd
  exact hd

/-- The same for an outcome of the contact law. -/
theorem body_balance_rub {bs : List Body} {js : List Joint} {cs : List Contact} {f : ℕ → V3} {v v' l : Vec}
    {pn a b g : ℕ → ℝ} (h : ContactLaw bs js cs f v v' l pn a b g) {i k : ℕ} (hi : i < bs.length) (hk : k < cs.length)
    (hj : ∀ j ∈ js, j.i1 ≠ i ∧ i ∉ j.i2)
    (hc : ∀ (q : ℕ) (hq : q < cs.length), q ≠ k → cs[q].i1 ≠ i ∧ cs[q].i2 ≠ i) (u : Vec) :
    (bodyAt bs i).ang_inertia * v' (3 * i) * u (3 * i) +
      (bodyAt bs i).mass * (v' (3 * i + 1) * u (3 * i + 1) + v' (3 * i + 2) * u (3 * i + 2)) =
    (bodyAt bs i).ang_inertia * v (3 * i) * u (3 * i) +
      (bodyAt bs i).mass * (v (3 * i + 1) * u (3 * i + 1) + v (3 * i + 2) * u (3 * i + 2)) +
      ((f i).r * u (3 * i) + (f i).x * u (3 * i + 1) + (f i).y * u (3 * i + 2)) +
      (pn k * normalVel cs[k] (onlyOn (· = i) u) + (a k - b k) * slipVel cs[k] (onlyOn (· = i) u)) :=
  body_balance_dyn h.dynamics hi hk hj hc u

theorem tangent_neg (n : V2) : tangent (-n) = -tangent n := by
  ext <;> simp [tangent]

/-- What the contact sees of the body's velocity. -/
theorem presses_vel {c : Contact} {v v' : Vec} {i : ℕ} {ν : V2} {ρ : ℝ} (hν : Spec.inner ν ν = 1)
    (h : PressesOn c v v' i ν ρ) (u : Vec) (hu : (c.i1 ≠ i → twist u c.i1 = 0) ∧ (c.i2 ≠ i → twist u c.i2 = 0)) :
    normalVel c u = lift ν (twist u i) ∧ slipVel c u = slip ν ρ (twist u i) := by
  simp only [Spec.inner] at hν
  rcases h with ⟨rfl, h2, hn, hp, -, -⟩ | ⟨rfl, h2, hn, hp, -, -⟩
  · have := hu.2 h2
    unfold normalVel slipVel contactVel lift slip
    rw [this, hn, hp, pointVel_zero, sub_zero]
    simp only [Spec.inner, pointVel, tangent, Prod.smul_fst, Prod.smul_snd, smul_eq_mul]
    constructor
    · ring
    · linear_combination ρ * (twist u c.i1).r * hν
  · have := hu.1 h2
    unfold normalVel slipVel contactVel lift slip
    rw [this, hn, hp, pointVel_zero, zero_sub, tangent_neg]
    simp only [Spec.inner, pointVel, tangent, Prod.smul_fst, Prod.smul_snd, smul_eq_mul, Prod.fst_neg, Prod.snd_neg]
    constructor
    · ring
    · linear_combination ρ * (twist u c.i2).r * hν

/-- Coulomb friction in one variable: the tangential impulse stops the slip if it can. -/
theorem coulomb_scalar {K σ μ P a b g : ℝ} (hK : 0 < K) (ha : 0 ≤ a) (hb : 0 ≤ b)
    (h1 : 0 ≤ g + (σ + K * (a - b))) (h2 : a * (g + (σ + K * (a - b))) = 0)
    (h3 : 0 ≤ g - (σ + K * (a - b))) (h4 : b * (g - (σ + K * (a - b))) = 0)
    (h5 : 0 ≤ μ * P - (a + b)) (h6 : g * (μ * P - (a + b)) = 0) :
    a - b = clampTo (μ * P) (-σ / K) := by
  unfold clampTo
  set s := σ + K * (a - b) with hs
  have e : -σ / K = (a - b) - s / K := by rw [hs]; field_simp; ring
  rcases lt_trichotomy s 0 with h | h | h
  · have hb0 : b = 0 := by
      rcases mul_eq_zero.1 h4 with h' | h'
      · exact h'
      · linarith
    have hg : g ≠ 0 := by
      intro h0; rw [h0] at h1; linarith
    have : μ * P - (a + b) = 0 := (mul_eq_zero.1 h6).resolve_left hg
    have hd : s / K ≤ 0 := div_nonpos_of_nonpos_of_nonneg h.le hK.le
    rw [e, hb0, min_eq_left (by linarith), max_eq_right (by linarith)]
    linarith
  · rw [h] at e
    rw [zero_div, sub_zero] at e
    rw [e, min_eq_right (by linarith), max_eq_right (by linarith)]
  · have ha0 : a = 0 := by
      rcases mul_eq_zero.1 h2 with h' | h'
      · exact h'
      · linarith
    have hg : g ≠ 0 := by
      intro h0; rw [h0] at h3; linarith
    have : μ * P - (a + b) = 0 := (mul_eq_zero.1 h6).resolve_left hg
    have hd : 0 ≤ s / K := by positivity
    rw [e, ha0, min_eq_right (by linarith), max_eq_left (by linarith)]
    linarith

/-- C97: a round body in one contact with a resting body, with friction.  The normal impulse is the frictionless one;
the tangential impulse is what would stop the slip, cut off at `μ` times the normal impulse; the body is pushed by both
at the contact point. -/
theorem C97_rub (bs : List Body) (js : List Joint) (cs : List Contact) (f : ℕ → V3) (v v' l : Vec)
    (pn a b g : ℕ → ℝ) (h : ContactLaw bs js cs f v v' l pn a b g) (k : ℕ) (hk : k < cs.length) (i : ℕ)
    (hi : i < bs.length) (ν : V2) (ρ : ℝ) (hν : Spec.inner ν ν = 1) (hp : PressesOn cs[k] v v' i ν ρ)
    (hj : ∀ j ∈ js, j.i1 ≠ i ∧ i ∉ j.i2)
    (hc : ∀ (q : ℕ) (hq : q < cs.length), q ≠ k → cs[q].i1 ≠ i ∧ cs[q].i2 ≠ i)
    (hm : 0 < (bodyAt bs i).mass ∧ 0 < (bodyAt bs i).ang_inertia) :
    let u := freeTwist bs f v i
    let P := max 0 (-((bodyAt bs i).mass * (lift ν u + meanRestitution bs cs[k] * lift ν (twist v i))))
    let Q := clampTo (meanFriction bs cs[k] * P)
      (-slip ν ρ u / (1 / (bodyAt bs i).mass + ρ ^ 2 / (bodyAt bs i).ang_inertia))
    pn k = P ∧ a k - b k = Q ∧ twist v' i = rubbed (bodyAt bs i).mass (bodyAt bs i).ang_inertia ν ρ P Q u := by
  intro u P Q
  obtain ⟨hm, hI⟩ := hm
  set c := cs[k] with hcdef
  have hout : ∀ x : Vec, (c.i1 ≠ i → twist (onlyOn (· = i) x) c.i1 = 0) ∧
      (c.i2 ≠ i → twist (onlyOn (· = i) x) c.i2 = 0) := by
    intro x
    constructor <;> intro hne <;> rw [twist_onlyOn, if_neg hne]
  have hon : ∀ x : Vec, twist (onlyOn (· = i) x) i = twist x i := fun x => by rw [twist_onlyOn, if_pos rfl]
  have hrv : (c.i1 ≠ i → twist v c.i1 = 0) ∧ (c.i2 ≠ i → twist v c.i2 = 0) := by
    rcases hp with ⟨h1, h2, -, -, h3, -⟩ | ⟨h1, h2, -, -, h3, -⟩
    · exact ⟨fun h => absurd h1 h, fun _ => h3⟩
    · exact ⟨fun _ => h3, fun h => absurd h1 h⟩
  have hrv' : (c.i1 ≠ i → twist v' c.i1 = 0) ∧ (c.i2 ≠ i → twist v' c.i2 = 0) := by
    rcases hp with ⟨h1, h2, -, -, -, h3⟩ | ⟨h1, h2, -, -, -, h3⟩
    · exact ⟨fun h => absurd h1 h, fun _ => h3⟩
    · exact ⟨fun _ => h3, fun h => absurd h1 h⟩
  have key : ∀ x : Vec, (bodyAt bs i).ang_inertia * v' (3 * i) * x (3 * i) +
      (bodyAt bs i).mass * (v' (3 * i + 1) * x (3 * i + 1) + v' (3 * i + 2) * x (3 * i + 2)) =
    (bodyAt bs i).ang_inertia * v (3 * i) * x (3 * i) +
      (bodyAt bs i).mass * (v (3 * i + 1) * x (3 * i + 1) + v (3 * i + 2) * x (3 * i + 2)) +
      ((f i).r * x (3 * i) + (f i).x * x (3 * i + 1) + (f i).y * x (3 * i + 2)) +
      (pn k * lift ν (twist x i) + (a k - b k) * slip ν ρ (twist x i)) := by
    intro x
    have := body_balance_rub h hi hk hj hc x
    rw [← hcdef, (presses_vel hν hp _ (hout x)).1, (presses_vel hν hp _ (hout x)).2, hon] at this
    exact this
  have k1 := key fun k => if k = 3 * i then 1 else 0
  have k2 := key fun k => if k = 3 * i + 1 then 1 else 0
  have k3 := key fun k => if k = 3 * i + 2 then 1 else 0
  have q1 : 3 * i + 1 ≠ 3 * i := by omega
  have q2 : 3 * i + 2 ≠ 3 * i := by omega
  have q3 : 3 * i ≠ 3 * i + 1 := by omega
  have q4 : 3 * i + 2 ≠ 3 * i + 1 := by omega
  have q5 : 3 * i ≠ 3 * i + 2 := by omega
  have q6 : 3 * i + 1 ≠ 3 * i + 2 := by omega
  simp only [if_true, if_neg q1, if_neg q2, if_neg q3, if_neg q4, if_neg q5, if_neg q6, lift, slip, twist, tangent,
    Spec.inner] at k1 k2 k3
  have hv : twist v' i = rubbed (bodyAt bs i).mass (bodyAt bs i).ang_inertia ν ρ (pn k) (a k - b k) u := by
    simp only [twist, rubbed, u, freeTwist, tangent]
    refine V3.ext ?_ ?_ ?_ <;> simp only <;> field_simp <;> linarith
  have hν' := hν
  simp only [Spec.inner] at hν'
  have hl : lift ν (twist v' i) = lift ν u + pn k / (bodyAt bs i).mass := by
    rw [hv]
    simp only [lift, rubbed, tangent, Spec.inner]
    linear_combination (pn k / (bodyAt bs i).mass) * hν'
  have hs : slip ν ρ (twist v' i) = slip ν ρ u +
      (1 / (bodyAt bs i).mass + ρ ^ 2 / (bodyAt bs i).ang_inertia) * (a k - b k) := by
    rw [hv]
    simp only [slip, rubbed, tangent, Spec.inner]
    linear_combination ((a k - b k) / (bodyAt bs i).mass) * hν'
  have hK : 0 < 1 / (bodyAt bs i).mass + ρ ^ 2 / (bodyAt bs i).ang_inertia := by positivity
  obtain ⟨r1, r2⟩ := h.restitution k hk
  obtain ⟨n1, n2, n3, n4⟩ := h.nonneg k hk
  rw [← hcdef, (presses_vel hν hp _ hrv').1, (presses_vel hν hp _ hrv).1, hl] at r1 r2
  have hP : pn k = P := by
    have := scalar_lcp (K := 1 / (bodyAt bs i).mass)
      (w := lift ν u + meanRestitution bs c * lift ν (twist v i)) (P := pn k) (by positivity) n1
      (by rw [one_div_mul_eq_div]; linarith) (by rw [← r2]; ring)
    rw [this]
    congr 1
    field_simp
    rw [hcdef]
    ring
  obtain ⟨s1, s2, s3, s4⟩ := h.slip k hk
  obtain ⟨c1, c2⟩ := h.cone k hk
  rw [← hcdef, (presses_vel hν hp _ hrv').2, hs] at s1 s2 s3 s4
  have hQ : a k - b k = Q := by
    rw [coulomb_scalar hK n2 n3 s1 s2 s3 s4 c1 c2, hP]
  refine ⟨hP, hQ, ?_⟩
  rw [hv, hP, hQ]

theorem clamp_scale {K m x : ℝ} (hK : 0 < K) : K * clampTo m (x / K) = clampTo (K * m) x := by
  unfold clampTo
  rw [mul_max_of_nonneg _ _ hK.le, mul_min_of_nonneg _ _ hK.le, mul_div_cancel₀ _ hK.ne', mul_neg]

theorem clamp_neg {m x : ℝ} (hm : 0 ≤ m) : clampTo m (-x) = -clampTo m x := by
  unfold clampTo
  rcases le_total x (-m) with h | h
  · rw [min_eq_left (by linarith), max_eq_right (by linarith), min_eq_right (by linarith), max_eq_left h]; ring
  · rcases le_total x m with h' | h'
    · rw [min_eq_right (by linarith), max_eq_right (by linarith), min_eq_right h', max_eq_right h]
    · rw [min_eq_right (by linarith), max_eq_left (by linarith), min_eq_left h', max_eq_right (by linarith)]

/-- Cutting off leaves the part beyond `m`, with the same sign. -/
theorem clamp_rest {m x : ℝ} (hm : 0 ≤ m) : |x - clampTo m x| = max 0 (|x| - m) ∧ 0 ≤ (x - clampTo m x) * x := by
  unfold clampTo
  rcases le_total x (-m) with h | h
  · rw [min_eq_right (by linarith), max_eq_left h, abs_of_nonpos (by linarith), abs_of_nonpos (by linarith),
      max_eq_right (by linarith)]
    exact ⟨by ring, by nlinarith⟩
  · rcases le_total x m with h' | h'
    · rw [min_eq_right h', max_eq_right h, sub_self, abs_zero, max_eq_left (by linarith [abs_le.2 ⟨h, h'⟩])]
      exact ⟨rfl, by linarith⟩
    · rw [min_eq_left h', max_eq_right (by linarith), abs_of_nonneg (by linarith), abs_of_nonneg (by linarith),
        max_eq_right (by linarith)]
      exact ⟨rfl, by nlinarith⟩

/-- C97: the slip.  Friction reduces the slip speed by `μ P (1/m + ρ²/I)`, never below zero: it stops the slip or slows
it down, and never reverses it.  What it takes from the motion along the tangent it gives to the spin. -/
theorem C97_slip (bs : List Body) (js : List Joint) (cs : List Contact) (f : ℕ → V3) (v v' l : Vec)
    (pn a b g : ℕ → ℝ) (h : ContactLaw bs js cs f v v' l pn a b g) (k : ℕ) (hk : k < cs.length) (i : ℕ)
    (hi : i < bs.length) (ν : V2) (ρ : ℝ) (hν : Spec.inner ν ν = 1) (hp : PressesOn cs[k] v v' i ν ρ)
    (hj : ∀ j ∈ js, j.i1 ≠ i ∧ i ∉ j.i2)
    (hc : ∀ (q : ℕ) (hq : q < cs.length), q ≠ k → cs[q].i1 ≠ i ∧ cs[q].i2 ≠ i)
    (hm : 0 < (bodyAt bs i).mass ∧ 0 < (bodyAt bs i).ang_inertia) (hmu : 0 ≤ meanFriction bs cs[k]) :
    let u := freeTwist bs f v i
    let u' := twist v' i
    let m := (bodyAt bs i).mass
    let I := (bodyAt bs i).ang_inertia
    let D := (1 / m + ρ ^ 2 / I) * (meanFriction bs cs[k] * pn k)
    slip ν ρ u' = slip ν ρ u - clampTo D (slip ν ρ u) ∧ |slip ν ρ u'| = max 0 (|slip ν ρ u| - D) ∧
      0 ≤ slip ν ρ u' * slip ν ρ u ∧ lift ν u' = lift ν u + pn k / m ∧
      m * ρ * Spec.inner (tangent ν) (u'.x, u'.y) - I * u'.r =
        m * ρ * Spec.inner (tangent ν) (u.x, u.y) - I * u.r := by
  intro u u' m I D
  obtain ⟨hP, hQ, hv⟩ := C97_rub bs js cs f v v' l pn a b g h k hk i hi ν ρ hν hp hj hc hm
  obtain ⟨hm, hI⟩ := hm
  rw [← hP] at hv hQ
  rw [← hQ] at hv
  have hν' := hν
  simp only [Spec.inner] at hν'
  have hK : 0 < 1 / m + ρ ^ 2 / I := by positivity
  have hM : 0 ≤ meanFriction bs cs[k] * pn k := mul_nonneg hmu (h.nonneg k hk).1
  have hs : slip ν ρ u' = slip ν ρ u - clampTo D (slip ν ρ u) := by
    have e : slip ν ρ u' = slip ν ρ u + (1 / m + ρ ^ 2 / I) * (a k - b k) := by
      simp only [u', hv]
      simp only [slip, rubbed, tangent, Spec.inner]
      linear_combination ((a k - b k) / m) * hν'
    rw [e, hQ, clamp_scale hK, clamp_neg (by positivity)]
    ring
  refine ⟨hs, ?_, ?_, ?_, ?_⟩
  · rw [hs]; exact (clamp_rest (by positivity)).1
  · rw [hs]; exact (clamp_rest (by positivity)).2
  · simp only [u', hv]
    simp only [lift, rubbed, tangent, Spec.inner]
    linear_combination (pn k / m) * hν'
  · simp only [u', hv]
    simp only [rubbed, tangent, Spec.inner]
    have e1 : m ≠ 0 := hm.ne'
    have e2 : I ≠ 0 := hI.ne'
    have f1 : m * ρ * (ν.2 * (u.x + (pn k * ν.1 + (a k - b k) * ν.2) / m) +
        -ν.1 * (u.y + (pn k * ν.2 + (a k - b k) * -ν.1) / m)) =
        m * ρ * (ν.2 * u.x + -ν.1 * u.y) + ρ * (a k - b k) * (ν.1 * ν.1 + ν.2 * ν.2) := by
      field_simp; ring
    have f2 : I * (u.r + (a k - b k) * ρ / I) = I * u.r + (a k - b k) * ρ := by field_simp
    rw [hν'] at f1
    linarith

end LcpPhysics
