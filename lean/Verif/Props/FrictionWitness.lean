import Verif.Props.EngineExamples
import Verif.Props.Bodies
import Verif.Model.Contacts

/-!
# Limits of C42 and C43 with friction

Newton restitution with Coulomb friction can create energy, and the contact problem can have several
solutions.  Both happen for a square whose corner rests on a fixed circle.  For central contacts
(circles) energy does not grow.
-/

noncomputable section

namespace LcpPhysics
open Spec

/-- A square of side 2 and mass 1 at the origin: `Rect([0, 0], [2, 2], mass=1)`. -/
def boxBody (e mu : ℝ) : Body :=
  { p := ⟨0, 0, 0⟩, v := 0, mass := 1, ang_inertia := 2 / 3, restitution := e, fric_coeff := mu, eps := 0,
    shape := .rect (2, 2) [(1, 1), (-1, 1), (-1, -1), (1, -1)],
    geom := { kind := .box (2, 2), pos := (0, 0), quat := none } }

example (e mu : ℝ) : mkRect (.two (0, 0)) (2, 2)
    { vel := .two (0, 0), mass := 1, restitution := e, fric_coeff := mu, eps := 0 } = .ok (boxBody e mu) := by
  rw [mkRect_eq _ _ _ (by norm_num)]
  simp [boxBody, rectInertia, Arg.toV3, V3.xy, rectBase, rectCorners]
  refine ⟨rfl, ?_⟩
  norm_num

/-- A unit circle at `(1, 2)`, below the corner `(1, 1)` of the square. -/
def pivot (e mu : ℝ) : Body :=
  mkCircle (.two (1, 2)) 1 { vel := .two (0, 0), mass := 1, restitution := e, fric_coeff := mu, eps := 0 }

/-- The circle is fixed. -/
def cornerBodies (e mu : ℝ) : List Body := [pivot e mu, boxBody e mu]

/-- The contact of the corner with the circle. -/
def corner : Contact :=
  { normal := (0, -1), p1 := (1, 1), p2 := (0, -1), pen := 0, i1 := 1, i2 := 0 }

/-- It is the contact of the circle–hull search with closest point `(1, 1)`, circle second. -/
example : ((shallowContact 0 1 (1, 2) (0, 0) (1, 1)).map fun c => c.toPt true) =
    some { normal := corner.normal, p1 := corner.p1, p2 := corner.p2, pen := 0, nan := false } := by
  have h : nrm ((0, 1 - 2) : V2) = 1 := by simp [nrm]; norm_num
  simp [shallowContact, CHull.toPt, corner, h]
  norm_num

/-- Velocity `(r, x, y)` of the boxBody, circle at rest. -/
def cornerVel (r x y : ℝ) : Vec := fun k => if k = 3 then r else if k = 4 then x else if k = 5 then y else 0

theorem corner_normal (r x y : ℝ) : normalVel corner (cornerVel r x y) = -(y + r) := by
  simp [cornerVel, corner, twist, normalVel, contactVel, pointVel, inner]

theorem corner_slip (r x y : ℝ) : slipVel corner (cornerVel r x y) = -(x - r) := by
  simp [cornerVel, corner, twist, slipVel, contactVel, pointVel, inner, tangent]

theorem corner_rest (e mu : ℝ) : meanRestitution (cornerBodies e mu) corner = e := by
  simp [cornerBodies, boxBody, pivot, mkCircle, corner, bodyAt, meanRestitution]

theorem corner_fric (e mu : ℝ) : meanFriction (cornerBodies e mu) corner = mu := by
  simp [cornerBodies, boxBody, pivot, mkCircle, corner, bodyAt, meanFriction]

/-- A contact law for the corner, checked entry by entry. -/
theorem corner_law (e mu r x y r' x' y' a0 b0 p g : ℝ)
    (hr : 2 / 3 * r' = 2 / 3 * r - p + (a0 - b0)) (hx : x' = x - (a0 - b0)) (hy : y' = y - p)
    (hp : 0 ≤ p) (ha : 0 ≤ a0) (hb : 0 ≤ b0) (hg : 0 ≤ g)
    (h1 : 0 ≤ -(y' + r') - e * (y + r)) (h2 : p * (-(y' + r') - e * (y + r)) = 0)
    (h3 : 0 ≤ g - (x' - r')) (h4 : a0 * (g - (x' - r')) = 0)
    (h5 : 0 ≤ g + (x' - r')) (h6 : b0 * (g + (x' - r')) = 0)
    (h7 : 0 ≤ mu * p - (a0 + b0)) (h8 : g * (mu * p - (a0 + b0)) = 0) :
    ContactLaw (cornerBodies e mu) [mkTotal (cornerBodies e mu) 0] [corner] (fun _ => 0)
      (cornerVel r x y) (cornerVel r' x' y')
      (fun k => if k = 2 then -p else -(a0 - b0)) (fun _ => p) (fun _ => a0) (fun _ => b0)
      (fun _ => g) := by
  refine ⟨?_, ?_, ?_, ?_, ?_, ?_⟩
  · intro u
    simp [momentumPower, forcePower, jointPower, jointVels, jointVel, mkTotal, contactPower,
      Finset.sum_range_succ, bodyAt, cornerBodies, boxBody, pivot, mkCircle, cornerVel, corner, twist,
      normalVel, slipVel, contactVel, pointVel, inner, tangent]
    rw [hx, hy]
    linear_combination (u 3) * hr
  · simp [jointVels, jointVel, mkTotal, twist, cornerVel]
  · intro i _; exact ⟨hp, ha, hb, hg⟩
  all_goals
    intro i hi
    have : i = 0 := by simpa using hi
    subst this
    simp only [List.getElem_cons_zero, corner_normal, corner_slip, corner_rest, corner_fric]
  · exact ⟨by linarith, by linear_combination h2⟩
  · exact ⟨by linarith, by linear_combination h4, by linarith, by linear_combination h6⟩
  · exact ⟨h7, h8⟩

/-- C42: Newton restitution with Coulomb friction can create energy.  Elastic contact of a corner,
friction at least `1/3`: the kinetic energy grows from 6.5 to 7.5 without external forces. -/
theorem C42_friction_can_create_energy (mu : ℝ) (hmu : 1 / 3 ≤ mu) :
    ∃ v v' l pn a b g,
      ContactLaw (cornerBodies 1 mu) [mkTotal (cornerBodies 1 mu) 0] [corner] (fun _ => 0) v v' l pn a b g ∧
      (∀ x ∈ jointVels [mkTotal (cornerBodies 1 mu) 0] v, x = 0) ∧
      kineticEnergy (cornerBodies 1 mu) v' = kineticEnergy (cornerBodies 1 mu) v + 1 := by
  refine ⟨cornerVel 0 (-2) 3, cornerVel (-3) (-3) 0, _, _, _, _, _,
    corner_law 1 mu 0 (-2) 3 (-3) (-3) 0 1 0 3 0 ?_ ?_ ?_ ?_ ?_ ?_ ?_ ?_ ?_ ?_ ?_ ?_ ?_ ?_ ?_, ?_, ?_⟩
  any_goals norm_num
  · linarith
  · simp [jointVels, jointVel, mkTotal, twist, cornerVel]
  · simp [kineticEnergy, cornerBodies, cornerVel, Finset.sum_range_succ, bodyAt, boxBody]
    norm_num

/-- C43: with friction the resulting velocity need not be unique.  Inelastic contact of a corner that
separates while it slides, friction above `5/3`: staying separated and jamming both obey the law. -/
theorem C43_friction_not_unique (mu : ℝ) (hmu : 5 / 3 < mu) :
    ∃ v v₁ v₂ l₁ l₂ pn₁ pn₂ a₁ a₂ b₁ b₂ g₁ g₂,
      ContactLaw (cornerBodies 0 mu) [mkTotal (cornerBodies 0 mu) 0] [corner] (fun _ => 0) v v₁ l₁ pn₁ a₁
        b₁ g₁ ∧
      ContactLaw (cornerBodies 0 mu) [mkTotal (cornerBodies 0 mu) 0] [corner] (fun _ => 0) v v₂ l₂ pn₂ a₂
        b₂ g₂ ∧
      normalVel corner v₁ = 3 / 2 * mu - 5 / 2 ∧ normalVel corner v₂ = 0 := by
  refine ⟨cornerVel 0 (5 / 2 * mu) (5 / 2 - 3 / 2 * mu), cornerVel 0 (5 / 2 * mu) (5 / 2 - 3 / 2 * mu),
    cornerVel (3 / 2 * (mu - 1)) (3 / 2 * mu) (3 / 2 - 3 / 2 * mu), _, _, _, _, _, _, _, _, _, _,
    corner_law 0 mu 0 (5 / 2 * mu) (5 / 2 - 3 / 2 * mu) 0 (5 / 2 * mu) (5 / 2 - 3 / 2 * mu)
      0 0 0 (5 / 2 * mu) ?_ ?_ ?_ ?_ ?_ ?_ ?_ ?_ ?_ ?_ ?_ ?_ ?_ ?_ ?_,
    corner_law 0 mu 0 (5 / 2 * mu) (5 / 2 - 3 / 2 * mu) (3 / 2 * (mu - 1)) (3 / 2 * mu)
      (3 / 2 - 3 / 2 * mu) mu 0 1 (3 / 2) ?_ ?_ ?_ ?_ ?_ ?_ ?_ ?_ ?_ ?_ ?_ ?_ ?_ ?_ ?_, ?_, ?_⟩
  any_goals norm_num
  all_goals first
    | (rw [corner_normal]; ring1)
    | linarith
    | ring1
    | (right; ring1)

/-- The hypotheses of both are met by ordinary coefficients; the default of the library is 0.9. -/
example : (1 : ℝ) / 3 ≤ 0.9 ∧ (5 : ℝ) / 3 < 2 := by norm_num

/-! ## Central contacts -/

/-- The velocity field with the given twists. -/
def fieldOf (m : ℕ → V3) : Vec := fun k =>
  if k % 3 = 0 then (m (k / 3)).r else if k % 3 = 1 then (m (k / 3)).x else (m (k / 3)).y

theorem twist_fieldOf (m : ℕ → V3) (i : ℕ) : twist (fieldOf m) i = m i := by
  have h1 : (3 * i + 1) % 3 = 1 := by omega
  have h2 : (3 * i + 1) / 3 = i := by omega
  have h3 : (3 * i + 2) % 3 = 2 := by omega
  have h4 : (3 * i + 2) / 3 = i := by omega
  apply V3.ext <;> simp [twist, fieldOf, h1, h2, h3, h4]

theorem momentumPower_pair (bs : List Body) (m : ℕ → V3) (i j : ℕ) (hij : i ≠ j) (hi : i < bs.length)
    (hj : j < bs.length) (hm : ∀ k, k ≠ i → k ≠ j → m k = 0) (w : Vec) :
    momentumPower bs (fieldOf m) w =
      ((bodyAt bs i).ang_inertia * (twist w i).r * (m i).r +
        (bodyAt bs i).mass * ((twist w i).x * (m i).x + (twist w i).y * (m i).y)) +
      ((bodyAt bs j).ang_inertia * (twist w j).r * (m j).r +
        (bodyAt bs j).mass * ((twist w j).x * (m j).x + (twist w j).y * (m j).y)) := by
  unfold momentumPower
  rw [← Finset.sum_subset (s₁ := {i, j})]
  · rw [Finset.sum_pair hij, twist_fieldOf, twist_fieldOf]
  · intro k hk
    simp at hk
    rcases hk with rfl | rfl <;> simpa
  · intro k _ hk
    simp at hk
    rw [twist_fieldOf, hm k hk.1 hk.2]
    simp

/-- The line of action of the normal impulse passes through both centres of mass. -/
def Central (c : Contact) : Prop :=
  inner (tangent c.normal) c.p1 = 0 ∧ inner (tangent c.normal) c.p2 = 0

/-- No body takes part in two contacts. -/
def Disjoint2 (cs : List Contact) : Prop :=
  ∀ (i j : ℕ) (hi : i < cs.length) (hj : j < cs.length), i ≠ j →
    cs[i].i1 ≠ cs[j].i1 ∧ cs[i].i1 ≠ cs[j].i2 ∧ cs[i].i2 ≠ cs[j].i1 ∧ cs[i].i2 ≠ cs[j].i2

/-- Response of the contact velocity to the impulses of a central contact: normal and tangential parts
do not mix. -/
theorem central_response (bs : List Body) (cs : List Contact) (v v' l : Vec) (pn a b g : ℕ → ℝ)
    (hpos : ∀ i < bs.length, 0 < (bodyAt bs i).mass ∧ 0 < (bodyAt bs i).ang_inertia)
    (h : ContactLaw bs [] cs (fun _ => 0) v v' l pn a b g) (hd : Disjoint2 cs) (i : ℕ)
    (hi : i < cs.length) (hn : inner cs[i].normal cs[i].normal = 1) (hcen : Central cs[i])
    (hne : cs[i].i1 ≠ cs[i].i2) (h1 : cs[i].i1 < bs.length) (h2 : cs[i].i2 < bs.length) :
    ∃ A B : ℝ, 0 ≤ A ∧ 0 ≤ B ∧ normalVel cs[i] v' = normalVel cs[i] v + A * pn i ∧
      slipVel cs[i] v' = slipVel cs[i] v + B * (a i - b i) := by
  set c := cs[i] with hc
  obtain ⟨m1, I1⟩ := hpos _ h1
  obtain ⟨m2, I2⟩ := hpos _ h2
  -- only contact `i` sees a field supported on its bodies
  have hpow : ∀ m : ℕ → V3, (∀ k, k ≠ c.i1 → k ≠ c.i2 → m k = 0) →
      momentumPower bs (fieldOf m) v' = momentumPower bs (fieldOf m) v +
        (pn i * normalVel c (fieldOf m) + (a i - b i) * slipVel c (fieldOf m)) := fun m hm => by
    have := h.dynamics (fieldOf m)
    have hf : forcePower bs.length (fun _ => 0) (fieldOf m) = 0 := by simp [forcePower]
    have hj : jointPower [] l (fieldOf m) = 0 := by simp [jointPower, jointVels]
    have hcp : contactPower cs pn (fun i => a i - b i) (fieldOf m) =
        pn i * normalVel c (fieldOf m) + (a i - b i) * slipVel c (fieldOf m) := by
      unfold contactPower
      rw [Finset.sum_eq_single_of_mem i (Finset.mem_range.2 hi), List.getElem?_eq_getElem hi]
      intro j hj' hji
      have hj := Finset.mem_range.1 hj'
      obtain ⟨d1, d2, d3, d4⟩ := hd j i hj hi hji
      have z1 : m cs[j].i1 = 0 := hm _ d1 d2
      have z2 : m cs[j].i2 = 0 := hm _ d3 d4
      rw [List.getElem?_eq_getElem hj]
      simp [normalVel, slipVel, contactVel, twist_fieldOf, z1, z2, pointVel, inner]
    rw [this, hf, hj, hcp]; ring
  obtain ⟨c1, c2⟩ := hcen
  have mk : ∀ x y : V3, ∃ m : ℕ → V3, m c.i1 = x ∧ m c.i2 = y ∧
      ∀ k, k ≠ c.i1 → k ≠ c.i2 → m k = 0 := fun x y =>
    ⟨fun k => if k = c.i1 then x else if k = c.i2 then y else 0, by simp,
      by simp [hne.symm], fun k h1 h2 => by simp [h1, h2]⟩
  simp only [inner, tangent] at c1 c2 hn
  obtain ⟨M, hM⟩ : ∃ M, M = (bodyAt bs c.i1).mass := ⟨_, rfl⟩
  obtain ⟨N, hN⟩ : ∃ N, N = (bodyAt bs c.i2).mass := ⟨_, rfl⟩
  obtain ⟨J, hJ⟩ : ∃ J, J = (bodyAt bs c.i1).ang_inertia := ⟨_, rfl⟩
  obtain ⟨K, hK⟩ : ∃ K, K = (bodyAt bs c.i2).ang_inertia := ⟨_, rfl⟩
  have pair := fun m hm => momentumPower_pair bs m _ _ hne h1 h2 hm
  rw [← hM, ← hN, ← hJ, ← hK] at pair
  rw [← hM] at m1
  rw [← hN] at m2
  rw [← hJ] at I1
  rw [← hK] at I2
  have mM : M * M⁻¹ = 1 := mul_inv_cancel₀ m1.ne'
  have mN : N * N⁻¹ = 1 := mul_inv_cancel₀ m2.ne'
  have mJ : J * J⁻¹ = 1 := mul_inv_cancel₀ I1.ne'
  have mK : K * K⁻¹ = 1 := mul_inv_cancel₀ I2.ne'
  have iM := inv_nonneg.2 m1.le
  have iN := inv_nonneg.2 m2.le
  have iJ := inv_nonneg.2 I1.le
  have iK := inv_nonneg.2 I2.le
  generalize M⁻¹ = M' at *
  generalize N⁻¹ = N' at *
  generalize J⁻¹ = J' at *
  generalize K⁻¹ = K' at *
  obtain ⟨n1, hn1⟩ : ∃ n, n = c.normal.1 := ⟨_, rfl⟩
  obtain ⟨n2, hn2⟩ : ∃ n, n = c.normal.2 := ⟨_, rfl⟩
  obtain ⟨P1, hP1⟩ : ∃ n, n = c.p1.1 := ⟨_, rfl⟩
  obtain ⟨P2, hP2⟩ : ∃ n, n = c.p1.2 := ⟨_, rfl⟩
  obtain ⟨Q1, hQ1⟩ : ∃ n, n = c.p2.1 := ⟨_, rfl⟩
  obtain ⟨Q2, hQ2⟩ : ∃ n, n = c.p2.2 := ⟨_, rfl⟩
  rw [← hn1, ← hn2] at c1 c2 hn
  rw [← hP1, ← hP2] at c1
  rw [← hQ1, ← hQ2] at c2
  refine ⟨M' + N', M' + N' + (n1 * P1 + n2 * P2) ^ 2 * J' + (n1 * Q1 + n2 * Q2) ^ 2 * K',
    by positivity, by positivity, ?_, ?_⟩
  · obtain ⟨m, e1, e2, hm⟩ := mk ⟨0, n1 * M', n2 * M'⟩ ⟨0, -n1 * N', -n2 * N'⟩
    have := hpow m hm
    rw [pair m hm, pair m hm, e1, e2] at this
    simp only [normalVel, slipVel, contactVel, twist_fieldOf, e1, e2, pointVel, inner, tangent,
      Prod.fst_sub, Prod.snd_sub, ← hn1, ← hn2, ← hP1, ← hP2, ← hQ1, ← hQ2] at this ⊢
    generalize twist v' c.i1 = t1' at *
    generalize twist v' c.i2 = t2' at *
    generalize twist v c.i1 = t1 at *
    generalize twist v c.i2 = t2 at *
    linear_combination this + (t1'.r - t1.r) * c1 - (t2'.r - t2.r) * c2 +
      pn i * (M' + N') * hn - ((t1'.x - t1.x) * n1 + (t1'.y - t1.y) * n2) * mM +
      ((t2'.x - t2.x) * n1 + (t2'.y - t2.y) * n2) * mN
  · obtain ⟨m, e1, e2, hm⟩ := mk ⟨-(n1 * P1 + n2 * P2) * J', n2 * M', -n1 * M'⟩
      ⟨(n1 * Q1 + n2 * Q2) * K', -n2 * N', n1 * N'⟩
    have := hpow m hm
    rw [pair m hm, pair m hm, e1, e2] at this
    simp only [normalVel, slipVel, contactVel, twist_fieldOf, e1, e2, pointVel, inner, tangent,
      Prod.fst_sub, Prod.snd_sub, ← hn1, ← hn2, ← hP1, ← hP2, ← hQ1, ← hQ2] at this ⊢
    generalize twist v' c.i1 = t1' at *
    generalize twist v' c.i2 = t2' at *
    generalize twist v c.i1 = t1 at *
    generalize twist v c.i2 = t2 at *
    linear_combination this + (a i - b i) * (M' + N') * hn -
      ((t1'.x - t1.x) * n2 - (t1'.y - t1.y) * n1) * mM +
      ((t2'.x - t2.x) * n2 - (t2'.y - t2.y) * n1) * mN +
      (t1'.r - t1.r) * (n1 * P1 + n2 * P2) * mJ - (t2'.r - t2.r) * (n1 * Q1 + n2 * Q2) * mK
      - pn i * J' * (n1 * P1 + n2 * P2) * c1 - pn i * K' * (n1 * Q1 + n2 * Q2) * c2

/-- C42: with friction and restitution in `[0, 1]`, central contacts between otherwise free bodies, no
body in two of them, never add kinetic energy. -/
theorem C42_central_energy_le (bs : List Body) (cs : List Contact) (v v' l : Vec) (pn a b g : ℕ → ℝ)
    (hpos : ∀ i < bs.length, 0 < (bodyAt bs i).mass ∧ 0 < (bodyAt bs i).ang_inertia)
    (hd : Disjoint2 cs)
    (hcs : ∀ c ∈ cs, inner c.normal c.normal = 1 ∧ Central c ∧ c.i1 ≠ c.i2 ∧ c.i1 < bs.length ∧
      c.i2 < bs.length ∧ 0 ≤ meanRestitution bs c ∧ meanRestitution bs c ≤ 1 ∧ 0 ≤ meanFriction bs c)
    (h : ContactLaw bs [] cs (fun _ => 0) v v' l pn a b g) :
    kineticEnergy bs v' ≤ kineticEnergy bs v := by
  have hf : ∀ u, forcePower bs.length (fun _ => 0) u = 0 := fun u => by simp [forcePower]
  have hj : ∀ u, jointPower [] l u = 0 := fun u => by simp [jointPower, jointVels]
  have d1 := h.dynamics v'
  have d2 := h.dynamics v
  rw [hf, hj] at d1 d2
  rw [kinetic_eq, kinetic_eq]
  have hs := momentumPower_symm bs v v'
  have key : contactPower cs pn (fun i => a i - b i) v' + contactPower cs pn (fun i => a i - b i) v ≤ 0 := by
    unfold contactPower
    rw [← Finset.sum_add_distrib]
    refine Finset.sum_nonpos fun i hi => ?_
    have hi := Finset.mem_range.1 hi
    rw [List.getElem?_eq_getElem hi]
    obtain ⟨hn, hc, hne, l1, l2, e0, e1, f0⟩ := hcs _ (List.getElem_mem hi)
    obtain ⟨A, B, hA, hB, eA, eB⟩ := central_response bs cs v v' l pn a b g hpos h hd i hi hn hc hne l1 l2
    obtain ⟨p0, a0, b0, g0⟩ := h.nonneg i hi
    obtain ⟨r0, r1⟩ := h.restitution i hi
    obtain ⟨s1, s2, s3, s4⟩ := h.slip i hi
    simp only
    -- normal part
    have hN : pn i * (normalVel cs[i] v' + normalVel cs[i] v) ≤ 0 := by
      rcases p0.eq_or_lt with hp | hp
      · rw [← hp]; simp
      · have hz := (mul_eq_zero.1 r1).resolve_left hp.ne'
        have hle : normalVel cs[i] v ≤ 0 := by
          have : (1 + meanRestitution bs cs[i]) * normalVel cs[i] v ≤ 0 := by
            have := mul_nonneg hA p0
            nlinarith
          by_contra hcon
          push Not at hcon
          have := mul_pos (by linarith : 0 < 1 + meanRestitution bs cs[i]) hcon
          linarith
        have : normalVel cs[i] v' + normalVel cs[i] v =
            (1 - meanRestitution bs cs[i]) * normalVel cs[i] v := by linarith
        rw [this]
        exact mul_nonpos_of_nonneg_of_nonpos p0
          (mul_nonpos_of_nonneg_of_nonpos (by linarith) hle)
    -- tangential part
    have hT : (a i - b i) * slipVel cs[i] v' ≤ 0 := by
      have : (a i - b i) * slipVel cs[i] v' = -(g i * (a i + b i)) := by linarith
      rw [this]
      have := mul_nonneg g0 (add_nonneg a0 b0)
      linarith
    have hT' : (a i - b i) * slipVel cs[i] v = (a i - b i) * slipVel cs[i] v' - B * (a i - b i) ^ 2 := by
      rw [eB]; ring
    have := mul_nonneg hB (sq_nonneg (a i - b i))
    nlinarith
  linarith

/-- Contacts between circles are central. -/
theorem C42_circles_central (eps r1 r2 : ℝ) (pos1 pos2 : V2) (q : Pt)
    (hq : q ∈ circleCircle eps r1 r2 pos1 pos2) (c : Contact) (h1 : c.normal = q.normal) (h2 : c.p1 = q.p1)
    (h3 : c.p2 = q.p2) : Central c := by
  unfold circleCircle at hq
  simp only at hq
  split at hq
  · cases hq
  · rw [List.mem_singleton] at hq
    subst hq
    simp only at h1 h2 h3
    unfold Central
    rw [h1, h2, h3]
    constructor <;> simp [inner, tangent] <;> ring

/-- The sliding circles of `sliding_law` lose energy. -/
example := C42_central_energy_le _ _ _ _ _ _ _ _ _
    (by intro i hi; have : i = 0 ∨ i = 1 := by (simp at hi; omega)
        rcases this with rfl | rfl <;> simp [bodyAt, unitCircle])
    (by
      intro i j hi hj hij
      simp at hi hj; omega)
    (by
      intro c hc
      obtain rfl : c = headOn := by simpa using hc
      simp [headOn, inner, Central, tangent, meanRestitution, meanFriction, bodyAt, unitCircle]) sliding_law

end LcpPhysics
