import Verif.Props.Engine

/-! # C40 – C43: momentum, energy, uniqueness for the contact law -/

noncomputable section

namespace LcpPhysics
open Spec

/-- All constraints connect two bodies (no constraint to the world frame). -/
def Internal (js : List Joint) : Prop :=
  ∀ j ∈ js, (j.kind = .revolute ∨ j.kind = .fixed) ∧ j.i2.isSome

/-- A rigid motion of the whole scene: angular velocity `ω` about the origin plus translation. -/
def rigidField (bs : List Body) (ω : ℝ) (t : V2) : Vec := fun k =>
  if k % 3 = 0 then ω
  else if k % 3 = 1 then t.1 - ω * (bodyAt bs (k / 3)).pos.2
  else t.2 + ω * (bodyAt bs (k / 3)).pos.1

theorem twist_rigid (bs : List Body) (ω : ℝ) (t : V2) (i : ℕ) :
    twist (rigidField bs ω t) i = ⟨ω, t.1 - ω * (bodyAt bs i).pos.2, t.2 + ω * (bodyAt bs i).pos.1⟩ := by
  unfold twist rigidField
  have a1 : 3 * i % 3 = 0 := by omega
  have a2 : (3 * i + 1) % 3 = 1 := by omega
  have a3 : (3 * i + 2) % 3 = 2 := by omega
  have b2 : (3 * i + 1) / 3 = i := by omega
  have b3 : (3 * i + 2) / 3 = i := by omega
  simp [a1, a2, a3, b2, b3]

/-- Where a contact acts on its two bodies, in world coordinates; their difference. -/
def contactGap (bs : List Body) (c : Contact) : V2 :=
  ((bodyAt bs c.i1).pos + c.p1) - ((bodyAt bs c.i2).pos + c.p2)

theorem contactVel_rigid (bs : List Body) (ω : ℝ) (t : V2) (c : Contact) :
    contactVel c (rigidField bs ω t) =
      (-(ω * (contactGap bs c).2), ω * (contactGap bs c).1) := by
  unfold contactVel contactGap
  rw [twist_rigid, twist_rigid]
  ext <;> simp [pointVel] <;> ring

theorem jointVels_rigid (bs : List Body) (ω : ℝ) (t : V2) (js : List Joint) (hint : Internal js)
    (hanchor : ω ≠ 0 → ∀ j ∈ js, ∀ k ∈ j.i2,
      (bodyAt bs j.i1).pos + j.pos1 = (bodyAt bs k).pos + j.pos2) :
    ∀ x ∈ jointVels js (rigidField bs ω t), x = 0 := by
  intro x hx
  unfold jointVels at hx
  obtain ⟨j, hj, hx⟩ := List.mem_flatMap.1 hx
  obtain ⟨hk, hs⟩ := hint j hj
  obtain ⟨k, hk2⟩ := Option.isSome_iff_exists.1 hs
  unfold jointVel at hx
  simp only [hk2, twist_rigid] at hx
  have key : ∀ a b : ℝ, (ω ≠ 0 → a = b) → ω * a = ω * b := by
    intro a b h
    by_cases h0 : ω = 0
    · rw [h0, zero_mul, zero_mul]
    · rw [h h0]
  have hx1 := key ((bodyAt bs j.i1).pos.1 + j.pos1.1) ((bodyAt bs k).pos.1 + j.pos2.1)
    (fun h => congrArg Prod.fst (hanchor h j hj k (by simp [hk2])))
  have hx2 := key ((bodyAt bs j.i1).pos.2 + j.pos1.2) ((bodyAt bs k).pos.2 + j.pos2.2)
    (fun h => congrArg Prod.snd (hanchor h j hj k (by simp [hk2])))
  rcases hk with hk | hk <;> rw [hk] at hx <;>
    simp only [List.mem_cons, List.not_mem_nil, or_false, pointVel, Prod.fst_sub, Prod.snd_sub,
      sub_self] at hx
  · rcases hx with rfl | rfl <;> linarith
  · rcases hx with rfl | rfl | rfl
    · linarith
    · linarith
    · rfl

theorem jointPower_zero (js : List Joint) (l u : Vec) (h : ∀ x ∈ jointVels js u, x = 0) :
    jointPower js l u = 0 := by
  unfold jointPower
  refine Finset.sum_eq_zero fun r hr => ?_
  have hr := Finset.mem_range.1 hr
  have : (jointVels js u).getD r 0 = 0 := by
    have e : (jointVels js u).getD r 0 = (jointVels js u)[r] := by
      simp [List.getD_eq_getElem?_getD, hr]
    rw [e]; exact h _ (List.getElem_mem hr)
  rw [this, mul_zero]

/-- Total linear momentum. -/
def linearMomentum (bs : List Body) (v : Vec) : V2 :=
  (∑ i ∈ Finset.range bs.length, (bodyAt bs i).mass * v (3 * i + 1),
   ∑ i ∈ Finset.range bs.length, (bodyAt bs i).mass * v (3 * i + 2))

/-- Total angular momentum about the origin: spin plus orbital part. -/
def angularMomentum (bs : List Body) (v : Vec) : ℝ :=
  ∑ i ∈ Finset.range bs.length, ((bodyAt bs i).ang_inertia * v (3 * i) +
    (bodyAt bs i).mass * ((bodyAt bs i).pos.1 * v (3 * i + 2) - (bodyAt bs i).pos.2 * v (3 * i + 1)))

theorem momentumPower_rigid (bs : List Body) (ω : ℝ) (t : V2) (v : Vec) :
    momentumPower bs (rigidField bs ω t) v =
      ω * angularMomentum bs v + t.1 * (linearMomentum bs v).1 + t.2 * (linearMomentum bs v).2 := by
  unfold momentumPower angularMomentum linearMomentum
  simp only [Finset.mul_sum]
  rw [← Finset.sum_add_distrib, ← Finset.sum_add_distrib]
  refine Finset.sum_congr rfl fun i _ => ?_
  rw [twist_rigid]
  simp only [twist]
  ring

/-- C40: without constraints to the world, total linear momentum changes by exactly the total
external impulse: contacts, friction and joints are internal. -/
theorem C40_linear_momentum (bs : List Body) (js : List Joint) (cs : List Contact) (f : ℕ → V3)
    (v v' l : Vec) (pn a b g : ℕ → ℝ) (h : ContactLaw bs js cs f v v' l pn a b g)
    (hint : Internal js) :
    linearMomentum bs v' = linearMomentum bs v +
      (∑ i ∈ Finset.range bs.length, (f i).x, ∑ i ∈ Finset.range bs.length, (f i).y) := by
  have key : ∀ t : V2, t.1 * (linearMomentum bs v').1 + t.2 * (linearMomentum bs v').2 =
      t.1 * (linearMomentum bs v).1 + t.2 * (linearMomentum bs v).2 +
      (t.1 * ∑ i ∈ Finset.range bs.length, (f i).x) + t.2 * ∑ i ∈ Finset.range bs.length, (f i).y := by
    intro t
    have hd := h.dynamics (rigidField bs 0 t)
    rw [momentumPower_rigid, momentumPower_rigid, jointPower_zero js l _
      (jointVels_rigid bs 0 t js hint (fun h => absurd rfl h))] at hd
    have hcp : contactPower cs pn (fun i => a i - b i) (rigidField bs 0 t) = 0 := by
      unfold contactPower
      refine Finset.sum_eq_zero fun i _ => ?_
      cases cs[i]? with
      | none => rfl
      | some c =>
        simp only [normalVel, slipVel, contactVel_rigid, inner]
        ring
    have hfp : forcePower bs.length f (rigidField bs 0 t) =
        t.1 * ∑ i ∈ Finset.range bs.length, (f i).x + t.2 * ∑ i ∈ Finset.range bs.length, (f i).y := by
      unfold forcePower
      rw [Finset.mul_sum, Finset.mul_sum, ← Finset.sum_add_distrib]
      refine Finset.sum_congr rfl fun i _ => ?_
      rw [twist_rigid]
      ring
    rw [hcp, hfp] at hd
    linarith
  have k1 := key (1, 0)
  have k2 := key (0, 1)
  ext
  · simp only [Prod.fst_add]; simpa using k1
  · simp only [Prod.snd_add]; simpa using k2

/-- C41: angular momentum balance.  With joint anchors coinciding, total angular momentum changes by
the external torque plus, per contact, the lever arm between the two application points. -/
theorem C41_angular_momentum_balance (bs : List Body) (js : List Joint) (cs : List Contact)
    (f : ℕ → V3) (v v' l : Vec) (pn a b g : ℕ → ℝ)
    (h : ContactLaw bs js cs f v v' l pn a b g) (hint : Internal js)
    (hanchor : ∀ j ∈ js, ∀ k ∈ j.i2, (bodyAt bs j.i1).pos + j.pos1 = (bodyAt bs k).pos + j.pos2) :
    angularMomentum bs v' = angularMomentum bs v +
      ∑ i ∈ Finset.range bs.length, ((f i).r +
        ((bodyAt bs i).pos.1 * (f i).y - (bodyAt bs i).pos.2 * (f i).x)) +
      ∑ i ∈ Finset.range cs.length, match cs[i]? with
        | none => 0
        | some c => pn i * ((contactGap bs c).1 * c.normal.2 - (contactGap bs c).2 * c.normal.1) -
            (a i - b i) * ((contactGap bs c).1 * c.normal.1 + (contactGap bs c).2 * c.normal.2) := by
  have hd := h.dynamics (rigidField bs 1 (0, 0))
  rw [momentumPower_rigid, momentumPower_rigid, jointPower_zero js l _
    (jointVels_rigid bs 1 (0, 0) js hint (fun _ => hanchor))] at hd
  have hcp : contactPower cs pn (fun i => a i - b i) (rigidField bs 1 (0, 0)) =
      ∑ i ∈ Finset.range cs.length, match cs[i]? with
        | none => 0
        | some c => pn i * ((contactGap bs c).1 * c.normal.2 - (contactGap bs c).2 * c.normal.1) -
            (a i - b i) * ((contactGap bs c).1 * c.normal.1 + (contactGap bs c).2 * c.normal.2) := by
    unfold contactPower
    refine Finset.sum_congr rfl fun i _ => ?_
    cases cs[i]? with
    | none => rfl
    | some c =>
      simp only [normalVel, slipVel, contactVel_rigid, inner, tangent]
      ring
  have hfp : forcePower bs.length f (rigidField bs 1 (0, 0)) =
      ∑ i ∈ Finset.range bs.length, ((f i).r +
        ((bodyAt bs i).pos.1 * (f i).y - (bodyAt bs i).pos.2 * (f i).x)) := by
    unfold forcePower
    refine Finset.sum_congr rfl fun i _ => ?_
    rw [twist_rigid]
    ring
  rw [hcp, hfp] at hd
  simp only [zero_mul, one_mul, add_zero] at hd
  linarith

/-- C41: without external forces, angular momentum is conserved when at every contact the two
application points coincide, or differ along the normal and there is no friction impulse. -/
theorem C41_angular_momentum_conserved (bs : List Body) (js : List Joint) (cs : List Contact)
    (v v' l : Vec) (pn a b g : ℕ → ℝ)
    (h : ContactLaw bs js cs (fun _ => 0) v v' l pn a b g) (hint : Internal js)
    (hanchor : ∀ j ∈ js, ∀ k ∈ j.i2, (bodyAt bs j.i1).pos + j.pos1 = (bodyAt bs k).pos + j.pos2)
    (hgap : ∀ (i : ℕ) (hi : i < cs.length), contactGap bs cs[i] = 0 ∨
      (∃ r : ℝ, contactGap bs cs[i] = r • cs[i].normal) ∧ meanFriction bs cs[i] = 0) :
    angularMomentum bs v' = angularMomentum bs v := by
  rw [C41_angular_momentum_balance bs js cs _ v v' l pn a b g h hint hanchor]
  have h1 : ∑ i ∈ Finset.range bs.length, ((0 : V3).r +
        ((bodyAt bs i).pos.1 * (0 : V3).y - (bodyAt bs i).pos.2 * (0 : V3).x)) = 0 := by
    refine Finset.sum_eq_zero fun i _ => ?_
    show (0 : ℝ) + ((bodyAt bs i).pos.1 * 0 - (bodyAt bs i).pos.2 * 0) = 0
    ring
  rw [h1, add_zero, Finset.sum_eq_zero, add_zero]
  intro i hi
  have hi := Finset.mem_range.1 hi
  rw [List.getElem?_eq_getElem hi]
  simp only
  rcases hgap i hi with h0 | ⟨⟨r, hr⟩, hmu⟩
  · rw [h0]; simp
  · obtain ⟨c1, -⟩ := h.cone i hi
    obtain ⟨-, ha, hb, -⟩ := h.nonneg i hi
    rw [hmu] at c1
    have ha0 : a i = 0 := by linarith
    have hb0 : b i = 0 := by linarith
    rw [hr, ha0, hb0]
    simp only [Prod.smul_fst, Prod.smul_snd, smul_eq_mul]
    ring

/-! ## C42: energy -/

/-- Kinetic energy. -/
def kineticEnergy (bs : List Body) (v : Vec) : ℝ :=
  ∑ i ∈ Finset.range bs.length, ((bodyAt bs i).ang_inertia * v (3 * i) ^ 2 +
    (bodyAt bs i).mass * (v (3 * i + 1) ^ 2 + v (3 * i + 2) ^ 2)) / 2

theorem kinetic_eq (bs : List Body) (v : Vec) : kineticEnergy bs v = momentumPower bs v v / 2 := by
  unfold kineticEnergy momentumPower
  rw [Finset.sum_div]
  refine Finset.sum_congr rfl fun i _ => ?_
  simp only [twist]; ring

theorem momentumPower_symm (bs : List Body) (u v : Vec) :
    momentumPower bs u v = momentumPower bs v u := by
  unfold momentumPower
  exact Finset.sum_congr rfl fun i _ => by ring

theorem momentumPower_sub (bs : List Body) (u v w : Vec) :
    momentumPower bs u (v - w) = momentumPower bs u v - momentumPower bs u w := by
  unfold momentumPower
  rw [← Finset.sum_sub_distrib]
  exact Finset.sum_congr rfl fun i _ => by simp only [twist, Pi.sub_apply]; ring

theorem momentumPower_add_left (bs : List Body) (u v w : Vec) :
    momentumPower bs (u + w) v = momentumPower bs u v + momentumPower bs w v := by
  unfold momentumPower
  rw [← Finset.sum_add_distrib]
  exact Finset.sum_congr rfl fun i _ => by simp only [twist, Pi.add_apply]; ring

theorem momentumPower_nonneg (bs : List Body)
    (hpos : ∀ i < bs.length, 0 ≤ (bodyAt bs i).mass ∧ 0 ≤ (bodyAt bs i).ang_inertia) (v : Vec) :
    0 ≤ momentumPower bs v v := by
  unfold momentumPower
  refine Finset.sum_nonneg fun i hi => ?_
  obtain ⟨h1, h2⟩ := hpos i (Finset.mem_range.1 hi)
  have : (bodyAt bs i).ang_inertia * (twist v i).r * (twist v i).r +
      (bodyAt bs i).mass * ((twist v i).x * (twist v i).x + (twist v i).y * (twist v i).y) =
      (bodyAt bs i).ang_inertia * (twist v i).r ^ 2 +
      (bodyAt bs i).mass * ((twist v i).x ^ 2 + (twist v i).y ^ 2) := by ring
  rw [this]; positivity

/-- C42: exact energy balance of one update.  The kinetic energy changes by the work of the external
impulses, minus the energy of the velocity change, minus friction dissipation, plus the restitution
term `-Σ e pₙ vₙ`. -/
theorem C42_energy_balance (bs : List Body) (js : List Joint) (cs : List Contact) (f : ℕ → V3)
    (v v' l : Vec) (pn a b g : ℕ → ℝ) (h : ContactLaw bs js cs f v v' l pn a b g) :
    kineticEnergy bs v' - kineticEnergy bs v =
      forcePower bs.length f v' - kineticEnergy bs (v' - v) -
      ∑ i ∈ Finset.range cs.length, match cs[i]? with
        | none => 0
        | some c => meanRestitution bs c * pn i * normalVel c v + meanFriction bs c * pn i * g i := by
  have hd := h.dynamics v'
  rw [jointPower_zero js l v' h.joints] at hd
  have hcp : contactPower cs pn (fun i => a i - b i) v' =
      -∑ i ∈ Finset.range cs.length, match cs[i]? with
        | none => 0
        | some c => meanRestitution bs c * pn i * normalVel c v + meanFriction bs c * pn i * g i := by
    unfold contactPower
    rw [← Finset.sum_neg_distrib]
    refine Finset.sum_congr rfl fun i hi => ?_
    have hi := Finset.mem_range.1 hi
    rw [List.getElem?_eq_getElem hi]
    simp only
    obtain ⟨-, h2⟩ := h.restitution i hi
    obtain ⟨-, s2, -, s4⟩ := h.slip i hi
    obtain ⟨-, c2⟩ := h.cone i hi
    linear_combination h2 + s2 + s4 + c2
  rw [hcp] at hd
  have e2 : momentumPower bs (v' - v) (v' - v) =
      momentumPower bs v' v' - 2 * momentumPower bs v' v + momentumPower bs v v := by
    rw [momentumPower_sub, momentumPower_symm bs (v' - v) v', momentumPower_symm bs (v' - v) v,
      momentumPower_sub, momentumPower_sub, momentumPower_symm bs v v']
    ring
  rw [kinetic_eq, kinetic_eq, kinetic_eq, e2]
  linarith

/-- C42: with zero restitution and no external forces, kinetic energy never increases (any friction,
any joints). -/
theorem C42_inelastic_energy_decreases (bs : List Body) (js : List Joint) (cs : List Contact)
    (v v' l : Vec) (pn a b g : ℕ → ℝ)
    (hpos : ∀ i < bs.length, 0 ≤ (bodyAt bs i).mass ∧ 0 ≤ (bodyAt bs i).ang_inertia)
    (hmu : ∀ c ∈ cs, 0 ≤ meanFriction bs c) (he : ∀ c ∈ cs, meanRestitution bs c = 0)
    (h : ContactLaw bs js cs (fun _ => 0) v v' l pn a b g) :
    kineticEnergy bs v' ≤ kineticEnergy bs v := by
  have hb := C42_energy_balance bs js cs _ v v' l pn a b g h
  have hf : forcePower bs.length (fun _ => 0) v' = 0 := by
    unfold forcePower
    refine Finset.sum_eq_zero fun i _ => ?_
    show (0 : ℝ) * _ + 0 * _ + 0 * _ = 0
    ring
  have hk : 0 ≤ kineticEnergy bs (v' - v) := by
    rw [kinetic_eq]; linarith [momentumPower_nonneg bs hpos (v' - v)]
  have hs : 0 ≤ ∑ i ∈ Finset.range cs.length, match cs[i]? with
        | none => 0
        | some c => meanRestitution bs c * pn i * normalVel c v + meanFriction bs c * pn i * g i := by
    refine Finset.sum_nonneg fun i hi => ?_
    have hi := Finset.mem_range.1 hi
    rw [List.getElem?_eq_getElem hi]
    simp only
    obtain ⟨hp, -, -, hg⟩ := h.nonneg i hi
    rw [he _ (List.getElem_mem hi)]
    have := hmu _ (List.getElem_mem hi)
    have : 0 ≤ meanFriction bs cs[i] * pn i * g i := by positivity
    linarith
  rw [hf] at hb
  linarith

/-- C42: frictionless contacts with one common restitution `e`: the kinetic energy lost is exactly
`(1-e)/(1+e)` times the energy of the velocity change; for `e = 1` energy is conserved.  (Joints
must be satisfied before the update.) -/
theorem C42_frictionless_energy (bs : List Body) (js : List Joint) (cs : List Contact)
    (v v' l : Vec) (pn a b g : ℕ → ℝ) (e : ℝ)
    (hmu : ∀ c ∈ cs, meanFriction bs c = 0) (he : ∀ c ∈ cs, meanRestitution bs c = e)
    (hjv : ∀ x ∈ jointVels js v, x = 0)
    (h : ContactLaw bs js cs (fun _ => 0) v v' l pn a b g) :
    (1 + e) * (kineticEnergy bs v' - kineticEnergy bs v) =
      -((1 - e) * kineticEnergy bs (v' - v)) := by
  have hf : ∀ u, forcePower bs.length (fun _ => 0) u = 0 := by
    intro u
    unfold forcePower
    refine Finset.sum_eq_zero fun i _ => ?_
    show (0 : ℝ) * _ + 0 * _ + 0 * _ = 0
    ring
  have h1 := h.dynamics v'
  have h2 := h.dynamics v
  rw [jointPower_zero js l v' h.joints, hf] at h1
  rw [jointPower_zero js l v hjv, hf] at h2
  have hz : contactPower cs pn (fun i => a i - b i) v' + e * contactPower cs pn (fun i => a i - b i) v
      = 0 := by
    unfold contactPower
    rw [Finset.mul_sum, ← Finset.sum_add_distrib]
    refine Finset.sum_eq_zero fun i hi => ?_
    have hi := Finset.mem_range.1 hi
    rw [List.getElem?_eq_getElem hi]
    simp only
    obtain ⟨c1, -⟩ := h.cone i hi
    obtain ⟨-, ha, hb, -⟩ := h.nonneg i hi
    rw [hmu _ (List.getElem_mem hi)] at c1
    have ha0 : a i = 0 := by linarith
    have hb0 : b i = 0 := by linarith
    obtain ⟨-, r2⟩ := h.restitution i hi
    rw [he _ (List.getElem_mem hi)] at r2
    rw [ha0, hb0]
    linear_combination r2
  have e2 : momentumPower bs (v' - v) (v' - v) =
      momentumPower bs v' v' - 2 * momentumPower bs v' v + momentumPower bs v v := by
    rw [momentumPower_sub, momentumPower_symm bs (v' - v) v', momentumPower_symm bs (v' - v) v,
      momentumPower_sub, momentumPower_sub, momentumPower_symm bs v v']
    ring
  rw [kinetic_eq, kinetic_eq, kinetic_eq, e2]
  rw [momentumPower_symm bs v v'] at h2
  linear_combination h1 + e * h2 + hz

/-- C42: hence energy does not increase for `-1 < e ≤ 1`. -/
theorem C42_frictionless_energy_le (bs : List Body) (js : List Joint) (cs : List Contact)
    (v v' l : Vec) (pn a b g : ℕ → ℝ) (e : ℝ) (he0 : -1 < e) (he1 : e ≤ 1)
    (hpos : ∀ i < bs.length, 0 ≤ (bodyAt bs i).mass ∧ 0 ≤ (bodyAt bs i).ang_inertia)
    (hmu : ∀ c ∈ cs, meanFriction bs c = 0) (he : ∀ c ∈ cs, meanRestitution bs c = e)
    (hjv : ∀ x ∈ jointVels js v, x = 0)
    (h : ContactLaw bs js cs (fun _ => 0) v v' l pn a b g) :
    kineticEnergy bs v' ≤ kineticEnergy bs v := by
  have hb := C42_frictionless_energy bs js cs v v' l pn a b g e hmu he hjv h
  have hk : 0 ≤ kineticEnergy bs (v' - v) := by
    rw [kinetic_eq]; linarith [momentumPower_nonneg bs hpos (v' - v)]
  have : (1 + e) * (kineticEnergy bs v' - kineticEnergy bs v) ≤ 0 := by
    rw [hb]; have := mul_nonneg (sub_nonneg.2 he1) hk; linarith
  have h1 : 0 < 1 + e := by linarith
  nlinarith

/-! ## C43: uniqueness without friction -/

theorem momentumPower_pos_imp_zero (bs : List Body)
    (hpos : ∀ i < bs.length, 0 < (bodyAt bs i).mass ∧ 0 < (bodyAt bs i).ang_inertia) (v : Vec)
    (h : momentumPower bs v v ≤ 0) : ∀ k < 3 * bs.length, v k = 0 := by
  have hterm : ∀ i ∈ Finset.range bs.length, 0 ≤
      (bodyAt bs i).ang_inertia * (twist v i).r * (twist v i).r +
      (bodyAt bs i).mass * ((twist v i).x * (twist v i).x + (twist v i).y * (twist v i).y) := by
    intro i hi
    obtain ⟨h1, h2⟩ := hpos i (Finset.mem_range.1 hi)
    have : (bodyAt bs i).ang_inertia * (twist v i).r * (twist v i).r +
      (bodyAt bs i).mass * ((twist v i).x * (twist v i).x + (twist v i).y * (twist v i).y) =
      (bodyAt bs i).ang_inertia * (twist v i).r ^ 2 +
      (bodyAt bs i).mass * ((twist v i).x ^ 2 + (twist v i).y ^ 2) := by ring
    rw [this]; positivity
  have h0 := (Finset.sum_eq_zero_iff_of_nonneg hterm).1 (le_antisymm h (Finset.sum_nonneg hterm))
  intro k hk
  have hi : k / 3 < bs.length := by omega
  have e := h0 (k / 3) (Finset.mem_range.2 hi)
  obtain ⟨h1, h2⟩ := hpos _ hi
  simp only [twist] at e
  have q1 : 0 ≤ (bodyAt bs (k / 3)).ang_inertia * v (3 * (k / 3)) ^ 2 := by positivity
  have q2 : 0 ≤ (bodyAt bs (k / 3)).mass * v (3 * (k / 3) + 1) ^ 2 := by positivity
  have q3 : 0 ≤ (bodyAt bs (k / 3)).mass * v (3 * (k / 3) + 2) ^ 2 := by positivity
  have z1 : (bodyAt bs (k / 3)).ang_inertia * v (3 * (k / 3)) ^ 2 = 0 := by nlinarith
  have z2 : (bodyAt bs (k / 3)).mass * v (3 * (k / 3) + 1) ^ 2 = 0 := by nlinarith
  have z3 : (bodyAt bs (k / 3)).mass * v (3 * (k / 3) + 2) ^ 2 = 0 := by nlinarith
  have : k = 3 * (k / 3) ∨ k = 3 * (k / 3) + 1 ∨ k = 3 * (k / 3) + 2 := by omega
  rcases this with h | h | h <;> rw [h]
  · exact pow_eq_zero_iff (n := 2) (by norm_num) |>.1 ((mul_eq_zero.1 z1).resolve_left h2.ne')
  · exact pow_eq_zero_iff (n := 2) (by norm_num) |>.1 ((mul_eq_zero.1 z2).resolve_left h1.ne')
  · exact pow_eq_zero_iff (n := 2) (by norm_num) |>.1 ((mul_eq_zero.1 z3).resolve_left h1.ne')

/-- Two solutions without friction have the same momentum along their difference. -/
theorem frictionless_diff_le (bs : List Body) (js : List Joint) (cs : List Contact) (f : ℕ → V3)
    (v v1 v2 l1 l2 : Vec) (p1 a1 b1 g1 p2 a2 b2 g2 : ℕ → ℝ)
    (hmu : ∀ c ∈ cs, meanFriction bs c = 0)
    (h1 : ContactLaw bs js cs f v v1 l1 p1 a1 b1 g1)
    (h2 : ContactLaw bs js cs f v v2 l2 p2 a2 b2 g2) :
    momentumPower bs (v1 - v2) (v1 - v2) ≤ 0 := by
  have hj1 : ∀ (l : Vec), jointPower js l (v1 - v2) = 0 := by
    intro l
    apply jointPower_zero
    intro x hx
    unfold jointVels at hx
    obtain ⟨j, hj, hx⟩ := List.mem_flatMap.1 hx
    have q1 : ∀ x ∈ jointVel j v1, x = 0 := fun x hx => h1.joints x (List.mem_flatMap.2 ⟨j, hj, hx⟩)
    have q2 : ∀ x ∈ jointVel j v2, x = 0 := fun x hx => h2.joints x (List.mem_flatMap.2 ⟨j, hj, hx⟩)
    obtain ⟨kind, i1, i2, pos, pos1, pos2, r1, rot1, rot2⟩ := j
    cases kind <;> cases i2 <;>
      simp [jointVel, twist, pointVel] at q1 q2 hx ⊢ <;>
      first
      | (rcases hx with rfl | rfl | rfl <;> linarith [q1.1, q1.2.1, q1.2.2, q2.1, q2.2.1, q2.2.2])
      | (rcases hx with rfl | rfl <;> linarith [q1.1, q1.2, q2.1, q2.2])
      | (rw [hx]; linarith)
  have hd : ∀ u : Vec, jointPower js l1 u = 0 → jointPower js l2 u = 0 →
      momentumPower bs u (v1 - v2) = contactPower cs p1 (fun i => a1 i - b1 i) u -
        contactPower cs p2 (fun i => a2 i - b2 i) u := by
    intro u e1 e2
    have d1 := h1.dynamics u
    have d2 := h2.dynamics u
    rw [momentumPower_sub]
    linarith
  have hm := hd (v1 - v2) (hj1 l1) (hj1 l2)
  rw [hm]
  unfold contactPower
  rw [← Finset.sum_sub_distrib]
  refine Finset.sum_nonpos fun i hi => ?_
  have hi := Finset.mem_range.1 hi
  rw [List.getElem?_eq_getElem hi]
  simp only
  have hmz := hmu _ (List.getElem_mem hi)
  obtain ⟨c1, -⟩ := h1.cone i hi
  obtain ⟨c2, -⟩ := h2.cone i hi
  obtain ⟨np1, na1, nb1, -⟩ := h1.nonneg i hi
  obtain ⟨np2, na2, nb2, -⟩ := h2.nonneg i hi
  rw [hmz] at c1 c2
  have e1 : a1 i = 0 := by linarith
  have e2 : b1 i = 0 := by linarith
  have e3 : a2 i = 0 := by linarith
  have e4 : b2 i = 0 := by linarith
  obtain ⟨r1, r2⟩ := h1.restitution i hi
  obtain ⟨r3, r4⟩ := h2.restitution i hi
  have hn : normalVel cs[i] (v1 - v2) = normalVel cs[i] v1 - normalVel cs[i] v2 := by
    simp only [normalVel, contactVel, pointVel, twist, inner, Prod.fst_sub, Prod.snd_sub,
      Pi.sub_apply]
    ring
  rw [e1, e2, e3, e4, hn]
  nlinarith [mul_nonneg np1 r3, mul_nonneg np2 r1]

/-- C43: without friction, the new velocity is determined by the contact law, whatever impulses a
solver finds. -/
theorem C43_frictionless_unique (bs : List Body) (js : List Joint) (cs : List Contact) (f : ℕ → V3)
    (v v1 v2 l1 l2 : Vec) (p1 a1 b1 g1 p2 a2 b2 g2 : ℕ → ℝ)
    (hpos : ∀ i < bs.length, 0 < (bodyAt bs i).mass ∧ 0 < (bodyAt bs i).ang_inertia)
    (hmu : ∀ c ∈ cs, meanFriction bs c = 0)
    (h1 : ContactLaw bs js cs f v v1 l1 p1 a1 b1 g1)
    (h2 : ContactLaw bs js cs f v v2 l2 p2 a2 b2 g2) :
    ∀ k < 3 * bs.length, v1 k = v2 k := by
  have hle := frictionless_diff_le bs js cs f v v1 v2 l1 l2 p1 a1 b1 g1 p2 a2 b2 g2 hmu h1 h2
  intro k hk
  have := momentumPower_pos_imp_zero bs hpos (v1 - v2) hle k hk
  simpa [sub_eq_zero] using this

end LcpPhysics
