import Verif.Props.Library

/-! # C72: physics of approximate solutions -/

noncomputable section

namespace LcpPhysics
open Spec

variable {φ : Type}

theorem sum_abs_rigid (bs : List Body) (t : V2) :
    ∑ k ∈ Finset.range (3 * bs.length), |rigidField bs 0 t k| = bs.length * (|t.1| + |t.2|) := by
  rw [sum3]
  have : ∀ i ∈ Finset.range bs.length, |rigidField bs 0 t (3 * i)| + |rigidField bs 0 t (3 * i + 1)| +
      |rigidField bs 0 t (3 * i + 2)| = |t.1| + |t.2| := by
    intro i _
    have h := twist_rigid bs 0 t i
    have h0 : rigidField bs 0 t (3 * i) = 0 := congrArg V3.r h
    have h1 : rigidField bs 0 t (3 * i + 1) = t.1 - 0 * (bodyAt bs i).pos.2 := congrArg V3.x h
    have h2 : rigidField bs 0 t (3 * i + 2) = t.2 + 0 * (bodyAt bs i).pos.1 := congrArg V3.y h
    rw [h0, h1, h2]; simp
  rw [Finset.sum_congr rfl this]
  simp [mul_add]

/-- C72: linear momentum balance up to `n ε` for `n` bodies. -/
theorem C72_linear_momentum (ε : ℝ) (bs : List Body) (js : List Joint) (cs : List Contact) (f : ℕ → V3)
    (v v' l : Vec) (pn a b g : ℕ → ℝ) (h : ApproxLaw ε bs js cs f v v' l pn a b g) (hint : Internal js) :
    |(linearMomentum bs v').1 - ((linearMomentum bs v).1 + ∑ i ∈ Finset.range bs.length, (f i).x)| ≤ ε * bs.length ∧
    |(linearMomentum bs v').2 - ((linearMomentum bs v).2 + ∑ i ∈ Finset.range bs.length, (f i).y)| ≤ ε * bs.length := by
  have key : ∀ t : V2, |(t.1 * (linearMomentum bs v').1 + t.2 * (linearMomentum bs v').2) -
      (t.1 * (linearMomentum bs v).1 + t.2 * (linearMomentum bs v).2 +
      (t.1 * ∑ i ∈ Finset.range bs.length, (f i).x + t.2 * ∑ i ∈ Finset.range bs.length, (f i).y))| ≤
        ε * (bs.length * (|t.1| + |t.2|)) := by
    intro t
    have hd := h.dynamics (rigidField bs 0 t)
    rw [momentumPower_rigid, momentumPower_rigid, jointPower_zero js l _
      (jointVels_rigid bs 0 t js hint (fun h => absurd rfl h)), sum_abs_rigid] at hd
    have hcp : contactPower cs pn (fun i => a i - b i) (rigidField bs 0 t) = 0 := by
      unfold contactPower
      refine Finset.sum_eq_zero fun i _ => ?_
      cases cs[i]? with
      | none => rfl
      | some c =>
        simp only [normalVel, slipVel, contactVel_rigid, inner]
        ring
    have hfp : forcePower bs.length f (rigidField bs 0 t) =
        t.1 * ∑ i ∈ Finset.range bs.length, (f i).x + t.2 * ∑ i ∈ Finset.range bs.length, (f i).y := by
      unfold forcePower
      rw [Finset.mul_sum, Finset.mul_sum, ← Finset.sum_add_distrib]
      refine Finset.sum_congr rfl fun i _ => ?_
      rw [twist_rigid]
      ring
    rw [hcp, hfp] at hd
    refine (le_of_eq ?_).trans hd
    congr 1
    ring
  have k1 := key (1, 0)
  have k2 := key (0, 1)
  constructor
  · simpa using k1
  · simpa using k2

/-- C72: contacts approach at most `ε` faster than restitution allows, and friction leaves the Coulomb
cone by at most `ε`. -/
theorem C72_contact_bounds (ε : ℝ) (bs : List Body) (js : List Joint) (cs : List Contact) (f : ℕ → V3)
    (v v' l : Vec) (pn a b g : ℕ → ℝ) (h : ApproxLaw ε bs js cs f v v' l pn a b g) (i : ℕ) (hi : i < cs.length) :
    -(meanRestitution bs cs[i] * normalVel cs[i] v) - ε ≤ normalVel cs[i] v' ∧
    pn i * (normalVel cs[i] v' + meanRestitution bs cs[i] * normalVel cs[i] v) ≤ ε * (1 + pn i) ∧
    |a i - b i| ≤ meanFriction bs cs[i] * pn i + ε ∧
    (a i - b i) * slipVel cs[i] v' ≤ ε * (3 + a i + b i + g i) - meanFriction bs cs[i] * pn i * g i := by
  obtain ⟨hp, ha, hb, hg⟩ := h.nonneg i hi
  obtain ⟨s, hs, h1, h2⟩ := h.restitution i hi
  obtain ⟨⟨s1, hs1, e1, c1⟩, s2, hs2, e2, c2⟩ := h.slip i hi
  obtain ⟨s3, hs3, e3, c3⟩ := h.cone i hi
  rw [abs_le] at h1 e1 e2 e3
  refine ⟨by linarith, ?_, ?_, ?_⟩
  · nlinarith [mul_le_mul_of_nonneg_left h1.2 hp]
  · rw [abs_le]; constructor <;> linarith
  · nlinarith [mul_le_mul_of_nonneg_left e1.2 ha, mul_le_mul_of_nonneg_left e2.2 hb,
      mul_le_mul_of_nonneg_left e3.2 hg]

theorem jointPower_le (ε : ℝ) (js : List Joint) (l u : Vec) (h : ∀ x ∈ jointVels js u, |x| ≤ ε) :
    |jointPower js l u| ≤ ε * ∑ r ∈ Finset.range (jointVels js u).length, |l r| := by
  unfold jointPower
  refine (Finset.abs_sum_le_sum_abs _ _).trans ?_
  rw [Finset.mul_sum]
  refine Finset.sum_le_sum fun r hr => ?_
  have hr := Finset.mem_range.1 hr
  have e : (jointVels js u).getD r 0 = (jointVels js u)[r] := by
    simp [List.getD_eq_getElem?_getD, hr]
  rw [abs_mul, e, mul_comm]
  exact mul_le_mul_of_nonneg_right (h _ (List.getElem_mem hr)) (abs_nonneg _)

/-- C72: with zero restitution and no external forces, kinetic energy grows by at most `ε` times the size
of the velocities and impulses. -/
theorem C72_inelastic_energy (ε : ℝ) (bs : List Body) (js : List Joint) (cs : List Contact)
    (v v' l : Vec) (pn a b g : ℕ → ℝ)
    (hpos : ∀ i < bs.length, 0 ≤ (bodyAt bs i).mass ∧ 0 ≤ (bodyAt bs i).ang_inertia)
    (hmu : ∀ c ∈ cs, 0 ≤ meanFriction bs c) (he : ∀ c ∈ cs, meanRestitution bs c = 0)
    (h : ApproxLaw ε bs js cs (fun _ => 0) v v' l pn a b g) :
    kineticEnergy bs v' ≤ kineticEnergy bs v + ε * (∑ k ∈ Finset.range (3 * bs.length), |v' k| +
      ∑ r ∈ Finset.range (jointVels js v').length, |l r| +
      ∑ i ∈ Finset.range cs.length, (4 + pn i + a i + b i + g i)) := by
  have hd := (abs_le.1 (h.dynamics v')).2
  have hj := (abs_le.1 (jointPower_le ε js l v' h.joints)).2
  have hf : forcePower bs.length (fun _ => 0) v' = 0 := by
    unfold forcePower
    refine Finset.sum_eq_zero fun i _ => ?_
    show (0 : ℝ) * _ + 0 * _ + 0 * _ = 0
    ring
  have hcp : contactPower cs pn (fun i => a i - b i) v' ≤
      ε * ∑ i ∈ Finset.range cs.length, (4 + pn i + a i + b i + g i) := by
    unfold contactPower
    rw [Finset.mul_sum]
    refine Finset.sum_le_sum fun i hi => ?_
    have hi := Finset.mem_range.1 hi
    rw [List.getElem?_eq_getElem hi]
    simp only
    obtain ⟨-, h1, -, h2⟩ := C72_contact_bounds ε bs js cs _ v v' l pn a b g h i hi
    obtain ⟨hp, -, -, hg⟩ := h.nonneg i hi
    rw [he _ (List.getElem_mem hi)] at h1
    have := mul_nonneg (mul_nonneg (hmu _ (List.getElem_mem hi)) hp) hg
    linarith
  have e2 : momentumPower bs (v' - v) (v' - v) =
      momentumPower bs v' v' - 2 * momentumPower bs v' v + momentumPower bs v v := by
    rw [momentumPower_sub, momentumPower_symm bs (v' - v) v', momentumPower_symm bs (v' - v) v,
      momentumPower_sub, momentumPower_sub, momentumPower_symm bs v v']
    ring
  have hk := momentumPower_nonneg bs hpos (v' - v)
  rw [kinetic_eq, kinetic_eq]
  rw [hf] at hd
  linarith

/-- Constraint velocities are unchanged by subtracting a motion that satisfies the constraints. -/
theorem jointVels_sub (js : List Joint) (u v : Vec) (h : ∀ x ∈ jointVels js v, x = 0) :
    jointVels js (u - v) = jointVels js u := by
  unfold jointVels at h ⊢
  induction js with
  | nil => rfl
  | cons j js ih =>
    rw [List.flatMap_cons, List.flatMap_cons, ih fun x hx => h x (by simp only [List.flatMap_cons, List.mem_append]; exact Or.inr hx)]
    congr 1
    have q : ∀ x ∈ jointVel j v, x = 0 := fun x hx => h x (by
      simp only [List.flatMap_cons, List.mem_append]; exact Or.inl hx)
    obtain ⟨kind, i1, i2, pos, pos1, pos2, r1, rot1, rot2⟩ := j
    cases kind <;> cases i2 <;> simp [jointVel, twist, pointVel] at q ⊢ <;>
      first
      | (refine ⟨?_, ?_, ?_⟩ <;> linarith [q.1, q.2.1, q.2.2])
      | (refine ⟨?_, ?_⟩ <;> linarith [q.1, q.2])
      | linarith

/-- C72: without friction, a solution up to `ε` is close to the exact one: the squared kinetic distance is
at most `ε` times the size of the differences. -/
theorem C72_near_exact (ε : ℝ) (hε : 0 ≤ ε) (bs : List Body) (js : List Joint) (cs : List Contact) (f : ℕ → V3)
    (v v1 v2 l1 l2 : Vec) (p1 a1 b1 g1 p2 a2 b2 g2 : ℕ → ℝ) (hmu : ∀ c ∈ cs, meanFriction bs c = 0)
    (h1 : ContactLaw bs js cs f v v1 l1 p1 a1 b1 g1) (h2 : ApproxLaw ε bs js cs f v v2 l2 p2 a2 b2 g2) :
    momentumPower bs (v2 - v1) (v2 - v1) ≤ ε * (∑ k ∈ Finset.range (3 * bs.length), |v2 k - v1 k| +
      ∑ r ∈ Finset.range (jointVels js v1).length, |l2 r - l1 r| +
      ∑ i ∈ Finset.range cs.length, match cs[i]? with
        | none => 0
        | some c => 3 + ε + |p2 i - p1 i| + |slipVel c v1|) := by
  set d := v2 - v1 with hd
  have hjv : jointVels js d = jointVels js v2 := jointVels_sub js v2 v1 h1.joints
  have hlen : (jointVels js v2).length = (jointVels js v1).length := by
    have h3 : ∀ u u' : Vec, (jointVels js u).length = (jointVels js u').length := by
      intro u u'
      unfold jointVels
      rw [List.length_flatMap, List.length_flatMap]
      congr 1
      refine List.map_congr_left fun j _ => ?_
      obtain ⟨kind, i1, i2, pos, pos1, pos2, r1, rot1, rot2⟩ := j
      cases kind <;> rfl
    exact h3 _ _
  have hj : jointPower js l2 d - jointPower js l1 d ≤
      ε * ∑ r ∈ Finset.range (jointVels js v1).length, |l2 r - l1 r| := by
    have := (abs_le.1 (jointPower_le ε js (fun r => l2 r - l1 r) d (by rw [hjv]; exact h2.joints))).2
    rw [hjv, hlen] at this
    refine (le_of_eq ?_).trans this
    unfold jointPower
    rw [← Finset.sum_sub_distrib]
    exact Finset.sum_congr rfl fun r _ => by ring
  have hdy : momentumPower bs d d ≤ ε * ∑ k ∈ Finset.range (3 * bs.length), |v2 k - v1 k| +
      (jointPower js l2 d - jointPower js l1 d) +
      (contactPower cs p2 (fun i => a2 i - b2 i) d - contactPower cs p1 (fun i => a1 i - b1 i) d) := by
    have e1 := h1.dynamics d
    have e2 := (abs_le.1 (h2.dynamics d)).2
    have e3 : momentumPower bs d d = momentumPower bs d v2 - momentumPower bs d v1 := by
      rw [hd, momentumPower_sub]
    have e4 : ∑ k ∈ Finset.range (3 * bs.length), |d k| =
        ∑ k ∈ Finset.range (3 * bs.length), |v2 k - v1 k| := rfl
    rw [e4] at e2
    linarith
  have hc : contactPower cs p2 (fun i => a2 i - b2 i) d - contactPower cs p1 (fun i => a1 i - b1 i) d ≤
      ε * ∑ i ∈ Finset.range cs.length, match cs[i]? with
        | none => 0
        | some c => 3 + ε + |p2 i - p1 i| + |slipVel c v1| := by
    unfold contactPower
    rw [← Finset.sum_sub_distrib, Finset.mul_sum]
    refine Finset.sum_le_sum fun i hi => ?_
    have hi := Finset.mem_range.1 hi
    rw [List.getElem?_eq_getElem hi]
    simp only
    have hmz := hmu _ (List.getElem_mem hi)
    have hn : normalVel cs[i] d = normalVel cs[i] v2 - normalVel cs[i] v1 := normalVel_sub _ _ _
    have hsl : slipVel cs[i] d = slipVel cs[i] v2 - slipVel cs[i] v1 := by
      simp only [hd, slipVel, contactVel, pointVel, twist, inner, Prod.fst_sub, Prod.snd_sub, Pi.sub_apply]
      ring
    obtain ⟨np1, na1, nb1, -⟩ := h1.nonneg i hi
    obtain ⟨np2, na2, nb2, ng2⟩ := h2.nonneg i hi
    obtain ⟨c1, -⟩ := h1.cone i hi
    rw [hmz] at c1
    have e1 : a1 i = 0 := by linarith
    have e2 : b1 i = 0 := by linarith
    obtain ⟨s3, hs3, c3, -⟩ := h2.cone i hi
    rw [hmz] at c3
    have hab : a2 i + b2 i ≤ ε := by linarith [(abs_le.1 c3).1]
    obtain ⟨r1, r2⟩ := h1.restitution i hi
    obtain ⟨s, hs, hsy, hps⟩ := h2.restitution i hi
    obtain ⟨⟨t1, ht1, u1, k1⟩, t2, ht2, u2, k2⟩ := h2.slip i hi
    set y1 := normalVel cs[i] v1 + meanRestitution bs cs[i] * normalVel cs[i] v with hy1
    set y2 := normalVel cs[i] v2 + meanRestitution bs cs[i] * normalVel cs[i] v with hy2
    have hdn : normalVel cs[i] d = y2 - y1 := by rw [hn, hy1, hy2]; ring
    have hN : (p2 i - p1 i) * (y2 - y1) ≤ ε + |p2 i - p1 i| * ε := by
      have q1 : (p2 i - p1 i) * (y2 - s) ≤ |p2 i - p1 i| * ε := by
        refine (le_abs_self _).trans ?_
        rw [abs_mul]
        exact mul_le_mul_of_nonneg_left hsy (abs_nonneg _)
      nlinarith [mul_nonneg np2 r1, mul_nonneg np1 hs]
    rw [abs_le] at u1 u2
    have hT : (a2 i - b2 i) * (slipVel cs[i] v2 - slipVel cs[i] v1) ≤ 2 * ε + ε * ε + ε * |slipVel cs[i] v1| := by
      have q1 : (a2 i - b2 i) * slipVel cs[i] v2 ≤ 2 * ε + ε * ε := by
        nlinarith [mul_le_mul_of_nonneg_left u1.2 na2, mul_le_mul_of_nonneg_left u2.2 nb2,
          mul_nonneg na2 ng2, mul_nonneg nb2 ng2, mul_le_mul_of_nonneg_left hab hε]
      have q2 : -((a2 i - b2 i) * slipVel cs[i] v1) ≤ ε * |slipVel cs[i] v1| := by
        refine (neg_le_abs _).trans ?_
        rw [abs_mul]
        refine mul_le_mul_of_nonneg_right ?_ (abs_nonneg _)
        rw [abs_le]; constructor <;> linarith
      rw [mul_sub]
      linarith
    rw [e1, e2, hdn, hsl]
    refine (le_of_eq ?_).trans ((add_le_add hN hT).trans (le_of_eq ?_))
    · ring
    · ring
  rw [mul_add, mul_add]
  linarith

end LcpPhysics
