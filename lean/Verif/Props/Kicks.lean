import Verif.Props.Isolated
import Verif.Props.Pivot
import Verif.Spec.Kicks
import Mathlib.Algebra.Order.Chebyshev
import Mathlib.Topology.Algebra.InfiniteSum.Real

/-! # C112: how often and how strongly velocities can change in a scene without forces -/

noncomputable section

namespace LcpPhysics
open Spec
variable {φ : Type}

theorem kickEnergy_eq {σ : Type} {w w' : World σ φ} (hg : w.Good) (hg' : w'.Good) (hs : SameStatics w w') :
    kickEnergy w.bodies w'.bodies = kineticEnergy w.bodies (w'.v - w.v) := by
  unfold kickEnergy kineticEnergy
  refine Finset.sum_congr rfl fun i hi => ?_
  have hi := Finset.mem_range.1 hi
  rw [good_bodyAt_v hg i hi, good_bodyAt_v hg' i (by rw [sameStatics_length hs]; exact hi)]
  simp [slice3, mul_comm i 3]

theorem kickEnergy_nonneg {bs bs' : List Body} (h : ∀ b ∈ bs, 0 ≤ b.mass ∧ 0 ≤ b.ang_inertia) :
    0 ≤ kickEnergy bs bs' := by
  unfold kickEnergy
  refine Finset.sum_nonneg fun i hi => ?_
  obtain ⟨h1, h2⟩ := h _ (bodyAt_mem' (Finset.mem_range.1 hi))
  positivity

theorem totalKinetic_nonneg {bs : List Body} (h : ∀ b ∈ bs, 0 ≤ b.mass ∧ 0 ≤ b.ang_inertia) :
    0 ≤ totalKinetic bs := by
  unfold totalKinetic
  refine List.sum_nonneg fun x hx => ?_
  obtain ⟨b, hb, rfl⟩ := List.mem_map.1 hx
  obtain ⟨h1, h2⟩ := h b hb
  positivity

/-- The inelastic law with friction and joints: what the change of velocity carries is lost. -/
theorem inelastic_kick (bs : List Body) (js : List Joint) (cs : List Contact)
    (v v' l : Vec) (pn a b g : ℕ → ℝ)
    (hmu : ∀ c ∈ cs, 0 ≤ meanFriction bs c) (he : ∀ c ∈ cs, meanRestitution bs c = 0)
    (h : ContactLaw bs js cs (fun _ => 0) v v' l pn a b g) :
    kineticEnergy bs (v' - v) ≤ kineticEnergy bs v - kineticEnergy bs v' := by
  have hb := C42_energy_balance bs js cs _ v v' l pn a b g h
  have hf : forcePower bs.length (fun _ => 0) v' = 0 := by
    unfold forcePower
    refine Finset.sum_eq_zero fun i _ => ?_
    show (0 : ℝ) * _ + 0 * _ + 0 * _ = 0
    ring
  rw [hf] at hb
  have h4 := sub_eq_of_eq_add' (sub_eq_iff_eq_add.1 hb.symm)
  have hs : 0 ≤ 0 - kineticEnergy bs (v' - v) - (kineticEnergy bs v' - kineticEnergy bs v) := by
    rw [h4]
    refine Finset.sum_nonneg fun i hi => ?_
    have hi := Finset.mem_range.1 hi
    rw [List.getElem?_eq_getElem hi]
    simp only
    obtain ⟨hp, -, -, hg⟩ := h.nonneg i hi
    rw [he _ (List.getElem_mem hi)]
    have := hmu _ (List.getElem_mem hi)
    have : 0 ≤ meanFriction bs cs[i] * pn i * g i := by positivity
    linarith
  linarith

/-- Scenes whose velocity changes cost at least a share `q` of the energy they carry. -/
def KickCosts (q : ℝ) (env : Env (Option Mat) φ) (w0 : World (Option Mat) φ) : Prop :=
  ∀ w w', Reaches env w0 w → StepsTo env w w' →
    q * kickEnergy w.bodies w'.bodies ≤ totalKinetic w.bodies - totalKinetic w'.bodies

/-- C112: one step of a scene without forces and with restitution zero (any shapes, contacts, friction,
constraints; post-stabilisation on or off) loses at least the kinetic energy of the change of velocity. -/
theorem C112_inelastic_step (H : ForceHeap) (lcp : LcpSolver) (mi : ℕ)
    (collide : ℝ → φ → List Body → Except Err (φ × List Contact)) (hfind : FinderOk collide)
    (hx : Exact lcp) (w0 : World (Option Mat) φ) (h0 : EngineInv w0)
    (hb : ∀ b ∈ w0.bodies, 0 ≤ b.fric_coeff ∧ b.restitution = 0)
    (hF : NoForce H w0.bodies.length) : KickCosts 1 (pdipmEnv 2 H lcp mi collide) w0 := by
  intro w w' hr hstep
  have hw := C29_engine_invariant H lcp mi collide hfind _ _ h0 hr
  have hs := (reaches_statics h0.good hr).2
  obtain ⟨fuel, dt, hst⟩ := hstep
  have hst' := step_dt_statics hw.good hst
  have hg' := step_dt_good hw.good hst
  obtain ⟨fl, l, pn, a, b, g, hfl, law⟩ := step_law hx hw hst
  rw [impulse_zero (by rw [sameStatics_length hs]; exact hF) hfl] at law
  have hbw : ∀ i < w.bodies.length,
      0 ≤ (bodyAt w.bodies i).fric_coeff ∧ (bodyAt w.bodies i).restitution = 0 := by
    intro i hi
    rw [sameStatics_fric hs, sameStatics_restitution hs]
    exact hb _ (bodyAt_mem' (by rw [← sameStatics_length hs]; exact hi))
  have hle := inelastic_kick _ _ _ _ _ _ _ _ _ _
    (fun c hc => by
      obtain ⟨q1, q2, -⟩ := hw.contacts c hc
      have := (hbw _ q1).1; have := (hbw _ q2).1
      unfold meanFriction; positivity)
    (fun c hc => by
      obtain ⟨q1, q2, -⟩ := hw.contacts c hc
      unfold meanRestitution; rw [(hbw _ q1).2, (hbw _ q2).2]; norm_num) law
  rw [one_mul, kickEnergy_eq hw.good hg' hst', totalKinetic_eq hw.good, totalKinetic_eq hg',
    kineticEnergy_statics hst']
  exact hle

/-- C112: free bodies without friction and of one common restitution `e`: a step loses exactly the share
`(1 - e) / (1 + e)` of the kinetic energy of the change of velocity. -/
theorem C112_bouncing_step (H : ForceHeap) (lcp : LcpSolver) (mi : ℕ)
    (collide : ℝ → φ → List Body → Except Err (φ × List Contact)) (hfind : FinderOk collide)
    (hx : Exact lcp) (w0 : World (Option Mat) φ) (h0 : EngineInv w0) (hj : w0.joints = []) (e : ℝ) (he : 0 ≤ e)
    (hb : ∀ b ∈ w0.bodies, b.fric_coeff = 0 ∧ b.restitution = e)
    (hF : NoForce H w0.bodies.length) (w w' : World (Option Mat) φ)
    (hr : Reaches (pdipmEnv 2 H lcp mi collide) w0 w) (hstep : StepsTo (pdipmEnv 2 H lcp mi collide) w w') :
    totalKinetic w.bodies - totalKinetic w'.bodies = (1 - e) / (1 + e) * kickEnergy w.bodies w'.bodies := by
  have hw := C29_engine_invariant H lcp mi collide hfind _ _ h0 hr
  have hs := (reaches_statics h0.good hr).2
  obtain ⟨fuel, dt, hst⟩ := hstep
  have hst' := step_dt_statics hw.good hst
  have hg' := step_dt_good hw.good hst
  obtain ⟨fl, l, pn, a, b, g, hfl, law⟩ := step_law hx hw hst
  rw [impulse_zero (by rw [sameStatics_length hs]; exact hF) hfl] at law
  have hbw : ∀ i < w.bodies.length,
      (bodyAt w.bodies i).fric_coeff = 0 ∧ (bodyAt w.bodies i).restitution = e := by
    intro i hi
    rw [sameStatics_fric hs, sameStatics_restitution hs]
    exact hb _ (bodyAt_mem' (by rw [← sameStatics_length hs]; exact hi))
  have hjw : w.joints = [] := by
    have := hs.2
    rw [hj] at this
    simpa using this
  have hmu : ∀ c ∈ w.contacts, meanFriction w.bodies c = 0 := fun c hc => by
    obtain ⟨q1, q2, -⟩ := hw.contacts c hc
    unfold meanFriction; rw [(hbw _ q1).1, (hbw _ q2).1]; norm_num
  have hre : ∀ c ∈ w.contacts, meanRestitution w.bodies c = e := fun c hc => by
    obtain ⟨q1, q2, -⟩ := hw.contacts c hc
    unfold meanRestitution; rw [(hbw _ q1).2, (hbw _ q2).2]; ring
  have hjv : ∀ x ∈ jointVels w.joints w.v, x = 0 := by rw [hjw]; intro x hx; cases hx
  have heq := C42_frictionless_energy _ _ _ _ _ _ _ _ _ _ e hmu hre hjv law
  rw [kickEnergy_eq hw.good hg' hst', totalKinetic_eq hw.good, totalKinetic_eq hg', kineticEnergy_statics hst']
  have h1 : (1 + e) ≠ 0 := by positivity
  field_simp
  linarith

theorem C112_bouncing_costs (H : ForceHeap) (lcp : LcpSolver) (mi : ℕ)
    (collide : ℝ → φ → List Body → Except Err (φ × List Contact)) (hfind : FinderOk collide)
    (hx : Exact lcp) (w0 : World (Option Mat) φ) (h0 : EngineInv w0) (hj : w0.joints = []) (e : ℝ) (he : 0 ≤ e)
    (hb : ∀ b ∈ w0.bodies, b.fric_coeff = 0 ∧ b.restitution = e)
    (hF : NoForce H w0.bodies.length) :
    KickCosts ((1 - e) / (1 + e)) (pdipmEnv 2 H lcp mi collide) w0 := fun w w' hr hs =>
  (C112_bouncing_step H lcp mi collide hfind hx w0 h0 hj e he hb hF w w' hr hs).ge

theorem stepRun_reaches {σ : Type} {env : Env σ φ} {n : ℕ} {ws : ℕ → World σ φ} (h : StepRun env n ws) :
    ∀ k ≤ n, Reaches env (ws 0) (ws k)
  | 0, _ => .refl
  | k + 1, hk => (stepRun_reaches h k (by omega)).tail (h k (by omega))

/-- C112: along a whole run the energies of all changes of velocity add up to at most what is lost. -/
theorem C112_sum {q : ℝ} {env : Env (Option Mat) φ} {n : ℕ} {ws : ℕ → World (Option Mat) φ}
    (hc : KickCosts q env (ws 0)) (h : StepRun env n ws) :
    q * ∑ k ∈ Finset.range n, kickEnergy (ws k).bodies (ws (k + 1)).bodies ≤
      totalKinetic (ws 0).bodies - totalKinetic (ws n).bodies := by
  suffices ∀ m ≤ n, q * ∑ k ∈ Finset.range m, kickEnergy (ws k).bodies (ws (k + 1)).bodies ≤
      totalKinetic (ws 0).bodies - totalKinetic (ws m).bodies from this n le_rfl
  intro m hm
  induction m with
  | zero => simp
  | succ m ih =>
    rw [Finset.sum_range_succ, mul_add]
    have := hc _ _ (stepRun_reaches h m (by omega)) (h m (by omega))
    have := ih (by omega)
    linarith

theorem masses_kept {σ : Type} {w0 w : World σ φ} (hs : SameStatics w0 w)
    (hb : ∀ b ∈ w0.bodies, 0 ≤ b.mass ∧ 0 ≤ b.ang_inertia) : ∀ b ∈ w.bodies, 0 ≤ b.mass ∧ 0 ≤ b.ang_inertia := by
  intro b hbm
  obtain ⟨i, hi, rfl⟩ := List.mem_iff_getElem.1 hbm
  have e : w.bodies[i] = bodyAt w.bodies i := by simp [bodyAt, List.getD_eq_getElem?_getD, hi]
  rw [e, sameStatics_mass hs, sameStatics_inertia hs]
  exact hb _ (bodyAt_mem' (by rw [← sameStatics_length hs]; exact hi))

/-- C112: the number of steps that change the velocities by an energy of at least `d` is at most the initial
energy divided by `q d`, however long the run is. -/
theorem C112_count {q d : ℝ} (hq : 0 < q) (hd : 0 < d) {env : Env (Option Mat) φ} {n : ℕ}
    {ws : ℕ → World (Option Mat) φ} (hg : (ws 0).Good)
    (hb : ∀ b ∈ (ws 0).bodies, 0 ≤ b.mass ∧ 0 ≤ b.ang_inertia)
    (hc : KickCosts q env (ws 0)) (h : StepRun env n ws) :
    ((bigKicks d n ws).ncard : ℝ) ≤ totalKinetic (ws 0).bodies / (q * d) := by
  classical
  have hsum := C112_sum hc h
  have hk : ∀ k ≤ n, ∀ b ∈ (ws k).bodies, 0 ≤ b.mass ∧ 0 ≤ b.ang_inertia := fun k hk =>
    masses_kept (reaches_statics hg (stepRun_reaches h k hk)).2 hb
  have hn := totalKinetic_nonneg (hk n le_rfl)
  have hset : bigKicks d n ws = ((Finset.range n).filter fun k =>
      d ≤ kickEnergy (ws k).bodies (ws (k + 1)).bodies : Finset ℕ) := by
    ext k; simp [bigKicks]
  rw [hset, Set.ncard_coe_finset]
  set F := (Finset.range n).filter fun k => d ≤ kickEnergy (ws k).bodies (ws (k + 1)).bodies with hFdef
  have h1 : (F.card : ℝ) * d ≤ ∑ k ∈ F, kickEnergy (ws k).bodies (ws (k + 1)).bodies := by
    rw [← nsmul_eq_mul]
    exact Finset.card_nsmul_le_sum _ _ _ fun k hkF => (Finset.mem_filter.1 hkF).2
  have h2 : ∑ k ∈ F, kickEnergy (ws k).bodies (ws (k + 1)).bodies ≤
      ∑ k ∈ Finset.range n, kickEnergy (ws k).bodies (ws (k + 1)).bodies :=
    Finset.sum_le_sum_of_subset_of_nonneg (Finset.filter_subset _ _) fun k hkn _ =>
      kickEnergy_nonneg (hk k (Finset.mem_range.1 hkn).le)
  rw [le_div_iff₀ (by positivity)]
  calc (F.card : ℝ) * (q * d) = q * (F.card * d) := by ring
    _ ≤ q * ∑ k ∈ Finset.range n, kickEnergy (ws k).bodies (ws (k + 1)).bodies :=
        mul_le_mul_of_nonneg_left (h1.trans h2) hq.le
    _ ≤ totalKinetic (ws 0).bodies := by linarith

/-- C112: along an endless run the energies of the changes of velocity have a finite sum, and tend to zero. -/
theorem C112_limit {q : ℝ} (hq : 0 < q) {env : Env (Option Mat) φ} {ws : ℕ → World (Option Mat) φ}
    (hg : (ws 0).Good) (hb : ∀ b ∈ (ws 0).bodies, 0 ≤ b.mass ∧ 0 ≤ b.ang_inertia)
    (hc : KickCosts q env (ws 0)) (h : ∀ k, StepsTo env (ws k) (ws (k + 1))) :
    (Summable fun k => kickEnergy (ws k).bodies (ws (k + 1)).bodies) ∧
    (∑' k, kickEnergy (ws k).bodies (ws (k + 1)).bodies) ≤ totalKinetic (ws 0).bodies / q ∧
    Filter.Tendsto (fun k => kickEnergy (ws k).bodies (ws (k + 1)).bodies) Filter.atTop (nhds 0) := by
  have hk : ∀ k, ∀ b ∈ (ws k).bodies, 0 ≤ b.mass ∧ 0 ≤ b.ang_inertia := fun k =>
    masses_kept (reaches_statics hg (stepRun_reaches (n := k) (fun j _ => h j) k le_rfl)).2 hb
  have hbd : ∀ n, ∑ k ∈ Finset.range n, kickEnergy (ws k).bodies (ws (k + 1)).bodies ≤
      totalKinetic (ws 0).bodies / q := fun n => by
    rw [le_div_iff₀ hq]
    have := C112_sum (n := n) hc fun k _ => h k
    have := totalKinetic_nonneg (hk n)
    linarith
  have hS := summable_of_sum_range_le (fun k => kickEnergy_nonneg (hk k)) hbd
  exact ⟨hS, hS.tsum_le_of_sum_range_le hbd, hS.tendsto_atTop_zero⟩

/-! ## The energy that can be spent -/

theorem list_cauchy (bs : List Body) (f : Body → ℝ) (h : ∀ b ∈ bs, 0 ≤ b.mass) :
    (bs.map fun b => b.mass * f b).sum ^ 2 ≤
      (bs.map fun b => b.mass).sum * (bs.map fun b => b.mass * f b ^ 2).sum := by
  rw [sum_map_bodyAt, sum_map_bodyAt, sum_map_bodyAt]
  refine Finset.sum_sq_le_sum_mul_sum_of_sq_le_mul _ (fun i hi => h _ (bodyAt_mem' (Finset.mem_range.1 hi)))
    (fun i hi => ?_) fun i hi => by
      exact le_of_eq (by ring)
  have := h _ (bodyAt_mem' (Finset.mem_range.1 hi))
  positivity

/-- C112: the kinetic energy is never below that of the whole mass moving with the total momentum. -/
theorem C112_koenig (bs : List Body) (h : ∀ b ∈ bs, 0 ≤ b.mass ∧ 0 ≤ b.ang_inertia) :
    (totalMomentum bs).1 ^ 2 + (totalMomentum bs).2 ^ 2 ≤ 2 * totalMass bs * totalKinetic bs := by
  have e1 : (totalMomentum bs).1 = (bs.map fun b => b.mass * b.v.x).sum := by
    unfold totalMomentum
    rw [sum_map_bodyAt, sum_map_bodyAt, Prod.fst_sum]
    rfl
  have e2 : (totalMomentum bs).2 = (bs.map fun b => b.mass * b.v.y).sum := by
    unfold totalMomentum
    rw [sum_map_bodyAt, sum_map_bodyAt, Prod.snd_sum]
    rfl
  have c1 := list_cauchy bs (fun b => b.v.x) fun b hb => (h b hb).1
  have c2 := list_cauchy bs (fun b => b.v.y) fun b hb => (h b hb).1
  have hM : 0 ≤ totalMass bs := by
    unfold totalMass
    refine List.sum_nonneg fun x hx => ?_
    obtain ⟨b, hb, rfl⟩ := List.mem_map.1 hx
    exact (h b hb).1
  have h3 : (bs.map fun b => b.mass * b.v.x ^ 2).sum + (bs.map fun b => b.mass * b.v.y ^ 2).sum ≤
      2 * totalKinetic bs := by
    unfold totalKinetic
    rw [sum_map_bodyAt, sum_map_bodyAt, sum_map_bodyAt, ← Finset.sum_add_distrib, Finset.mul_sum]
    refine Finset.sum_le_sum fun i hi => ?_
    have := (h _ (bodyAt_mem' (Finset.mem_range.1 hi))).2
    have : 0 ≤ (bodyAt bs i).ang_inertia * (bodyAt bs i).v.r ^ 2 := by positivity
    linarith
  rw [e1, e2]
  have := mul_le_mul_of_nonneg_left h3 hM
  unfold totalMass at this ⊢
  linarith

/-- C112: in a scene without constraints to the world only the energy in excess of that of the common motion
can be spent on changes of velocity. -/
theorem C112_internal {q : ℝ} (H : ForceHeap) (lcp : LcpSolver) (mi : ℕ)
    (collide : ℝ → φ → List Body → Except Err (φ × List Contact)) (hfind : FinderOk collide) (hx : Exact lcp)
    {n : ℕ} {ws : ℕ → World (Option Mat) φ} (h0 : EngineInv (ws 0)) (hint : Internal (ws 0).joints)
    (hb : ∀ b ∈ (ws 0).bodies, 0 ≤ b.mass ∧ 0 ≤ b.ang_inertia) (hM : 0 < totalMass (ws 0).bodies)
    (hF : NoNetForce H (ws 0).bodies.length) (hc : KickCosts q (pdipmEnv 2 H lcp mi collide) (ws 0))
    (h : StepRun (pdipmEnv 2 H lcp mi collide) n ws) :
    q * ∑ k ∈ Finset.range n, kickEnergy (ws k).bodies (ws (k + 1)).bodies ≤
      totalKinetic (ws 0).bodies -
        ((totalMomentum (ws 0).bodies).1 ^ 2 + (totalMomentum (ws 0).bodies).2 ^ 2) / (2 * totalMass (ws 0).bodies) := by
  have hr := stepRun_reaches h n le_rfl
  have hP := C96_momentum H lcp mi collide hfind hx _ _ h0 hint hF hr
  have hMn := (C96_centre_of_mass H lcp mi collide hfind hx _ _ h0 hint hF hr).1
  have hk := C112_koenig (ws n).bodies (masses_kept (reaches_statics h0.good hr).2 hb)
  rw [hP, hMn] at hk
  have hs := C112_sum hc h
  have : ((totalMomentum (ws 0).bodies).1 ^ 2 + (totalMomentum (ws 0).bodies).2 ^ 2) / (2 * totalMass (ws 0).bodies) ≤
      totalKinetic (ws n).bodies := by
    rw [div_le_iff₀ (by positivity)]
    linarith
  linarith

/-! ## States that do not change -/

/-- No constraint is violated, and at every contact the bodies separate fast enough compared to their sliding. -/
def Separating (w : World (Option Mat) φ) : Prop :=
  (∀ x ∈ jointVels w.joints w.v, x = 0) ∧ ∀ c ∈ w.contacts,
    meanFriction w.bodies c * |slipVel c w.v| ≤ (1 + meanRestitution w.bodies c) * normalVel c w.v

theorem still_law (bs : List Body) (js : List Joint) (cs : List Contact) (v v' l : Vec) (pn a b g : ℕ → ℝ)
    (hpos : ∀ i < bs.length, 0 < (bodyAt bs i).mass ∧ 0 < (bodyAt bs i).ang_inertia)
    (hmu : ∀ c ∈ cs, 0 ≤ meanFriction bs c) (hjv : ∀ x ∈ jointVels js v, x = 0)
    (hsep : ∀ c ∈ cs, meanFriction bs c * |slipVel c v| ≤ (1 + meanRestitution bs c) * normalVel c v)
    (h : ContactLaw bs js cs (fun _ => 0) v v' l pn a b g) : ∀ k < 3 * bs.length, v' k = v k := by
  have hf : ∀ u, forcePower bs.length (fun _ => 0) u = 0 := by
    intro u
    unfold forcePower
    refine Finset.sum_eq_zero fun i _ => ?_
    show (0 : ℝ) * _ + 0 * _ + 0 * _ = 0
    ring
  have h1 := h.dynamics v'
  have h2 := h.dynamics v
  rw [jointPower_zero js l v' h.joints, hf] at h1
  rw [jointPower_zero js l v hjv, hf] at h2
  have hz : contactPower cs pn (fun i => a i - b i) v' - contactPower cs pn (fun i => a i - b i) v ≤ 0 := by
    unfold contactPower
    rw [← Finset.sum_sub_distrib]
    refine Finset.sum_nonpos fun i hi => ?_
    have hi := Finset.mem_range.1 hi
    rw [List.getElem?_eq_getElem hi]
    simp only
    obtain ⟨hp, ha, hb, hg⟩ := h.nonneg i hi
    obtain ⟨c1, c2⟩ := h.cone i hi
    obtain ⟨-, r2⟩ := h.restitution i hi
    obtain ⟨-, s2, -, s4⟩ := h.slip i hi
    have hs := hsep _ (List.getElem_mem hi)
    have hm := hmu _ (List.getElem_mem hi)
    have k1 := mul_le_mul_of_nonneg_left hs hp
    have k2 := mul_le_mul_of_nonneg_right c1 (abs_nonneg (slipVel cs[i] v))
    have k3 : -((a i - b i) * slipVel cs[i] v) ≤ (a i + b i) * |slipVel cs[i] v| := by
      have p1 := mul_le_mul_of_nonneg_left (neg_abs_le (slipVel cs[i] v)) ha
      have p2 := mul_le_mul_of_nonneg_left (le_abs_self (slipVel cs[i] v)) hb
      linarith
    have k4 : 0 ≤ meanFriction bs cs[i] * pn i * g i := by positivity
    linarith
  have e2 : momentumPower bs (v' - v) (v' - v) =
      momentumPower bs v' v' - 2 * momentumPower bs v' v + momentumPower bs v v := by
    rw [momentumPower_sub, momentumPower_symm bs (v' - v) v', momentumPower_symm bs (v' - v) v,
      momentumPower_sub, momentumPower_sub, momentumPower_symm bs v v']
    ring
  rw [momentumPower_symm bs v v'] at h2
  intro k hk
  have := momentumPower_pos_imp_zero bs hpos (v' - v) (by rw [e2]; linarith) k hk
  simpa [sub_eq_zero] using this

theorem bodies_pos {w : World (Option Mat) φ} (hb : ∀ b ∈ w.bodies, 0 < b.mass ∧ 0 < b.ang_inertia) :
    ∀ i < w.bodies.length, 0 < (bodyAt w.bodies i).mass ∧ 0 < (bodyAt w.bodies i).ang_inertia :=
  fun _ hi => hb _ (bodyAt_mem' hi)

/-- C112: from a state in which no constraint is violated and no contact is approached (with friction:
left fast enough) a step without forces changes no velocity, whatever the restitutions. -/
theorem C112_still {H : ForceHeap} {lcp : LcpSolver} {mi : ℕ}
    {collide : ℝ → φ → List Body → Except Err (φ × List Contact)} (hx : Exact lcp)
    {w w' : World (Option Mat) φ} (hw : EngineInv w)
    (hb : ∀ b ∈ w.bodies, 0 < b.mass ∧ 0 < b.ang_inertia ∧ 0 ≤ b.fric_coeff)
    (hF : NoForce H w.bodies.length) (hsep : Separating w) (h : StepsTo (pdipmEnv 2 H lcp mi collide) w w') :
    ∀ i < w.bodies.length, (bodyAt w'.bodies i).v = (bodyAt w.bodies i).v := by
  obtain ⟨fuel, dt, hst⟩ := h
  obtain ⟨fl, l, pn, a, b, g, hfl, law⟩ := step_law hx hw hst
  rw [impulse_zero hF hfl] at law
  have hv := still_law _ _ _ _ _ _ _ _ _ _ (bodies_pos fun b hm => ⟨(hb b hm).1, (hb b hm).2.1⟩)
    (fun c hc => by
      obtain ⟨q1, q2, -⟩ := hw.contacts c hc
      have := (hb _ (bodyAt_mem' q1)).2.2; have := (hb _ (bodyAt_mem' q2)).2.2
      unfold meanFriction; positivity) hsep.1 hsep.2 law
  intro i hi
  rw [good_bodyAt_v hw.good i hi, good_bodyAt_v (step_dt_good hw.good hst) i
    (by rw [sameStatics_length (step_dt_statics hw.good hst)]; exact hi)]
  simp only [slice3]
  rw [hv _ (by omega), hv _ (by omega), hv _ (by omega)]

/-- C112: without friction these are the only states that do not change. -/
theorem C112_still_iff {H : ForceHeap} {lcp : LcpSolver} {mi : ℕ}
    {collide : ℝ → φ → List Body → Except Err (φ × List Contact)} (hx : Exact lcp)
    {w w' : World (Option Mat) φ} (hw : EngineInv w)
    (hb : ∀ b ∈ w.bodies, 0 < b.mass ∧ 0 < b.ang_inertia ∧ b.fric_coeff = 0 ∧ 0 ≤ b.restitution)
    (hF : NoForce H w.bodies.length) (h : StepsTo (pdipmEnv 2 H lcp mi collide) w w') :
    (∀ i < w.bodies.length, (bodyAt w'.bodies i).v = (bodyAt w.bodies i).v) ↔
      (∀ x ∈ jointVels w.joints w.v, x = 0) ∧ ∀ c ∈ w.contacts, 0 ≤ normalVel c w.v := by
  have hmu : ∀ c ∈ w.contacts, meanFriction w.bodies c = 0 := fun c hc => by
    obtain ⟨q1, q2, -⟩ := hw.contacts c hc
    unfold meanFriction; rw [(hb _ (bodyAt_mem' q1)).2.2.1, (hb _ (bodyAt_mem' q2)).2.2.1]; norm_num
  have hre : ∀ c ∈ w.contacts, 0 ≤ meanRestitution w.bodies c := fun c hc => by
    obtain ⟨q1, q2, -⟩ := hw.contacts c hc
    have := (hb _ (bodyAt_mem' q1)).2.2.2; have := (hb _ (bodyAt_mem' q2)).2.2.2
    unfold meanRestitution; positivity
  constructor
  · intro hv
    obtain ⟨fuel, dt, hst⟩ := h
    obtain ⟨fl, l, pn, a, b, g, hfl, law⟩ := step_law hx hw hst
    have hsl := sameStatics_length (step_dt_statics hw.good hst)
    have htw : ∀ i < w.bodies.length, twist w.v i = twist w'.v i := fun i hi => by
      have := hv i hi
      rw [good_bodyAt_v hw.good i hi, good_bodyAt_v (step_dt_good hw.good hst) i (by rw [hsl]; exact hi)] at this
      simp only [slice3, V3.mk.injEq] at this
      simp only [twist, mul_comm 3 i, this]
    have hjn : jointVels w.joints w.v = jointVels w.joints w'.v := by
      unfold jointVels
      refine List.flatMap_congr fun j hj => ?_
      obtain ⟨j1, j2⟩ := hw.joints j hj
      exact jointVel_congr (htw _ j1) fun k hk => htw _ (j2 k hk).1
    refine ⟨by rw [hjn]; exact law.joints, fun c hc => ?_⟩
    obtain ⟨q1, q2, -⟩ := hw.contacts c hc
    obtain ⟨i, hi, rfl⟩ := List.mem_iff_getElem.1 hc
    have r1 := (law.restitution i hi).1
    have e : normalVel w.contacts[i] w'.v = normalVel w.contacts[i] w.v := by
      unfold normalVel
      rw [contactVel_congr (htw _ q1) (htw _ q2)]
    rw [e] at r1
    have := hre _ hc
    by_contra hneg
    push Not at hneg
    nlinarith
  · rintro ⟨h1, h2⟩
    refine C112_still hx hw (fun b hm => ⟨(hb b hm).1, (hb b hm).2.1, (hb b hm).2.2.1.ge⟩) hF ⟨h1, fun c hc => ?_⟩ h
    rw [hmu c hc, zero_mul]
    exact mul_nonneg (by linarith [hre c hc]) (h2 c hc)

/-! ## Examples -/

/-- One circle runs into another one and sticks to it.  All changes of velocity of any run together carry at most a quarter,
one half less the energy of the common motion; the first step returns, and changes some velocity. -/
example (fnd : Finder) (mi cfuel : ℕ) :
    (∀ (n : ℕ) (ws : ℕ → World (Option Mat) Finder), ws 0 = bounceWorld 1 false fnd →
      StepRun (pdipmEnv 2 noForces exactLcp mi (rejectNan (diffCollide cfuel (fun _ => []) (bouncePairs false)))) n ws →
      (∑ k ∈ Finset.range n, kickEnergy (ws k).bodies (ws (k + 1)).bodies ≤ 1 / 4) ∧
      (bigKicks (1 / 100) n ws).ncard ≤ 50) ∧
    ∃ u, StepsTo (pdipmEnv 2 noForces exactLcp mi (rejectNan (diffCollide cfuel (fun _ => []) (bouncePairs false))))
      (bounceWorld 1 false fnd) u ∧
      ¬ ∀ i < (bounceWorld 1 false fnd).bodies.length,
        (bodyAt u.bodies i).v = (bodyAt (bounceWorld 1 false fnd).bodies i).v := by
  have hinv := bounceWorld_inv 1 false fnd
  have hb := bounceWorld_bodies 1 one_pos false fnd
  have hfind := C12_finder_ok cfuel (fun _ => []) (bouncePairs false) (bouncePairs_valid false)
  have hke : totalKinetic (bounceWorld 1 false fnd).bodies = 1 / 2 := by
    simp [totalKinetic, bounceWorld, scaleMass, unitCircle]
  have hM : totalMass (bounceWorld 1 false fnd).bodies = 2 := by
    simp [totalMass, bounceWorld, scaleMass, unitCircle]; norm_num
  have hP : totalMomentum (bounceWorld 1 false fnd).bodies = (1, 0) := by
    ext <;> simp [totalMomentum, bounceWorld, scaleMass, unitCircle, V3.xy]
  have hc := C112_inelastic_step noForces exactLcp mi _ hfind exactLcp_exact _ hinv
    (fun b hbm => ⟨(hb b hbm).2.1.ge, (hb b hbm).2.2.1⟩) (noForces_noForce _)
  refine ⟨fun n ws h0 hr => ⟨?_, ?_⟩, ?_⟩
  · have := C112_internal noForces exactLcp mi _ hfind exactLcp_exact (q := 1) (by rw [h0]; exact hinv)
      (by rw [h0]; intro j hj; cases hj) (by rw [h0]; exact fun b hbm => ⟨(hb b hbm).1.1.le, (hb b hbm).1.2.le⟩)
      (by rw [h0, hM]; norm_num) (noForces_noNet _) (by rw [h0]; exact hc) hr
    rw [h0, hke, hM, hP] at this
    norm_num at this ⊢
    exact this
  · have := C112_count (q := 1) (d := 1 / 100) one_pos (by norm_num) (by rw [h0]; exact hinv.good)
      (by rw [h0]; exact fun b hbm => ⟨(hb b hbm).1.1.le, (hb b hbm).1.2.le⟩) (by rw [h0]; exact hc) hr
    rw [h0, hke] at this
    norm_num at this
    exact_mod_cast this
  · obtain ⟨u, hu⟩ := bounce_runs 1 one_pos false fnd mi cfuel
    unfold runWorld at hu
    rw [if_pos (by simp [bounceWorld])] at hu
    simp only [World.step, Bool.false_eq_true, if_false] at hu
    cases hs : (bounceWorld 1 false fnd).step_dt (pdipmEnv 2 noForces exactLcp mi
        (rejectNan (diffCollide cfuel (fun _ => []) (bouncePairs false)))) 1 (bounceWorld 1 false fnd).dt with
    | running => rw [hs] at hu; cases hu
    | raised e => rw [hs] at hu; cases hu
    | done w1 =>
      refine ⟨w1, ⟨1, _, hs⟩, fun hv => ?_⟩
      have := ((C112_still_iff exactLcp_exact hinv (fun b hbm => ⟨(hb b hbm).1.1, (hb b hbm).1.2, (hb b hbm).2.1,
        (hb b hbm).2.2.1.ge⟩) (noForces_noForce _) ⟨1, _, hs⟩).1 hv).2 spinContact (by simp [bounceWorld])
      norm_num [normalVel, contactVel, pointVel, twist, Spec.inner, spinContact, bounceWorld, cat3] at this

/-- Two elastic circles that fly apart: nothing changes their velocities. -/
example (u : World (Option Mat) Unit) (h : StepsTo (pdipmEnv 2 noForces exactLcp 10 spinFinder)
      { spinWorld with bodies := [{ unitCircle (-1) 1 (1 / 2) with v := ⟨2, -1, 0⟩ }, { unitCircle 1 1 (1 / 2) with v := ⟨1, 1, 0⟩ }],
                       v := cat3 [⟨2, -1, 0⟩, ⟨1, 1, 0⟩] } u) :
    (bodyAt u.bodies 0).v = ⟨2, -1, 0⟩ ∧ (bodyAt u.bodies 1).v = ⟨1, 1, 0⟩ := by
  have hv := C112_still exactLcp_exact (w := { spinWorld with
      bodies := [{ unitCircle (-1) 1 (1 / 2) with v := ⟨2, -1, 0⟩ }, { unitCircle 1 1 (1 / 2) with v := ⟨1, 1, 0⟩ }],
      v := cat3 [⟨2, -1, 0⟩, ⟨1, 1, 0⟩] }) ?_ ?_ (noForces_noForce _) ?_ h
  · exact ⟨hv 0 (by simp), hv 1 (by simp)⟩
  · refine ⟨⟨?_, ?_, ?_, ?_⟩, ?_, ?_, ?_⟩
    · intro b hb
      simp at hb
      rcases hb with rfl | rfl <;> simp [Body.RectForm, unitCircle]
    · intro j hj; cases hj
    · intro j hj; cases hj
    · intro i hi
      have : i = 0 ∨ i = 1 := by simp at hi; omega
      rcases this with rfl | rfl <;> simp [slice3, cat3]
    · intro j hj; cases hj
    · intro c hc
      simp [spinWorld] at hc
      subst hc
      simp [spinContact]
    · intro inv hi; cases hi
  · intro b hb
    simp at hb
    rcases hb with rfl | rfl <;> simp [unitCircle]
  · refine ⟨(by simp [spinWorld, jointVels]), fun c hc => ?_⟩
    simp [spinWorld] at hc
    subst hc
    norm_num [normalVel, slipVel, tangent, contactVel, pointVel, twist, Spec.inner, spinContact, cat3, meanFriction,
      meanRestitution, bodyAt, unitCircle]

/-- Half elastic circles: a third of the energy of every change of velocity is lost. -/
example (w w' : World (Option Mat) Unit)
    (hr : Reaches (pdipmEnv 2 noForces exactLcp 10 spinFinder)
      { spinWorld with bodies := [{ unitCircle (-1) (1 / 2) 0 with v := ⟨5, 1, 0⟩ }, { unitCircle 1 (1 / 2) 0 with v := ⟨7, -1, 0⟩ }] } w)
    (h : StepsTo (pdipmEnv 2 noForces exactLcp 10 spinFinder) w w') :
    totalKinetic w.bodies - totalKinetic w'.bodies = 1 / 3 * kickEnergy w.bodies w'.bodies := by
  have := C112_bouncing_step noForces exactLcp 10 _ spinFinder_ok exactLcp_exact _ ?_ rfl (1 / 2) (by norm_num) ?_
    (noForces_noForce _) w w' hr h
  · rw [this]; norm_num
  · refine ⟨⟨?_, ?_, ?_, ?_⟩, ?_, ?_, ?_⟩
    · intro b hb
      simp at hb
      rcases hb with rfl | rfl <;> simp [Body.RectForm, unitCircle]
    · intro j hj; cases hj
    · intro j hj; cases hj
    · intro i hi
      have : i = 0 ∨ i = 1 := by simp at hi; omega
      rcases this with rfl | rfl <;> simp [slice3, cat3, spinWorld]
    · intro j hj; cases hj
    · intro c hc
      simp [spinWorld] at hc
      subst hc
      simp [spinContact]
    · intro inv hi; cases hi
  · intro b hb
    simp at hb
    rcases hb with rfl | rfl <;> simp [unitCircle]

/-- A disc on an eccentric pivot, for ever: the changes of its velocity have a finite sum. -/
example (mi cfuel : ℕ) (nc : ℕ → List ℕ) (fnd : Finder) :
    ∃ ws : ℕ → World (Option Mat) Finder,
      (∀ k, StepsTo (loneEnv noForces exactLcp mi cfuel nc (bouncePairs false)) (ws k) (ws (k + 1))) ∧
      (ws 0).bodies = [{ unitCircle 1 0 0 with v := ⟨1, 0, 0⟩ }] ∧
      (∑' k, kickEnergy (ws k).bodies (ws (k + 1)).bodies) ≤ 1 / 2 ∧
      Filter.Tendsto (fun k => kickEnergy (ws k).bodies (ws (k + 1)).bodies) Filter.atTop (nhds 0) := by
  obtain ⟨ws, -, h2, -, h4, -, -⟩ := C105_runs noForces (fun t => ⟨_, noForces_cat t 1⟩) exactLcp mi cfuel nc (bouncePairs false)
    (bouncePairs_valid false) fnd { unitCircle 1 0 0 with v := ⟨1, 0, 0⟩ } (by simp [Body.RectForm, unitCircle])
    (by simp [unitCircle]) (0, 0) (1 / 30) (1 / 10) (1 / 1000) true
  have hst : ∀ k, StepsTo (loneEnv noForces exactLcp mi cfuel nc (bouncePairs false)) (ws k) (ws (k + 1)) := fun k => by
    obtain ⟨f, hf⟩ := (h2 (k + 1)).steps k (by omega)
    exact ⟨f, _, hf⟩
  have hc := C112_inelastic_step noForces exactLcp mi _ (C12_finder_ok cfuel nc (bouncePairs false) (bouncePairs_valid false))
    exactLcp_exact (ws 0) (h2 0).inv (by rw [h4]; simp [unitCircle]) (noForces_noForce _)
  obtain ⟨-, l2, l3⟩ := C112_limit (q := 1) one_pos (h2 0).inv.good (by rw [h4]; simp [unitCircle]) hc hst
  refine ⟨ws, hst, h4, ?_, l3⟩
  rw [h4] at l2
  simpa [totalKinetic, unitCircle] using l2

end LcpPhysics
