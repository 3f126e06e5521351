import Verif.Spec.Lockstep
import Verif.Props.Spin
import Verif.Props.CircleWorld
import Verif.Props.Solvable

/-!
# C82: the motion does not depend on the solver, on the order of the contacts or on the unit of mass
-/

noncomputable section

namespace LcpPhysics
open Spec

theorem normalVel_flipped (c : Contact) (v : Vec) : normalVel (flipped c) v = normalVel c v := by
  simp only [normalVel, flipped, contactVel, Spec.inner, Prod.fst_sub, Prod.snd_sub, Prod.fst_neg, Prod.snd_neg]
  ring

theorem flipped_flipped (c : Contact) : flipped (flipped c) = c := by
  unfold flipped; simp

theorem meanRestitution_flipped (bs : List Body) (c : Contact) :
    meanRestitution bs (flipped c) = meanRestitution bs c := by
  unfold meanRestitution flipped; ring

theorem meanFriction_flipped (bs : List Body) (c : Contact) :
    meanFriction bs (flipped c) = meanFriction bs c := by
  unfold meanFriction flipped; ring

theorem twist_congr {n : ℕ} {v w : Vec} (h : ∀ k < 3 * n, w k = v k) {i : ℕ} (hi : i < n) : twist w i = twist v i := by
  unfold twist
  rw [h _ (by omega), h _ (by omega), h _ (by omega)]

theorem normalVel_congr {n : ℕ} {v w : Vec} (h : ∀ k < 3 * n, w k = v k) {c : Contact} (h1 : c.i1 < n) (h2 : c.i2 < n) :
    normalVel c w = normalVel c v := by
  unfold normalVel contactVel
  rw [twist_congr h h1, twist_congr h h2]

theorem jointVel_diff (j : Joint) (u v : Vec) (q1 : ∀ x ∈ jointVel j u, x = 0) (q2 : ∀ x ∈ jointVel j v, x = 0) :
    ∀ x ∈ jointVel j (u - v), x = 0 := by
  intro x hx
  obtain ⟨kind, i1, i2, pos, pos1, pos2, r1, rot1, rot2⟩ := j
  cases kind <;> cases i2 <;>
    simp [jointVel, twist, pointVel] at q1 q2 hx ⊢ <;>
    first
    | (rcases hx with rfl | rfl | rfl <;> linarith [q1.1, q1.2.1, q1.2.2, q2.1, q2.2.1, q2.2.2])
    | (rcases hx with rfl | rfl <;> linarith [q1.1, q1.2, q2.1, q2.2])
    | (rw [hx]; linarith)

theorem scale_momentum {bs bs' : List Body} {s : ℝ} (hlen : bs'.length = bs.length)
    (hb : ∀ i < bs.length, (bodyAt bs' i).mass = s * (bodyAt bs i).mass ∧
      (bodyAt bs' i).ang_inertia = s * (bodyAt bs i).ang_inertia) (u v : Vec) :
    momentumPower bs' u v = s * momentumPower bs u v := by
  unfold momentumPower
  rw [hlen, Finset.mul_sum]
  refine Finset.sum_congr rfl fun i hi => ?_
  obtain ⟨h1, h2⟩ := hb i (Finset.mem_range.1 hi)
  rw [h1, h2]; ring

theorem momentum_congr {bs : List Body} {v w : Vec} (h : ∀ k < 3 * bs.length, w k = v k) (u : Vec) :
    momentumPower bs u w = momentumPower bs u v := by
  unfold momentumPower
  refine Finset.sum_congr rfl fun i hi => ?_
  rw [twist_congr h (Finset.mem_range.1 hi)]

/-- Along the difference of two velocities satisfying the bounds, the normal impulses of the first do no positive
work. -/
theorem contactPower_diff_nonpos (cs : List Contact) (pn pt : ℕ → ℝ) (v v' w' : Vec) (e : Contact → ℝ)
    (hpn : ∀ i < cs.length, 0 ≤ pn i) (hpt : ∀ i < cs.length, pt i = 0)
    (h1 : ∀ (i : ℕ) (h : i < cs.length), pn i * (normalVel cs[i] v' + e cs[i] * normalVel cs[i] v) = 0)
    (h2 : ∀ c ∈ cs, 0 ≤ normalVel c w' + e c * normalVel c v) :
    contactPower cs pn pt (v' - w') ≤ 0 := by
  unfold contactPower
  refine Finset.sum_nonpos fun i hi => ?_
  have hi := Finset.mem_range.1 hi
  rw [List.getElem?_eq_getElem hi]
  simp only
  rw [hpt i hi, normalVel_sub]
  have a1 := h1 i hi
  have a2 := mul_nonneg (hpn i hi) (h2 _ (List.getElem_mem hi))
  nlinarith

/-- C82: without friction the velocities after the impact depend only on the scene: not on which solution the
solver finds, not on the order, multiplicity and orientation of the contacts, not on the order and multiplicity of
the constraints, and not on the unit of mass. -/
theorem C82_same_impact (s : ℝ) (hs : 0 < s) (bs bs' : List Body) (js js' : List Joint) (cs cs' : List Contact)
    (f f' : ℕ → V3) (v v' w w' l l' : Vec) (pn a b g pn' a' b' g' : ℕ → ℝ)
    (h1 : ContactLaw bs js cs f v v' l pn a b g) (h2 : ContactLaw bs' js' cs' f' w w' l' pn' a' b' g')
    (hlen : bs'.length = bs.length)
    (hb : ∀ i < bs.length, (bodyAt bs' i).mass = s * (bodyAt bs i).mass ∧
      (bodyAt bs' i).ang_inertia = s * (bodyAt bs i).ang_inertia ∧
      (bodyAt bs' i).restitution = (bodyAt bs i).restitution)
    (hpos : ∀ i < bs.length, 0 < (bodyAt bs i).mass ∧ 0 < (bodyAt bs i).ang_inertia)
    (hf : ∀ i < bs.length, f' i = s • f i) (hv : ∀ k < 3 * bs.length, w k = v k)
    (hj : ∀ j, j ∈ js ↔ j ∈ js') (hc : SameContacts cs cs')
    (hci : ∀ c ∈ cs, c.i1 < bs.length ∧ c.i2 < bs.length)
    (hmu : ∀ c ∈ cs, meanFriction bs c = 0) (hmu' : ∀ c ∈ cs', meanFriction bs' c = 0) :
    ∀ k < 3 * bs.length, w' k = v' k := by
  have hci' : ∀ c ∈ cs', c.i1 < bs.length ∧ c.i2 < bs.length := by
    intro c hcm
    rcases hc.2 c hcm with h | h
    · exact hci c h
    · exact ⟨(hci _ h).2, (hci _ h).1⟩
  have hre : ∀ c, c.i1 < bs.length → c.i2 < bs.length → meanRestitution bs' c = meanRestitution bs c := by
    intro c q1 q2
    unfold meanRestitution
    rw [(hb _ q1).2.2, (hb _ q2).2.2]
  -- the bounds hold for both velocities on both lists
  have up : ∀ c ∈ cs, 0 ≤ normalVel c w' + meanRestitution bs c * normalVel c v := by
    intro c hcm
    obtain ⟨q1, q2⟩ := hci c hcm
    have key : ∀ d ∈ cs', 0 ≤ normalVel d w' + meanRestitution bs' d * normalVel d w := by
      intro d hd
      obtain ⟨i, hi, rfl⟩ := List.mem_iff_getElem.1 hd
      exact (h2.restitution i hi).1
    rcases hc.1 c hcm with h | h
    · have := key c h
      rwa [hre c q1 q2, normalVel_congr hv q1 q2] at this
    · have := key _ h
      rw [normalVel_flipped, normalVel_flipped, meanRestitution_flipped] at this
      rwa [hre c q1 q2, normalVel_congr hv q1 q2] at this
  have up' : ∀ c ∈ cs', 0 ≤ normalVel c v' + meanRestitution bs' c * normalVel c w := by
    intro c hcm
    obtain ⟨q1, q2⟩ := hci' c hcm
    rw [hre c q1 q2, normalVel_congr hv q1 q2]
    have key : ∀ d ∈ cs, 0 ≤ normalVel d v' + meanRestitution bs d * normalVel d v := by
      intro d hd
      obtain ⟨i, hi, rfl⟩ := List.mem_iff_getElem.1 hd
      exact (h1.restitution i hi).1
    rcases hc.2 c hcm with h | h
    · exact key c h
    · have := key _ h
      rwa [normalVel_flipped, normalVel_flipped, meanRestitution_flipped] at this
  have zero : ∀ {bs : List Body} {js : List Joint} {cs : List Contact} {f : ℕ → V3} {v v' l : Vec}
      {pn a b g : ℕ → ℝ}, ContactLaw bs js cs f v v' l pn a b g → (∀ c ∈ cs, meanFriction bs c = 0) →
      ∀ i < cs.length, a i - b i = 0 := by
    intro bs js cs f v v' l pn a b g h hmu i hi
    obtain ⟨c1, -⟩ := h.cone i hi
    obtain ⟨-, na, nb, -⟩ := h.nonneg i hi
    rw [hmu _ (List.getElem_mem hi)] at c1
    linarith
  have jz : ∀ x ∈ jointVels js (v' - w'), x = 0 := by
    intro x hx
    obtain ⟨j, hjm, hx⟩ := List.mem_flatMap.1 hx
    exact jointVel_diff j v' w' (fun x hx => h1.joints x (List.mem_flatMap.2 ⟨j, hjm, hx⟩))
      (fun x hx => h2.joints x (List.mem_flatMap.2 ⟨j, (hj j).1 hjm, hx⟩)) x hx
  have jz' : ∀ x ∈ jointVels js' (v' - w'), x = 0 := by
    intro x hx
    obtain ⟨j, hjm, hx⟩ := List.mem_flatMap.1 hx
    exact jz x (List.mem_flatMap.2 ⟨j, (hj j).2 hjm, hx⟩)
  have c1 : contactPower cs pn (fun i => a i - b i) (v' - w') ≤ 0 :=
    contactPower_diff_nonpos cs pn _ v v' w' (meanRestitution bs) (fun i hi => (h1.nonneg i hi).1)
      (zero h1 hmu) (fun i hi => (h1.restitution i hi).2) up
  have c2 : contactPower cs' pn' (fun i => a' i - b' i) (w' - v') ≤ 0 :=
    contactPower_diff_nonpos cs' pn' _ w w' v' (meanRestitution bs') (fun i hi => (h2.nonneg i hi).1)
      (zero h2 hmu') (fun i hi => (h2.restitution i hi).2) up'
  have c2' : contactPower cs' pn' (fun i => a' i - b' i) (w' - v') =
      -contactPower cs' pn' (fun i => a' i - b' i) (v' - w') := by
    unfold contactPower
    rw [← Finset.sum_neg_distrib]
    refine Finset.sum_congr rfl fun i hi => ?_
    have hi := Finset.mem_range.1 hi
    rw [List.getElem?_eq_getElem hi]
    simp only
    rw [zero h2 hmu' i hi, normalVel_sub, normalVel_sub]
    ring
  have d1 := h1.dynamics (v' - w')
  have d2 := h2.dynamics (v' - w')
  rw [jointPower_zero js l _ jz] at d1
  rw [jointPower_zero js' l' _ jz'] at d2
  have hfp : forcePower bs'.length f' (v' - w') = s * forcePower bs.length f (v' - w') := by
    unfold forcePower
    rw [hlen, Finset.mul_sum]
    refine Finset.sum_congr rfl fun i hi => ?_
    rw [hf i (Finset.mem_range.1 hi)]
    simp only [V3.smul_r, V3.smul_x, V3.smul_y]
    ring
  have hb2 : ∀ i < bs.length, (bodyAt bs' i).mass = s * (bodyAt bs i).mass ∧
      (bodyAt bs' i).ang_inertia = s * (bodyAt bs i).ang_inertia := fun i hi => ⟨(hb i hi).1, (hb i hi).2.1⟩
  rw [hfp, scale_momentum hlen hb2, scale_momentum hlen hb2, momentum_congr hv] at d2
  have hle : momentumPower bs (v' - w') (v' - w') ≤ 0 := by
    have e := momentumPower_sub bs (v' - w') v' w'
    have : s * momentumPower bs (v' - w') (v' - w') ≤ 0 := by
      rw [e]; nlinarith
    by_contra hcon
    push Not at hcon
    nlinarith
  intro k hk
  have := momentumPower_pos_imp_zero bs hpos (v' - w') hle k hk
  simp only [Pi.sub_apply] at this
  linarith

/-- C82: the same for the displacement of the post-stabilization. -/
theorem C82_same_correction (s : ℝ) (hs : 0 < s) (bs bs' : List Body) (js js' : List Joint) (cs cs' : List Contact)
    (v w dp dp' l l' : Vec) (pn pn' : ℕ → ℝ) (h1 : PostStabLaw bs js cs v dp l pn)
    (h2 : PostStabLaw bs' js' cs' w dp' l' pn') (hlen : bs'.length = bs.length)
    (hb : ∀ i < bs.length, (bodyAt bs' i).mass = s * (bodyAt bs i).mass ∧
      (bodyAt bs' i).ang_inertia = s * (bodyAt bs i).ang_inertia ∧
      (bodyAt bs' i).restitution = (bodyAt bs i).restitution)
    (hpos : ∀ i < bs.length, 0 < (bodyAt bs i).mass ∧ 0 < (bodyAt bs i).ang_inertia)
    (hv : ∀ k < 3 * bs.length, w k = v k)
    (hj : ∀ j, j ∈ js ↔ j ∈ js') (hji : ∀ j ∈ js, j.i1 < bs.length ∧ ∀ k ∈ j.i2, k < bs.length)
    (hc : SameContacts cs cs')
    (hci : ∀ c ∈ cs, c.i1 < bs.length ∧ c.i2 < bs.length) :
    ∀ k < 3 * bs.length, dp' k = dp k := by
  have hci' : ∀ c ∈ cs', c.i1 < bs.length ∧ c.i2 < bs.length := by
    intro c hcm
    rcases hc.2 c hcm with h | h
    · exact hci c h
    · exact ⟨(hci _ h).2, (hci _ h).1⟩
  have hre : ∀ c, c.i1 < bs.length → c.i2 < bs.length → meanRestitution bs' c = meanRestitution bs c := by
    intro c q1 q2
    unfold meanRestitution
    rw [(hb _ q1).2.2, (hb _ q2).2.2]
  have up : ∀ c ∈ cs, 0 ≤ normalVel c dp' + (1 - meanRestitution bs c) * normalVel c v := by
    intro c hcm
    obtain ⟨q1, q2⟩ := hci c hcm
    have key : ∀ d ∈ cs', 0 ≤ normalVel d dp' + (1 - meanRestitution bs' d) * normalVel d w := by
      intro d hd
      obtain ⟨i, hi, rfl⟩ := List.mem_iff_getElem.1 hd
      exact (h2.contacts i hi).1
    rcases hc.1 c hcm with h | h
    · have := key c h
      rwa [hre c q1 q2, normalVel_congr hv q1 q2] at this
    · have := key _ h
      rw [normalVel_flipped, normalVel_flipped, meanRestitution_flipped] at this
      rwa [hre c q1 q2, normalVel_congr hv q1 q2] at this
  have up' : ∀ c ∈ cs', 0 ≤ normalVel c dp + (1 - meanRestitution bs' c) * normalVel c w := by
    intro c hcm
    obtain ⟨q1, q2⟩ := hci' c hcm
    rw [hre c q1 q2, normalVel_congr hv q1 q2]
    have key : ∀ d ∈ cs, 0 ≤ normalVel d dp + (1 - meanRestitution bs d) * normalVel d v := by
      intro d hd
      obtain ⟨i, hi, rfl⟩ := List.mem_iff_getElem.1 hd
      exact (h1.contacts i hi).1
    rcases hc.2 c hcm with h | h
    · exact key c h
    · have := key _ h
      rwa [normalVel_flipped, normalVel_flipped, meanRestitution_flipped] at this
  have jz : ∀ x ∈ jointVels js (dp - dp'), x = 0 := by
    intro x hx
    obtain ⟨j, hjm, hx⟩ := List.mem_flatMap.1 hx
    have e1 : ∀ x ∈ jointVel j (dp + v), x = 0 := fun x hx => h1.joints x (List.mem_flatMap.2 ⟨j, hjm, hx⟩)
    have e2 : ∀ x ∈ jointVel j (dp' + v), x = 0 := by
      have e3 : jointVel j (dp' + v) = jointVel j (dp' + w) := by
        obtain ⟨k1, k2⟩ := hji j hjm
        have hvw : ∀ k < 3 * bs.length, (dp' + w) k = (dp' + v) k := by
          intro k hk; simp [hv k hk]
        unfold jointVel
        rw [twist_congr hvw k1]
        cases hi2 : j.i2 with
        | none => rfl
        | some k => simp only; rw [twist_congr hvw (k2 k hi2)]
      rw [e3]
      exact fun x hx => h2.joints x (List.mem_flatMap.2 ⟨j, (hj j).1 hjm, hx⟩)
    have e4 := jointVel_diff j (dp + v) (dp' + v) e1 e2
    rw [add_sub_add_right_eq_sub] at e4
    exact e4 x hx
  have jz' : ∀ x ∈ jointVels js' (dp - dp'), x = 0 := by
    intro x hx
    obtain ⟨j, hjm, hx⟩ := List.mem_flatMap.1 hx
    exact jz x (List.mem_flatMap.2 ⟨j, (hj j).2 hjm, hx⟩)
  have c1 : contactPower cs pn (fun _ => 0) (dp - dp') ≤ 0 :=
    contactPower_diff_nonpos cs pn _ v dp dp' (fun c => 1 - meanRestitution bs c) (fun i hi => h1.nonneg i hi)
      (fun _ _ => rfl) (fun i hi => (h1.contacts i hi).2) up
  have c2 : contactPower cs' pn' (fun _ => 0) (dp' - dp) ≤ 0 :=
    contactPower_diff_nonpos cs' pn' _ w dp' dp (fun c => 1 - meanRestitution bs' c) (fun i hi => h2.nonneg i hi)
      (fun _ _ => rfl) (fun i hi => (h2.contacts i hi).2) up'
  have c2' : contactPower cs' pn' (fun _ => 0) (dp' - dp) = -contactPower cs' pn' (fun _ => 0) (dp - dp') := by
    unfold contactPower
    rw [← Finset.sum_neg_distrib]
    refine Finset.sum_congr rfl fun i hi => ?_
    have hi := Finset.mem_range.1 hi
    rw [List.getElem?_eq_getElem hi]
    simp only
    rw [normalVel_sub, normalVel_sub]
    ring
  have d1 := h1.dynamics (dp - dp')
  have d2 := h2.dynamics (dp - dp')
  rw [jointPower_zero js l _ jz] at d1
  rw [jointPower_zero js' l' _ jz'] at d2
  have hb2 : ∀ i < bs.length, (bodyAt bs' i).mass = s * (bodyAt bs i).mass ∧
      (bodyAt bs' i).ang_inertia = s * (bodyAt bs i).ang_inertia := fun i hi => ⟨(hb i hi).1, (hb i hi).2.1⟩
  rw [scale_momentum hlen hb2] at d2
  have hle : momentumPower bs (dp - dp') (dp - dp') ≤ 0 := by
    have e := momentumPower_sub bs (dp - dp') dp dp'
    have : s * momentumPower bs (dp - dp') (dp - dp') ≤ 0 := by
      rw [e]; nlinarith
    by_contra hcon
    push Not at hcon
    nlinarith
  intro k hk
  have := momentumPower_pos_imp_zero bs hpos (dp - dp') hle k hk
  simp only [Pi.sub_apply] at this
  linarith

/-! ## Worlds in lockstep -/

variable {φ φ' : Type}

theorem scaleMass_set_p (s : ℝ) (b : Body) (q : V3) : (scaleMass s b).set_p q = scaleMass s (b.set_p q) := by
  obtain ⟨p, v, m, I, r, mu, e, shape, geom⟩ := b
  unfold scaleMass Body.set_p
  cases shape <;> rfl

theorem scaleMass_move (s : ℝ) (b : Body) (d : ℝ) : (scaleMass s b).move d = scaleMass s (b.move d) :=
  scaleMass_set_p s b _

theorem map_scaleMass_move (s : ℝ) (bs : List Body) (d : ℝ) :
    ((bs.map (scaleMass s)).map fun b => b.move d) = (bs.map fun b => b.move d).map (scaleMass s) := by
  simp only [List.map_map, Function.comp_def, scaleMass_move]

theorem bodyAt_scaleMass (s : ℝ) (bs : List Body) (i : ℕ) : (bodyAt (bs.map (scaleMass s)) i).p = (bodyAt bs i).p ∧
    (bodyAt (bs.map (scaleMass s)) i).v = (bodyAt bs i).v := by
  unfold bodyAt
  simp only [List.getD_eq_getElem?_getD, List.getElem?_map]
  cases bs[i]? <;> exact ⟨rfl, rfl⟩

theorem update_pos_scaleMass (s : ℝ) (bs : List Body) (j : Joint) :
    j.update_pos (bs.map (scaleMass s)) = j.update_pos bs := by
  have h : ∀ i, (bodyAt (bs.map (scaleMass s)) i).p = (bodyAt bs i).p := fun i => (bodyAt_scaleMass s bs i).1
  unfold Joint.update_pos Body.pos
  cases j.kind <;> cases j.i2 <;> simp only [h]

theorem joint_move_scaleMass (s : ℝ) (bs : List Body) (j : Joint) (d : ℝ) :
    j.move (bs.map (scaleMass s)) d = j.move bs d := by
  have h : ∀ i, (bodyAt (bs.map (scaleMass s)) i).v = (bodyAt bs i).v := fun i => (bodyAt_scaleMass s bs i).2
  unfold Joint.move
  cases j.kind <;> cases j.i2 <;> simp only [h, update_pos_scaleMass]

theorem drift_scaleMass (s : ℝ) (bs : List Body) (j : Joint) (d : ℝ) :
    j.drift (bs.map (scaleMass s)) d = j.drift bs d := by
  have h : ∀ i, (bodyAt (bs.map (scaleMass s)) i).v = (bodyAt bs i).v := fun i => (bodyAt_scaleMass s bs i).2
  unfold Joint.drift
  cases j.kind <;> cases j.i2 <;> simp only [h]

variable {s : ℝ} {w : World (Option Mat) φ} {w' : World (Option Mat) φ'}

theorem twin_length (h : Twin s w w') : w'.bodies.length = w.bodies.length := by rw [h.bodies, List.length_map]

theorem twin_set_v (h : Twin s w w') {v v' : Vec} (e e' : Option Mat) (hv : ∀ k < 3 * w.bodies.length, v' k = v k) :
    Twin s (({ w with eng := e } : World (Option Mat) φ).set_v v)
      (({ w' with eng := e' } : World (Option Mat) φ').set_v v') := by
  refine ⟨h.t, h.dt, h.eps, h.tol, h.post_stab, h.strict, ?_, h.joints, ?_, h.contacts⟩
  · simp only [World.set_v]
    rw [h.bodies]
    apply List.ext_getElem
    · simp
    · intro n h1 h2
      simp only [List.length_map, List.length_zipIdx] at h1
      simp only [List.getElem_map, List.getElem_zipIdx, Nat.zero_add]
      have : slice3 v' n = slice3 v n := by
        unfold slice3
        rw [hv _ (by omega), hv _ (by omega), hv _ (by omega)]
      rw [this]
      rfl
  · intro k hk
    rw [set_v_length] at hk
    exact hv k hk

theorem twin_accepted (h : Twin s w w') (d q : ℝ) (f : φ) (f' : φ') {cs cs' : List Contact}
    (hc : SameContacts cs cs') : Twin s (w.accepted d q f cs) (w'.accepted d q f' cs') := by
  refine ⟨h.t, h.dt, h.eps, h.tol, h.post_stab, h.strict, ?_, ?_, ?_, hc⟩
  · simp only [World.accepted]
    rw [h.bodies, map_scaleMass_move]
  · simp only [World.accepted]
    rw [h.joints, h.bodies, map_scaleMass_move]
    refine List.map_congr_left fun j _ => ?_
    rw [joint_move_scaleMass, drift_scaleMass]
  · intro k hk
    simp only [World.accepted, List.length_map] at hk
    exact h.v k hk

theorem twin_moved (h : Twin s w w') (d : ℝ) :
    Twin s ((w.moveBodies d).moveJoints d) ((w'.moveBodies d).moveJoints d) := by
  refine ⟨h.t, h.dt, h.eps, h.tol, h.post_stab, h.strict, ?_, ?_, ?_, h.contacts⟩
  · simp only [World.moveBodies, World.moveJoints]
    rw [h.bodies, map_scaleMass_move]
  · simp only [World.moveBodies, World.moveJoints]
    rw [h.joints, h.bodies, map_scaleMass_move]
    refine List.map_congr_left fun j _ => ?_
    rw [joint_move_scaleMass]
  · intro k hk
    simp only [World.moveBodies, World.moveJoints, List.length_map] at hk
    exact h.v k hk

theorem sameContacts_pen {cs cs' : List Contact} (h : SameContacts cs cs') (tol : ℝ) :
    (∀ c ∈ cs', c.pen ≤ tol) ↔ ∀ c ∈ cs, c.pen ≤ tol := by
  constructor
  · intro hp c hc
    rcases h.1 c hc with h1 | h1
    · exact hp c h1
    · exact hp (flipped c) h1
  · intro hp c hc
    rcases h.2 c hc with h1 | h1
    · exact hp c h1
    · exact hp (flipped c) h1

/-- Two contact searches that report the same contacts on bodies of kind `P`, as long as their states are related. -/
def SameFinders (s : ℝ) (P : Body → Prop) (R : φ → φ' → Prop)
    (collide : ℝ → φ → List Body → Except Err (φ × List Contact))
    (collide' : ℝ → φ' → List Body → Except Err (φ' × List Contact)) : Prop :=
  ∀ eps f f' bs g cs g' cs', (∀ b ∈ bs, P b) → R f f' → collide eps f bs = .ok (g, cs) →
    collide' eps f' (bs.map (scaleMass s)) = .ok (g', cs') → R g g' ∧ SameContacts cs cs'

/-- The invariant of the pair of runs. -/
structure TwinRun (s : ℝ) (P : Body → Prop) (R : φ → φ' → Prop) (w : World (Option Mat) φ)
    (w' : World (Option Mat) φ') : Prop where
  twin : Twin s w w'
  inv : EngineInv w
  inv' : EngineInv w'
  kind : ∀ b ∈ w.bodies, P b
  rel : R w.fnd w'.fnd
  pos : ∀ b ∈ w.bodies, 0 < b.mass ∧ 0 < b.ang_inertia
  slick : ∀ b ∈ w.bodies, b.fric_coeff = 0

theorem bodyAt_mem' {bs : List Body} {i : ℕ} (h : i < bs.length) : bodyAt bs i ∈ bs := by
  simp [bodyAt, List.getD_eq_getElem?_getD, h]

theorem twin_bodies (h : Twin s w w') {i : ℕ} (hi : i < w.bodies.length) :
    bodyAt w'.bodies i = scaleMass s (bodyAt w.bodies i) := by
  rw [h.bodies, bodyAt_map _ _ _ hi]

/-- Both solvers give the same velocities. -/
theorem twin_solve {P : Body → Prop} {R : φ → φ' → Prop} (hs : 0 < s) {H H' : ForceHeap} {lcp lcp' : LcpSolver}
    {mi mi' : ℕ} (hx : Exact lcp) (hx' : Exact lcp') (h : TwinRun s P R w w')
    (hH : ∀ t fl fl', forceCat H t w.bodies.length = .ok fl → forceCat H' t w.bodies.length = .ok fl' →
      fl' = fl.map fun x => s • x)
    {dt : ℝ} {e e' : Option Mat} {v v' : Vec} (h1 : pdipmSolve 2 H lcp mi w dt = .ok (e, v))
    (h2 : pdipmSolve 2 H' lcp' mi' w' dt = .ok (e', v')) : ∀ k < 3 * w.bodies.length, v' k = v k := by
  obtain ⟨fl, l, pn, a, b, g, hf, law⟩ := C38_engine_contact_law H lcp mi w dt e v h.inv.joints h.inv.contacts
    h.inv.cache.ok hx h1
  obtain ⟨fl', l', pn', a', b', g', hf', law'⟩ := C38_engine_contact_law H' lcp' mi' w' dt e' v' h.inv'.joints
    h.inv'.contacts h.inv'.cache.ok hx' h2
  have tw := h.twin
  rw [tw.t, (twin_length tw)] at hf'
  have hfl := hH _ _ _ hf hf'
  have mu : ∀ (c : Contact), c.i1 < w.bodies.length → c.i2 < w.bodies.length →
      meanFriction w.bodies c = 0 ∧ meanFriction w'.bodies c = 0 := by
    intro c q1 q2
    unfold meanFriction
    rw [twin_bodies tw q1, twin_bodies tw q2]
    simp only [scaleMass]
    rw [h.slick _ (bodyAt_mem' q1), h.slick _ (bodyAt_mem' q2)]
    norm_num
  refine C82_same_impact s hs w.bodies w'.bodies w.joints w'.joints w.contacts w'.contacts _ _ w.v v w'.v v' l l'
    pn a b g pn' a' b' g' law law' (twin_length tw) ?_ ?_ ?_ tw.v ?_ tw.contacts ?_ ?_ ?_
  · intro i hi
    rw [twin_bodies tw hi]
    exact ⟨rfl, rfl, rfl⟩
  · exact fun i hi => h.pos _ (bodyAt_mem' hi)
  · intro i hi
    subst hfl
    unfold impulse
    simp only [List.getD_eq_getElem?_getD, List.getElem?_map]
    cases fl[i]? with
    | none => apply V3.ext <;> simp
    | some x => apply V3.ext <;> simp <;> ring
  · intro j; rw [tw.joints]
  · exact fun c hc => ⟨(h.inv.contacts c hc).1, (h.inv.contacts c hc).2.1⟩
  · exact fun c hc => (mu c (h.inv.contacts c hc).1 (h.inv.contacts c hc).2.1).1
  · intro c hc
    have := h.inv'.contacts c hc
    rw [(twin_length tw)] at this
    exact (mu c this.1 this.2.1).2

/-- Both post-stabilizations give the same displacement. -/
theorem twin_postStab (hs : 0 < s) {lcp lcp' : LcpSolver}
    (hx : Exact lcp) (hx' : Exact lcp') (tw : Twin s w w') (hj : JointsOk w) (hc : ContactsOk w) (hcc : CacheInv w)
    (hj' : JointsOk w') (hc' : ContactsOk w') (hcc' : CacheInv w')
    (pos : ∀ b ∈ w.bodies, 0 < b.mass ∧ 0 < b.ang_inertia)
    {dp dp' : Vec} (h1 : pdipmPostStab lcp w = .ok dp)
    (h2 : pdipmPostStab lcp' w' = .ok dp') : ∀ k < 3 * w.bodies.length, dp' k = dp k := by
  obtain ⟨l, pn, law⟩ := C62_post_stab_law lcp w dp hj hc hcc.ok hx h1
  obtain ⟨l', pn', law'⟩ := C62_post_stab_law lcp' w' dp' hj' hc' hcc'.ok hx' h2
  refine C82_same_correction s hs w.bodies w'.bodies w.joints w'.joints w.contacts w'.contacts w.v w'.v dp dp' l l'
    pn pn' law law' (twin_length tw) ?_ (fun i hi => pos _ (bodyAt_mem' hi)) tw.v ?_ ?_ tw.contacts ?_
  · intro i hi
    rw [twin_bodies tw hi]
    exact ⟨rfl, rfl, rfl⟩
  · intro j; rw [tw.joints]
  · exact fun j hjm => ⟨(hj j hjm).1, fun k hk => ((hj j hjm).2 k hk).1⟩
  · exact fun c hc1 => ⟨(hc c hc1).1, (hc c hc1).2.1⟩

theorem twin_specLoop {P : Body → Prop} {R : φ → φ' → Prop} {env : Env (Option Mat) φ} {env' : Env (Option Mat) φ'}
    (hf : SameFinders s P R env.collide env'.collide) (hPm : ∀ b d, P b → P (b.move d)) (tw : Twin s w w')
    (hP : ∀ b ∈ w.bodies, P b) : ∀ (fuel : ℕ) (f : φ) (f' : φ') (d q : ℝ) (r r'), R f f' →
    specLoop env w fuel f d q = .done r → specLoop env' w' fuel f' d q = .done r' →
    ∃ (d2 q2 : ℝ) (g : φ) (g' : φ') (cs cs' : List Contact), R g g' ∧ SameContacts cs cs' ∧
      r = (w.accepted d2 q2 g cs, d2) ∧ r' = (w'.accepted d2 q2 g' cs', d2) ∧
      (∃ f0, env.collide w.eps f0 (w.bodies.map fun b => b.move d2) = .ok (g, cs)) ∧
      ∃ f0, env'.collide w'.eps f0 (w'.bodies.map fun b => b.move d2) = .ok (g', cs')
  | 0, _, _, _, _, _, _, _, h, _ => by cases h
  | fuel + 1, f, f', d, q, r, r', hR, h1, h2 => by
    unfold specLoop at h1 h2
    cases c1 : env.collide w.eps f (w.bodies.map fun b => b.move d) with
    | error e => rw [c1] at h1; cases h1
    | ok x =>
      obtain ⟨g, cs⟩ := x
      rw [c1] at h1
      cases c2 : env'.collide w'.eps f' (w'.bodies.map fun b => b.move d) with
      | error e => rw [c2] at h2; cases h2
      | ok x =>
        obtain ⟨g', cs'⟩ := x
        rw [c2] at h2
        have c2' := c2
        rw [tw.eps, tw.bodies, map_scaleMass_move] at c2'
        obtain ⟨hR', hsame⟩ := hf _ _ _ _ _ _ _ _ (by
          intro b hb
          obtain ⟨b0, hb0, rfl⟩ := List.mem_map.1 hb
          exact hPm _ _ (hP b0 hb0)) hR c1 c2'
        have hacc : w'.accepts d cs' ↔ w.accepts d cs := by
          unfold World.accepts
          rw [tw.tol, tw.strict, tw.dt, sameContacts_pen hsame]
        simp only at h1 h2
        by_cases ha : w.accepts d cs
        · rw [if_pos ha] at h1
          rw [if_pos (hacc.2 ha)] at h2
          injection h1 with h1
          injection h2 with h2
          exact ⟨d, q, g, g', cs, cs', hR', hsame, h1.symm, h2.symm, ⟨f, c1⟩, ⟨f', c2⟩⟩
        · rw [if_neg ha] at h1
          rw [if_neg fun hh => ha (hacc.1 hh)] at h2
          exact twin_specLoop hf hPm tw hP fuel g g' (d / 2) (q + d) r r' hR' h1 h2

theorem kind_set_v {P : Body → Prop} (hPv : ∀ (b : Body) v, P b → P { b with v := v }) (x : World (Option Mat) φ)
    (v : Vec) (hxP : ∀ b ∈ x.bodies, P b) : ∀ b ∈ (x.set_v v).bodies, P b := by
  intro b hb
  simp only [World.set_v, List.mem_map] at hb
  obtain ⟨bi, hbi, rfl⟩ := hb
  exact hPv _ _ (hxP _ (List.fst_mem_of_mem_zipIdx hbi))

theorem kind_move {P : Body → Prop} (hPm : ∀ b d, P b → P (b.move d)) (bs : List Body) (d : ℝ)
    (hbs : ∀ b ∈ bs, P b) : ∀ b ∈ bs.map (fun b => b.move d), P b := by
  intro b hb
  obtain ⟨b0, hb0, rfl⟩ := List.mem_map.1 hb
  exact hPm _ _ (hbs b0 hb0)

/-- The post-stabilization block of both worlds. -/
theorem twin_postBlock {P : Body → Prop} {R : φ → φ' → Prop} (hs : 0 < s) {H H' : ForceHeap} {lcp lcp' : LcpSolver}
    {mi mi' : ℕ} (hx : Exact lcp) (hx' : Exact lcp')
    {collide : ℝ → φ → List Body → Except Err (φ × List Contact)}
    {collide' : ℝ → φ' → List Body → Except Err (φ' × List Contact)}
    (hf : SameFinders s P R collide collide') (hPm : ∀ b d, P b → P (b.move d))
    (hPv : ∀ (b : Body) v, P b → P { b with v := v })
    (tw : Twin s w w') (hj : JointsOk w) (hc : ContactsOk w) (hcc : CacheInv w)
    (hj' : JointsOk w') (hc' : ContactsOk w') (hcc' : CacheInv w')
    (pos : ∀ b ∈ w.bodies, 0 < b.mass ∧ 0 < b.ang_inertia) (hP : ∀ b ∈ w.bodies, P b) (hR : R w.fnd w'.fnd)
    {d : ℝ} {u : World (Option Mat) φ} {u' : World (Option Mat) φ'}
    (h1 : postStab (pdipmEnv 2 H lcp mi collide) w d = .done u)
    (h2 : postStab (pdipmEnv 2 H' lcp' mi' collide') w' d = .done u') :
    Twin s u u' ∧ R u.fnd u'.fnd ∧ ∀ b ∈ u.bodies, P b := by
  unfold postStab at h1 h2
  simp only at h1 h2
  rw [Run.bind_eq_done] at h1 h2
  obtain ⟨dp, p1, h1⟩ := h1
  obtain ⟨dp', p2, h2⟩ := h2
  have p1 : pdipmPostStab lcp w = .ok dp := by
    change Run.ofExcept (pdipmPostStab lcp _) = _ at p1
    cases hq : pdipmPostStab lcp w with
    | error z => rw [hq] at p1; cases p1
    | ok z => rw [hq] at p1; injection p1 with p1; rw [p1]
  have p2 : pdipmPostStab lcp' w' = .ok dp' := by
    change Run.ofExcept (pdipmPostStab lcp' _) = _ at p2
    cases hq : pdipmPostStab lcp' w' with
    | error z => rw [hq] at p2; cases p2
    | ok z => rw [hq] at p2; injection p2 with p2; rw [p2]
  have hdp := twin_postStab hs hx hx' tw hj hc hcc hj' hc' hcc' pos p1 p2
  have tw3 : Twin s (w.set_v fun k => dp k / 2) (w'.set_v fun k => dp' k / 2) :=
    twin_set_v tw w.eng w'.eng (fun k hk => by rw [hdp k hk])
  have tw4 := twin_moved tw3 d
  have hP3 := kind_set_v hPv w (fun k => dp k / 2) hP
  have hP4 := kind_move hPm _ d hP3
  have hP5 := kind_set_v hPv (((w.set_v fun k => dp k / 2).moveBodies d).moveJoints d) w.v hP4
  have tw5 : Twin s ((((w.set_v fun k => dp k / 2).moveBodies d).moveJoints d).set_v w.v)
      ((((w'.set_v fun k => dp' k / 2).moveBodies d).moveJoints d).set_v w'.v) :=
    twin_set_v tw4 w.eng w'.eng (fun k hk => by
      refine tw.v k ?_
      simp only [World.moveBodies, World.moveJoints, List.length_map, set_v_length] at hk
      exact hk)
  have hR5 : R ((((w.set_v fun k => dp k / 2).moveBodies d).moveJoints d).set_v w.v).fnd
      ((((w'.set_v fun k => dp' k / 2).moveBodies d).moveJoints d).set_v w'.v).fnd := hR
  generalize (((w.set_v fun k => dp k / 2).moveBodies d).moveJoints d).set_v w.v = z at *
  generalize (((w'.set_v fun k => dp' k / 2).moveBodies d).moveJoints d).set_v w'.v = z' at *
  unfold World.find_contacts at h1 h2
  change (match collide z.eps z.fnd z.bodies with
    | .error e => .raised e
    | .ok (f, cs) => .done { z with contacts := cs, fnd := f } : Run (World (Option Mat) φ)) = _ at h1
  change (match collide' z'.eps z'.fnd z'.bodies with
    | .error e => .raised e
    | .ok (f, cs) => .done { z' with contacts := cs, fnd := f } : Run (World (Option Mat) φ')) = _ at h2
  cases c1 : collide z.eps z.fnd z.bodies with
  | error er => rw [c1] at h1; cases h1
  | ok o =>
    rw [c1] at h1
    cases c2 : collide' z'.eps z'.fnd z'.bodies with
    | error er => rw [c2] at h2; cases h2
    | ok o' =>
      rw [c2] at h2
      rw [tw5.eps, tw5.bodies] at c2
      obtain ⟨hR2, hsame2⟩ := hf _ _ _ _ _ _ _ _ hP5 hR5 c1 c2
      simp only at h1 h2
      injection h1 with h1
      injection h2 with h2
      subst h1 h2
      exact ⟨⟨tw5.t, tw5.dt, tw5.eps, tw5.tol, tw5.post_stab, tw5.strict, tw5.bodies, tw5.joints, tw5.v, hsame2⟩,
        hR2, hP5⟩

/-- One step of both worlds. -/
theorem twin_step {P : Body → Prop} {R : φ → φ' → Prop} (hs : 0 < s) {H H' : ForceHeap} {lcp lcp' : LcpSolver}
    {mi mi' : ℕ} (hx : Exact lcp) (hx' : Exact lcp')
    {collide : ℝ → φ → List Body → Except Err (φ × List Contact)}
    {collide' : ℝ → φ' → List Body → Except Err (φ' × List Contact)} (hfo : FinderOk collide)
    (hfo' : FinderOk collide') (hf : SameFinders s P R collide collide') (hPm : ∀ b d, P b → P (b.move d))
    (hPv : ∀ (b : Body) v, P b → P { b with v := v }) (h : TwinRun s P R w w')
    (hH : ∀ t fl fl', forceCat H t w.bodies.length = .ok fl → forceCat H' t w.bodies.length = .ok fl' →
      fl' = fl.map fun x => s • x)
    {fuel : ℕ} {dt : ℝ} {u : World (Option Mat) φ} {u' : World (Option Mat) φ'}
    (h1 : w.step_dt (pdipmEnv 2 H lcp mi collide) fuel dt = .done u)
    (h2 : w'.step_dt (pdipmEnv 2 H' lcp' mi' collide') fuel dt = .done u') : TwinRun s P R u u' := by
  have i1 := step_inv hfo h.inv h1
  have i2 := step_inv hfo' h.inv' h2
  have hst := step_dt_statics h.inv.good h1
  have hPset := kind_set_v (φ := φ) hPv
  have hPmv := kind_move hPm
  have core : Twin s u u' ∧ R u.fnd u'.fnd ∧ ∀ b ∈ u.bodies, P b := by
    rw [step_dt_eq _ fuel w h.inv.good dt, Run.bind_eq_done] at h1
    rw [step_dt_eq _ fuel w' h.inv'.good dt, Run.bind_eq_done] at h2
    obtain ⟨⟨e, v⟩, s1, h1⟩ := h1
    obtain ⟨⟨e', v'⟩, s2, h2⟩ := h2
    have s1 : pdipmSolve 2 H lcp mi w dt = .ok (e, v) := by
      change Run.ofExcept (pdipmSolve 2 H lcp mi w dt) = _ at s1
      cases hq : pdipmSolve 2 H lcp mi w dt with
      | error x => rw [hq] at s1; cases s1
      | ok x => rw [hq] at s1; injection s1 with s1; rw [s1]
    have s2 : pdipmSolve 2 H' lcp' mi' w' dt = .ok (e', v') := by
      change Run.ofExcept (pdipmSolve 2 H' lcp' mi' w' dt) = _ at s2
      cases hq : pdipmSolve 2 H' lcp' mi' w' dt with
      | error x => rw [hq] at s2; cases s2
      | ok x => rw [hq] at s2; injection s2 with s2; rw [s2]
    have hv := twin_solve hs hx hx' h hH s1 s2
    have tw1 := twin_set_v h.twin e e' hv
    simp only at h1 h2
    rw [Run.bind_eq_done] at h1 h2
    obtain ⟨r, l1, h1⟩ := h1
    obtain ⟨r', l2, h2⟩ := h2
    have hP1 := hPset ({ w with eng := e } : World (Option Mat) φ) v h.kind
    obtain ⟨d, q, g, g', cs, cs', hR, hsame, rfl, rfl, ⟨f0, k1⟩, ⟨f0', k2⟩⟩ :=
      twin_specLoop hf hPm tw1 hP1 fuel _ _ _ _ _ _ h.rel l1 l2
    have tw2 := twin_accepted tw1 d q g g' hsame
    have hP2 := hPmv _ d hP1
    simp only at h1 h2
    set x := ({ w with eng := e } : World (Option Mat) φ).set_v v with hxdef
    set x' := ({ w' with eng := e' } : World (Option Mat) φ').set_v v' with hx'def
    by_cases hp : w.post_stab = true
    · have hp' : w'.post_stab = true := by rw [h.twin.post_stab]; exact hp
      have hpa : (x.accepted d q g cs).post_stab = true := hp
      have hpa' : (x'.accepted d q g' cs').post_stab = true := hp'
      rw [if_pos hpa, Run.bind_eq_done] at h1
      rw [if_pos hpa', Run.bind_eq_done] at h2
      obtain ⟨y, h1, hy⟩ := h1
      obtain ⟨y', h2, hy'⟩ := h2
      have ss : SameStatics w (x.accepted d q g cs) :=
        (sameStatics_set_v w v e).trans (sameStatics_accepted _ _ _ _ _)
      have ss' : SameStatics w' (x'.accepted d q g' cs') :=
        (sameStatics_set_v w' v' e').trans (sameStatics_accepted _ _ _ _ _)
      have hlen : (x.accepted d q g cs).bodies.length = w.bodies.length := sameStatics_length ss
      have pos2 : ∀ b ∈ (x.accepted d q g cs).bodies, 0 < b.mass ∧ 0 < b.ang_inertia := by
        intro b hb
        have : b.consts ∈ w.bodies.map Body.consts := ss.1 ▸ List.mem_map.2 ⟨b, hb, rfl⟩
        obtain ⟨b0, hb0, he⟩ := List.mem_map.1 this
        have hq := h.pos b0 hb0
        simp only [Body.consts, Prod.mk.injEq] at he
        rw [← he.1, ← he.2.1]
        exact hq
      obtain ⟨ty, ry, py⟩ := twin_postBlock hs (mi := mi) (mi' := mi') (H := H) (H' := H') hx hx' hf hPm hPv tw2
        (jointsOk_congr ss h.inv.joints) (fun c hc => hfo _ _ _ _ _ k1 c hc) (solve_cacheInv ss h.inv.cache s1)
        (jointsOk_congr ss' h.inv'.joints) (fun c hc => hfo' _ _ _ _ _ k2 c hc)
        (solve_cacheInv ss' h.inv'.cache s2) pos2 hP2 hR h1 h2
      injection hy with hy
      injection hy' with hy'
      subst hy hy'
      refine ⟨⟨?_, ty.dt, ty.eps, ty.tol, ty.post_stab, ty.strict, ty.bodies, ty.joints, ty.v, ty.contacts⟩, ry, py⟩
      change y'.t + d = y.t + d
      rw [ty.t]
    · have hp' : ¬ w'.post_stab = true := by rw [h.twin.post_stab]; exact hp
      have hpa : ¬ (x.accepted d q g cs).post_stab = true := hp
      have hpa' : ¬ (x'.accepted d q g' cs').post_stab = true := hp'
      rw [if_neg hpa] at h1
      rw [if_neg hpa'] at h2
      simp only [Run.bind] at h1 h2
      injection h1 with h1
      injection h2 with h2
      subst h1 h2
      refine ⟨⟨?_, tw2.dt, tw2.eps, tw2.tol, tw2.post_stab, tw2.strict, tw2.bodies, tw2.joints, tw2.v, tw2.contacts⟩,
        hR, hP2⟩
      change w'.t + d = w.t + d
      rw [h.twin.t]
  have hcons : ∀ (Q : ℝ × ℝ × ℝ × ℝ → Prop), (∀ b ∈ w.bodies, Q b.consts) → ∀ b ∈ u.bodies, Q b.consts := by
    intro Q hQ b hb
    have : b.consts ∈ w.bodies.map Body.consts := hst.1 ▸ List.mem_map.2 ⟨b, hb, rfl⟩
    obtain ⟨b0, hb0, he⟩ := List.mem_map.1 this
    rw [← he]
    exact hQ b0 hb0
  exact ⟨core.1, i1, i2, core.2.2, core.2.1, hcons (fun c => 0 < c.1 ∧ 0 < c.2.1) h.pos,
    hcons (fun c => c.2.2.2 = 0) h.slick⟩

/-- Two runs in lockstep: same loop over `step`, same parameters. -/
theorem twin_run {P : Body → Prop} {R : φ → φ' → Prop} (hs : 0 < s) {H H' : ForceHeap} {lcp lcp' : LcpSolver}
    {mi mi' : ℕ} (hx : Exact lcp) (hx' : Exact lcp')
    {collide : ℝ → φ → List Body → Except Err (φ × List Contact)}
    {collide' : ℝ → φ' → List Body → Except Err (φ' × List Contact)} (hfo : FinderOk collide)
    (hfo' : FinderOk collide') (hf : SameFinders s P R collide collide') (hPm : ∀ b d, P b → P (b.move d))
    (hPv : ∀ (b : Body) v, P b → P { b with v := v }) {N : ℕ}
    (hH : ∀ t fl fl', forceCat H t N = .ok fl → forceCat H' t N = .ok fl' → fl' = fl.map fun x => s • x)
    {fuel : ℕ} {T : ℝ} : ∀ (n : ℕ) {w : World (Option Mat) φ} {w' : World (Option Mat) φ'},
    w.bodies.length = N → TwinRun s P R w w' → ∀ {u : World (Option Mat) φ} {u' : World (Option Mat) φ'},
    runWorld (pdipmEnv 2 H lcp mi collide) fuel T n w = .done u →
    runWorld (pdipmEnv 2 H' lcp' mi' collide') fuel T n w' = .done u' → TwinRun s P R u u' := by
  intro n
  induction n with
  | zero =>
    intro w w' hN h u u' h1 h2
    unfold runWorld at h1 h2
    by_cases ht : w.t < T
    · rw [if_pos ht] at h1; cases h1
    · rw [if_neg ht] at h1
      rw [if_neg (by rw [h.twin.t]; exact ht)] at h2
      injection h1 with h1
      injection h2 with h2
      subst h1 h2
      exact h
  | succ n ih =>
    intro w w' hN h u u' h1 h2
    unfold runWorld at h1 h2
    by_cases ht : w.t < T
    · rw [if_pos ht] at h1
      rw [if_pos (by rw [h.twin.t]; exact ht)] at h2
      simp only at h1 h2
      rw [Run.bind_eq_done] at h1 h2
      obtain ⟨x, a1, b1⟩ := h1
      obtain ⟨x', a2, b2⟩ := h2
      simp only [World.step, Bool.false_eq_true, if_false] at a1 a2
      rw [h.twin.dt] at a2
      have hx2 := twin_step hs hx hx' hfo hfo' hf hPm hPv h (by rw [hN]; exact hH) a1 a2
      exact ih ((sameStatics_length (step_dt_statics h.inv.good a1)).trans hN) hx2 b1 b2
    · rw [if_neg ht] at h1
      rw [if_neg (by rw [h.twin.t]; exact ht)] at h2
      injection h1 with h1
      injection h2 with h2
      subst h1 h2
      exact h

/-- The same for the sub-stepping loop of a fixed step. -/
theorem twin_fixed {P : Body → Prop} {R : φ → φ' → Prop} (hs : 0 < s) {H H' : ForceHeap} {lcp lcp' : LcpSolver}
    {mi mi' : ℕ} (hx : Exact lcp) (hx' : Exact lcp')
    {collide : ℝ → φ → List Body → Except Err (φ × List Contact)}
    {collide' : ℝ → φ' → List Body → Except Err (φ' × List Contact)} (hfo : FinderOk collide)
    (hfo' : FinderOk collide') (hf : SameFinders s P R collide collide') (hPm : ∀ b d, P b → P (b.move d))
    (hPv : ∀ (b : Body) v, P b → P { b with v := v }) {N : ℕ}
    (hH : ∀ t fl fl', forceCat H t N = .ok fl → forceCat H' t N = .ok fl' → fl' = fl.map fun x => s • x)
    {fuel : ℕ} {T : ℝ} : ∀ (n : ℕ) {w : World (Option Mat) φ} {w' : World (Option Mat) φ'},
    w.bodies.length = N → TwinRun s P R w w' → ∀ {u : World (Option Mat) φ} {u' : World (Option Mat) φ'},
    fixedLoop (pdipmEnv 2 H lcp mi collide) fuel T n w = .done u →
    fixedLoop (pdipmEnv 2 H' lcp' mi' collide') fuel T n w' = .done u' → TwinRun s P R u u' := by
  intro n
  induction n with
  | zero =>
    intro w w' hN h u u' h1 h2
    unfold fixedLoop at h1 h2
    by_cases ht : w.t < T
    · rw [if_pos ht] at h1; cases h1
    · rw [if_neg ht] at h1
      rw [if_neg (by rw [h.twin.t]; exact ht)] at h2
      injection h1 with h1
      injection h2 with h2
      subst h1 h2
      exact h
  | succ n ih =>
    intro w w' hN h u u' h1 h2
    unfold fixedLoop at h1 h2
    by_cases ht : w.t < T
    · rw [if_pos ht] at h1
      rw [if_pos (by rw [h.twin.t]; exact ht)] at h2
      simp only at h1 h2
      rw [Run.bind_eq_done] at h1 h2
      obtain ⟨x, a1, b1⟩ := h1
      obtain ⟨x', a2, b2⟩ := h2
      rw [h.twin.t] at a2
      have hx2 := twin_step hs hx hx' hfo hfo' hf hPm hPv h (by rw [hN]; exact hH) a1 a2
      exact ih ((sameStatics_length (step_dt_statics h.inv.good a1)).trans hN) hx2 b1 b2
    · rw [if_neg ht] at h1
      rw [if_neg (by rw [h.twin.t]; exact ht)] at h2
      injection h1 with h1
      injection h2 with h2
      subst h1 h2
      exact h

theorem sameContacts_refl (cs : List Contact) : SameContacts cs cs := ⟨fun _ h => Or.inl h, fun _ h => Or.inl h⟩

theorem scaleMass_one (bs : List Body) : bs.map (scaleMass 1) = bs := by
  have : scaleMass 1 = id := by funext b; simp [scaleMass]
  rw [this, List.map_id]

theorem smul_one_map (fl : List V3) : fl.map (fun x => (1 : ℝ) • x) = fl := by
  have : (fun x : V3 => (1 : ℝ) • x) = id := by funext x; apply V3.ext <;> simp
  rw [this, List.map_id]

theorem twin_refl (w : World (Option Mat) φ) : Twin 1 w w :=
  ⟨rfl, rfl, rfl, rfl, rfl, rfl, (scaleMass_one _).symm, rfl, fun _ _ => rfl, sameContacts_refl _⟩

theorem sameFinders_refl (collide : ℝ → φ → List Body → Except Err (φ × List Contact)) :
    SameFinders 1 (fun _ => True) (fun f g : φ => g = f) collide collide := by
  intro eps f f' bs g cs g' cs' _ hR h1 h2
  rw [scaleMass_one, hR, h1] at h2
  injection h2 with h2
  injection h2 with h2 h3
  subst h2 h3
  exact ⟨rfl, sameContacts_refl _⟩

/-- C82: without friction the whole motion does not depend on the solver: two exact solvers, with any iteration
limits, lead from the same world to the same clock, poses, velocities and constraints. -/
theorem C82_solver_irrelevant (H : ForceHeap) (lcp lcp' : LcpSolver) (hx : Exact lcp) (hx' : Exact lcp')
    (mi mi' : ℕ) (collide : ℝ → φ → List Body → Except Err (φ × List Contact)) (hfo : FinderOk collide)
    (w : World (Option Mat) φ) (hw : EngineInv w) (hpos : ∀ b ∈ w.bodies, 0 < b.mass ∧ 0 < b.ang_inertia)
    (hmu : ∀ b ∈ w.bodies, b.fric_coeff = 0) (fuel n : ℕ) (T : ℝ) (u u' : World (Option Mat) φ)
    (h1 : runWorld (pdipmEnv 2 H lcp mi collide) fuel T n w = .done u)
    (h2 : runWorld (pdipmEnv 2 H lcp' mi' collide) fuel T n w = .done u') :
    u'.t = u.t ∧ u'.bodies = u.bodies ∧ u'.joints = u.joints ∧ u'.fnd = u.fnd := by
  have h := twin_run one_pos hx hx' hfo hfo (sameFinders_refl collide) (fun _ _ _ => trivial)
    (fun _ _ _ => trivial) (N := w.bodies.length) (H := H) (H' := H) (by
      intro t fl fl' e1 e2
      rw [e1] at e2
      injection e2 with e2
      subst e2
      exact (smul_one_map fl).symm) n rfl ⟨twin_refl w, hw, hw, fun _ _ => trivial, rfl, hpos, hmu⟩ h1 h2
  exact ⟨h.twin.t, by rw [h.twin.bodies, scaleMass_one], h.twin.joints, h.rel⟩

/-- C82: the same for one fixed step with its sub-steps. -/
theorem C82_solver_irrelevant_fixed (H : ForceHeap) (lcp lcp' : LcpSolver) (hx : Exact lcp) (hx' : Exact lcp')
    (mi mi' : ℕ) (collide : ℝ → φ → List Body → Except Err (φ × List Contact)) (hfo : FinderOk collide)
    (w : World (Option Mat) φ) (hw : EngineInv w) (hpos : ∀ b ∈ w.bodies, 0 < b.mass ∧ 0 < b.ang_inertia)
    (hmu : ∀ b ∈ w.bodies, b.fric_coeff = 0) (fuel sub : ℕ) (u u' : World (Option Mat) φ)
    (h1 : w.step (pdipmEnv 2 H lcp mi collide) fuel sub true = .done u)
    (h2 : w.step (pdipmEnv 2 H lcp' mi' collide) fuel sub true = .done u') :
    u'.t = u.t ∧ u'.bodies = u.bodies ∧ u'.joints = u.joints ∧ u'.fnd = u.fnd := by
  simp only [World.step, if_true] at h1 h2
  have h := twin_fixed one_pos hx hx' hfo hfo (sameFinders_refl collide) (fun _ _ _ => trivial)
    (fun _ _ _ => trivial) (N := w.bodies.length) (H := H) (H' := H) (by
      intro t fl fl' e1 e2
      rw [e1] at e2
      injection e2 with e2
      subst e2
      exact (smul_one_map fl).symm) sub rfl ⟨twin_refl w, hw, hw, fun _ _ => trivial, rfl, hpos, hmu⟩ h1 h2
  exact ⟨h.twin.t, by rw [h.twin.bodies, scaleMass_one], h.twin.joints, h.rel⟩

/-! ## Unit of mass -/

/-- A force object whose force is `s` times that of another: the multiplier of an external force, or the force
`Gravity` cached. -/
inductive ForceScaled (s : ℝ) : Force → Force → Prop
  | external (f : ℝ → V3) (m : ℝ) : ForceScaled s (.external f m) (.external f (s * m))
  | gravity (g : ℝ) (c : V3) : ForceScaled s (.gravity g (some c)) (.gravity g (some (s • c)))

/-- C82: `Gravity` attached to a body of `s` times the mass is `s` times as strong. -/
theorem C82_gravity_scales (s m g : ℝ) (c c' : Option V3) :
    ForceScaled s ((Force.gravity g c).set_body m) ((Force.gravity g c').set_body (s * m)) := by
  have h : (⟨0 * (s * m) * g, 0 * (s * m) * g, 1 * (s * m) * g⟩ : V3) = s • ⟨0 * m * g, 0 * m * g, 1 * m * g⟩ := by
    apply V3.ext <;> simp; ring
  simp only [Force.set_body]
  rw [h]
  exact .gravity g _

theorem sumForces_scaled {s : ℝ} : ∀ (l l' : List Force) (t : ℝ) (acc : V3), List.Forall₂ (ForceScaled s) l l' →
    sumForces (l'.map fun f => f.force t) (s • acc) = (sumForces (l.map fun f => f.force t) acc).map (s • ·)
  | _, _, t, acc, .nil => rfl
  | f :: fs, f' :: fs', t, acc, .cons h hs => by
    cases h with
    | external g m =>
      have e : s • acc + (s * m) • g t = s • (acc + m • g t) := by apply V3.ext <;> simp <;> ring
      simp only [List.map_cons, Force.force, sumForces]
      rw [e]
      exact sumForces_scaled fs fs' t _ hs
    | gravity g c =>
      have e : s • acc + s • c = s • (acc + c) := by apply V3.ext <;> simp <;> ring
      simp only [List.map_cons, Force.force, sumForces]
      rw [e]
      exact sumForces_scaled fs fs' t _ hs

theorem forceCat_scaled {s : ℝ} {H H' : ForceHeap} (t : ℝ) : ∀ (N : ℕ) (fl fl' : List V3),
    (∀ i < N, List.Forall₂ (ForceScaled s) ((H.attached i).map H.obj) ((H'.attached i).map H'.obj)) →
    forceCat H t N = .ok fl → forceCat H' t N = .ok fl' → fl' = fl.map fun x => s • x
  | 0, fl, fl', _, h1, h2 => by
    unfold forceCat at h1 h2
    injection h1 with h1
    injection h2 with h2
    subst h1 h2
    rfl
  | N + 1, fl, fl', hobj, h1, h2 => by
    unfold forceCat at h1 h2
    cases c1 : forceCat H t N with
    | error e => rw [c1] at h1; cases h1
    | ok l =>
      cases c2 : forceCat H' t N with
      | error e => rw [c2] at h2; cases h2
      | ok l' =>
        rw [c1] at h1
        rw [c2] at h2
        have ih := forceCat_scaled t N l l' (fun i hi => hobj i (by omega)) c1 c2
        have hN := hobj N (by omega)
        have hlen := hN.length_eq
        simp only [List.length_map] at hlen
        have key : H'.apply_forces N t = (H.apply_forces N t).map (s • ·) := by
          unfold ForceHeap.apply_forces
          rw [← hlen]
          split_ifs with h0
          · change some (0 : V3) = some (s • (0 : V3))
            congr 1
            apply V3.ext <;> simp
          · have := sumForces_scaled _ _ t 0 hN
            have z : s • (0 : V3) = 0 := by apply V3.ext <;> simp
            rw [z] at this
            simpa [List.map_map, Function.comp_def] using this
        rw [key] at h2
        cases ha : H.apply_forces N t with
        | none => rw [ha] at h1; cases h1
        | some x =>
          rw [ha] at h1 h2
          simp only [Option.map_some] at h1 h2
          injection h1 with h1
          injection h2 with h2
          subst h1 h2 ih
          simp

theorem bodyAt_scale_shape (s : ℝ) (bs : List Body) (i : ℕ) :
    (bodyAt (bs.map (scaleMass s)) i).shape = (bodyAt bs i).shape := by
  unfold bodyAt
  simp only [List.getD_eq_getElem?_getD, List.getElem?_map]
  cases bs[i]? <;> rfl

theorem handleAll_scale (s : ℝ) (fuel : ℕ) (nc : ℕ → List ℕ) (eps : ℝ) (bs : List Body) : ∀ (ps : List (ℕ × ℕ))
    (f : Finder), handleAll fuel nc eps (bs.map (scaleMass s)) ps f = handleAll fuel nc eps bs ps f
  | [], _ => rfl
  | p :: ps, f => by
    have h : handle fuel nc eps (bs.map (scaleMass s)) f p.1 p.2 = handle fuel nc eps bs f p.1 p.2 := by
      have hp : ∀ i, (bodyAt (bs.map (scaleMass s)) i).pos = (bodyAt bs i).pos := fun i => by
        unfold Body.pos; rw [(bodyAt_scaleMass s bs i).1]
      have hc : ∀ i, (bodyAt (bs.map (scaleMass s)) i).isCircle = (bodyAt bs i).isCircle := fun i => by
        unfold Body.isCircle; rw [bodyAt_scale_shape]
      have hr : ∀ i, (bodyAt (bs.map (scaleMass s)) i).rad = (bodyAt bs i).rad := fun i => by
        unfold Body.rad; rw [bodyAt_scale_shape]
      have hv : ∀ i, (bodyAt (bs.map (scaleMass s)) i).verts = (bodyAt bs i).verts := fun i => by
        unfold Body.verts; rw [bodyAt_scale_shape]
      unfold handle handlePair
      simp only [hp, hc, hr, hv]
      split_ifs <;> simp only [hp, hr, hv]
    unfold handleAll
    rw [h]
    cases handle fuel nc eps bs f p.1 p.2 with
    | running => rfl
    | raised e => rfl
    | done r => simp only [Run.bind_done]; rw [handleAll_scale s fuel nc eps bs ps]

/-- C82: the unit of mass is irrelevant: with all masses and moments of inertia and all forces multiplied by the same
factor the frictionless motion is the same.  In particular, with gravity as the only force (its strength follows the
mass, `C82_gravity_scales`), the motion determines masses only up to a common factor. -/
theorem C82_mass_unit (s : ℝ) (hs : 0 < s) (H H' : ForceHeap) (lcp lcp' : LcpSolver) (hx : Exact lcp)
    (hx' : Exact lcp') (mi mi' cfuel : ℕ) (nc : ℕ → List ℕ) (pairs : List Body → List (ℕ × ℕ))
    (hp : ∀ bs, ∀ p ∈ pairs bs, p.1 < bs.length ∧ p.2 < bs.length ∧ p.1 ≠ p.2)
    (hps : ∀ bs, pairs (bs.map (scaleMass s)) = pairs bs)
    (w w' : World (Option Mat) Finder) (hw : EngineInv w) (hw' : EngineInv w') (htw : Twin s w w')
    (hfnd : w'.fnd = w.fnd)
    (hH : ∀ i < w.bodies.length, List.Forall₂ (ForceScaled s) ((H.attached i).map H.obj) ((H'.attached i).map H'.obj))
    (hpos : ∀ b ∈ w.bodies, 0 < b.mass ∧ 0 < b.ang_inertia) (hmu : ∀ b ∈ w.bodies, b.fric_coeff = 0)
    (fuel n : ℕ) (T : ℝ) (u u' : World (Option Mat) Finder)
    (h1 : runWorld (pdipmEnv 2 H lcp mi (rejectNan (diffCollide cfuel nc pairs))) fuel T n w = .done u)
    (h2 : runWorld (pdipmEnv 2 H' lcp' mi' (rejectNan (diffCollide cfuel nc pairs))) fuel T n w' = .done u') :
    Twin s u u' := by
  have hfo := C12_finder_ok cfuel nc pairs hp
  have hsf : SameFinders s (fun _ => True) (fun f g : Finder => g = f) (rejectNan (diffCollide cfuel nc pairs))
      (rejectNan (diffCollide cfuel nc pairs)) := by
    intro eps f f' bs g cs g' cs' _ hR e1 e2
    have : rejectNan (diffCollide cfuel nc pairs) eps f' (bs.map (scaleMass s)) =
        rejectNan (diffCollide cfuel nc pairs) eps f bs := by
      unfold rejectNan diffCollide
      rw [hps, handleAll_scale, hR]
    rw [this, e1] at e2
    injection e2 with e2
    injection e2 with e2 e3
    subst e2 e3
    exact ⟨rfl, sameContacts_refl _⟩
  exact (twin_run hs hx hx' hfo hfo hsf (fun _ _ _ => trivial) (fun _ _ _ => trivial) (N := w.bodies.length)
    (fun t fl fl' => forceCat_scaled t _ fl fl' hH) n rfl ⟨htw, hw, hw', fun _ _ => trivial, hfnd, hpos, hmu⟩
    h1 h2).twin

/-! ## Order of the pairs -/

theorem circleContacts_swap {nc : ℕ → List ℕ} (hnc : ∀ i j, i ∈ nc j → j ∈ nc i) {eps : ℝ} {bs : List Body}
    {ps ps' : List (ℕ × ℕ)} (hps : ∀ p ∈ ps, p ∈ ps' ∨ (p.2, p.1) ∈ ps') :
    ∀ c ∈ circleContacts nc eps bs ps, c ∈ circleContacts nc eps bs ps' ∨ flipped c ∈ circleContacts nc eps bs ps' := by
  intro c hc
  unfold circleContacts at hc ⊢
  simp only [List.mem_flatMap] at hc ⊢
  obtain ⟨p, hp, hc⟩ := hc
  rcases hps p hp with h | h
  · exact Or.inl ⟨p, h, hc⟩
  · refine Or.inr ⟨(p.2, p.1), h, ?_⟩
    by_cases hx : p.1 ∈ nc p.2
    · rw [if_pos hx] at hc; cases hc
    · rw [if_neg hx] at hc
      rw [if_neg fun hh => hx (hnc _ _ hh)]
      unfold circleCircle at hc ⊢
      have hd : nrm ((bodyAt bs p.2).pos - (bodyAt bs p.1).pos) = nrm ((bodyAt bs p.1).pos - (bodyAt bs p.2).pos) := by
        unfold nrm
        congr 1
        simp only [Prod.fst_sub, Prod.snd_sub]
        ring
      simp only [hd] at hc ⊢
      rw [add_comm (bodyAt bs p.2).rad]
      split_ifs at hc ⊢ with hpen
      · cases hc
      · simp only [List.map_cons, List.map_nil, List.mem_singleton] at hc ⊢
        subst hc
        simp only [flipped, Contact.mk.injEq]
        refine ⟨?_, ?_, ?_, by trivial, by trivial, by trivial, by trivial⟩
        · rw [← smul_neg, neg_sub]
        · rw [← smul_neg, neg_sub]
        · rw [← smul_neg, neg_sub]

/-- C82: for worlds of frictionless circles the order in which the broad phase presents the pairs, and which geometry of
a pair comes first, do not influence the motion. -/
theorem C82_pair_order (H : ForceHeap) (lcp lcp' : LcpSolver) (hx : Exact lcp) (hx' : Exact lcp')
    (mi mi' cfuel cfuel' : ℕ) (nc : ℕ → List ℕ) (hnc : ∀ i j, i ∈ nc j → j ∈ nc i)
    (pairs pairs' : List Body → List (ℕ × ℕ))
    (hp : ∀ bs, ∀ p ∈ pairs bs, p.1 < bs.length ∧ p.2 < bs.length ∧ p.1 ≠ p.2)
    (hp' : ∀ bs, ∀ p ∈ pairs' bs, p.1 < bs.length ∧ p.2 < bs.length ∧ p.1 ≠ p.2)
    (h12 : ∀ bs, ∀ p ∈ pairs bs, p ∈ pairs' bs ∨ (p.2, p.1) ∈ pairs' bs)
    (h21 : ∀ bs, ∀ p ∈ pairs' bs, p ∈ pairs bs ∨ (p.2, p.1) ∈ pairs bs)
    (w w' : World (Option Mat) Finder) (hw : EngineInv w) (hw' : EngineInv w') (htw : Twin 1 w w')
    (hcirc : ∀ b ∈ w.bodies, b.isCircle = true)
    (hpos : ∀ b ∈ w.bodies, 0 < b.mass ∧ 0 < b.ang_inertia) (hmu : ∀ b ∈ w.bodies, b.fric_coeff = 0)
    (fuel n : ℕ) (T : ℝ) (u u' : World (Option Mat) Finder)
    (h1 : runWorld (pdipmEnv 2 H lcp mi (rejectNan (diffCollide cfuel nc pairs))) fuel T n w = .done u)
    (h2 : runWorld (pdipmEnv 2 H lcp' mi' (rejectNan (diffCollide cfuel' nc pairs'))) fuel T n w' = .done u') :
    u'.t = u.t ∧ u'.bodies = u.bodies ∧ u'.joints = u.joints ∧ SameContacts u.contacts u'.contacts := by
  have key : ∀ (cfuel : ℕ) (pairs : List Body → List (ℕ × ℕ)),
      (∀ bs, ∀ p ∈ pairs bs, p.1 < bs.length ∧ p.2 < bs.length ∧ p.1 ≠ p.2) → ∀ eps f bs g cs,
      (∀ b ∈ bs, b.isCircle = true) → rejectNan (diffCollide cfuel nc pairs) eps f bs = .ok (g, cs) →
      cs = circleContacts nc eps bs (pairs bs) := by
    intro cfuel pairs hp eps f bs g cs hb h
    unfold rejectNan diffCollide at h
    rw [handleAll_circles (fun i hi => hb _ (bodyAt_mem' hi)) _ _ fun p hpm => ⟨(hp bs p hpm).1, (hp bs p hpm).2.1⟩] at h
    simp only [Run.toExcept] at h
    split_ifs at h
    injection h with h
    injection h with _ h
    exact h.symm
  have hsf : SameFinders 1 (fun b => b.isCircle = true) (fun _ _ : Finder => True)
      (rejectNan (diffCollide cfuel nc pairs)) (rejectNan (diffCollide cfuel' nc pairs')) := by
    intro eps f f' bs g cs g' cs' hb _ e1 e2
    rw [scaleMass_one] at e2
    rw [key cfuel pairs hp eps f bs g cs hb e1, key cfuel' pairs' hp' eps f' bs g' cs' hb e2]
    exact ⟨trivial, circleContacts_swap hnc (h12 bs), circleContacts_swap hnc (h21 bs)⟩
  have h := twin_run one_pos hx hx' (C12_finder_ok cfuel nc pairs hp) (C12_finder_ok cfuel' nc pairs' hp') hsf
    (fun b d hb => by rw [isCircle_move]; exact hb) (fun b v hb => hb) (N := w.bodies.length) (H := H) (H' := H) (by
      intro t fl fl' e1 e2
      rw [e1] at e2
      injection e2 with e2
      subst e2
      exact (smul_one_map fl).symm) n rfl ⟨htw, hw, hw', hcirc, trivial, hpos, hmu⟩ h1 h2
  exact ⟨h.twin.t, by rw [h.twin.bodies, scaleMass_one], h.twin.joints, h.twin.contacts⟩

/-! ## An impact of two circles, with either orientation of the contact and any unit of mass -/

/-- One circle runs into another. -/
def bounceWorld (s : ℝ) (fl : Bool) (fnd : Finder) : World (Option Mat) Finder :=
  { t := 0, dt := 1, eps := 0, tol := 2, post_stab := false, strict_no_pen := false,
    bodies := [{ unitCircle (-1) 0 0 with v := ⟨0, 1, 0⟩ }, unitCircle 1 0 0].map (scaleMass s),
    joints := [], v := cat3 [⟨0, 1, 0⟩, 0], contacts := [if fl then flipped spinContact else spinContact],
    eng := none, fnd := fnd }

/-- The broad phase presents the pair in one order or the other. -/
def bouncePairs (fl : Bool) (bs : List Body) : List (ℕ × ℕ) :=
  if bs.length = 2 then [if fl then (1, 0) else (0, 1)] else []

theorem bouncePairs_valid (fl : Bool) (bs : List Body) : ∀ p ∈ bouncePairs fl bs,
    p.1 < bs.length ∧ p.2 < bs.length ∧ p.1 ≠ p.2 := by
  intro p hp
  unfold bouncePairs at hp
  split_ifs at hp with h h'
  · simp at hp; subst hp; simp [h]
  · simp at hp; subst hp; simp [h]
  · cases hp

theorem bounceWorld_inv (s : ℝ) (fl : Bool) (fnd : Finder) : EngineInv (bounceWorld s fl fnd) := by
  refine ⟨⟨?_, ?_, ?_, ?_⟩, ?_, ?_, ?_⟩
  · intro b hb
    simp [bounceWorld] at hb
    rcases hb with rfl | rfl <;> simp [Body.RectForm, unitCircle, scaleMass]
  · intro j hj; cases hj
  · intro j hj; cases hj
  · intro i hi
    have : i = 0 ∨ i = 1 := by simp [bounceWorld] at hi; omega
    rcases this with rfl | rfl <;> simp [bounceWorld, slice3, cat3, scaleMass, unitCircle] <;> rfl
  · intro j hj; cases hj
  · intro c hc
    simp [bounceWorld] at hc
    subst hc
    cases fl <;> simp [spinContact, bounceWorld, flipped]
  · intro inv hi; cases hi

theorem bounceWorld_bodies (s : ℝ) (hs : 0 < s) (fl : Bool) (fnd : Finder) : ∀ b ∈ (bounceWorld s fl fnd).bodies,
    (0 < b.mass ∧ 0 < b.ang_inertia) ∧ b.fric_coeff = 0 ∧ b.restitution = 0 ∧ b.isCircle = true := by
  intro b hb
  simp [bounceWorld] at hb
  rcases hb with rfl | rfl <;> simp [unitCircle, scaleMass, hs, Body.isCircle]

theorem bounce_runs (s : ℝ) (hs : 0 < s) (fl : Bool) (fnd : Finder) (mi cfuel : ℕ) :
    ∃ u, runWorld (pdipmEnv 2 noForces exactLcp mi (rejectNan (diffCollide cfuel (fun _ => []) (bouncePairs fl))))
      1 1 1 (bounceWorld s fl fnd) = .done u := by
  have hinv := bounceWorld_inv s fl fnd
  have hb := bounceWorld_bodies s hs fl fnd
  have hlen : (bounceWorld s fl fnd).bodies.length = 2 := rfl
  have hcm : ∀ c ∈ (bounceWorld s fl fnd).contacts, meanFriction (bounceWorld s fl fnd).bodies c = 0 ∧
      meanRestitution (bounceWorld s fl fnd).bodies c = 0 := by
    intro c hc
    obtain ⟨q1, q2, -⟩ := hinv.contacts c hc
    have b1 := hb _ (bodyAt_mem' q1)
    have b2 := hb _ (bodyAt_mem' q2)
    unfold meanFriction meanRestitution
    rw [b1.2.1, b2.2.1, b1.2.2.1, b2.2.2.1]
    norm_num
  obtain ⟨v0, l0, pn0, a0, b0, g0, h0⟩ := C74_inelastic (bounceWorld s fl fnd) hinv.joints hinv.contacts
    (fun b hbm => (hb b hbm).1) (fun c hc => (hcm c hc).1) (fun c hc => (hcm c hc).2)
    (impulse (List.replicate 2 0) 1)
  obtain ⟨-, ⟨e, v⟩, hr⟩ := C74_exact_engine_returns noForces mi (bounceWorld s fl fnd) 1 hinv.joints
    hinv.contacts (by simp [bounceWorld]) _ (noForces_cat 0 2) _ _ _ _ _ _ h0
  obtain ⟨fl', l, pn, a, b, g, -, law⟩ := C38_engine_contact_law noForces exactLcp mi (bounceWorld s fl fnd) 1 e v
    hinv.joints hinv.contacts hinv.cache.ok exactLcp_exact hr
  have hsep : v 1 ≤ v 4 := by
    have h := (law.restitution 0 (by simp [bounceWorld])).1
    have hm := (hcm _ (List.getElem_mem (l := (bounceWorld s fl fnd).contacts) (n := 0) (by simp [bounceWorld]))).2
    rw [hm] at h
    cases fl <;>
      simp [bounceWorld, normalVel_flipped] at h <;>
      simp [normalVel, spinContact, contactVel, pointVel, twist, Spec.inner] at h <;> linarith
  set bs := ((({ bounceWorld s fl fnd with eng := e } : World (Option Mat) Finder).set_v v).bodies.map
    fun b => b.move 1) with hbs
  have hbl : bs.length = 2 := by simp [hbs, World.set_v, bounceWorld]
  have hcirc : ∀ i < bs.length, (bodyAt bs i).isCircle = true := by
    intro i hi
    rw [hbl] at hi
    interval_cases i <;> rfl
  have hp0 : (bodyAt bs 0).pos = (-1 + v 1, v 2) ∧ (bodyAt bs 0).rad = 1 := by
    simp [hbs, World.set_v, bounceWorld, bodyAt, scaleMass, unitCircle, Body.move, Body.set_p, Body.baseSetP, Body.pos,
      Body.rad, slice3, V3.xy]
  have hp1 : (bodyAt bs 1).pos = (1 + v 4, v 5) ∧ (bodyAt bs 1).rad = 1 := by
    simp [hbs, World.set_v, bounceWorld, bodyAt, scaleMass, unitCircle, Body.move, Body.set_p, Body.baseSetP, Body.pos,
      Body.rad, slice3, V3.xy]
  have hfar : ∀ p ∈ bouncePairs fl bs, nrm ((bodyAt bs p.1).pos - (bodyAt bs p.2).pos) ≠ 0 ∧
      (bodyAt bs p.1).rad + (bodyAt bs p.2).rad = 2 := by
    intro p hp
    unfold bouncePairs at hp
    rw [if_pos hbl] at hp
    simp only [List.mem_singleton] at hp
    have hne : ∀ x y : ℝ, x ≠ 0 → nrm (x, y) ≠ 0 := by
      intro x y hx h
      unfold nrm at h
      rw [Real.sqrt_eq_zero (by nlinarith [mul_self_nonneg x, mul_self_nonneg y])] at h
      have : 0 < x * x := mul_self_pos.2 hx
      nlinarith [mul_self_nonneg y]
    cases fl <;> simp at hp <;> subst hp <;> simp only [hp0.1, hp0.2, hp1.1, hp1.2, Prod.mk_sub_mk] <;>
      refine ⟨hne _ _ ?_, by norm_num⟩
    · intro h; linarith
    · intro h; linarith
  have hcol : (pdipmEnv 2 noForces exactLcp mi (rejectNan (diffCollide cfuel (fun _ => []) (bouncePairs fl)))).collide
      (bounceWorld s fl fnd).eps (bounceWorld s fl fnd).fnd bs =
      .ok ((bounceWorld s fl fnd).fnd, circleContacts (fun _ => []) 0 bs (bouncePairs fl bs)) := by
    change rejectNan (diffCollide cfuel (fun _ => []) (bouncePairs fl)) 0 fnd bs = _
    unfold rejectNan diffCollide
    rw [handleAll_circles hcirc _ _ fun p hp => ⟨(bouncePairs_valid fl bs p hp).1, (bouncePairs_valid fl bs p hp).2.1⟩]
    simp only [Run.toExcept]
    rw [if_pos]
    · rfl
    · rw [List.all_eq_true]
      intro c hc
      unfold circleContacts at hc
      simp only [List.mem_flatMap, List.not_mem_nil, if_false] at hc
      obtain ⟨p, hp, hc⟩ := hc
      unfold circleCircle at hc
      simp only at hc
      split_ifs at hc
      · cases hc
      · simp only [List.map_cons, List.map_nil, List.mem_singleton] at hc
        subst hc
        simpa using (hfar p hp).1
  have hstep := step_first _ 0 (bounceWorld s fl fnd) hinv.good 1 rfl e v hr _ _ hcol (by
    intro c hc
    unfold circleContacts at hc
    simp only [List.mem_flatMap, List.not_mem_nil, if_false] at hc
    obtain ⟨p, hp, hc⟩ := hc
    unfold circleCircle at hc
    simp only at hc
    split_ifs at hc
    · cases hc
    · simp only [List.map_cons, List.map_nil, List.mem_singleton] at hc
      subst hc
      simp only
      rw [(hfar p hp).2]
      have : 0 ≤ nrm ((bodyAt bs p.1).pos - (bodyAt bs p.2).pos) := Real.sqrt_nonneg _
      change _ ≤ (2 : ℝ)
      linarith)
  obtain ⟨u, hu, ht⟩ : ∃ u, World.step_dt (pdipmEnv 2 noForces exactLcp mi
      (rejectNan (diffCollide cfuel (fun _ => []) (bouncePairs fl)))) 1 (bounceWorld s fl fnd) 1 = .done u ∧
      u.t = 1 := ⟨_, hstep, by simp [bounceWorld]⟩
  clear hstep hcol
  refine ⟨u, ?_⟩
  have hdt : (bounceWorld s fl fnd).dt = 1 := rfl
  unfold runWorld
  rw [if_pos (by simp [bounceWorld])]
  simp only [World.step, Bool.false_eq_true, if_false]
  rw [hdt, hu, Run.bind_done]
  unfold runWorld
  rw [if_neg (by rw [ht]; simp)]

/-- Example for `C82_solver_irrelevant`: the run exists, and every other exact solver that answers moves the circles the
same way. -/
example (fnd : Finder) : ∃ u, runWorld (pdipmEnv 2 noForces exactLcp 10
      (rejectNan (diffCollide 5 (fun _ => []) (bouncePairs false)))) 1 1 1 (bounceWorld 1 false fnd) = .done u ∧
    ∀ (lcp : LcpSolver), Exact lcp → ∀ u', runWorld (pdipmEnv 2 noForces lcp 3
      (rejectNan (diffCollide 5 (fun _ => []) (bouncePairs false)))) 1 1 1 (bounceWorld 1 false fnd) = .done u' →
      u'.bodies = u.bodies := by
  obtain ⟨u, hu⟩ := bounce_runs 1 one_pos false fnd 10 5
  have hb := bounceWorld_bodies 1 one_pos false fnd
  exact ⟨u, hu, fun lcp hx u' hu' => (C82_solver_irrelevant noForces exactLcp lcp exactLcp_exact hx 10 3 _
    (C12_finder_ok 5 _ _ (bouncePairs_valid false)) _ (bounceWorld_inv 1 false fnd) (fun b h => (hb b h).1)
    (fun b h => (hb b h).2.1) 1 1 1 u u' hu hu').2.1⟩

theorem bounce_twin (s : ℝ) (fl : Bool) (fnd : Finder) : Twin s (bounceWorld 1 false fnd) (bounceWorld s fl fnd) := by
  refine ⟨rfl, rfl, rfl, rfl, rfl, rfl, ?_, rfl, fun _ _ => rfl, ?_⟩
  · change _ = (List.map (scaleMass 1) _).map (scaleMass s)
    rw [scaleMass_one]
    rfl
  · cases fl
    · exact sameContacts_refl _
    · exact ⟨fun c hc => Or.inr (by simp [bounceWorld] at hc ⊢; rw [hc]), fun c hc => Or.inr (by
        simp [bounceWorld] at hc ⊢; rw [hc, flipped_flipped])⟩

/-- Example for `C82_mass_unit`: circles of mass 1 and of mass 1000 move alike. -/
example (fnd : Finder) : ∃ u u', runWorld (pdipmEnv 2 noForces exactLcp 10
      (rejectNan (diffCollide 5 (fun _ => []) (bouncePairs false)))) 1 1 1 (bounceWorld 1 false fnd) = .done u ∧
    runWorld (pdipmEnv 2 noForces exactLcp 10
      (rejectNan (diffCollide 5 (fun _ => []) (bouncePairs false)))) 1 1 1 (bounceWorld 1000 false fnd) = .done u' ∧
    u'.bodies.map Body.p = u.bodies.map Body.p := by
  obtain ⟨u, hu⟩ := bounce_runs 1 one_pos false fnd 10 5
  obtain ⟨u', hu'⟩ := bounce_runs 1000 (by norm_num) false fnd 10 5
  have hb := bounceWorld_bodies 1 one_pos false fnd
  have h := C82_mass_unit 1000 (by norm_num) noForces noForces exactLcp exactLcp exactLcp_exact exactLcp_exact 10 10 5
    (fun _ => []) (bouncePairs false) (bouncePairs_valid false) (by intro bs; simp [bouncePairs]) _ _
    (bounceWorld_inv 1 false fnd) (bounceWorld_inv 1000 false fnd) (bounce_twin 1000 false fnd) rfl
    (by intro i _; exact .nil) (fun b h => (hb b h).1) (fun b h => (hb b h).2.1) 1 1 1 u u' hu hu'
  refine ⟨u, u', hu, hu', ?_⟩
  rw [h.bodies, List.map_map]
  rfl

/-- Example for `C82_pair_order`: the pair presented the other way round. -/
example (fnd : Finder) : ∃ u u', runWorld (pdipmEnv 2 noForces exactLcp 10
      (rejectNan (diffCollide 5 (fun _ => []) (bouncePairs false)))) 1 1 1 (bounceWorld 1 false fnd) = .done u ∧
    runWorld (pdipmEnv 2 noForces exactLcp 10
      (rejectNan (diffCollide 5 (fun _ => []) (bouncePairs true)))) 1 1 1 (bounceWorld 1 true fnd) = .done u' ∧
    u'.bodies = u.bodies := by
  obtain ⟨u, hu⟩ := bounce_runs 1 one_pos false fnd 10 5
  obtain ⟨u', hu'⟩ := bounce_runs 1 one_pos true fnd 10 5
  have hb := bounceWorld_bodies 1 one_pos false fnd
  have h := C82_pair_order noForces exactLcp exactLcp exactLcp_exact exactLcp_exact 10 10 5 5
    (fun _ => []) (by simp) (bouncePairs false) (bouncePairs true) (bouncePairs_valid false) (bouncePairs_valid true)
    (by
      intro bs p hp
      unfold bouncePairs at hp ⊢
      split_ifs at hp ⊢ <;> simp_all)
    (by
      intro bs p hp
      unfold bouncePairs at hp ⊢
      split_ifs at hp ⊢ <;> simp_all) _ _
    (bounceWorld_inv 1 false fnd) (bounceWorld_inv 1 true fnd) (bounce_twin 1 true fnd) (fun b h => (hb b h).2.2.2)
    (fun b h => (hb b h).1) (fun b h => (hb b h).2.1) 1 1 1 u u' hu hu'
  exact ⟨u, u', hu, hu', h.2.1⟩

/-- Example for `C82_same_impact`: the impact of the circles of mass 1 and of the circles of mass `s` with the contact
seen from the other side; both have outcomes, and they agree. -/
example (s : ℝ) (hs : 0 < s) (fnd : Finder) : ∃ v' w' : Vec,
    (∃ l pn a b g, ContactLaw (bounceWorld 1 false fnd).bodies [] [spinContact] (fun _ => 0)
      (bounceWorld 1 false fnd).v v' l pn a b g) ∧
    (∃ l pn a b g, ContactLaw (bounceWorld s true fnd).bodies [] [flipped spinContact] (fun _ => 0)
      (bounceWorld 1 false fnd).v w' l pn a b g) ∧ ∀ k < 6, w' k = v' k := by
  have hmu : ∀ (s : ℝ) (hs : 0 < s) (fl : Bool), ∀ c ∈ (bounceWorld s fl fnd).contacts,
      meanFriction (bounceWorld s fl fnd).bodies c = 0 ∧ meanRestitution (bounceWorld s fl fnd).bodies c = 0 := by
    intro s hs fl c hc
    obtain ⟨q1, q2, -⟩ := (bounceWorld_inv s fl fnd).contacts c hc
    have b1 := bounceWorld_bodies s hs fl fnd _ (bodyAt_mem' q1)
    have b2 := bounceWorld_bodies s hs fl fnd _ (bodyAt_mem' q2)
    unfold meanFriction meanRestitution
    rw [b1.2.1, b2.2.1, b1.2.2.1, b2.2.2.1]
    norm_num
  have hex : ∀ (s : ℝ) (hs : 0 < s) (fl : Bool), ∃ v' l pn a b g, ContactLaw (bounceWorld s fl fnd).bodies
      (bounceWorld s fl fnd).joints (bounceWorld s fl fnd).contacts (fun _ => 0) (bounceWorld s fl fnd).v
      v' l pn a b g := fun s hs fl => C74_inelastic (bounceWorld s fl fnd) (bounceWorld_inv s fl fnd).joints
    (bounceWorld_inv s fl fnd).contacts (fun b hb => (bounceWorld_bodies s hs fl fnd b hb).1)
    (fun c hc => (hmu s hs fl c hc).1) (fun c hc => (hmu s hs fl c hc).2) _
  obtain ⟨v', l, pn, a, b, g, h⟩ := hex 1 one_pos false
  obtain ⟨w', l', pn', a', b', g', h'⟩ := hex s hs true
  refine ⟨v', w', ⟨l, pn, a, b, g, h⟩, ⟨l', pn', a', b', g', h'⟩, ?_⟩
  exact C82_same_impact s hs _ _ _ _ _ _ _ _ _ _ _ _ _ _ _ _ _ _ _ _ _ _ h h' rfl
    (by
      intro i hi
      have : i = 0 ∨ i = 1 := by simp [bounceWorld] at hi; omega
      rcases this with rfl | rfl <;> simp [bounceWorld, bodyAt, scaleMass, unitCircle])
    (fun i hi => (bounceWorld_bodies 1 one_pos false fnd _ (bodyAt_mem' hi)).1)
    (fun i _ => by apply V3.ext <;> simp) (fun _ _ => rfl) (fun _ => Iff.rfl) (bounce_twin s true fnd).contacts
    (fun c hc => ⟨((bounceWorld_inv 1 false fnd).contacts c hc).1, ((bounceWorld_inv 1 false fnd).contacts c hc).2.1⟩)
    (fun c hc => (hmu 1 one_pos false c hc).1) (fun c hc => (hmu s hs true c hc).1)

/-- Example for `C82_same_correction`: the same with the post-stabilization of the approaching circles. -/
example (s : ℝ) (hs : 0 < s) (fnd : Finder) : ∃ d d' : Vec,
    (∃ l pn, PostStabLaw (bounceWorld 1 false fnd).bodies [] [spinContact] (bounceWorld 1 false fnd).v d l pn) ∧
    (∃ l pn, PostStabLaw (bounceWorld s true fnd).bodies [] [flipped spinContact] (bounceWorld 1 false fnd).v d' l pn) ∧
    ∀ k < 6, d' k = d k := by
  have hre : ∀ (s : ℝ) (hs : 0 < s) (fl : Bool), ∀ c ∈ (bounceWorld s fl fnd).contacts,
      meanRestitution (bounceWorld s fl fnd).bodies c = 0 := by
    intro s hs fl c hc
    obtain ⟨q1, q2, -⟩ := (bounceWorld_inv s fl fnd).contacts c hc
    have b1 := bounceWorld_bodies s hs fl fnd _ (bodyAt_mem' q1)
    have b2 := bounceWorld_bodies s hs fl fnd _ (bodyAt_mem' q2)
    unfold meanRestitution
    rw [b1.2.2.1, b2.2.2.1]
    norm_num
  have hex : ∀ (s : ℝ) (hs : 0 < s) (fl : Bool), ∃ d l pn, PostStabLaw (bounceWorld s fl fnd).bodies
      (bounceWorld s fl fnd).joints (bounceWorld s fl fnd).contacts (bounceWorld s fl fnd).v d l pn := fun s hs fl =>
    (C62_post_stab_solvable (bounceWorld s fl fnd) (bounceWorld_inv s fl fnd).joints
    (bounceWorld_inv s fl fnd).contacts (fun b hb => (bounceWorld_bodies s hs fl fnd b hb).1)).2
    ⟨-(bounceWorld s fl fnd).v, by simp [bounceWorld, jointVels], by
      intro c hc
      rw [hre s hs fl c hc]
      have : normalVel c (-(bounceWorld s fl fnd).v) = -normalVel c (bounceWorld s fl fnd).v := by
        simp [normalVel, contactVel, pointVel, twist, Spec.inner]
        ring
      rw [this]
      linarith⟩
  obtain ⟨d, l, pn, h⟩ := hex 1 one_pos false
  obtain ⟨d', l', pn', h'⟩ := hex s hs true
  refine ⟨d, d', ⟨l, pn, h⟩, ⟨l', pn', h'⟩, ?_⟩
  exact C82_same_correction s hs _ _ _ _ _ _ _ _ _ _ _ _ _ _ h h' rfl
    (by
      intro i hi
      have : i = 0 ∨ i = 1 := by simp [bounceWorld] at hi; omega
      rcases this with rfl | rfl <;> simp [bounceWorld, bodyAt, scaleMass, unitCircle])
    (fun i hi => (bounceWorld_bodies 1 one_pos false fnd _ (bodyAt_mem' hi)).1)
    (fun _ _ => rfl) (fun _ => Iff.rfl) (fun j hj => by cases hj) (bounce_twin s true fnd).contacts
    (fun c hc => ⟨((bounceWorld_inv 1 false fnd).contacts c hc).1, ((bounceWorld_inv 1 false fnd).contacts c hc).2.1⟩)

/-- Example for `C82_solver_irrelevant_fixed`: one fixed step of the colliding circles under any two exact solvers. -/
example (fnd : Finder) (lcp : LcpSolver) (hx : Exact lcp) (fuel sub : ℕ) (u u' : World (Option Mat) Finder)
    (h1 : (bounceWorld 1 false fnd).step (pdipmEnv 2 noForces exactLcp 10
      (rejectNan (diffCollide 5 (fun _ => []) (bouncePairs false)))) fuel sub true = .done u)
    (h2 : (bounceWorld 1 false fnd).step (pdipmEnv 2 noForces lcp 3
      (rejectNan (diffCollide 5 (fun _ => []) (bouncePairs false)))) fuel sub true = .done u') : u'.bodies = u.bodies :=
  have hb := bounceWorld_bodies 1 one_pos false fnd
  (C82_solver_irrelevant_fixed noForces exactLcp lcp exactLcp_exact hx 10 3 _
    (C12_finder_ok 5 _ _ (bouncePairs_valid false)) _ (bounceWorld_inv 1 false fnd) (fun b h => (hb b h).1)
    (fun b h => (hb b h).2.1) fuel sub u u' h1 h2).2.1

end LcpPhysics
