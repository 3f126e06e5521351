import Verif.Props.Isolated
import Verif.Props.LibraryRun
import Verif.Lemmas.Farkas
import Verif.Spec.Statics

/-! # C99: static equilibrium -/

noncomputable section

namespace LcpPhysics
open Spec
variable {φ : Type}

theorem jointVels_length_eq (js : List Joint) (u v : Vec) : (jointVels js u).length = (jointVels js v).length := by
  induction js with
  | nil => rfl
  | cons j js ih =>
    simp only [jointVels, List.flatMap_cons, List.length_append] at ih ⊢
    rw [ih]
    congr 1
    obtain ⟨kind, i1, i2, pos, pos1, pos2, r1, rot1, rot2⟩ := j
    cases kind <;> rfl

theorem jointVel_zip (j : Joint) (s t : ℝ) (v w : Vec) : jointVel j (fun k => s * v k + t * w k) =
    List.zipWith (fun x y => s * x + t * y) (jointVel j v) (jointVel j w) := by
  obtain ⟨kind, i1, i2, pos, pos1, pos2, r1, rot1, rot2⟩ := j
  cases kind <;> cases i2 <;> simp [jointVel, twist, pointVel] <;>
    (first | ring1 | (refine ⟨?_, ?_⟩ <;> ring1) | (refine ⟨?_, ?_, ?_⟩ <;> ring1))

theorem jointVels_zip (js : List Joint) (s t : ℝ) (v w : Vec) : jointVels js (fun k => s * v k + t * w k) =
    List.zipWith (fun x y => s * x + t * y) (jointVels js v) (jointVels js w) := by
  induction js with
  | nil => rfl
  | cons j js ih =>
    simp only [jointVels, List.flatMap_cons] at ih ⊢
    rw [ih, jointVel_zip, List.zipWith_append]
    have := jointVels_length_eq [j] v w
    simpa [jointVels] using this

theorem jointVels_getD_lin (js : List Joint) (s t : ℝ) (v w : Vec) (r : ℕ) :
    (jointVels js (fun k => s * v k + t * w k)).getD r 0 =
      s * (jointVels js v).getD r 0 + t * (jointVels js w).getD r 0 := by
  rw [jointVels_zip]
  by_cases hr : r < (jointVels js v).length
  · have hr' : r < (jointVels js w).length := by rw [jointVels_length_eq js w v]; exact hr
    simp [List.getD_eq_getElem?_getD, hr, hr']
  · have hr1 : (jointVels js v).length ≤ r := not_lt.1 hr
    have hr' : (jointVels js w).length ≤ r := by rw [jointVels_length_eq js w v]; exact hr1
    simp [List.getD_eq_getElem?_getD, hr1]
    simp [hr']

/-- A map that respects `s * u + t * v` is linear. -/
def linOf (f : Vec → ℝ) (h : ∀ (s t : ℝ) (u v : Vec), f (fun k => s * u k + t * v k) = s * f u + t * f v) :
    Vec →ₗ[ℝ] ℝ where
  toFun := f
  map_add' u v := by
    have := h 1 1 u v
    simp only [one_mul] at this
    exact this
  map_smul' a u := by
    have := h a 0 u 0
    simp only [zero_mul, add_zero] at this
    exact this

theorem forcePower_lin (n : ℕ) (f : ℕ → V3) (s t : ℝ) (u v : Vec) :
    forcePower n f (fun k => s * u k + t * v k) = s * forcePower n f u + t * forcePower n f v := by
  unfold forcePower
  rw [Finset.mul_sum, Finset.mul_sum, ← Finset.sum_add_distrib]
  refine Finset.sum_congr rfl fun i _ => ?_
  rw [twist_lin]; ring

theorem contactPower_normal (cs : List Contact) (pn : ℕ → ℝ) (u : Vec) :
    contactPower cs pn (fun _ => 0) u = ∑ i : Fin cs.length, pn i * normalVel cs[i] u := by
  unfold contactPower
  rw [Finset.sum_range]
  refine Finset.sum_congr rfl fun i _ => ?_
  simp

theorem jointPower_sum (js : List Joint) (l u : Vec) (R : ℕ) (hR : (jointVels js 0).length = R) :
    jointPower js l u = ∑ r : Fin R, l r * (jointVels js u).getD r 0 := by
  unfold jointPower
  rw [jointVels_length_eq js u 0, hR, Finset.sum_range]

theorem admissible_power {js : List Joint} {cs : List Contact} {u : Vec} (h : Admissible js cs u) (l : Vec)
    (pn : ℕ → ℝ) (hpn : ∀ i < cs.length, 0 ≤ pn i) :
    0 ≤ jointPower js l u + contactPower cs pn (fun _ => 0) u := by
  rw [jointPower_zero js l u h.1, zero_add, contactPower_normal]
  exact Finset.sum_nonneg fun i _ => mul_nonneg (hpn i i.2) (h.2 _ (List.getElem_mem i.2))

/-- C99, principle of virtual work: joints and pushing contacts can balance the forces exactly if the forces
would do no positive work in any motion that joints and contacts allow. -/
theorem C99_virtual_work (n : ℕ) (js : List Joint) (cs : List Contact) (f : ℕ → V3) :
    Propped n js cs f ↔ ∀ u, Admissible js cs u → forcePower n f u ≤ 0 := by
  constructor
  · rintro ⟨l, pn, hpn, h⟩ u hu
    have := h u
    have := admissible_power hu l pn hpn
    linarith
  · intro h
    obtain ⟨R, hR⟩ : ∃ R, (jointVels js 0).length = R := ⟨_, rfl⟩
    let N : Fin cs.length → Vec →ₗ[ℝ] ℝ := fun i =>
      linOf (fun u => normalVel cs[i] u) fun s t u v => (contactVel_lin _ s t u v).1
    let J : Fin R → Vec →ₗ[ℝ] ℝ := fun r =>
      linOf (fun u => (jointVels js u).getD r 0) fun s t u v => jointVels_getD_lin js s t u v r
    let gen : Fin cs.length ⊕ (Fin R ⊕ Fin R) → Vec →ₗ[ℝ] ℝ
      | .inl i => -N i
      | .inr (.inl r) => J r
      | .inr (.inr r) => -J r
    obtain ⟨q, hq, hc⟩ := farkas' gen (linOf (forcePower n f) (forcePower_lin n f)) (by
      intro u hu
      refine h u ⟨?_, ?_⟩
      · intro x hx
        obtain ⟨r, hr, rfl⟩ := List.getElem_of_mem hx
        have hr' : r < R := by rw [← hR, jointVels_length_eq js 0 u]; exact hr
        have h1 := hu (.inr (.inl ⟨r, hr'⟩))
        have h2 := hu (.inr (.inr ⟨r, hr'⟩))
        have e : (jointVels js u).getD r 0 = (jointVels js u)[r] := by
          simp [List.getD_eq_getElem?_getD, hr]
        change (jointVels js u).getD r 0 ≤ 0 at h1
        change -((jointVels js u).getD r 0) ≤ 0 at h2
        rw [e] at h1 h2
        linarith
      · intro c hc
        obtain ⟨i, hi, rfl⟩ := List.getElem_of_mem hc
        have := hu (.inl ⟨i, hi⟩)
        change -(normalVel cs[i] u) ≤ 0 at this
        linarith)
    refine ⟨fun r => if hr : r < R then q (.inr (.inr ⟨r, hr⟩)) - q (.inr (.inl ⟨r, hr⟩)) else 0,
      fun i => if hi : i < cs.length then q (.inl ⟨i, hi⟩) else 0, ?_, ?_⟩
    · intro i hi
      simp only [hi, dite_true]
      exact hq _
    · intro u
      have hu := LinearMap.congr_fun hc u
      rw [LinearMap.sum_apply, Fintype.sum_sum_type, Fintype.sum_sum_type] at hu
      simp only [LinearMap.smul_apply, smul_eq_mul] at hu
      change forcePower n f u = _ at hu
      rw [hu, contactPower_normal, jointPower_sum js _ u R hR]
      simp only [Fin.is_lt, dite_true, Fin.eta]
      have e1 : ∀ i, gen (.inl i) u = -normalVel cs[i] u := fun _ => rfl
      have e2 : ∀ r : Fin R, gen (.inr (.inl r)) u = (jointVels js u).getD r 0 := fun _ => rfl
      have e3 : ∀ r : Fin R, gen (.inr (.inr r)) u = -(jointVels js u).getD r 0 := fun _ => rfl
      simp only [e1, e2, e3]
      have : (∑ i, q (.inl i) * -normalVel cs[i] u) + (∑ i : Fin cs.length, q (.inl i) * normalVel cs[i] u) = 0 := by
        rw [← Finset.sum_add_distrib]
        exact Finset.sum_eq_zero fun i _ => by ring
      have : ((∑ r : Fin R, q (.inr (.inl r)) * (jointVels js u).getD r 0) +
          ∑ r : Fin R, q (.inr (.inr r)) * -(jointVels js u).getD r 0) +
          ∑ r : Fin R, (q (.inr (.inr r)) - q (.inr (.inl r))) * (jointVels js u).getD r 0 = 0 := by
        rw [← Finset.sum_add_distrib, ← Finset.sum_add_distrib]
        exact Finset.sum_eq_zero fun i _ => by ring
      linarith

theorem atRest_twist {n : ℕ} {v : Vec} (h : AtRest n v) {i : ℕ} (hi : i < n) : twist v i = 0 := by
  unfold twist
  rw [h _ (by omega), h _ (by omega), h _ (by omega)]
  rfl

theorem atRest_contact {n : ℕ} {v : Vec} (h : AtRest n v) {c : Contact} (h1 : c.i1 < n) (h2 : c.i2 < n) :
    normalVel c v = 0 ∧ slipVel c v = 0 := by
  simp [normalVel, slipVel, contactVel, atRest_twist h h1, atRest_twist h h2, pointVel_zero, Spec.inner]

theorem atRest_momentum {bs : List Body} {v : Vec} (h : AtRest bs.length v) (u : Vec) : momentumPower bs u v = 0 := by
  unfold momentumPower
  refine Finset.sum_eq_zero fun i hi => ?_
  rw [atRest_twist h (Finset.mem_range.1 hi)]
  simp

theorem atRest_joint {n : ℕ} {v : Vec} (h : AtRest n v) {js : List Joint}
    (hj : ∀ j ∈ js, j.i1 < n ∧ ∀ k ∈ j.i2, k < n) : ∀ x ∈ jointVels js v, x = 0 := by
  intro x hx
  obtain ⟨j, hjm, hx⟩ := List.mem_flatMap.1 hx
  obtain ⟨h1, h2⟩ := hj j hjm
  have e : jointVel j v = jointVel j 0 := by
    apply jointVel_congr
    · rw [atRest_twist h h1]; rfl
    · intro k hk
      rw [atRest_twist h (h2 k hk)]; rfl
  rw [e] at hx
  obtain ⟨kind, i1, i2, pos, pos1, pos2, r1, rot1, rot2⟩ := j
  cases kind <;> cases i2 <;> simp [jointVel, twist, pointVel] at hx <;> exact hx

/-- C99: resting bodies whose forces the contacts can carry without friction stay at rest in every outcome of
the contact law: friction and restitution, whatever their coefficients, set nothing in motion, although with
friction the law may have several solutions. -/
theorem C99_propped_rests (bs : List Body) (js : List Joint) (cs : List Contact) (f : ℕ → V3)
    (v v' l : Vec) (pn a b g : ℕ → ℝ)
    (hpos : ∀ i < bs.length, 0 < (bodyAt bs i).mass ∧ 0 < (bodyAt bs i).ang_inertia)
    (hc : ∀ c ∈ cs, c.i1 < bs.length ∧ c.i2 < bs.length) (hv : AtRest bs.length v)
    (hf : Propped bs.length js cs f) (law : ContactLaw bs js cs f v v' l pn a b g) : AtRest bs.length v' := by
  have hN : ∀ (i : ℕ) (h : i < cs.length), 0 ≤ normalVel cs[i] v' ∧ pn i * normalVel cs[i] v' = 0 := by
    intro i hi
    have h1 := law.restitution i hi
    obtain ⟨h2, h3⟩ := hc _ (List.getElem_mem hi)
    rw [(atRest_contact hv h2 h3).1, mul_zero, add_zero] at h1
    exact h1
  have hadm : Admissible js cs v' := by
    refine ⟨law.joints, fun c hc => ?_⟩
    obtain ⟨i, hi, rfl⟩ := List.getElem_of_mem hc
    exact (hN i hi).1
  have hfv := (C99_virtual_work _ _ _ _).1 hf v' hadm
  have hd := law.dynamics v'
  rw [atRest_momentum hv, jointPower_zero js l v' law.joints] at hd
  have hcp : contactPower cs pn (fun i => a i - b i) v' ≤ 0 := by
    unfold contactPower
    refine Finset.sum_nonpos fun i hi => ?_
    have hi := Finset.mem_range.1 hi
    rw [List.getElem?_eq_getElem hi]
    simp only
    rw [(hN i hi).2]
    obtain ⟨-, h2, -, h4⟩ := law.slip i hi
    obtain ⟨-, ha, hb, hg⟩ := law.nonneg i hi
    have e : (a i - b i) * slipVel cs[i] v' = -(a i * g i) - b i * g i := by linarith
    rw [e]
    have := mul_nonneg ha hg
    have := mul_nonneg hb hg
    linarith
  exact momentumPower_pos_imp_zero bs hpos v' (by linarith)

/-- C99: staying at rest satisfies the contact law for some impulses exactly if joints, contacts and friction
can balance the forces; otherwise every outcome of the step sets something in motion. -/
theorem C99_rest_iff_balanced (bs : List Body) (js : List Joint) (cs : List Contact) (f : ℕ → V3) (v v' : Vec)
    (hc : ∀ c ∈ cs, c.i1 < bs.length ∧ c.i2 < bs.length)
    (hj : ∀ j ∈ js, j.i1 < bs.length ∧ ∀ k ∈ j.i2, k < bs.length) (hv : AtRest bs.length v)
    (hv' : AtRest bs.length v') :
    (∃ l pn a b g, ContactLaw bs js cs f v v' l pn a b g) ↔ Balanced bs js cs f := by
  constructor
  · rintro ⟨l, pn, a, b, g, law⟩
    refine ⟨l, pn, fun i => a i - b i, fun i hi => ?_, fun u => ?_⟩
    · obtain ⟨hp, ha, hb, hg⟩ := law.nonneg i hi
      have := (law.cone i hi).1
      exact ⟨hp, by rw [abs_le]; constructor <;> linarith⟩
    · have := law.dynamics u
      rw [atRest_momentum hv, atRest_momentum hv'] at this
      linarith
  · rintro ⟨l, pn, pt, hcone, hbal⟩
    refine ⟨l, pn, fun i => max (pt i) 0, fun i => max (-pt i) 0, fun _ => 0, ?_, atRest_joint hv' hj, ?_, ?_, ?_, ?_⟩
    · intro u
      rw [atRest_momentum hv, atRest_momentum hv', zero_add]
      have e : (fun i => max (pt i) 0 - max (-pt i) 0) = pt := by
        funext i
        exact posPart_sub_negPart (pt i)
      rw [e, hbal u]
    · intro i hi
      exact ⟨(hcone i hi).1, le_max_right _ _, le_max_right _ _, le_rfl⟩
    · intro i hi
      obtain ⟨h2, h3⟩ := hc _ (List.getElem_mem hi)
      rw [(atRest_contact hv h2 h3).1, (atRest_contact hv' h2 h3).1]
      simp
    · intro i hi
      obtain ⟨h2, h3⟩ := hc _ (List.getElem_mem hi)
      rw [(atRest_contact hv' h2 h3).2]
      simp
    · intro i hi
      have e : max (pt i) 0 + max (-pt i) 0 = |pt i| := posPart_add_negPart (pt i)
      simp only [e, zero_mul, and_true]
      have := (hcone i hi).2
      linarith

/-- Resting bodies need no post-stabilization. -/
theorem poststab_rests {bs : List Body} {js : List Joint} {cs : List Contact} {v dp l : Vec} {pn : ℕ → ℝ}
    (hpos : ∀ i < bs.length, 0 < (bodyAt bs i).mass ∧ 0 < (bodyAt bs i).ang_inertia)
    (hc : ∀ c ∈ cs, c.i1 < bs.length ∧ c.i2 < bs.length)
    (hj : ∀ j ∈ js, j.i1 < bs.length ∧ ∀ k ∈ j.i2, k < bs.length) (hv : AtRest bs.length v)
    (law : PostStabLaw bs js cs v dp l pn) : AtRest bs.length dp := by
  have hd := law.dynamics dp
  have hjd : ∀ x ∈ jointVels js dp, x = 0 := by
    intro x hx
    obtain ⟨r, hr, rfl⟩ := List.getElem_of_mem hx
    have e := jointVels_getD_lin js 1 1 dp v r
    have e1 : (fun k => 1 * dp k + 1 * v k) = dp + v := by funext k; simp
    have hr1 : r < (jointVels js (dp + v)).length := by rw [jointVels_length_eq js _ dp]; exact hr
    have hr2 : r < (jointVels js v).length := by rw [jointVels_length_eq js _ dp]; exact hr
    have z1 := law.joints _ (List.getElem_mem hr1)
    have z2 := atRest_joint hv hj _ (List.getElem_mem hr2)
    rw [e1] at e
    simp only [List.getD_eq_getElem?_getD, hr, hr1, hr2, List.getElem?_eq_getElem, Option.getD_some, z1, z2] at e
    linarith
  rw [jointPower_zero js l dp hjd, contactPower_normal, zero_add] at hd
  refine momentumPower_pos_imp_zero bs hpos dp (le_of_eq ?_)
  rw [hd]
  refine Finset.sum_eq_zero fun i _ => ?_
  obtain ⟨h2, h3⟩ := hc _ (List.getElem_mem i.2)
  have := (law.contacts i i.2).2
  rw [(atRest_contact hv h2 h3).1, mul_zero, add_zero] at this
  exact this

/-- A joint between bodies that did not move and do not move is as before. -/
theorem joint_still (j : Joint) (bs bs0 bs1 : List Body) (s d : ℝ) (hfix : j.update_pos bs = j)
    (h0 : ∀ k ∈ j.i2, (bodyAt bs0 k).v.r = 0)
    (h1 : (bodyAt bs1 j.i1).p = (bodyAt bs j.i1).p ∧ (bodyAt bs1 j.i1).v.r = 0)
    (h2 : ∀ k ∈ j.i2, (bodyAt bs1 k).p = (bodyAt bs k).p ∧ (bodyAt bs1 k).v.r = 0) :
    (j.drift bs0 s).move bs1 d = j := by
  have hd : j.drift bs0 s = j := by
    unfold Joint.drift
    obtain ⟨kind, i1, i2, pos, pos1, pos2, r1, rot1, rot2⟩ := j
    cases kind <;> cases i2 <;> simp_all
  rw [hd]
  have hup : j.update_pos bs1 = j := by
    rw [update_pos_congr j bs bs1 h1.1 fun k hk => (h2 k hk).1, hfix]
  have key : j.move bs1 d = j.update_pos bs1 := by
    unfold Joint.move
    obtain ⟨kind, i1, i2, pos, pos1, pos2, r1, rot1, rot2⟩ := j
    cases kind <;> cases i2 <;> simp_all
  rw [key, hup]

theorem slice3_rest {n : ℕ} {v : Vec} (h : AtRest n v) {i : ℕ} (hi : i < n) : slice3 v i = 0 := by
  unfold slice3
  rw [h _ (by omega), h _ (by omega), h _ (by omega)]
  rfl

theorem forcePower_impulse (n : ℕ) (fl : List V3) (dt : ℝ) (u : Vec) :
    forcePower n (impulse fl dt) u = dt * forcePower n (fun i => fl.getD i 0) u := by
  unfold forcePower
  rw [Finset.mul_sum]
  refine Finset.sum_congr rfl fun i _ => ?_
  simp only [impulse, V3.smul_r, V3.smul_x, V3.smul_y]
  ring

theorem propped_impulse {n : ℕ} {js : List Joint} {cs : List Contact} {fl : List V3} {dt : ℝ} (hdt : 0 ≤ dt)
    (h : Propped n js cs fun i => fl.getD i 0) : Propped n js cs (impulse fl dt) := by
  rw [C99_virtual_work] at h ⊢
  intro u hu
  rw [forcePower_impulse]
  exact mul_nonpos_of_nonneg_of_nonpos hdt (h u hu)

/-- A step from rest in which the forces are propped. -/
theorem rest_step {H : ForceHeap} {lcp : LcpSolver} {mi : ℕ}
    {collide : ℝ → φ → List Body → Except Err (φ × List Contact)} (hfind : FinderOk collide)
    (hx : Exact lcp) {w w' : World (Option Mat) φ} {fuel : ℕ} {dt : ℝ} (hdt : 0 ≤ dt) (hw : EngineInv w)
    (hpos : ∀ i < w.bodies.length, 0 < (bodyAt w.bodies i).mass ∧ 0 < (bodyAt w.bodies i).ang_inertia)
    (hv : AtRest w.bodies.length w.v)
    (hf : ∀ fl, forceCat H w.t w.bodies.length = .ok fl →
      Propped w.bodies.length w.joints w.contacts fun i => fl.getD i 0)
    (h : w.step_dt (pdipmEnv 2 H lcp mi collide) fuel dt = .done w') :
    AtRest w.bodies.length w'.v ∧ Standing w.bodies w'.bodies ∧ w'.joints = w.joints := by
  have hposed := posed_step hw.good h
  obtain ⟨fl, l, pn, a, b, g, hfl, law⟩ := step_law hx hw h
  have hrest := C99_propped_rests _ _ _ _ _ _ _ _ _ _ _ hpos
    (fun c hc => ⟨(hw.contacts c hc).1, (hw.contacts c hc).2.1⟩) hv (propped_impulse hdt (hf fl hfl)) law
  obtain ⟨e, v, k, w1, w2, hsol, _, hw1, hg1, ⟨fk, f', cs, hcs, _, hw2⟩, _, hend⟩ :=
    step_dt_done hw.good h
  have hvv : w'.v = v := by
    rcases hend with ⟨_, rfl⟩ | ⟨_, dp, f2, cs2, _, w3, rfl, _, rfl⟩
    · rw [hw2, hw1]; rfl
    · rfl
  rw [hvv] at hrest ⊢
  have hb1 : ∀ i < w.bodies.length, (bodyAt w1.bodies i).p = (bodyAt w.bodies i).p ∧
      (bodyAt w1.bodies i).v = 0 := by
    intro i hi
    have : bodyAt (({ w with eng := e } : World (Option Mat) φ).set_v v).bodies i =
        { bodyAt w.bodies i with v := slice3 v i } := by
      simp [bodyAt, List.getD_eq_getElem?_getD, World.set_v, hi]
    rw [hw1, this]
    exact ⟨rfl, slice3_rest hrest hi⟩
  have hl1 : w1.bodies.length = w.bodies.length := by rw [hw1, set_v_length]
  have hb2 : ∀ i < w.bodies.length, (bodyAt w2.bodies i).p = (bodyAt w.bodies i).p ∧
      (bodyAt w2.bodies i).v = 0 := by
    intro i hi
    rw [hw2]
    simp only [World.accepted]
    rw [bodyAt_map _ _ _ (by rw [hl1]; exact hi), move_p, move_v, (hb1 i hi).1, (hb1 i hi).2]
    exact ⟨by apply V3.ext <;> simp, rfl⟩
  have hj2 : w2.joints = w.joints := by
    have hjw : w1.joints = w.joints := by rw [hw1]; rfl
    have : w2.joints = w1.joints.map fun j => (j.drift w1.bodies (2 * (dt - dt / 2 ^ k))).move w2.bodies (dt / 2 ^ k) := by
      rw [hw2]; rfl
    rw [this, hjw]
    conv_rhs => rw [← List.map_id w.joints]
    refine List.map_congr_left fun j hj => ?_
    obtain ⟨i1, i2⟩ := hw.good.valid j hj
    refine joint_still j w.bodies _ _ _ _ (hw.good.fix j hj) ?_ ?_ ?_
    · intro k hk
      rw [(hb1 k (i2 k hk)).2]; rfl
    · exact ⟨(hb2 _ i1).1, by rw [(hb2 _ i1).2]; rfl⟩
    · intro k hk
      exact ⟨(hb2 k (i2 k hk)).1, by rw [(hb2 k (i2 k hk)).2]; rfl⟩
  have hl2 : w2.bodies.length = w.bodies.length := by
    rw [hw2]
    simp only [World.accepted, List.length_map]
    exact hl1
  refine ⟨hrest, ?_⟩
  rcases hend with ⟨_, rfl⟩ | ⟨hps, dp, f2, cs2, hdp, w3, hw3, hcs2, rfl⟩
  · exact ⟨⟨hposed, fun i hi => (hb2 i hi).1⟩, hj2⟩
  · have hs2 : SameStatics w w2 := by
      rw [hw2, hw1]
      exact (sameStatics_set_v w v e).trans (sameStatics_accepted _ _ _ _ _)
    have hjo2 : JointsOk w2 := jointsOk_congr hs2 hw.joints
    have hc2 : ContactsOk w2 := by
      intro c hc
      subst hw2
      exact hfind _ _ _ _ _ hcs c hc
    have he2 : w2.eng = e := by rw [hw2, hw1]; rfl
    have hcache2 : CacheInv w2 := by
      apply solve_cacheInv hs2 hw.cache
      rw [he2]; exact hsol
    obtain ⟨l2, pn2, hlaw2⟩ := C62_post_stab_law lcp w2 dp hjo2 hc2 hcache2.ok hx hdp
    have hv2 : w2.v = v := by rw [hw2, hw1]; rfl
    have hdp0 : AtRest w2.bodies.length dp := by
      refine poststab_rests (fun i hi => ?_) (fun c hc => ⟨(hc2 c hc).1, (hc2 c hc).2.1⟩)
        (fun j hj => ⟨(hjo2 j hj).1, fun k hk => ((hjo2 j hj).2 k hk).1⟩) (by rw [hl2, hv2]; exact hrest) hlaw2
      rw [sameStatics_mass hs2, sameStatics_inertia hs2]
      exact hpos i (hl2 ▸ hi)
    have hh : AtRest w.bodies.length fun k => dp k / 2 := by
      intro k hk
      simp only
      rw [hdp0 k (by rw [hl2]; exact hk), zero_div]
    have hb3 : ∀ i < w.bodies.length, (bodyAt ((w2.set_v fun k => dp k / 2).moveBodies (dt / 2 ^ k)).bodies i).p =
        (bodyAt w.bodies i).p ∧
        (bodyAt ((w2.set_v fun k => dp k / 2).moveBodies (dt / 2 ^ k)).bodies i).v = 0 := by
      intro i hi
      have : bodyAt (w2.set_v fun k => dp k / 2).bodies i =
          { bodyAt w2.bodies i with v := slice3 (fun k => dp k / 2) i } := by
        simp [bodyAt, List.getD_eq_getElem?_getD, World.set_v, hl2, hi]
      simp only [World.moveBodies]
      rw [bodyAt_map _ _ _ (by rw [set_v_length, hl2]; exact hi), move_p, move_v, this]
      simp only
      rw [slice3_rest hh hi, (hb2 i hi).1]
      exact ⟨by apply V3.ext <;> simp, rfl⟩
    have hb4 : ∀ i < w.bodies.length, (bodyAt w3.bodies i).p = (bodyAt w.bodies i).p := by
      intro i hi
      have hl3 : ((w2.set_v fun k => dp k / 2).moveBodies (dt / 2 ^ k)).bodies.length = w.bodies.length := by
        simp only [World.moveBodies, List.length_map]
        rw [set_v_length, hl2]
      have : bodyAt w3.bodies i =
          { bodyAt ((w2.set_v fun k => dp k / 2).moveBodies (dt / 2 ^ k)).bodies i with v := slice3 v i } := by
        rw [hw3]
        simp only [World.set_v, World.moveJoints]
        simp only [World.set_v] at hl3
        simp [bodyAt, List.getD_eq_getElem?_getD, hl3, hi]
      rw [this]
      exact (hb3 i hi).1
    refine ⟨⟨hposed, fun i hi => hb4 i hi⟩, ?_⟩
    have : w3.joints = w2.joints.map fun j =>
        j.move ((w2.set_v fun k => dp k / 2).moveBodies (dt / 2 ^ k)).bodies (dt / 2 ^ k) := by
      rw [hw3]; rfl
    show w3.joints = _
    rw [this, hj2]
    conv_rhs => rw [← List.map_id w.joints]
    refine List.map_congr_left fun j hj => ?_
    obtain ⟨i1, i2⟩ := hw.good.valid j hj
    have := joint_still j w.bodies w2.bodies _ 0 (dt / 2 ^ k) (hw.good.fix j hj)
      (fun k hk => by rw [(hb2 k (i2 k hk)).2]; rfl)
      ⟨(hb3 _ i1).1, by rw [(hb3 _ i1).2]; rfl⟩
      (fun k hk => ⟨(hb3 k (i2 k hk)).1, by rw [(hb3 k (i2 k hk)).2]; rfl⟩)
    rw [drift_zero] at this
    exact this

theorem standing_rfl (bs : List Body) : Standing bs bs :=
  ⟨⟨rfl, fun _ _ => ⟨[], rfl⟩⟩, fun _ _ => rfl⟩

theorem standing_trans {a b c : List Body} (h1 : Standing a b) (h2 : Standing b c) : Standing a c :=
  ⟨Posed.trans h1.1 h2.1, fun i hi => (h2.2 i (by rw [h1.1.1]; exact hi)).trans (h1.2 i hi)⟩

theorem ReachesFwd.reaches {σ : Type} {env : Env σ φ} {w w' : World σ φ} (h : ReachesFwd env w w') :
    Reaches env w w' := by
  induction h with
  | refl => exact .refl
  | tail _ hs ih =>
    obtain ⟨fuel, dt, _, hs⟩ := hs
    exact ih.tail ⟨fuel, dt, hs⟩

/-- C99: a scene at rest whose forces are propped, at every time, by the contacts of the initial world and by
whatever contacts the search reports on the standing bodies, stays exactly where it is for ever: no body
changes its pose or gains velocity, no joint changes, whatever friction, restitution and step sizes, and
with post-stabilization on or off. -/
theorem C99_stays (H : ForceHeap) (lcp : LcpSolver) (mi : ℕ)
    (collide : ℝ → φ → List Body → Except Err (φ × List Contact)) (hfind : FinderOk collide)
    (hx : Exact lcp) (w0 w : World (Option Mat) φ) (h0 : EngineInv w0)
    (hpos : ∀ b ∈ w0.bodies, 0 < b.mass ∧ 0 < b.ang_inertia)
    (hv : AtRest w0.bodies.length w0.v)
    (hf : ∀ t fl, forceCat H t w0.bodies.length = .ok fl → ∀ cs,
      (cs = w0.contacts ∨ ∃ f bs f', Standing w0.bodies bs ∧ collide w0.eps f bs = .ok (f', cs)) →
      Propped w0.bodies.length w0.joints cs fun i => fl.getD i 0)
    (h : ReachesFwd (pdipmEnv 2 H lcp mi collide) w0 w) :
    AtRest w0.bodies.length w.v ∧ Standing w0.bodies w.bodies ∧ w.joints = w0.joints := by
  suffices hs : (AtRest w0.bodies.length w.v ∧ Standing w0.bodies w.bodies ∧ w.joints = w0.joints) ∧
      w.eps = w0.eps ∧
      (w.contacts = w0.contacts ∨ ∃ f bs f', Standing w0.bodies bs ∧ collide w0.eps f bs = .ok (f', w.contacts))
      from hs.1
  induction h with
  | refl => exact ⟨⟨hv, standing_rfl _, rfl⟩, rfl, .inl rfl⟩
  | @tail w w' hr hstep ih =>
    obtain ⟨⟨i1, i2, i3⟩, i4, i5⟩ := ih
    have hr' : Reaches (pdipmEnv 2 H lcp mi collide) w0 w := ReachesFwd.reaches hr
    have hw := C29_engine_invariant H lcp mi collide hfind _ _ h0 hr'
    have hs := (reaches_statics h0.good hr').2
    obtain ⟨fuel, dt, hdt, hst⟩ := hstep
    have hlen := sameStatics_length hs
    obtain ⟨r1, r2, r3⟩ := rest_step hfind hx hdt hw (by
      intro i hi
      rw [sameStatics_mass hs, sameStatics_inertia hs]
      have hi' : i < w0.bodies.length := hlen ▸ hi
      have : bodyAt w0.bodies i ∈ w0.bodies := by
        simp [bodyAt, List.getD_eq_getElem?_getD, hi']
      exact hpos _ this) (by rw [hlen]; exact i1) (by
      intro fl hfl
      rw [hlen] at hfl ⊢
      rw [i3]
      exact hf _ fl hfl _ i5) hst
    have hst2 := standing_trans i2 r2
    refine ⟨⟨hlen ▸ r1, hst2, r3.trans i3⟩, ?_, ?_⟩
    · rw [(step_dt_params hw.good hst).2.1, i4]
    · obtain ⟨f, f', hcol⟩ := step_contacts hw.good hst
      right
      refine ⟨f, w'.bodies, f', hst2, ?_⟩
      rw [i4] at hcol
      exact hcol

end LcpPhysics
