import Verif.Spec.UnitPush
import Verif.Props.OneRow
import Verif.Props.LibraryRun
import Verif.Props.Lockstep
import Verif.Props.FrictionSolvable
import Verif.Props.ApproxLaw
import Verif.Lemmas.LuExists

/-! # C110: `post_stabilization` with a single contact -/

noncomputable section

namespace LcpPhysics
open Spec
open scoped Matrix

variable {φ : Type}

/-- The problem `post_stabilization` sets up with a single contact. -/
def stabLcp (w : World (Option Mat) φ) : Lcp (3 * w.bodies.length) 1 w.num_constraints :=
  toLcp (3 * w.bodies.length) w.num_constraints 1 w.M (fun _ => 0) w.Jc
    (fun i => mv w.Jc (3 * w.bodies.length) w.v i + mv w.Jc (3 * w.bodies.length) w.v i * -w.restitutions i) w.Je
    (mv w.Je (3 * w.bodies.length) w.v) (fun _ _ => 0)

theorem sum_fin {n : ℕ} (a b : ℕ → ℝ) : ∑ k : Fin n, a k * b k = ∑ k ∈ Finset.range n, a k * b k := by
  rw [Finset.sum_range]

theorem stab_one {w : World (Option Mat) φ} {c : Contact} {u l : Vec} (hj : JointsOk w) (hc : ContactsOk w)
    (hcs : w.contacts = [c]) (hv : ∀ x ∈ jointVels w.joints w.v, x = 0)
    (hu : UnitPush w.bodies w.joints c u l) :
    OneRow (stabLcp w) 0 0 (fun k => u k) (fun r => -l r) ∧
    compliance (stabLcp w) (fun k => u k) = normalVel c u ∧
    freeSlack (stabLcp w) 0 = (1 - meanRestitution w.bodies c) * normalVel c w.v := by
  have hlen : w.contacts.length = 1 := by rw [hcs]; rfl
  have hN : ∀ t : Vec, mv w.Jc (3 * w.bodies.length) t 0 = normalVel c t := by
    intro t
    rw [C33_normal_jacobian w hc t 0 (by omega)]
    simp [hcs]
  have hJ : ∀ t : Vec, (∀ x ∈ jointVels w.joints t, x = 0) → ∀ r < w.num_constraints,
      mv w.Je (3 * w.bodies.length) t r = 0 := by
    intro t ht r hr
    apply ht
    rw [← C32_equality_jacobian w hj]
    exact List.mem_map.2 ⟨r, List.mem_range.2 hr, rfl⟩
  have hr : w.restitutions 0 = meanRestitution w.bodies c := by
    unfold World.restitutions meanRestitution World.body
    rw [hcs]; rfl
  refine ⟨⟨?_, ?_, ?_, ?_, ?_⟩, ?_, ?_⟩
  · ext i j
    exact C07_mass_matrix_symm w j i j.isLt i.isLt
  · funext i
    simp [stabLcp, toLcp]
  · funext r
    have := hJ w.v hv r r.isLt
    simp only [stabLcp, toLcp, Matrix.mulVec_zero, Pi.zero_apply]
    exact this.symm
  · funext i
    have h1 := hu.dynamics (fun k => if k = i.val then 1 else 0)
    rw [← sum_mv_M w, ← sum_Je w hj, ← hN, mv] at h1
    have hi : (i : ℕ) ∈ Finset.range (3 * w.bodies.length) := Finset.mem_range.2 i.isLt
    simp only [ite_mul, one_mul, zero_mul, mul_ite, mul_one, mul_zero, Finset.sum_ite_eq', if_pos hi] at h1
    simp only [stabLcp, toLcp, Matrix.mulVec, dotProduct, Pi.add_apply, Matrix.of_apply, Matrix.transpose_apply,
      mul_neg, Finset.sum_neg_distrib]
    rw [sum_fin (w.M i) u, sum_fin (fun r => w.Je r i) l]
    simp only [mv, tmv] at h1
    have h2 : w.Jc ((0 : Fin 1) : ℕ) i = w.Jc 0 i := rfl
    rw [h2]
    linarith
  · funext r
    have := hJ u hu.joints r r.isLt
    simp only [stabLcp, toLcp, Matrix.mulVec, dotProduct, Matrix.of_apply, Pi.zero_apply]
    rw [sum_fin (w.Je r) u]
    exact this
  · unfold compliance
    simp only [stabLcp, toLcp, dotProduct, Matrix.of_apply, add_zero]
    rw [sum_fin (w.Jc ((0 : Fin 1) : ℕ)) u]
    exact hN u
  · unfold freeSlack
    simp only [stabLcp, toLcp, dotProduct_zero, sub_zero]
    show mv w.Jc _ w.v 0 + mv w.Jc _ w.v 0 * -w.restitutions 0 = _
    rw [hN, hr]; ring

theorem stab_conditions {w : World (Option Mat) φ} (hj : JointsOk w)
    (hpos : ∀ b ∈ w.bodies, 0 < b.mass ∧ 0 < b.ang_inertia) (hind : Independent w) :
    (∀ t, t ≠ 0 → 0 < t ⬝ᵥ ((stabLcp w).Q *ᵥ t)) ∧ (∀ t, (stabLcp w).Aᵀ *ᵥ t = 0 → t = 0) ∧
      0 ≤ (stabLcp w).F 0 0 := by
  refine ⟨fun v hv => ?_, fun l hl => ?_, le_rfl⟩
  · show 0 < v ⬝ᵥ (Matrix.of (fun i j : Fin (3 * w.bodies.length) => w.M i j) *ᵥ v)
    rw [dot_range w.M v (fun k => if hk : k < _ then v ⟨k, hk⟩ else 0) (fun k => dif_pos k.isLt)]
    apply C07_mass_matrix_posdef w hpos
    obtain ⟨k, hk⟩ := Function.ne_iff.1 hv
    exact ⟨k, k.isLt, by rw [dif_pos k.isLt]; exact hk⟩
  · have h0 := hind (fun k => if hk : k < w.num_constraints then l ⟨k, hk⟩ else 0) (fun u => by
      rw [← sum_Je w hj]
      refine Finset.sum_eq_zero fun k hk => ?_
      have := congrFun hl ⟨k, Finset.mem_range.1 hk⟩
      unfold tmv
      rw [sum_ext (fun i => w.Je i k) l]
      simp only [stabLcp, toLcp, Matrix.mulVec, dotProduct, Matrix.transpose_apply, Matrix.of_apply,
        Pi.zero_apply] at this
      rw [this, mul_zero])
    funext r
    have := h0 r r.isLt
    rw [dif_pos r.isLt] at this
    exact this

theorem stab_returns {w : World (Option Mat) φ} {f : Btrifact} {eps : ℝ} {lim : ℕ} (hlen : w.contacts.length = 1)
    {b : Best 1 (3 * w.bodies.length) 1 w.num_constraints}
    (h : lcpForward f eps lim 10 (fun _ : Fin 1 => stabLcp w) = .ret (some b)) :
    pdipmPostStab (libraryLcp f eps lim) w =
      .ok fun k => -(if hk : k < 3 * w.bodies.length then b.x 0 ⟨k, hk⟩ else 0) := by
  have hne : w.contacts ≠ [] := fun h => by rw [h] at hlen; cases hlen
  unfold pdipmPostStab
  simp only
  rw [if_neg hne, hlen]
  unfold libraryLcp
  rw [dif_neg one_ne_zero]
  have h' : lcpForward f eps lim 10 (fun _ : Fin 1 => toLcp (3 * w.bodies.length) w.num_constraints 1 w.M
      (fun _ => 0) w.Jc (fun i => mv w.Jc (3 * w.bodies.length) w.v i +
        mv w.Jc (3 * w.bodies.length) w.v i * -w.restitutions i) w.Je (mv w.Je (3 * w.bodies.length) w.v)
      (fun _ _ => 0)) = .ret (some b) := h
  rw [h']

/-- The displacement the law of `post_stabilization` asks for with a single contact. -/
theorem stab_law {w : World (Option Mat) φ} {c : Contact} {u l : Vec} (hj : JointsOk w)
    (hcs : w.contacts = [c]) (hv : ∀ x ∈ jointVels w.joints w.v, x = 0)
    (hu : UnitPush w.bodies w.joints c u l) (a : ℝ) (ha : 0 ≤ a)
    (hg : 0 ≤ a * normalVel c u + (1 - meanRestitution w.bodies c) * normalVel c w.v)
    (hg0 : a * (a * normalVel c u + (1 - meanRestitution w.bodies c) * normalVel c w.v) = 0) :
    PostStabLaw w.bodies w.joints w.contacts w.v (fun k => a * u k) (fun k => a * l k) (fun _ => a) := by
  refine ⟨fun t => ?_, fun x hx => ?_, fun _ _ => ha, fun i hi => ?_⟩
  · have h := hu.dynamics t
    have e1 : momentumPower w.bodies t (fun k => a * u k) = a * momentumPower w.bodies t u := by
      unfold momentumPower
      rw [Finset.mul_sum]
      exact Finset.sum_congr rfl fun i _ => by simp only [twist]; ring
    have e2 : jointPower w.joints (fun k => a * l k) t = a * jointPower w.joints l t := by
      unfold jointPower
      rw [Finset.mul_sum]
      exact Finset.sum_congr rfl fun i _ => by ring
    rw [e1, e2, h, hcs]
    simp [contactPower]
    ring
  · have h1 := jointVels_smul w hj a u hu.joints
    have h2 : jointVels w.joints ((fun k => a * u k) + w.v) = jointVels w.joints (fun k => a * u k) := by
      rw [← jointVels_sub w.joints ((fun k => a * u k) + w.v) w.v hv, add_sub_cancel_right]
    rw [h2] at hx
    exact h1 x hx
  · have hi' : i = 0 := by rw [hcs] at hi; simpa using hi
    subst hi'
    have e : w.contacts[0] = c := by simp [hcs]
    rw [e, normalVel_smul]
    exact ⟨hg, hg0⟩

/-- C110: bodies at rest against each other in a single contact that yields by one under a unit impulse.  Nothing
has to be corrected, but `post_stabilization` with the library's solver, which gets ten iterations, returns
a displacement: `(49/128)^9` (about 1.8e-4) times the answer to a unit impulse. -/
theorem C110_resting_drift (f : Btrifact) (hf : BtrifactOk f) (eps : ℝ) (lim : ℕ) (hl : 1 ≤ lim)
    (heps : eps ≤ (49 / 128) ^ 18) (w : World (Option Mat) φ) (hj : JointsOk w) (hc : ContactsOk w)
    (hpos : ∀ b ∈ w.bodies, 0 < b.mass ∧ 0 < b.ang_inertia) (hind : Independent w) (c : Contact)
    (hcs : w.contacts = [c]) (hv : ∀ x ∈ jointVels w.joints w.v, x = 0)
    (hrest : (1 - meanRestitution w.bodies c) * normalVel c w.v = 0) (u l : Vec)
    (hu : UnitPush w.bodies w.joints c u l) (h1 : normalVel c u = 1) :
    PostStabLaw w.bodies w.joints w.contacts w.v 0 0 0 ∧
    ∃ dp, pdipmPostStab (libraryLcp f eps lim) w = .ok dp ∧
      ∀ k < 3 * w.bodies.length, dp k = (49 / 128) ^ 9 * u k := by
  constructor
  · have h := stab_law hj hcs hv hu 0 le_rfl (by rw [hrest]; simp) (by simp)
    simp only [zero_mul] at h
    exact h
  obtain ⟨hP, e1, e2⟩ := stab_one hj hc hcs hv hu
  obtain ⟨g1, g2, g3⟩ := stab_conditions hj hpos hind
  obtain ⟨b, hb, hx, -⟩ := C110_touching f hf (stabLcp w) 0 0 _ _ hP g1 g2 g3 eps lim 9 hl (e1.trans h1)
    (e2.trans hrest) heps
  refine ⟨_, stab_returns (by rw [hcs]; rfl) hb, fun k hk => ?_⟩
  rw [dif_pos hk, hx]
  simp

/-- C110: a fast impact on heavy bodies: `post_stabilization` returns the fraction `κ / (1 + κ)` of the displacement
its law asks for, `κ` being the compliance of the contact. -/
theorem C110_heavy_correction (f : Btrifact) (hf : BtrifactOk f) (eps : ℝ) (lim : ℕ) (hl : lim ≤ 3)
    (w : World (Option Mat) φ) (hj : JointsOk w) (hc : ContactsOk w)
    (hpos : ∀ b ∈ w.bodies, 0 < b.mass ∧ 0 < b.ang_inertia) (hind : Independent w) (c : Contact)
    (hcs : w.contacts = [c]) (hv : ∀ x ∈ jointVels w.joints w.v, x = 0) (u l : Vec)
    (hu : UnitPush w.bodies w.joints c u l) (hκ : 0 < normalVel c u) (hκ1 : 330 * normalVel c u ≤ 1)
    (hβ : (1 - meanRestitution w.bodies c) * normalVel c w.v ≤ -330)
    (hβ2 : 9 ≤ normalVel c u * ((1 - meanRestitution w.bodies c) * normalVel c w.v) ^ 2) :
    ∃ dp dp', pdipmPostStab (libraryLcp f eps lim) w = .ok dp ∧
      (∃ l' pn', PostStabLaw w.bodies w.joints w.contacts w.v dp' l' pn') ∧ normalVel c dp' =
        -((1 - meanRestitution w.bodies c) * normalVel c w.v) ∧
      ∀ k < 3 * w.bodies.length, dp k = normalVel c u / (1 + normalVel c u) * dp' k := by
  obtain ⟨hP, e1, e2⟩ := stab_one hj hc hcs hv hu
  obtain ⟨g1, g2, g3⟩ := stab_conditions hj hpos hind
  obtain ⟨b, hb, hx, -⟩ := C110_heavy_stall f hf (stabLcp w) 0 0 _ _ hP g1 g2 g3 eps lim 10 (by norm_num) hl
    (by rw [e1]; exact hκ) (by rw [e1]; exact hκ1) (by rw [e2]; exact hβ) (by rw [e1, e2]; exact hβ2)
  have hg : -((1 - meanRestitution w.bodies c) * normalVel c w.v) / normalVel c u * normalVel c u +
      (1 - meanRestitution w.bodies c) * normalVel c w.v = 0 := by field_simp; ring
  have ha : 0 ≤ -((1 - meanRestitution w.bodies c) * normalVel c w.v) / normalVel c u :=
    div_nonneg (by linarith) hκ.le
  refine ⟨_, _, stab_returns (by rw [hcs]; rfl) hb, ⟨_, _, stab_law hj hcs hv hu _ ha hg.ge (by rw [hg, mul_zero])⟩,
    ?_, fun k hk => ?_⟩
  · rw [normalVel_smul]; linarith
  · rw [dif_pos hk, hx, e1, e2]
    simp only [zero_add, Pi.smul_apply, smul_eq_mul]
    have : (1 + normalVel c u) ≠ 0 := by positivity
    field_simp

/-! ## Two circles of mass `m` in contact, the first running at the second with the speed `a` -/

/-- The scene. -/
def massPair (m a : ℝ) : World (Option Mat) Unit :=
  { t := 0, dt := 1, eps := 0, tol := 2, post_stab := true, strict_no_pen := false,
    bodies := [{ unitCircle (-1) 0 0 with v := ⟨0, a, 0⟩ }, unitCircle 1 0 0].map (scaleMass m),
    joints := [], v := cat3 [⟨0, a, 0⟩, 0], contacts := [spinContact], eng := none, fnd := () }

theorem massPair_push (m a : ℝ) (hm : m ≠ 0) : UnitPush (massPair m a).bodies (massPair m a).joints spinContact
    (cat3 [⟨0, -(1 / m), 0⟩, ⟨0, 1 / m, 0⟩]) 0 := by
  constructor
  · intro t
    simp [massPair, momentumPower, Finset.sum_range_succ, bodyAt, twist, cat3, jointPower, jointVels, normalVel,
      contactVel, pointVel, spinContact, Spec.inner, scaleMass, unitCircle]
    field_simp
    ring
  · intro x hx; simp [massPair, jointVels] at hx

theorem massPair_facts (m a : ℝ) (hm : 0 < m) :
    JointsOk (massPair m a) ∧ ContactsOk (massPair m a) ∧
    (∀ b ∈ (massPair m a).bodies, 0 < b.mass ∧ 0 < b.ang_inertia) ∧ Independent (massPair m a) ∧
    (∀ x ∈ jointVels (massPair m a).joints (massPair m a).v, x = 0) ∧
    (1 - meanRestitution (massPair m a).bodies spinContact) * normalVel spinContact (massPair m a).v = -a ∧
    normalVel spinContact (cat3 [⟨0, -(1 / m), 0⟩, ⟨0, 1 / m, 0⟩]) = 2 / m := by
  refine ⟨?_, ?_, ?_, ?_, ?_, ?_, ?_⟩
  · intro j hj; cases hj
  · intro c hc
    simp [massPair] at hc
    subst hc
    simp [spinContact, massPair]
  · intro b hb
    simp [massPair] at hb
    rcases hb with rfl | rfl <;> simp [unitCircle, scaleMass, hm]
  · intro l _ r hr
    simp [massPair, World.num_constraints] at hr
  · intro x hx; simp [massPair, jointVels] at hx
  · simp [massPair, meanRestitution, bodyAt, scaleMass, unitCircle, spinContact, normalVel, contactVel, pointVel,
      twist, cat3, Spec.inner]
  · simp [spinContact, normalVel, contactVel, pointVel, twist, cat3, Spec.inner]
    ring

/-- Two circles of mass 2 at rest against each other: with the defaults of the solver each is pushed away by half of
`(49/128)^9`. -/
example : ∃ dp, pdipmPostStab (libraryLcp someBtrifact (1 / 10 ^ 12) 3) (massPair 2 0) = .ok dp ∧
    dp 1 = -((49 / 128) ^ 9 / 2) ∧ dp 4 = (49 / 128) ^ 9 / 2 := by
  obtain ⟨a1, a2, a3, a4, a5, a6, a7⟩ := massPair_facts 2 0 (by norm_num)
  obtain ⟨-, dp, h, hk⟩ := C110_resting_drift someBtrifact someBtrifact_ok (1 / 10 ^ 12) 3 (by norm_num) (by norm_num)
    (massPair 2 0) a1 a2 a3 a4 spinContact rfl a5 (by rw [a6, neg_zero]) _ _ (massPair_push 2 0 (by norm_num))
    (by rw [a7]; norm_num)
  refine ⟨dp, h, ?_, ?_⟩
  · rw [hk 1 (by simp [massPair])]; simp [cat3]; norm_num
  · rw [hk 4 (by simp [massPair])]; simp [cat3]; norm_num

/-- Two circles of mass 1000 that meet with the speed 501: the correction is 1/501 of what the law asks for. -/
example : ∃ dp, pdipmPostStab (libraryLcp someBtrifact (1 / 10 ^ 12) 3) (massPair 1000 501) = .ok dp ∧
    ∃ dp', (∃ l' pn', PostStabLaw (massPair 1000 501).bodies (massPair 1000 501).joints (massPair 1000 501).contacts
      (massPair 1000 501).v dp' l' pn') ∧ normalVel spinContact dp' = 501 ∧ ∀ k < 6, dp k = 1 / 501 * dp' k := by
  obtain ⟨a1, a2, a3, a4, a5, a6, a7⟩ := massPair_facts 1000 501 (by norm_num)
  obtain ⟨dp, dp', h, h', h1, h2⟩ := C110_heavy_correction someBtrifact someBtrifact_ok (1 / 10 ^ 12) 3 (by norm_num)
    (massPair 1000 501) a1 a2 a3 a4 spinContact rfl a5 _ _ (massPair_push 1000 501 (by norm_num))
    (by rw [a7]; norm_num) (by rw [a7]; norm_num) (by rw [a6]; norm_num) (by rw [a6, a7]; norm_num)
  rw [a6] at h1
  rw [a7] at h2
  refine ⟨dp, h, dp', h', by linarith, fun k hk => ?_⟩
  rw [h2 k hk]; norm_num

end LcpPhysics
