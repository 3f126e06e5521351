import Verif.Props.Conservation
import Verif.Spec.PostStab

/-! # C62: the post-stabilization displacement -/

noncomputable section

namespace LcpPhysics
open Spec

variable {φ : Type}

theorem mv_add (A : Mat) (n : ℕ) (u v : Vec) (k : ℕ) :
    mv A n (u + v) k = mv A n u k + mv A n v k := by
  unfold mv
  rw [← Finset.sum_add_distrib]
  exact Finset.sum_congr rfl fun j _ => by rw [Pi.add_apply]; ring

theorem normalVel_neg (c : Contact) (v : Vec) : normalVel c (fun k => -v k) = -normalVel c v := by
  simp only [normalVel, contactVel, pointVel, twist, inner, Prod.fst_sub, Prod.snd_sub]; ring

theorem normalVel_sub (c : Contact) (u v : Vec) :
    normalVel c (u - v) = normalVel c u - normalVel c v := by
  simp only [normalVel, contactVel, pointVel, twist, inner, Prod.fst_sub, Prod.snd_sub, Pi.sub_apply]
  ring

theorem momentumPower_neg' (bs : List Body) (u v : Vec) :
    momentumPower bs u (fun k => -v k) = -momentumPower bs u v := momentumPower_neg bs u v

theorem sum_Jc {σ : Type} (w : World σ φ) (hw : ContactsOk w) (z u : Vec) :
    ∑ k ∈ Finset.range (3 * w.bodies.length), u k * tmv w.Jc w.contacts.length z k =
      contactPower w.contacts z (fun _ => 0) u := by
  rw [adjoint]
  unfold contactPower
  refine Finset.sum_congr rfl fun i hi => ?_
  have hi := Finset.mem_range.1 hi
  rw [C33_normal_jacobian w hw u i hi, List.getElem?_eq_getElem hi]
  ring

/-- C62: with an exact solver, `post_stabilization` returns a displacement that cancels every
constraint velocity, satisfies `Jc dp ≥ -(1-e) Jc v`, and is produced by constraint impulses. -/
theorem C62_post_stab_law (lcp : LcpSolver) (w : World (Option Mat) φ) (dp : Vec) (hj : JointsOk w)
    (hc : ContactsOk w) (hcache : CacheOk w) (hx : Exact lcp) (h : pdipmPostStab lcp w = .ok dp) :
    ∃ l pn, PostStabLaw w.bodies w.joints w.contacts w.v dp l pn := by
  have hjoints : (∀ r < w.num_constraints, mv w.Je (3 * w.bodies.length) dp r =
      -mv w.Je (3 * w.bodies.length) w.v r) → ∀ x ∈ jointVels w.joints (dp + w.v), x = 0 := by
    intro he
    rw [← C32_equality_jacobian w hj]
    intro x hx
    obtain ⟨r, hr, rfl⟩ := List.mem_map.1 hx
    rw [mv_add, he r (List.mem_range.1 hr)]; ring
  unfold pdipmPostStab at h
  simp only at h
  by_cases hnc : w.contacts = []
  · rw [if_pos hnc] at h
    obtain ⟨inv, hi, hdp⟩ : ∃ inv, torchInverse (3 * w.bodies.length + w.num_constraints)
        (systemMatrix w.M w.Je (3 * w.bodies.length)) = .ok inv ∧
        dp = fun k => -mv inv (3 * w.bodies.length + w.num_constraints) (fun k =>
          if k < 3 * w.bodies.length then 0
          else mv w.Je (3 * w.bodies.length) w.v (k - 3 * w.bodies.length)) k := by
      cases he : w.eng with
      | some inv =>
        rw [he] at h
        injection h with h
        exact ⟨inv, hcache inv he, h.symm⟩
      | none =>
        rw [he] at h
        simp only at h
        cases hi : torchInverse (3 * w.bodies.length + w.num_constraints)
            (systemMatrix w.M w.Je (3 * w.bodies.length)) with
        | error x => rw [hi] at h; cases h
        | ok inv =>
          rw [hi] at h
          injection h with h
          exact ⟨inv, rfl, h.symm⟩
    set n := 3 * w.bodies.length with hn
    set x := mv inv (n + w.num_constraints) (fun k =>
      if k < n then 0 else mv w.Je n w.v (k - n)) with hxdef
    obtain ⟨m1, m2⟩ := systemMatrix_mv w.M w.Je n w.num_constraints x
    have e1 : ∀ k < n, mv w.M n x k = tmv w.Je w.num_constraints (fun r => x (n + r)) k := by
      intro k hk
      have := torchInverse_solves hi (fun k => if k < n then 0 else mv w.Je n w.v (k - n)) k (by omega)
      rw [← hxdef, m1 k hk] at this
      simp only [if_pos hk] at this
      linarith
    have e2 : ∀ r < w.num_constraints, mv w.Je n x r = mv w.Je n w.v r := by
      intro r hr
      have := torchInverse_solves hi (fun k => if k < n then 0 else mv w.Je n w.v (k - n)) (n + r)
        (by omega)
      rw [← hxdef, m2 r hr] at this
      rw [if_neg (by omega), Nat.add_sub_cancel_left] at this
      exact this
    refine ⟨fun r => -x (n + r), fun _ => 0, ?_, hjoints ?_, ?_, ?_⟩
    · intro u
      rw [hnc]
      have hz : contactPower [] (fun _ => (0 : ℝ)) (fun _ => 0) u = 0 := by simp [contactPower]
      rw [hz, add_zero, hdp, momentumPower_neg, ← sum_mv_M w, ← sum_Je w hj, ← hn,
        ← Finset.sum_neg_distrib]
      refine Finset.sum_congr rfl fun k hk => ?_
      rw [e1 k (Finset.mem_range.1 hk)]
      unfold tmv
      simp only [mul_neg, Finset.sum_neg_distrib]
    · intro r hr
      rw [hdp, mv_neg, e2 r hr]
    · intro i hi'; exact le_refl _
    · intro i hi'; rw [hnc] at hi'; simp at hi'
  · rw [if_neg hnc] at h
    split at h
    · cases h
    · rename_i x hs
      injection h with h
      obtain ⟨s, z, y, hm⟩ := hx _ _ _ _ _ _ _ _ _ _ _ _ hs
      refine ⟨y, z, ?_, hjoints ?_, ?_, ?_⟩
      · intro u
        rw [← h, momentumPower_neg, ← sum_mv_M w, ← sum_Je w hj, ← sum_Jc w hc,
          ← Finset.sum_neg_distrib, ← Finset.sum_add_distrib]
        refine Finset.sum_congr rfl fun k hk => ?_
        have := hm.stat k (Finset.mem_range.1 hk)
        have e : mv w.M (3 * w.bodies.length) x k =
          -(tmv w.Jc w.contacts.length z k + tmv w.Je w.num_constraints y k) := by linarith
        rw [e]; ring
      · intro r hr
        rw [← h, mv_neg, hm.eq r hr]
      · intro i hi; exact hm.z_nonneg i hi
      · intro i hi
        have e := hm.ineq i hi
        rw [C33_normal_jacobian w hc x i hi] at e
        have hF : mv (fun _ _ => (0 : ℝ)) w.contacts.length z i = 0 := by simp [mv]
        rw [hF] at e
        simp only [C33_normal_jacobian w hc w.v i hi] at e
        have hr : w.restitutions i = meanRestitution w.bodies w.contacts[i] := by
          unfold World.restitutions meanRestitution World.body
          rw [List.getElem?_eq_getElem hi]
        rw [hr] at e
        have hs' : s i = normalVel w.contacts[i] dp +
            (1 - meanRestitution w.bodies w.contacts[i]) * normalVel w.contacts[i] w.v := by
          rw [← h, normalVel_neg]; linarith
        refine ⟨hs' ▸ hm.s_nonneg i hi, ?_⟩
        rw [← hs', mul_comm]; exact hm.compl i hi

/-- C62: it is the displacement of least kinetic norm among all that cancel the constraint
velocities and satisfy the contact inequalities. -/
theorem C62_post_stab_minimal (bs : List Body) (js : List Joint) (cs : List Contact) (v dp l : Vec)
    (pn : ℕ → ℝ) (h : PostStabLaw bs js cs v dp l pn) (d : Vec)
    (hd : ∀ x ∈ jointVels js (d + v), x = 0)
    (hc : ∀ (i : ℕ) (hi : i < cs.length),
      0 ≤ normalVel cs[i] d + (1 - meanRestitution bs cs[i]) * normalVel cs[i] v) :
    momentumPower bs dp dp + momentumPower bs (d - dp) (d - dp) ≤ momentumPower bs d d := by
  have hjp : jointPower js l (d - dp) = 0 := by
    apply jointPower_zero
    intro x hx
    unfold jointVels at hx
    obtain ⟨j, hj, hx⟩ := List.mem_flatMap.1 hx
    have q1 : ∀ x ∈ jointVel j (d + v), x = 0 := fun x hx => hd x (List.mem_flatMap.2 ⟨j, hj, hx⟩)
    have q2 : ∀ x ∈ jointVel j (dp + v), x = 0 :=
      fun x hx => h.joints x (List.mem_flatMap.2 ⟨j, hj, hx⟩)
    obtain ⟨kind, i1, i2, pos, pos1, pos2, r1, rot1, rot2⟩ := j
    cases kind <;> cases i2 <;>
      simp [jointVel, twist, pointVel] at q1 q2 hx ⊢ <;>
      first
      | (rcases hx with rfl | rfl | rfl <;> linarith [q1.1, q1.2.1, q1.2.2, q2.1, q2.2.1, q2.2.2])
      | (rcases hx with rfl | rfl <;> linarith [q1.1, q1.2, q2.1, q2.2])
      | (rw [hx]; linarith)
  have hcp : 0 ≤ contactPower cs pn (fun _ => 0) (d - dp) := by
    unfold contactPower
    refine Finset.sum_nonneg fun i hi => ?_
    have hi := Finset.mem_range.1 hi
    rw [List.getElem?_eq_getElem hi]
    simp only
    obtain ⟨h1, h2⟩ := h.contacts i hi
    have h3 := hc i hi
    rw [normalVel_sub]
    nlinarith [mul_nonneg (h.nonneg i hi) h3]
  have hdyn := h.dynamics (d - dp)
  rw [hjp, zero_add] at hdyn
  rw [← hdyn] at hcp
  have e1 : momentumPower bs (d - dp) dp = momentumPower bs d dp - momentumPower bs dp dp := by
    rw [momentumPower_symm, momentumPower_sub, momentumPower_symm bs dp d]
  have e2 : momentumPower bs (d - dp) (d - dp) =
      momentumPower bs d d - 2 * momentumPower bs d dp + momentumPower bs dp dp := by
    rw [momentumPower_sub, momentumPower_symm bs (d - dp) d, momentumPower_symm bs (d - dp) dp,
      momentumPower_sub, momentumPower_sub, momentumPower_symm bs dp d]
    ring
  rw [e2]; linarith

/-- C62: without constraints and contacts the displacement is zero. -/
theorem C62_post_stab_free (bs : List Body) (v dp l : Vec) (pn : ℕ → ℝ)
    (hpos : ∀ i < bs.length, 0 < (bodyAt bs i).mass ∧ 0 < (bodyAt bs i).ang_inertia)
    (h : PostStabLaw bs [] [] v dp l pn) : ∀ k < 3 * bs.length, dp k = 0 := by
  apply momentumPower_pos_imp_zero bs hpos
  rw [h.dynamics dp]
  simp [jointPower, jointVels, contactPower]

/-- Example for `C62_post_stab_free`: two circles flying apart are left where they are, whatever the law yields. -/
example (v dp l : Vec) (pn : ℕ → ℝ)
    (h : PostStabLaw [mkCircle (.two (0, 0)) 1 {}, mkCircle (.two (5, 0)) 2 {}] [] [] v dp l pn) : dp 4 = 0 :=
  C62_post_stab_free _ v dp l pn (by
    intro i hi
    simp only [List.length_cons, List.length_nil] at hi
    interval_cases i <;> norm_num [bodyAt, mkCircle, circleInertia]) h 4 (by norm_num)

/-- And the law is met by the zero displacement. -/
example : PostStabLaw [mkCircle (.two (0, 0)) 1 {}, mkCircle (.two (5, 0)) 2 {}] [] [] (fun k => k) (fun _ => 0)
    (fun _ => 0) (fun _ => 0) :=
  ⟨fun u => by simp [momentumPower, jointPower, jointVels, contactPower, twist], by simp [jointVels], by simp, by simp⟩

end LcpPhysics
