import Verif.Model.Library
import Verif.Spec.ApproxLaw
import Verif.Props.PostStab
import Verif.Props.Solver

/-! # C70, C71, C72: the engine with the library's own LCP solver -/

noncomputable section

namespace LcpPhysics
open Spec
open scoped Matrix

variable {σ φ : Type}

/-- The residual `LCPFunction` returned with is non-negative. -/
theorem norm2_nonneg' {n : ℕ} (v : Fin n → ℝ) : 0 ≤ norm2 v := Real.sqrt_nonneg _

theorem resid_nonneg {nz nineq neq : ℕ} (P : Lcp nz nineq neq) (v : Iter nz nineq neq) : 0 ≤ P.resid v := by
  unfold Lcp.resid
  have h1 := norm2_nonneg' (P.ry v)
  have h2 := norm2_nonneg' (P.rz v)
  have h3 := norm2_nonneg' (P.rx v)
  have h4 : 0 ≤ v.mu := abs_nonneg _
  positivity

/-- C34/C70: solutions of the assembled LCP up to `ε` satisfy the contact law up to `ε`. -/
theorem C70_approx_sound (ε : ℝ) (w : World σ φ) (hj : JointsOk w) (hc : ContactsOk w) (Jf : Mat)
    (hJ : w.Jf 2 = .ok Jf) (f : ℕ → V3) (F : Vec)
    (hF : ∀ i < w.bodies.length,
      F (3 * i) = (f i).r ∧ F (3 * i + 1) = (f i).x ∧ F (3 * i + 2) = (f i).y)
    (p : Vec) (hp : ∀ k < 3 * w.bodies.length, p k = mv w.M (3 * w.bodies.length) w.v k + F k)
    (x s z y : Vec)
    (h : ApproxMlcp ε (3 * w.bodies.length) w.num_constraints
      (w.contacts.length + 2 * w.contacts.length + w.contacts.length) w.M p
      (assembleG w.Jc Jf w.contacts.length (2 * w.contacts.length))
      (assembleH (fun i => mv w.Jc (3 * w.bodies.length) w.v i * w.restitutions i)
        w.contacts.length) w.Je (fun _ => 0)
      (assembleF (w.E 2) w.mu w.contacts.length (2 * w.contacts.length)) x s z y) :
    ApproxLaw ε w.bodies w.joints w.contacts f w.v (fun k => -x k) y z
      (fun i => z (w.contacts.length + 2 * i)) (fun i => z (w.contacts.length + (2 * i + 1)))
      (fun i => z (3 * w.contacts.length + i)) := by
  have hsv : ∀ c v, slipVel c (fun k => -v k) = -slipVel c v := by
    intro c v
    simp only [slipVel, contactVel, pointVel, twist, inner, Prod.fst_sub, Prod.snd_sub]; ring
  constructor
  · intro u
    have := residual_power w hj hc Jf hJ f F hF p hp x z y u
    set q : ℕ → ℝ := fun k => mv w.M (3 * w.bodies.length) x k + p k +
        tmv (assembleG w.Jc Jf w.contacts.length (2 * w.contacts.length))
          (w.contacts.length + 2 * w.contacts.length + w.contacts.length) z k +
        tmv w.Je w.num_constraints y k with hq
    have hb : |∑ k ∈ Finset.range (3 * w.bodies.length), u k * q k| ≤
        ε * ∑ k ∈ Finset.range (3 * w.bodies.length), |u k| := by
      refine (Finset.abs_sum_le_sum_abs _ _).trans ?_
      rw [Finset.mul_sum]
      refine Finset.sum_le_sum fun k hk => ?_
      rw [abs_mul, mul_comm]
      exact mul_le_mul_of_nonneg_right (h.stat k (Finset.mem_range.1 hk)) (abs_nonneg _)
    rw [← abs_neg]
    refine (le_of_eq ?_).trans hb
    congr 1
    rw [this]; ring
  · rw [← C32_equality_jacobian w hj]
    intro r hr
    obtain ⟨k, hk, rfl⟩ := List.mem_map.1 hr
    have := h.eq k (List.mem_range.1 hk)
    rw [sub_zero] at this
    rw [mv_neg, abs_neg]; exact this
  · intro i hi
    exact ⟨h.z_nonneg _ (by omega), h.z_nonneg _ (by omega), h.z_nonneg _ (by omega),
      h.z_nonneg _ (by omega)⟩
  · intro i hi
    obtain ⟨g1, -⟩ := G_mv w hc Jf hJ x i hi
    have e := h.ineq i (by omega)
    rw [g1, H_entry w hc i hi, F_mv_normal w z i hi] at e
    refine ⟨s i, h.s_nonneg i (by omega), ?_, by rw [mul_comm]; exact h.compl i (by omega)⟩
    rw [normalVel_neg, ← abs_neg]
    refine (le_of_eq ?_).trans e
    congr 1; ring
  · intro i hi
    obtain ⟨-, g2, g3, -⟩ := G_mv w hc Jf hJ x i hi
    have e1 := h.ineq (w.contacts.length + 2 * i) (by omega)
    have e2 := h.ineq (w.contacts.length + (2 * i + 1)) (by omega)
    have f1 := F_mv_fric w z i 0 hi (Or.inl rfl)
    rw [add_zero] at f1
    rw [g2, f1, show assembleH _ _ _ = (0 : ℝ) from if_neg (by omega)] at e1
    rw [g3, F_mv_fric w z i 1 hi (Or.inr rfl), show assembleH _ _ _ = (0 : ℝ) from
      if_neg (by omega)] at e2
    refine ⟨⟨s (w.contacts.length + 2 * i), h.s_nonneg _ (by omega), ?_,
        by rw [mul_comm]; exact h.compl _ (by omega)⟩,
      ⟨s (w.contacts.length + (2 * i + 1)), h.s_nonneg _ (by omega), ?_,
        by rw [mul_comm]; exact h.compl _ (by omega)⟩⟩
    · rw [hsv, ← abs_neg]
      refine (le_of_eq ?_).trans e1
      congr 1; ring
    · rw [hsv, ← abs_neg]
      refine (le_of_eq ?_).trans e2
      congr 1; ring
  · intro i hi
    obtain ⟨-, -, -, g4⟩ := G_mv w hc Jf hJ x i hi
    have e := h.ineq (3 * w.contacts.length + i) (by omega)
    rw [g4, F_mv_cone w z i hi, show assembleH _ _ _ = (0 : ℝ) from if_neg (by omega)] at e
    refine ⟨s (3 * w.contacts.length + i), h.s_nonneg _ (by omega), ?_,
      by rw [mul_comm]; exact h.compl _ (by omega)⟩
    rw [← abs_neg]
    refine (le_of_eq ?_).trans e
    congr 1; ring

/-- With no error the approximate law is the contact law. -/
theorem C70_zero_iff (bs : List Body) (js : List Joint) (cs : List Contact) (f : ℕ → V3)
    (v v' l : Vec) (pn a b g : ℕ → ℝ) :
    ApproxLaw 0 bs js cs f v v' l pn a b g ↔ ContactLaw bs js cs f v v' l pn a b g := by
  have hnc : ∀ m gap : ℝ, 0 ≤ m → (NearCompl 0 m gap ↔ 0 ≤ gap ∧ m * gap = 0) := by
    intro m gap hm
    constructor
    · rintro ⟨s, hs, h1, h2⟩
      have : gap = s := by linarith [abs_nonpos_iff.1 h1]
      subst this
      exact ⟨hs, le_antisymm h2 (mul_nonneg hm hs)⟩
    · rintro ⟨h1, h2⟩
      exact ⟨gap, h1, by simp, h2.le⟩
  constructor
  · intro h
    refine ⟨fun u => ?_, fun r hr => abs_nonpos_iff.1 (h.joints r hr), h.nonneg, fun i hi => ?_, fun i hi => ?_,
      fun i hi => ?_⟩
    · have := h.dynamics u
      rw [zero_mul] at this
      linarith [abs_nonpos_iff.1 this]
    · exact (hnc _ _ (h.nonneg i hi).1).1 (h.restitution i hi)
    · obtain ⟨h1, h2⟩ := h.slip i hi
      have h1 := (hnc _ _ (h.nonneg i hi).2.1).1 h1
      have h2 := (hnc _ _ (h.nonneg i hi).2.2.1).1 h2
      exact ⟨h1.1, h1.2, h2.1, h2.2⟩
    · exact (hnc _ _ (h.nonneg i hi).2.2.2).1 (h.cone i hi)
  · intro h
    refine ⟨fun u => ?_, fun r hr => ?_, h.nonneg, fun i hi => ?_, fun i hi => ?_, fun i hi => ?_⟩
    · rw [h.dynamics u]; simp
    · rw [h.joints r hr]; simp
    · exact (hnc _ _ (h.nonneg i hi).1).2 (h.restitution i hi)
    · obtain ⟨h1, h2, h3, h4⟩ := h.slip i hi
      exact ⟨(hnc _ _ (h.nonneg i hi).2.1).2 ⟨h1, h2⟩, (hnc _ _ (h.nonneg i hi).2.2.1).2 ⟨h3, h4⟩⟩
    · exact (hnc _ _ (h.nonneg i hi).2.2.2).2 (h.cone i hi)

/-- The library solver returns the best iterate of its run. -/
theorem library_ok {f : Btrifact} {eps : ℝ} {lim mi nz neq nineq : ℕ} {Q : Mat} {p : Vec} {G : Mat} {h : Vec}
    {A : Mat} {b : Vec} {F : Mat} {x : Vec} (hx : libraryLcp f eps lim mi nz neq nineq Q p G h A b F = .ok x) :
    ∃ hn : nineq ≠ 0, haveI : NeZero nineq := ⟨hn⟩
      ∃ w : Best 1 nz nineq neq,
        lcpForward f eps lim mi (fun _ : Fin 1 => toLcp nz neq nineq Q p G h A b F) = .ret (some w) ∧
        libraryResid f eps lim mi nz neq nineq Q p G h A b F = w.resids 0 ∧
        x = fun k => if hk : k < nz then w.x 0 ⟨k, hk⟩ else 0 := by
  unfold libraryLcp at hx
  by_cases hn : nineq = 0
  · rw [dif_pos hn] at hx; cases hx
  · rw [dif_neg hn] at hx
    refine ⟨hn, ?_⟩
    have : NeZero nineq := ⟨hn⟩
    cases ho : lcpForward f eps lim mi (fun _ : Fin 1 => toLcp nz neq nineq Q p G h A b F) with
    | raised e => rw [ho] at hx; cases hx
    | ret o =>
      cases o with
      | none => rw [ho] at hx; cases hx
      | some w =>
        rw [ho] at hx
        injection hx with hx
        refine ⟨w, rfl, ?_, hx.symm⟩
        unfold libraryResid
        rw [dif_neg hn, ho]

theorem sum_ext {n : ℕ} (a : ℕ → ℝ) (x : Fin n → ℝ) :
    ∑ k ∈ Finset.range n, a k * (if hk : k < n then x ⟨k, hk⟩ else 0) = ∑ k : Fin n, a k * x k := by
  rw [Finset.sum_range]
  exact Finset.sum_congr rfl fun k _ => by rw [dif_pos k.isLt]

/-- C51/C70: whatever the library solver returns solves the mixed LCP up to its best residual. -/
theorem C70_library_certificate (f : Btrifact) (eps : ℝ) (lim mi nz neq nineq : ℕ) (Q : Mat) (p : Vec) (G : Mat)
    (h : Vec) (A : Mat) (b : Vec) (F : Mat) (x : Vec)
    (hx : libraryLcp f eps lim mi nz neq nineq Q p G h A b F = .ok x) :
    0 ≤ libraryResid f eps lim mi nz neq nineq Q p G h A b F ∧
    ∃ s z y, ApproxMlcp (libraryResid f eps lim mi nz neq nineq Q p G h A b F) nz neq nineq Q p G h A b F x s z y := by
  obtain ⟨hn, w, ho, hr, rfl⟩ := library_ok hx
  have : NeZero nineq := ⟨hn⟩
  rw [hr]
  unfold lcpForward at ho
  split at ho
  · cases ho
  · rename_i K hK
    obtain ⟨-, -, hcert⟩ := C51_returned_certificate _ _ _ _ ho 0
    refine ⟨?_, fun k => if hk : k < nineq then w.s 0 ⟨k, hk⟩ else 0,
      fun k => if hk : k < nineq then w.z 0 ⟨k, hk⟩ else 0,
      fun k => if hk : k < neq then w.y 0 ⟨k, hk⟩ else 0, ?_⟩
    · obtain ⟨_, _, n, _, its, Ss, _, hb⟩ := C50_best_iterate _ _ _ _ ho
      obtain ⟨⟨j, _, _, e⟩, _⟩ := hb 0
      rw [e]; exact resid_nonneg _ _
    · refine ⟨fun k hk => ?_, fun i hi => ?_, fun i hi => ?_, fun i hi => ?_, fun i hi => ?_, fun i hi => ?_⟩
      · have := hcert.stat ⟨k, hk⟩
        simp only [mv, tmv, sum_ext]
        simpa [toLcp] using this
      · have := hcert.ineq ⟨i, hi⟩
        simp only [mv, sum_ext, dif_pos hi]
        rw [← sub_sub]
        simpa [toLcp] using this
      · have := hcert.eq ⟨i, hi⟩
        simp only [mv, sum_ext]
        simpa [toLcp] using this
      · rw [dif_pos hi]; exact hcert.s_nonneg _
      · rw [dif_pos hi]; exact hcert.z_nonneg _
      · rw [dif_pos hi, dif_pos hi]; exact hcert.compl _

/-- C70: with the library's own solver, every velocity `solve_dynamics` returns satisfies the contact
law up to the best residual of the solver run (exactly when there are no contacts). -/
theorem C70_engine_law (f : Btrifact) (eps : ℝ) (lim : ℕ) (H : ForceHeap) (mi : ℕ)
    (w : World (Option Mat) φ) (dt : ℝ) (e : Option Mat) (v' : Vec) (hj : JointsOk w)
    (hc : ContactsOk w) (hcache : CacheOk w)
    (h : pdipmSolve 2 H (libraryLcp f eps lim) mi w dt = .ok (e, v')) :
    0 ≤ engineResid f eps lim H mi w dt ∧
    ∃ fl l pn a b g, forceCat H w.t w.bodies.length = .ok fl ∧
      ApproxLaw (engineResid f eps lim H mi w dt) w.bodies w.joints w.contacts (impulse fl dt) w.v v' l pn a b g := by
  by_cases hnc : w.contacts = []
  · obtain ⟨fl, l, hf, hl⟩ := C35_no_contact_solution 2 H _ mi w dt e v' hj hnc hcache h
    have h0 : engineResid f eps lim H mi w dt = 0 := by
      unfold engineResid
      simp only [hf]
      split
      · rw [if_pos hnc]
      · rfl
    rw [h0]
    refine ⟨le_rfl, fl, l, 0, 0, 0, 0, hf, ?_⟩
    rw [hnc, C70_zero_iff]
    exact hl
  · obtain ⟨fl, Jf, x, hf, hJ, hs, rfl, -⟩ := solve_contacts hnc h
    obtain ⟨h0, s, z, y, hm⟩ := C70_library_certificate _ _ _ _ _ _ _ _ _ _ _ _ _ _ _ hs
    unfold engineResid
    simp only [hf, hJ]
    rw [if_neg hnc]
    have hlen := (forceCat_length hf).1
    exact ⟨h0, fl, y, z, _, _, _, rfl, C70_approx_sound _ w hj hc Jf hJ (impulse fl dt)
      (fun k => dt * cat3 fl k) (fun i hi => impulse_entries fl dt i (by omega)) _
      (fun k hk => if_pos hk) x s z y hm⟩

/-- C70: the displacement of `post_stabilization` with the library's solver satisfies its law up to
the best residual. -/
theorem C70_post_stab_law (f : Btrifact) (eps : ℝ) (lim : ℕ) (w : World (Option Mat) φ) (dp : Vec)
    (hj : JointsOk w) (hc : ContactsOk w) (hcache : CacheOk w)
    (h : pdipmPostStab (libraryLcp f eps lim) w = .ok dp) :
    0 ≤ stabResid f eps lim w ∧
    ∃ l pn, ApproxPostStab (stabResid f eps lim w) w.bodies w.joints w.contacts w.v dp l pn := by
  by_cases hnc : w.contacts = []
  · have h' : pdipmPostStab (fun _ _ _ _ _ _ _ _ _ _ _ => .error (.raised "")) w = .ok dp := by
      rw [← h]
      unfold pdipmPostStab
      simp only [if_pos hnc]
    obtain ⟨l, pn, hl⟩ := C62_post_stab_law _ w dp hj hc hcache (fun _ _ _ _ _ _ _ _ _ _ _ _ h => by cases h) h'
    have h0 : stabResid f eps lim w = 0 := by
      unfold stabResid
      simp only
      rw [if_pos hnc]
    rw [h0]
    refine ⟨le_rfl, l, pn, fun u => ?_, fun x hx => ?_, hl.nonneg, fun i hi => ?_⟩
    · rw [hl.dynamics u]; simp
    · rw [hl.joints x hx]; simp
    · simp [hnc] at hi
  · unfold pdipmPostStab at h
    simp only at h
    rw [if_neg hnc] at h
    split at h
    · cases h
    · rename_i x hs
      injection h with h
      obtain ⟨h0, s, z, y, hm⟩ := C70_library_certificate _ _ _ _ _ _ _ _ _ _ _ _ _ _ _ hs
      unfold stabResid
      simp only
      rw [if_neg hnc]
      refine ⟨h0, y, z, fun u => ?_, ?_, fun i hi => hm.z_nonneg i hi, fun i hi => ?_⟩
      · rw [← h, momentumPower_neg, ← sum_mv_M w, ← sum_Je w hj, ← sum_Jc w hc, ← Finset.sum_neg_distrib,
          ← Finset.sum_add_distrib, ← Finset.sum_sub_distrib]
        refine (Finset.abs_sum_le_sum_abs _ _).trans ?_
        rw [Finset.mul_sum]
        refine Finset.sum_le_sum fun k hk => ?_
        have := hm.stat k (Finset.mem_range.1 hk)
        rw [show -(u k * mv w.M (3 * w.bodies.length) x k) - (u k * tmv w.Je w.num_constraints y k +
          u k * tmv w.Jc w.contacts.length z k) = -(mv w.M (3 * w.bodies.length) x k + 0 +
            tmv w.Jc w.contacts.length z k + tmv w.Je w.num_constraints y k) * u k by ring, abs_mul, abs_neg]
        exact mul_le_mul_of_nonneg_right this (abs_nonneg _)
      · rw [← C32_equality_jacobian w hj]
        intro x' hx'
        obtain ⟨r, hr, rfl⟩ := List.mem_map.1 hx'
        rw [mv_add, ← h, mv_neg, ← abs_neg]
        refine (le_of_eq ?_).trans (hm.eq r (List.mem_range.1 hr))
        congr 1; ring
      · have e := hm.ineq i hi
        rw [C33_normal_jacobian w hc x i hi] at e
        have hF : mv (fun _ _ => (0 : ℝ)) w.contacts.length z i = 0 := by simp [mv]
        rw [hF] at e
        simp only [C33_normal_jacobian w hc w.v i hi] at e
        have hr : w.restitutions i = meanRestitution w.bodies w.contacts[i] := by
          unfold World.restitutions meanRestitution World.body
          rw [List.getElem?_eq_getElem hi]
        rw [hr] at e
        refine ⟨s i, hm.s_nonneg i hi, ?_, by rw [mul_comm]; exact hm.compl i hi⟩
        rw [← h, normalVel_neg, ← abs_neg]
        refine (le_of_eq ?_).trans e
        congr 1; ring

/-! ## C71: when the library solver returns -/

/-- The quadratic form of the friction block `F`: only the products of cone and normal multipliers
remain. -/
theorem C71_friction_form (w : World σ φ) (z : Vec) :
    ∑ k ∈ Finset.range (w.contacts.length + 2 * w.contacts.length + w.contacts.length), z k *
      mv (assembleF (w.E 2) w.mu w.contacts.length (2 * w.contacts.length))
        (w.contacts.length + 2 * w.contacts.length + w.contacts.length) z k =
    ∑ i ∈ Finset.range w.contacts.length, match w.contacts[i]? with
      | none => 0
      | some c => meanFriction w.bodies c * z i * z (3 * w.contacts.length + i) := by
  rw [Finset.sum_range_add, Finset.sum_range_add, sum2, ← Finset.sum_add_distrib, ← Finset.sum_add_distrib]
  refine Finset.sum_congr rfl fun i hi => ?_
  have hi := Finset.mem_range.1 hi
  have f1 := F_mv_fric w z i 0 hi (Or.inl rfl)
  rw [add_zero] at f1
  rw [F_mv_normal w z i hi, f1, F_mv_fric w z i 1 hi (Or.inr rfl),
    show w.contacts.length + 2 * w.contacts.length + i = 3 * w.contacts.length + i by ring, F_mv_cone w z i hi,
    List.getElem?_eq_getElem hi]
  simp only
  ring

theorem dot_range {n : ℕ} (F : Mat) (w : Fin n → ℝ) (z : Vec) (hz : ∀ k : Fin n, z k = w k) :
    w ⬝ᵥ (Matrix.of (fun i j : Fin n => F i j) *ᵥ w) = ∑ k ∈ Finset.range n, z k * mv F n z k := by
  rw [Finset.sum_range]
  simp only [dotProduct, Matrix.mulVec, Matrix.of_apply, mv]
  refine Finset.sum_congr rfl fun k _ => ?_
  rw [Finset.sum_range, hz k]
  congr 1
  exact Finset.sum_congr rfl fun j _ => by rw [hz j]

/-- The library solver returns on problems with the world's mass matrix and constraint rows, and a
monotone `F`. -/
theorem library_returns (f : Btrifact) (hf : BtrifactOk f) (eps : ℝ) (lim mi : ℕ) (hm : mi ≠ 0)
    (w : World σ φ) (hj : JointsOk w) (hpos : ∀ b ∈ w.bodies, 0 < b.mass ∧ 0 < b.ang_inertia)
    (hind : Independent w) (nineq : ℕ) (hn : nineq ≠ 0) (p : Vec) (G : Mat) (h b : Vec) (F : Mat)
    (hF : ∀ z : Vec, 0 ≤ ∑ k ∈ Finset.range nineq, z k * mv F nineq z k) :
    ∃ x, libraryLcp f eps lim mi (3 * w.bodies.length) w.num_constraints nineq w.M p G h w.Je b F = .ok x := by
  have : NeZero nineq := ⟨hn⟩
  obtain ⟨best, hb⟩ := C55_monotone_returns f hf
    (fun _ : Fin 1 => toLcp (3 * w.bodies.length) w.num_constraints nineq w.M p G h w.Je b F)
    (fun _ => by
      ext i j
      exact C07_mass_matrix_symm w j i j.isLt i.isLt)
    (fun _ v hv => by
      show 0 < v ⬝ᵥ (Matrix.of (fun i j : Fin (3 * w.bodies.length) => w.M i j) *ᵥ v)
      rw [dot_range w.M v (fun k => if hk : k < _ then v ⟨k, hk⟩ else 0) (fun k => dif_pos k.isLt)]
      apply C07_mass_matrix_posdef w hpos
      obtain ⟨k, hk⟩ := Function.ne_iff.1 hv
      exact ⟨k, k.isLt, by rw [dif_pos k.isLt]; exact hk⟩)
    (fun _ l hl => by
      have h0 := hind (fun k => if hk : k < w.num_constraints then l ⟨k, hk⟩ else 0) (fun u => by
        rw [← sum_Je w hj]
        refine Finset.sum_eq_zero fun k hk => ?_
        have := congrFun hl ⟨k, Finset.mem_range.1 hk⟩
        unfold tmv
        rw [sum_ext (fun i => w.Je i k) l]
        simp only [toLcp, Matrix.mulVec, dotProduct, Matrix.transpose_apply, Matrix.of_apply, Pi.zero_apply] at this
        rw [this, mul_zero])
      funext r
      have := h0 r r.isLt
      rw [dif_pos r.isLt] at this
      exact this)
    (fun _ z => by
      show 0 ≤ z ⬝ᵥ (Matrix.of (fun i j : Fin nineq => F i j) *ᵥ z)
      rw [dot_range F z (fun k => if hk : k < _ then z ⟨k, hk⟩ else 0) (fun k => dif_pos k.isLt)]
      exact hF _)
    eps lim mi hm
  refine ⟨fun k => if hk : k < _ then best.x 0 ⟨k, hk⟩ else 0, ?_⟩
  unfold libraryLcp
  rw [dif_neg hn, hb]

/-- C71: without friction, with positive masses and independent constraints, `solve_dynamics` with the
library's solver does not raise. -/
theorem C71_frictionless_returns (f : Btrifact) (hf : BtrifactOk f) (eps : ℝ) (lim : ℕ) (H : ForceHeap) (mi : ℕ)
    (hm : mi ≠ 0) (w : World (Option Mat) φ) (dt : ℝ) (hj : JointsOk w)
    (hpos : ∀ b ∈ w.bodies, 0 < b.mass ∧ 0 < b.ang_inertia) (hind : Independent w)
    (hmu : ∀ c ∈ w.contacts, meanFriction w.bodies c = 0) (fl : List V3)
    (hfl : forceCat H w.t w.bodies.length = .ok fl) :
    ∃ r, pdipmSolve 2 H (libraryLcp f eps lim) mi w dt = .ok r := by
  by_cases hnc : w.contacts = []
  · exact C35_no_contact_succeeds 2 H _ mi w dt hj hpos hind hnc fl hfl
  · have hlen : w.contacts.length ≠ 0 := fun h => hnc (List.length_eq_zero_iff.1 h)
    unfold pdipmSolve
    simp only [hfl]
    rw [if_neg hnc, show w.Jf 2 = .ok (JfLoop w.contacts 0 fun _ _ => 0) from if_neg (by simp)]
    simp only
    obtain ⟨x, hx⟩ := library_returns f hf eps lim mi hm w hj hpos hind
      (w.contacts.length + 2 * w.contacts.length + w.contacts.length) (by omega)
      (fun k => if k < 3 * w.bodies.length then mv w.M (3 * w.bodies.length) w.v k + dt * cat3 fl k else 0)
      (assembleG w.Jc (JfLoop w.contacts 0 fun _ _ => 0) w.contacts.length (2 * w.contacts.length))
      (assembleH (fun i => mv w.Jc (3 * w.bodies.length) w.v i * w.restitutions i) w.contacts.length) (fun _ => 0)
      (assembleF (w.E 2) w.mu w.contacts.length (2 * w.contacts.length)) (fun z => by
        rw [C71_friction_form]
        refine Finset.sum_nonneg fun i hi => ?_
        have hi := Finset.mem_range.1 hi
        rw [List.getElem?_eq_getElem hi]
        simp only
        rw [hmu _ (List.getElem_mem hi)]; simp)
    rw [hx]
    exact ⟨_, rfl⟩

/-- C71: `post_stabilization` with the library's solver does not raise, with or without friction. -/
theorem C71_post_stab_returns (f : Btrifact) (hf : BtrifactOk f) (eps : ℝ) (lim : ℕ)
    (w : World (Option Mat) φ) (hj : JointsOk w)
    (hpos : ∀ b ∈ w.bodies, 0 < b.mass ∧ 0 < b.ang_inertia) (hind : Independent w) :
    ∃ dp, pdipmPostStab (libraryLcp f eps lim) w = .ok dp := by
  unfold pdipmPostStab
  simp only
  by_cases hnc : w.contacts = []
  · rw [if_pos hnc]
    cases w.eng with
    | some inv => exact ⟨_, rfl⟩
    | none =>
      obtain ⟨inv, hi⟩ := system_invertible w hj hpos hind
      simp only [hi]
      exact ⟨_, rfl⟩
  · have hlen : w.contacts.length ≠ 0 := fun h => hnc (List.length_eq_zero_iff.1 h)
    rw [if_neg hnc]
    obtain ⟨x, hx⟩ := library_returns f hf eps lim 10 (by norm_num) w hj hpos hind w.contacts.length hlen
      (fun _ => 0) w.Jc (fun i => mv w.Jc (3 * w.bodies.length) w.v i +
        mv w.Jc (3 * w.bodies.length) w.v i * -w.restitutions i) (mv w.Je (3 * w.bodies.length) w.v) (fun _ _ => 0)
      (fun z => by simp [mv])
    rw [hx]
    exact ⟨_, rfl⟩

end LcpPhysics
