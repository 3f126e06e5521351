import Verif.Props.Assembly
import Mathlib.Algebra.BigOperators.Ring.Finset
import Mathlib.Tactic.LinearCombination

/-! # Lemmas about the assembled LCP -/

noncomputable section

namespace LcpPhysics
open Spec

variable {σ φ : Type}

theorem sum2 (f : ℕ → ℝ) (n : ℕ) :
    ∑ k ∈ Finset.range (2 * n), f k = ∑ i ∈ Finset.range n, (f (2 * i) + f (2 * i + 1)) := by
  induction n with
  | zero => simp
  | succ n ih =>
    rw [Finset.sum_range_succ, ← ih, show 2 * (n + 1) = 2 * n + 1 + 1 by ring,
      Finset.sum_range_succ, Finset.sum_range_succ]
    ring

/-- Transposition moves a matrix across the pairing. -/
theorem adjoint (A : Mat) (n m : ℕ) (u z : Vec) :
    ∑ k ∈ Finset.range n, u k * tmv A m z k = ∑ i ∈ Finset.range m, z i * mv A n u i := by
  unfold tmv mv
  simp_rw [Finset.mul_sum]
  rw [Finset.sum_comm]
  exact Finset.sum_congr rfl fun i _ => Finset.sum_congr rfl fun k _ => by ring

theorem mv_neg (A : Mat) (n : ℕ) (v : Vec) (k : ℕ) : mv A n (fun j => -v j) k = -mv A n v k := by
  unfold mv
  simp [Finset.sum_neg_distrib]

theorem mv_congr (A : Mat) (n : ℕ) (v v' : Vec) (h : ∀ k < n, v k = v' k) (r : ℕ) :
    mv A n v r = mv A n v' r :=
  Finset.sum_congr rfl fun k hk => by rw [h k (Finset.mem_range.1 hk)]

theorem mv_zero_row (A : Mat) (n : ℕ) (v : Vec) (r : ℕ) (h : ∀ k < n, A r k = 0) :
    mv A n v r = 0 :=
  Finset.sum_eq_zero fun k hk => by rw [h k (Finset.mem_range.1 hk), zero_mul]

/-- Entries of `F`. -/
theorem assembleF_entry (E mu : Mat) (nc nf r c : ℕ) (hr : r < nc + nf + nc)
    (hc : c < nc + nf + nc) :
    assembleF E mu nc nf r c =
      if r < nc then 0
      else if r < nc + nf then (if c < nc + nf then 0 else E (r - nc) (c - (nc + nf)))
      else if c < nc then mu (r - (nc + nf)) c
      else if c < nc + nf then -E (c - nc) (r - (nc + nf)) else 0 := by
  have h1 : nc + nf + nc - nc = nc + nf := by omega
  have h2 : nc + nf + nc - nc - nc = nf := by omega
  unfold assembleF setBlock
  simp only [h1, h2]
  split_ifs <;> first | rfl | omega

section
variable (w : World σ φ)

/-- `F z`, rows of the normal block. -/
theorem F_mv_normal (z : Vec) (i : ℕ) (hi : i < w.contacts.length) :
    mv (assembleF (w.E 2) w.mu w.contacts.length (2 * w.contacts.length))
      (w.contacts.length + 2 * w.contacts.length + w.contacts.length) z i = 0 := by
  apply mv_zero_row
  intro k hk
  rw [assembleF_entry _ _ _ _ _ _ (by omega) hk, if_pos hi]

/-- `F z`, rows of the friction block. -/
theorem F_mv_fric (z : Vec) (i a : ℕ) (hi : i < w.contacts.length) (ha : a = 0 ∨ a = 1) :
    mv (assembleF (w.E 2) w.mu w.contacts.length (2 * w.contacts.length))
      (w.contacts.length + 2 * w.contacts.length + w.contacts.length) z
      (w.contacts.length + (2 * i + a)) = z (3 * w.contacts.length + i) := by
  set nc := w.contacts.length with hnc
  unfold mv
  rw [Finset.sum_range_add, Finset.sum_eq_zero, zero_add, Finset.sum_eq_single i]
  · rw [assembleF_entry _ _ _ _ _ _ (by omega) (by omega), if_neg (by omega), if_pos (by omega),
      if_neg (by omega)]
    unfold World.E
    rw [ELoop_entry, if_pos (by omega), one_mul]
    congr 1; omega
  · intro c hc hci
    have := Finset.mem_range.1 hc
    rw [assembleF_entry _ _ _ _ _ _ (by omega) (by omega), if_neg (by omega), if_pos (by omega),
      if_neg (by omega)]
    unfold World.E
    rw [ELoop_entry, if_neg (by omega), zero_mul]
  · intro h; simp [hi] at h
  · intro c hc
    have := Finset.mem_range.1 hc
    rw [assembleF_entry _ _ _ _ _ _ (by omega) (by omega), if_neg (by omega), if_pos (by omega),
      if_pos (by omega), zero_mul]

/-- `F z`, rows of the cone block. -/
theorem F_mv_cone (z : Vec) (i : ℕ) (hi : i < w.contacts.length) :
    mv (assembleF (w.E 2) w.mu w.contacts.length (2 * w.contacts.length))
      (w.contacts.length + 2 * w.contacts.length + w.contacts.length) z
      (3 * w.contacts.length + i) =
      meanFriction w.bodies w.contacts[i] * z i -
        (z (w.contacts.length + 2 * i) + z (w.contacts.length + (2 * i + 1))) := by
  have hmu : ∀ c, w.mu i c = if i = c then meanFriction w.bodies w.contacts[i] else 0 := by
    intro c
    unfold World.mu meanFriction World.body
    rw [List.getElem?_eq_getElem hi]
    simp only
    split_ifs <;> ring
  set nc := w.contacts.length with hnc
  set f := meanFriction w.bodies w.contacts[i] with hf
  unfold mv
  rw [Finset.sum_range_add, Finset.sum_range_add]
  have h3 : ∑ k ∈ Finset.range nc, assembleF (w.E 2) w.mu nc (2 * nc) (3 * nc + i) (nc + 2 * nc + k)
      * z (nc + 2 * nc + k) = 0 := by
    apply Finset.sum_eq_zero
    intro c hc
    have := Finset.mem_range.1 hc
    rw [assembleF_entry _ _ _ _ _ _ (by omega) (by omega), if_neg (by omega), if_neg (by omega),
      if_neg (by omega), if_neg (by omega), zero_mul]
  have h1 : ∑ k ∈ Finset.range nc, assembleF (w.E 2) w.mu nc (2 * nc) (3 * nc + i) k * z k =
      f * z i := by
    rw [Finset.sum_eq_single i]
    · rw [assembleF_entry _ _ _ _ _ _ (by omega) (by omega), if_neg (by omega), if_neg (by omega),
        if_pos (by omega), show 3 * nc + i - (nc + 2 * nc) = i by omega, hmu, if_pos rfl]
    · intro c hc hci
      have := Finset.mem_range.1 hc
      rw [assembleF_entry _ _ _ _ _ _ (by omega) (by omega), if_neg (by omega), if_neg (by omega),
        if_pos (by omega), show 3 * nc + i - (nc + 2 * nc) = i by omega, hmu,
        if_neg (fun h => hci h.symm), zero_mul]
    · intro h; simp [hi] at h
  have h2 : ∑ k ∈ Finset.range (2 * nc), assembleF (w.E 2) w.mu nc (2 * nc) (3 * nc + i) (nc + k)
      * z (nc + k) = -(z (nc + 2 * i) + z (nc + (2 * i + 1))) := by
    have he : ∀ k < 2 * nc, assembleF (w.E 2) w.mu nc (2 * nc) (3 * nc + i) (nc + k) =
        if k = 2 * i ∨ k = 2 * i + 1 then -1 else 0 := by
      intro k hk
      rw [assembleF_entry _ _ _ _ _ _ (by omega) (by omega), if_neg (by omega), if_neg (by omega),
        if_neg (by omega), if_pos (by omega), show 3 * nc + i - (nc + 2 * nc) = i by omega,
        Nat.add_sub_cancel_left]
      unfold World.E
      rw [ELoop_entry]
      split_ifs <;> first | rfl | omega | simp
    rw [sum2, Finset.sum_eq_single i]
    · rw [he _ (by omega), he _ (by omega), if_pos (by omega), if_pos (by omega)]; ring
    · intro c hc hci
      have := Finset.mem_range.1 hc
      rw [he _ (by omega), he _ (by omega), if_neg (by omega), if_neg (by omega)]; ring
    · intro h; simp [hi] at h
  rw [h1, h2, h3]
  ring

/-- `G x` by blocks. -/
theorem G_mv (hw : ContactsOk w) (Jf : Mat) (hJ : w.Jf 2 = .ok Jf) (v : Vec) (i : ℕ)
    (hi : i < w.contacts.length) :
    let nc := w.contacts.length
    let G := assembleG w.Jc Jf nc (2 * nc)
    let n := 3 * w.bodies.length
    mv G n v i = normalVel w.contacts[i] v ∧
    mv G n v (nc + 2 * i) = slipVel w.contacts[i] v ∧
    mv G n v (nc + (2 * i + 1)) = -slipVel w.contacts[i] v ∧
    mv G n v (3 * nc + i) = 0 := by
  intro nc G n
  obtain ⟨hf1, hf2⟩ := C33_friction_jacobian w hw Jf hJ v i hi
  refine ⟨?_, ?_, ?_, ?_⟩
  · rw [← C33_normal_jacobian w hw v i hi]
    apply mv_congr_row
    funext k
    exact if_pos hi
  · rw [← hf1]
    unfold mv
    refine Finset.sum_congr rfl fun k _ => ?_
    congr 1
    show assembleG _ _ _ _ _ _ = _
    unfold assembleG
    rw [if_neg (by omega), if_pos (by omega), Nat.add_sub_cancel_left]
  · rw [← hf2]
    unfold mv
    refine Finset.sum_congr rfl fun k _ => ?_
    congr 1
    show assembleG _ _ _ _ _ _ = _
    unfold assembleG
    rw [if_neg (by omega), if_pos (by omega), Nat.add_sub_cancel_left]
  · apply mv_zero_row
    intro k _
    show assembleG _ _ _ _ _ _ = _
    unfold assembleG
    rw [if_neg (by omega), if_neg (by omega)]

theorem H_entry (hw : ContactsOk w) (i : ℕ) (hi : i < w.contacts.length) :
    assembleH (fun i => mv w.Jc (3 * w.bodies.length) w.v i * w.restitutions i) w.contacts.length i =
      meanRestitution w.bodies w.contacts[i] * normalVel w.contacts[i] w.v := by
  unfold assembleH
  rw [if_pos hi]
  beta_reduce
  rw [C33_normal_jacobian w hw _ i hi]
  unfold World.restitutions meanRestitution World.body
  rw [List.getElem?_eq_getElem hi]
  ring

end

theorem momentumPower_neg (bs : List Body) (u v : Vec) :
    momentumPower bs u (fun k => -v k) = -momentumPower bs u v := by
  unfold momentumPower
  rw [← Finset.sum_neg_distrib]
  refine Finset.sum_congr rfl fun i _ => ?_
  simp only [twist]; ring

/-- `torch.cat` entries. -/
theorem cat3_entry : ∀ (l : List V3) (i : ℕ) (h : i < l.length),
    cat3 l (3 * i) = l[i].r ∧ cat3 l (3 * i + 1) = l[i].x ∧ cat3 l (3 * i + 2) = l[i].y
  | [], i, h => by simp at h
  | a :: l, 0, _ => by simp [cat3]
  | a :: l, i + 1, h => by
    have := cat3_entry l i (by simpa using h)
    rw [show 3 * (i + 1) = 3 * i + 3 by ring]
    simpa [cat3, add_assoc, add_comm, add_left_comm] using this

/-- The right-hand side vector of the dynamics. -/
theorem sum_force (n : ℕ) (f : ℕ → V3) (F u : Vec)
    (hF : ∀ i < n, F (3 * i) = (f i).r ∧ F (3 * i + 1) = (f i).x ∧ F (3 * i + 2) = (f i).y) :
    ∑ k ∈ Finset.range (3 * n), u k * F k = forcePower n f u := by
  rw [sum3]
  unfold forcePower
  refine Finset.sum_congr rfl fun i hi => ?_
  obtain ⟨h1, h2, h3⟩ := hF i (Finset.mem_range.1 hi)
  rw [h1, h2, h3]
  simp only [twist]; ring

theorem sum_Je (w : World σ φ) (hj : JointsOk w) (l u : Vec) :
    ∑ k ∈ Finset.range (3 * w.bodies.length), u k * tmv w.Je w.num_constraints l k =
      jointPower w.joints l u := by
  rw [adjoint]
  unfold jointPower
  rw [← C32_row_count w u]
  refine Finset.sum_congr rfl fun r hr => ?_
  rw [Je_getD w hj u r (Finset.mem_range.1 hr)]

theorem sum_G (w : World σ φ) (hw : ContactsOk w) (Jf : Mat) (hJ : w.Jf 2 = .ok Jf) (z u : Vec) :
    ∑ k ∈ Finset.range (3 * w.bodies.length), u k *
      tmv (assembleG w.Jc Jf w.contacts.length (2 * w.contacts.length))
        (w.contacts.length + 2 * w.contacts.length + w.contacts.length) z k =
      contactPower w.contacts z
        (fun i => z (w.contacts.length + 2 * i) - z (w.contacts.length + (2 * i + 1))) u := by
  rw [adjoint, Finset.sum_range_add, Finset.sum_range_add, sum2]
  unfold contactPower
  rw [← Finset.sum_add_distrib, ← Finset.sum_add_distrib]
  refine Finset.sum_congr rfl fun i hi => ?_
  have hi := Finset.mem_range.1 hi
  obtain ⟨h1, h2, h3, h4⟩ := G_mv w hw Jf hJ u i hi
  rw [h1, h2, h3, show w.contacts.length + 2 * w.contacts.length + i =
    3 * w.contacts.length + i by ring, h4, List.getElem?_eq_getElem hi]
  ring

/-- Paired with any virtual velocity, the stationarity residual is the defect of the dynamics. -/
theorem residual_power (w : World σ φ) (hj : JointsOk w) (hc : ContactsOk w) (Jf : Mat)
    (hJ : w.Jf 2 = .ok Jf) (f : ℕ → V3) (F : Vec)
    (hF : ∀ i < w.bodies.length,
      F (3 * i) = (f i).r ∧ F (3 * i + 1) = (f i).x ∧ F (3 * i + 2) = (f i).y)
    (p : Vec) (hp : ∀ k < 3 * w.bodies.length, p k = mv w.M (3 * w.bodies.length) w.v k + F k)
    (x z y u : Vec) :
    ∑ k ∈ Finset.range (3 * w.bodies.length), u k *
      (mv w.M (3 * w.bodies.length) x k + p k +
        tmv (assembleG w.Jc Jf w.contacts.length (2 * w.contacts.length))
          (w.contacts.length + 2 * w.contacts.length + w.contacts.length) z k +
        tmv w.Je w.num_constraints y k) =
      -momentumPower w.bodies u (fun k => -x k) + momentumPower w.bodies u w.v +
        forcePower w.bodies.length f u + jointPower w.joints y u +
        contactPower w.contacts z
          (fun i => z (w.contacts.length + 2 * i) - z (w.contacts.length + (2 * i + 1))) u := by
  rw [← sum_G w hc Jf hJ, ← sum_Je w hj, ← sum_force _ f F u hF, ← sum_mv_M, ← sum_mv_M,
    ← Finset.sum_neg_distrib, ← Finset.sum_add_distrib, ← Finset.sum_add_distrib,
    ← Finset.sum_add_distrib, ← Finset.sum_add_distrib]
  refine Finset.sum_congr rfl fun k hk => ?_
  rw [hp k (Finset.mem_range.1 hk), mv_neg]
  ring

end LcpPhysics
