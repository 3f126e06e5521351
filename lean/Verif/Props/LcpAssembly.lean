import Verif.Lemmas.Engine

/-! # C34: the assembled LCP is the contact law -/

noncomputable section

namespace LcpPhysics
open Spec

variable {σ φ : Type}

/-- The multipliers of the LCP, packed as the engine stacks them. -/
def packZ (nc : ℕ) (pn a b g : ℕ → ℝ) : Vec := fun k =>
  if k < nc then pn k
  else if k < 3 * nc then (if (k - nc) % 2 = 0 then a ((k - nc) / 2) else b ((k - nc) / 2))
  else g (k - 3 * nc)

/-- C34: every solution of the LCP assembled by the engine satisfies the contact law, with
`v' = -x`; the multipliers are the impulses. -/
theorem C34_lcp_sound (w : World σ φ) (hj : JointsOk w) (hc : ContactsOk w) (Jf : Mat)
    (hJ : w.Jf 2 = .ok Jf) (f : ℕ → V3) (F : Vec)
    (hF : ∀ i < w.bodies.length,
      F (3 * i) = (f i).r ∧ F (3 * i + 1) = (f i).x ∧ F (3 * i + 2) = (f i).y)
    (p : Vec) (hp : ∀ k < 3 * w.bodies.length, p k = mv w.M (3 * w.bodies.length) w.v k + F k)
    (x s z y : Vec)
    (h : IsMlcp (3 * w.bodies.length) w.num_constraints
      (w.contacts.length + 2 * w.contacts.length + w.contacts.length) w.M p
      (assembleG w.Jc Jf w.contacts.length (2 * w.contacts.length))
      (assembleH (fun i => mv w.Jc (3 * w.bodies.length) w.v i * w.restitutions i)
        w.contacts.length) w.Je (fun _ => 0)
      (assembleF (w.E 2) w.mu w.contacts.length (2 * w.contacts.length)) x s z y) :
    ContactLaw w.bodies w.joints w.contacts f w.v (fun k => -x k) y z
      (fun i => z (w.contacts.length + 2 * i)) (fun i => z (w.contacts.length + (2 * i + 1)))
      (fun i => z (3 * w.contacts.length + i)) := by
  have hnv : ∀ c v, normalVel c (fun k => -v k) = -normalVel c v := by
    intro c v
    simp only [normalVel, contactVel, pointVel, twist, inner, Prod.fst_sub, Prod.snd_sub]; ring
  have hsv : ∀ c v, slipVel c (fun k => -v k) = -slipVel c v := by
    intro c v
    simp only [slipVel, contactVel, pointVel, twist, inner, Prod.fst_sub, Prod.snd_sub]; ring
  constructor
  · intro u
    have := residual_power w hj hc Jf hJ f F hF p hp x z y u
    rw [Finset.sum_eq_zero] at this
    · linarith
    · intro k hk
      rw [h.stat k (Finset.mem_range.1 hk), mul_zero]
  · rw [← C32_equality_jacobian w hj]
    intro r hr
    obtain ⟨k, hk, rfl⟩ := List.mem_map.1 hr
    rw [mv_neg, h.eq k (List.mem_range.1 hk), neg_zero]
  · intro i hi
    exact ⟨h.z_nonneg _ (by omega), h.z_nonneg _ (by omega), h.z_nonneg _ (by omega),
      h.z_nonneg _ (by omega)⟩
  · intro i hi
    obtain ⟨g1, -⟩ := G_mv w hc Jf hJ x i hi
    have e := h.ineq i (by omega)
    rw [g1, H_entry w hc i hi, F_mv_normal w z i hi] at e
    have hs : s i = normalVel w.contacts[i] (fun k => -x k) +
        meanRestitution w.bodies w.contacts[i] * normalVel w.contacts[i] w.v := by
      rw [hnv]; linarith
    refine ⟨hs ▸ h.s_nonneg i (by omega), ?_⟩
    rw [← hs, mul_comm]; exact h.compl i (by omega)
  · intro i hi
    obtain ⟨-, g2, g3, -⟩ := G_mv w hc Jf hJ x i hi
    have e1 := h.ineq (w.contacts.length + 2 * i) (by omega)
    have e2 := h.ineq (w.contacts.length + (2 * i + 1)) (by omega)
    have f1 := F_mv_fric w z i 0 hi (Or.inl rfl)
    rw [add_zero] at f1
    rw [g2, f1, show assembleH _ _ _ = (0 : ℝ) from if_neg (by omega)] at e1
    rw [g3, F_mv_fric w z i 1 hi (Or.inr rfl), show assembleH _ _ _ = (0 : ℝ) from
      if_neg (by omega)] at e2
    have s1 := h.s_nonneg (w.contacts.length + 2 * i) (by omega)
    have s2 := h.s_nonneg (w.contacts.length + (2 * i + 1)) (by omega)
    have c1 := h.compl (w.contacts.length + 2 * i) (by omega)
    have c2 := h.compl (w.contacts.length + (2 * i + 1)) (by omega)
    have hs1 : s (w.contacts.length + 2 * i) = z (3 * w.contacts.length + i) +
      slipVel w.contacts[i] (fun k => -x k) := by rw [hsv]; linarith
    have hs2 : s (w.contacts.length + (2 * i + 1)) = z (3 * w.contacts.length + i) -
      slipVel w.contacts[i] (fun k => -x k) := by rw [hsv]; linarith
    rw [hs1] at s1 c1
    rw [hs2] at s2 c2
    exact ⟨s1, by rw [mul_comm]; exact c1, s2, by rw [mul_comm]; exact c2⟩
  · intro i hi
    obtain ⟨-, -, -, g4⟩ := G_mv w hc Jf hJ x i hi
    have e := h.ineq (3 * w.contacts.length + i) (by omega)
    rw [g4, F_mv_cone w z i hi, show assembleH _ _ _ = (0 : ℝ) from if_neg (by omega)] at e
    have s1 := h.s_nonneg (3 * w.contacts.length + i) (by omega)
    have c1 := h.compl (3 * w.contacts.length + i) (by omega)
    have hs : s (3 * w.contacts.length + i) = meanFriction w.bodies w.contacts[i] * z i -
        (z (w.contacts.length + 2 * i) + z (w.contacts.length + (2 * i + 1))) := by linarith
    rw [hs] at s1 c1
    exact ⟨s1, by rw [mul_comm]; exact c1⟩

/-- C34: conversely, every motion and impulses satisfying the contact law solve the assembled LCP. -/
theorem C34_lcp_complete (w : World σ φ) (hj : JointsOk w) (hc : ContactsOk w) (Jf : Mat)
    (hJ : w.Jf 2 = .ok Jf) (f : ℕ → V3) (F : Vec)
    (hF : ∀ i < w.bodies.length,
      F (3 * i) = (f i).r ∧ F (3 * i + 1) = (f i).x ∧ F (3 * i + 2) = (f i).y)
    (p : Vec) (hp : ∀ k < 3 * w.bodies.length, p k = mv w.M (3 * w.bodies.length) w.v k + F k)
    (v' l : Vec) (pn a b g : ℕ → ℝ)
    (h : ContactLaw w.bodies w.joints w.contacts f w.v v' l pn a b g) :
    ∃ s, IsMlcp (3 * w.bodies.length) w.num_constraints
      (w.contacts.length + 2 * w.contacts.length + w.contacts.length) w.M p
      (assembleG w.Jc Jf w.contacts.length (2 * w.contacts.length))
      (assembleH (fun i => mv w.Jc (3 * w.bodies.length) w.v i * w.restitutions i)
        w.contacts.length) w.Je (fun _ => 0)
      (assembleF (w.E 2) w.mu w.contacts.length (2 * w.contacts.length))
      (fun k => -v' k) s (packZ w.contacts.length pn a b g) l := by
  have hnv : ∀ c v, normalVel c (fun k => -v k) = -normalVel c v := by
    intro c v
    simp only [normalVel, contactVel, pointVel, twist, inner, Prod.fst_sub, Prod.snd_sub]; ring
  have hsv : ∀ c v, slipVel c (fun k => -v k) = -slipVel c v := by
    intro c v
    simp only [slipVel, contactVel, pointVel, twist, inner, Prod.fst_sub, Prod.snd_sub]; ring
  set nc := w.contacts.length with hnc
  set z := packZ nc pn a b g with hz
  have z1 : ∀ i < nc, z i = pn i := fun i hi => if_pos hi
  have z2 : ∀ i < nc, z (nc + 2 * i) = a i := by
    intro i hi
    rw [hz]; unfold packZ
    rw [if_neg (by omega), if_pos (by omega), if_pos (by omega)]
    congr 1; omega
  have z3 : ∀ i < nc, z (nc + (2 * i + 1)) = b i := by
    intro i hi
    rw [hz]; unfold packZ
    rw [if_neg (by omega), if_pos (by omega), if_neg (by omega)]
    congr 1; omega
  have z4 : ∀ i < nc, z (3 * nc + i) = g i := by
    intro i hi
    rw [hz]; unfold packZ
    rw [if_neg (by omega), if_neg (by omega)]
    congr 1; omega
  have idx : ∀ k < nc + 2 * nc + nc, (∃ i < nc, k = i) ∨ (∃ i < nc, k = nc + 2 * i) ∨
      (∃ i < nc, k = nc + (2 * i + 1)) ∨ ∃ i < nc, k = 3 * nc + i := by
    intro k hk
    by_cases h1 : k < nc
    · exact Or.inl ⟨k, h1, rfl⟩
    · by_cases h2 : k < 3 * nc
      · rcases Nat.even_or_odd (k - nc) with ⟨i, hi⟩ | ⟨i, hi⟩
        · exact Or.inr (Or.inl ⟨i, by omega, by omega⟩)
        · exact Or.inr (Or.inr (Or.inl ⟨i, by omega, by omega⟩))
      · exact Or.inr (Or.inr (Or.inr ⟨k - 3 * nc, by omega, by omega⟩))
  set G := assembleG w.Jc Jf nc (2 * nc) with hG
  set Fm := assembleF (w.E 2) w.mu nc (2 * nc) with hFm
  set hv := assembleH (fun i => mv w.Jc (3 * w.bodies.length) w.v i * w.restitutions i) nc with hhv
  let s : Vec := fun i => hv i + mv Fm (nc + 2 * nc + nc) z i -
    mv G (3 * w.bodies.length) (fun k => -v' k) i
  have s1 : ∀ i (hi : i < nc), s i = normalVel w.contacts[i] v' +
      meanRestitution w.bodies w.contacts[i] * normalVel w.contacts[i] w.v := by
    intro i hi
    obtain ⟨g1, -⟩ := G_mv w hc Jf hJ (fun k => -v' k) i hi
    show hv i + _ - mv G _ _ i = _
    rw [hhv, H_entry w hc i hi, F_mv_normal w z i hi, g1, hnv]; ring
  have s2 : ∀ i (hi : i < nc), s (nc + 2 * i) = g i + slipVel w.contacts[i] v' := by
    intro i hi
    obtain ⟨-, g2, -⟩ := G_mv w hc Jf hJ (fun k => -v' k) i hi
    have f1 := F_mv_fric w z i 0 hi (Or.inl rfl)
    rw [add_zero] at f1
    show hv _ + _ - mv G _ _ _ = _
    rw [f1, g2, show hv _ = (0 : ℝ) from if_neg (by omega), hsv, z4 i hi]; ring
  have s3 : ∀ i (hi : i < nc), s (nc + (2 * i + 1)) = g i - slipVel w.contacts[i] v' := by
    intro i hi
    obtain ⟨-, -, g3, -⟩ := G_mv w hc Jf hJ (fun k => -v' k) i hi
    show hv _ + _ - mv G _ _ _ = _
    rw [F_mv_fric w z i 1 hi (Or.inr rfl), g3, show hv _ = (0 : ℝ) from if_neg (by omega), hsv,
      z4 i hi]; ring
  have s4 : ∀ i (hi : i < nc), s (3 * nc + i) =
      meanFriction w.bodies w.contacts[i] * pn i - (a i + b i) := by
    intro i hi
    obtain ⟨-, -, -, g4⟩ := G_mv w hc Jf hJ (fun k => -v' k) i hi
    show hv _ + _ - mv G _ _ _ = _
    rw [F_mv_cone w z i hi, g4, show hv _ = (0 : ℝ) from if_neg (by omega), z1 i hi, z2 i hi,
      z3 i hi]; ring
  refine ⟨s, ?_, ?_, ?_, ?_, ?_, ?_⟩
  · intro k hk
    have := residual_power w hj hc Jf hJ f F hF p hp (fun k => -v' k) z l
      (fun j => if j = k then 1 else 0)
    rw [Finset.sum_eq_single k] at this
    · rw [if_pos rfl, one_mul] at this
      refine this.trans ?_
      have hd := h.dynamics (fun j => if j = k then 1 else 0)
      have hcp : contactPower w.contacts z (fun i => z (nc + 2 * i) - z (nc + (2 * i + 1)))
          (fun j => if j = k then 1 else 0) =
          contactPower w.contacts pn (fun i => a i - b i) (fun j => if j = k then 1 else 0) := by
        unfold contactPower
        refine Finset.sum_congr rfl fun i hi => ?_
        have hi := Finset.mem_range.1 hi
        rw [List.getElem?_eq_getElem hi]
        simp only
        rw [z1 i hi, z2 i hi, z3 i hi]
      rw [hcp]
      simp only [neg_neg]
      linarith
    · intro j _ hjk; rw [if_neg hjk, zero_mul]
    · intro hn; exact absurd (Finset.mem_range.2 hk) hn
  · intro i _
    show mv G _ _ i + (hv i + mv Fm _ z i - mv G _ _ i) = _
    ring
  · intro r hr
    have : mv w.Je (3 * w.bodies.length) v' r ∈ jointVels w.joints v' := by
      rw [← C32_equality_jacobian w hj]
      exact List.mem_map.2 ⟨r, List.mem_range.2 hr, rfl⟩
    rw [mv_neg, h.joints _ this, neg_zero]
  · intro k hk
    rcases idx k hk with ⟨i, hi, rfl⟩ | ⟨i, hi, rfl⟩ | ⟨i, hi, rfl⟩ | ⟨i, hi, rfl⟩
    · rw [s1 _ hi]; exact (h.restitution _ hi).1
    · rw [s2 i hi]; exact (h.slip i hi).1
    · rw [s3 i hi]; exact (h.slip i hi).2.2.1
    · rw [s4 i hi]; exact (h.cone i hi).1
  · intro k hk
    rcases idx k hk with ⟨i, hi, rfl⟩ | ⟨i, hi, rfl⟩ | ⟨i, hi, rfl⟩ | ⟨i, hi, rfl⟩
    · rw [z1 _ hi]; exact (h.nonneg _ hi).1
    · rw [z2 i hi]; exact (h.nonneg i hi).2.1
    · rw [z3 i hi]; exact (h.nonneg i hi).2.2.1
    · rw [z4 i hi]; exact (h.nonneg i hi).2.2.2
  · intro k hk
    rcases idx k hk with ⟨i, hi, rfl⟩ | ⟨i, hi, rfl⟩ | ⟨i, hi, rfl⟩ | ⟨i, hi, rfl⟩
    · rw [z1 _ hi, s1 _ hi, mul_comm]; exact (h.restitution _ hi).2
    · rw [z2 i hi, s2 i hi, mul_comm]; exact (h.slip i hi).2.1
    · rw [z3 i hi, s3 i hi, mul_comm]; exact (h.slip i hi).2.2.2
    · rw [z4 i hi, s4 i hi, mul_comm]; exact (h.cone i hi).2

end LcpPhysics
