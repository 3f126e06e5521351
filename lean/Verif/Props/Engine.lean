import Verif.Props.LcpAssembly
import Verif.Lemmas.Inverse
import Verif.Lemmas.World
import Mathlib.Tactic.FieldSimp

/-! # C35, C36, C38, C39: the engine's velocity update -/

noncomputable section

namespace LcpPhysics
open Spec

variable {φ : Type}

/-- External impulses over a step. -/
def impulse (fl : List V3) (dt : ℝ) (i : ℕ) : V3 := dt • fl.getD i 0

/-- The cached inverse, if any, is the inverse of the current system matrix. -/
def CacheOk (w : World (Option Mat) φ) : Prop :=
  ∀ inv, w.eng = some inv →
    torchInverse (3 * w.bodies.length + w.num_constraints)
      (systemMatrix w.M w.Je (3 * w.bodies.length)) = .ok inv

theorem impulse_entries (fl : List V3) (dt : ℝ) (i : ℕ) (hi : i < fl.length) :
    dt * cat3 fl (3 * i) = (impulse fl dt i).r ∧ dt * cat3 fl (3 * i + 1) = (impulse fl dt i).x ∧
      dt * cat3 fl (3 * i + 2) = (impulse fl dt i).y := by
  obtain ⟨h1, h2, h3⟩ := cat3_entry fl i hi
  have : fl.getD i 0 = fl[i] := by simp [List.getD_eq_getElem?_getD, hi]
  rw [h1, h2, h3]
  unfold impulse
  rw [this]
  exact ⟨rfl, rfl, rfl⟩

/-- Without contacts: what `solve_dynamics` computes. -/
theorem solve_no_contacts {fd : ℕ} {H : ForceHeap} {lcp : LcpSolver} {mi : ℕ}
    {w : World (Option Mat) φ} {dt : ℝ} {e : Option Mat} {v' : Vec} (hnc : w.contacts = [])
    (hcache : CacheOk w) (h : pdipmSolve fd H lcp mi w dt = .ok (e, v')) :
    ∃ fl inv, forceCat H w.t w.bodies.length = .ok fl ∧
      torchInverse (3 * w.bodies.length + w.num_constraints)
        (systemMatrix w.M w.Je (3 * w.bodies.length)) = .ok inv ∧
      v' = mv inv (3 * w.bodies.length + w.num_constraints) (fun k =>
        if k < 3 * w.bodies.length then
          mv w.M (3 * w.bodies.length) w.v k + dt * cat3 fl k else 0) ∧
      e = (if w.eng.isSome ∨ w.static_inverse then some inv else none) := by
  unfold pdipmSolve at h
  simp only at h
  cases hf : forceCat H w.t w.bodies.length with
  | error x => rw [hf] at h; cases h
  | ok fl =>
    rw [hf] at h
    simp only at h
    rw [if_pos hnc] at h
    cases he : w.eng with
    | some inv =>
      rw [he] at h
      injection h with h
      injection h with h1 h2
      exact ⟨fl, inv, rfl, hcache inv he, h2.symm, by simp [h1.symm]⟩
    | none =>
      rw [he] at h
      simp only at h
      cases hi : torchInverse (3 * w.bodies.length + w.num_constraints)
          (systemMatrix w.M w.Je (3 * w.bodies.length)) with
      | error x => rw [hi] at h; cases h
      | ok inv =>
        rw [hi] at h
        injection h with h
        injection h with h1 h2
        exact ⟨fl, inv, rfl, rfl, h2.symm, by simp [h1.symm]⟩

/-- The system solved without contacts is the contact law without contacts. -/
theorem system_iff_law {σ : Type} (w : World σ φ) (hj : JointsOk w) (fl : List V3) (dt : ℝ)
    (hfl : fl.length = w.bodies.length) (x : Vec) :
    (∀ r < 3 * w.bodies.length + w.num_constraints,
      mv (systemMatrix w.M w.Je (3 * w.bodies.length)) (3 * w.bodies.length + w.num_constraints) x r =
        if r < 3 * w.bodies.length then
          mv w.M (3 * w.bodies.length) w.v r + dt * cat3 fl r else 0) ↔
    ContactLaw w.bodies w.joints [] (impulse fl dt) w.v x
      (fun r => x (3 * w.bodies.length + r)) 0 0 0 0 := by
  obtain ⟨m1, m2⟩ := systemMatrix_mv w.M w.Je (3 * w.bodies.length) w.num_constraints x
  have hpow : ∀ u : Vec, ∑ k ∈ Finset.range (3 * w.bodies.length), u k *
      (mv w.M (3 * w.bodies.length) w.v k + dt * cat3 fl k - mv w.M (3 * w.bodies.length) x k
        + tmv w.Je w.num_constraints (fun r => x (3 * w.bodies.length + r)) k) =
      momentumPower w.bodies u w.v + forcePower w.bodies.length (impulse fl dt) u
        - momentumPower w.bodies u x
        + jointPower w.joints (fun r => x (3 * w.bodies.length + r)) u := by
    intro u
    rw [← sum_mv_M, ← sum_mv_M, ← sum_Je w hj, ← sum_force w.bodies.length (impulse fl dt)
      (fun k => dt * cat3 fl k) u (fun i hi => impulse_entries fl dt i (by omega)),
      ← Finset.sum_add_distrib, ← Finset.sum_sub_distrib, ← Finset.sum_add_distrib]
    exact Finset.sum_congr rfl fun k _ => by ring
  have hcp : ∀ u, contactPower [] 0 (fun i => (0 : ℕ → ℝ) i - (0 : ℕ → ℝ) i) u = 0 := fun u => by
    simp [contactPower]
  constructor
  · intro h
    refine ⟨?_, ?_, ?_, ?_, ?_, ?_⟩
    · intro u
      have := hpow u
      rw [Finset.sum_eq_zero] at this
      · rw [hcp]; linarith
      · intro k hk
        have hk := Finset.mem_range.1 hk
        have e := h k (by omega)
        rw [if_pos hk, m1 k hk] at e
        rw [← e]; ring
    · rw [← C32_equality_jacobian w hj]
      intro y hy
      obtain ⟨r, hr, rfl⟩ := List.mem_map.1 hy
      have hr := List.mem_range.1 hr
      have e := h (3 * w.bodies.length + r) (by omega)
      rw [if_neg (by omega), m2 r hr] at e
      exact e
    all_goals intro i hi; simp at hi
  · intro h r hr
    by_cases hk : r < 3 * w.bodies.length
    · rw [if_pos hk, m1 r hk]
      have hp := hpow fun j => if j = r then 1 else 0
      have hd := h.dynamics fun j => if j = r then 1 else 0
      rw [hcp] at hd
      rw [Finset.sum_eq_single r] at hp
      · rw [if_pos rfl, one_mul] at hp
        linarith
      · intro j _ hjk; rw [if_neg hjk, zero_mul]
      · intro hn; exact absurd (Finset.mem_range.2 hk) hn
    · rw [if_neg hk]
      obtain ⟨q, rfl⟩ : ∃ q, r = 3 * w.bodies.length + q := ⟨r - 3 * w.bodies.length, by omega⟩
      rw [m2 q (by omega)]
      apply h.joints
      rw [← C32_equality_jacobian w hj]
      exact List.mem_map.2 ⟨q, List.mem_range.2 (by omega), rfl⟩

/-- C35: without contacts, the new velocity satisfies the dynamics with joint impulses and every
joint's constraint velocities vanish. -/
theorem C35_no_contact_solution (fd : ℕ) (H : ForceHeap) (lcp : LcpSolver) (mi : ℕ)
    (w : World (Option Mat) φ) (dt : ℝ) (e : Option Mat) (v' : Vec) (hj : JointsOk w)
    (hnc : w.contacts = []) (hcache : CacheOk w) (h : pdipmSolve fd H lcp mi w dt = .ok (e, v')) :
    ∃ fl l, forceCat H w.t w.bodies.length = .ok fl ∧
      ContactLaw w.bodies w.joints [] (impulse fl dt) w.v v' l 0 0 0 0 := by
  obtain ⟨fl, inv, hf, hi, rfl, -⟩ := solve_no_contacts hnc hcache h
  exact ⟨fl, _, hf, (system_iff_law w hj fl dt (forceCat_length hf).1 _).1 fun r hr =>
    torchInverse_solves hi _ r hr⟩

/-- C35: and it is the only velocity that does. -/
theorem C35_no_contact_unique (fd : ℕ) (H : ForceHeap) (lcp : LcpSolver) (mi : ℕ)
    (w : World (Option Mat) φ) (dt : ℝ) (e : Option Mat) (v' : Vec) (hj : JointsOk w)
    (hnc : w.contacts = []) (hcache : CacheOk w) (h : pdipmSolve fd H lcp mi w dt = .ok (e, v'))
    (fl : List V3) (hf : forceCat H w.t w.bodies.length = .ok fl) (v'' l : Vec)
    (hv : ContactLaw w.bodies w.joints [] (impulse fl dt) w.v v'' l 0 0 0 0) (k : ℕ)
    (hk : k < 3 * w.bodies.length) : v'' k = v' k := by
  obtain ⟨fl', inv, hf', hi, rfl, -⟩ := solve_no_contacts hnc hcache h
  rw [hf] at hf'
  injection hf' with hf'
  subst hf'
  set n := 3 * w.bodies.length with hn
  let x : Vec := fun j => if j < n then v'' j else l (j - n)
  have hx : ContactLaw w.bodies w.joints [] (impulse fl dt) w.v x (fun r => x (n + r)) 0 0 0 0 := by
    have hl : (fun r => x (n + r)) = l := by
      funext r
      show (if n + r < n then _ else _) = _
      rw [if_neg (by omega), Nat.add_sub_cancel_left]
    have hmv : ∀ A r, mv A n x r = mv A n v'' r := fun A r =>
      mv_congr A n _ _ (fun k hk => if_pos hk) r
    rw [hl]
    refine ⟨?_, ?_, ?_, ?_, ?_, ?_⟩
    · intro u
      have := hv.dynamics u
      rw [← sum_mv_M w u v''] at this
      rw [← sum_mv_M w u x, ← hn]
      simp only [hmv]
      exact this
    · rw [← C32_equality_jacobian w hj, ← hn]
      have := hv.joints
      rw [← C32_equality_jacobian w hj, ← hn] at this
      have hm : mv w.Je n x = mv w.Je n v'' := funext fun r => hmv w.Je r
      rw [hm]; exact this
    all_goals intro i hi; simp at hi
  have := (system_iff_law w hj fl dt (forceCat_length hf).1 x).2 hx
  have := torchInverse_unique hi _ x this k (by omega)
  rw [← this]
  exact (if_pos hk).symm

/-- The constraint rows are independent: only zero joint impulses do no virtual work. -/
def Independent {σ : Type} (w : World σ φ) : Prop :=
  ∀ l : Vec, (∀ u, jointPower w.joints l u = 0) → ∀ r < w.num_constraints, l r = 0

/-- The system matrix is invertible for positive masses and independent constraints. -/
theorem system_invertible {σ : Type} (w : World σ φ) (hj : JointsOk w)
    (hpos : ∀ b ∈ w.bodies, 0 < b.mass ∧ 0 < b.ang_inertia) (hind : Independent w) :
    ∃ inv, torchInverse (3 * w.bodies.length + w.num_constraints)
      (systemMatrix w.M w.Je (3 * w.bodies.length)) = .ok inv := by
  set n := 3 * w.bodies.length with hn
  apply torchInverse_of_kernel
  intro x hx
  obtain ⟨m1, m2⟩ := systemMatrix_mv w.M w.Je n w.num_constraints x
  have h1 : ∀ k < n, mv w.M n x k = tmv w.Je w.num_constraints (fun r => x (n + r)) k := by
    intro k hk
    have := hx k (by omega)
    rw [m1 k hk] at this; linarith
  have h2 : ∀ r < w.num_constraints, mv w.Je n x r = 0 := by
    intro r hr
    have := hx (n + r) (by omega)
    rw [m2 r hr] at this; exact this
  have hq : ∑ k ∈ Finset.range n, x k * mv w.M n x k = 0 := by
    rw [Finset.sum_congr rfl fun k hk => by rw [h1 k (Finset.mem_range.1 hk)], adjoint]
    exact Finset.sum_eq_zero fun r hr => by rw [h2 r (Finset.mem_range.1 hr), mul_zero]
  have hx0 : ∀ k < n, x k = 0 := by
    by_contra hne
    push Not at hne
    have := C07_mass_matrix_posdef w hpos x hne
    rw [← hn, hq] at this
    exact lt_irrefl _ this
  have hl : ∀ r < w.num_constraints, x (n + r) = 0 := by
    apply hind fun r => x (n + r)
    intro u
    rw [← sum_Je w hj, ← hn]
    refine Finset.sum_eq_zero fun k hk => ?_
    rw [← h1 k (Finset.mem_range.1 hk), mv_congr w.M n x (fun _ => 0) hx0]
    simp [mv]
  intro k hk
  by_cases h : k < n
  · exact hx0 k h
  · have := hl (k - n) (by omega)
    rwa [show n + (k - n) = k by omega] at this

/-- C35: the solve does not raise for positive masses and independent constraints. -/
theorem C35_no_contact_succeeds (fd : ℕ) (H : ForceHeap) (lcp : LcpSolver) (mi : ℕ)
    (w : World (Option Mat) φ) (dt : ℝ) (hj : JointsOk w)
    (hpos : ∀ b ∈ w.bodies, 0 < b.mass ∧ 0 < b.ang_inertia) (hind : Independent w)
    (hnc : w.contacts = []) (fl : List V3) (hf : forceCat H w.t w.bodies.length = .ok fl) :
    ∃ r, pdipmSolve fd H lcp mi w dt = .ok r := by
  obtain ⟨inv, hi⟩ := system_invertible w hj hpos hind
  unfold pdipmSolve
  simp only
  rw [hf]
  simp only
  rw [if_pos hnc, hi]
  cases w.eng with
  | some i => exact ⟨_, rfl⟩
  | none => exact ⟨_, rfl⟩

/-- C36: free flight.  Without joints and contacts each body's velocity changes by exactly
`dt * torque / I` and `dt * force / m`. -/
theorem C36_free_flight (fd : ℕ) (H : ForceHeap) (lcp : LcpSolver) (mi : ℕ)
    (w : World (Option Mat) φ) (dt : ℝ) (hjs : w.joints = []) (hnc : w.contacts = [])
    (hcache : CacheOk w) (hpos : ∀ b ∈ w.bodies, 0 < b.mass ∧ 0 < b.ang_inertia)
    (fl : List V3) (hf : forceCat H w.t w.bodies.length = .ok fl) :
    ∃ e v', pdipmSolve fd H lcp mi w dt = .ok (e, v') ∧
      ∀ (i : ℕ) (hi : i < w.bodies.length) (hi' : i < fl.length),
        v' (3 * i) = w.v (3 * i) + dt * fl[i].r / w.bodies[i].ang_inertia ∧
        v' (3 * i + 1) = w.v (3 * i + 1) + dt * fl[i].x / w.bodies[i].mass ∧
        v' (3 * i + 2) = w.v (3 * i + 2) + dt * fl[i].y / w.bodies[i].mass := by
  have hj : JointsOk w := by intro j hj; rw [hjs] at hj; cases hj
  have hnum : w.num_constraints = 0 := by simp [World.num_constraints, hjs]
  have hind : Independent w := by intro l _ r hr; omega
  obtain ⟨⟨e, v'⟩, hr⟩ := C35_no_contact_succeeds fd H lcp mi w dt hj hpos hind hnc fl hf
  refine ⟨e, v', hr, fun i hi hi' => ?_⟩
  obtain ⟨fl', inv, hf', hinv, hv', -⟩ := solve_no_contacts hnc hcache hr
  rw [hf] at hf'
  injection hf' with hf'
  subst hf'
  obtain ⟨m1, -⟩ := systemMatrix_mv w.M w.Je (3 * w.bodies.length) w.num_constraints v'
  have key : ∀ k < 3 * w.bodies.length,
      mv w.M (3 * w.bodies.length) v' k = mv w.M (3 * w.bodies.length) w.v k + dt * cat3 fl k := by
    intro k hk
    have := torchInverse_solves hinv (fun k => if k < 3 * w.bodies.length then
          mv w.M (3 * w.bodies.length) w.v k + dt * cat3 fl k else 0) k (by omega)
    rw [← hv', m1 k hk] at this
    simp only [if_pos hk] at this
    have ht : tmv w.Je w.num_constraints (fun r => v' (3 * w.bodies.length + r)) k = 0 := by
      rw [hnum]; rfl
    rw [ht, sub_zero] at this
    exact this
  obtain ⟨a1, a2, a3⟩ := M_mv w v' i hi
  obtain ⟨b1, b2, b3⟩ := M_mv w w.v i hi
  obtain ⟨c1, c2, c3⟩ := cat3_entry fl i hi'
  obtain ⟨hm, hI⟩ := hpos _ (List.getElem_mem hi)
  have k1 := key (3 * i) (by omega)
  have k2 := key (3 * i + 1) (by omega)
  have k3 := key (3 * i + 2) (by omega)
  rw [a1, b1, c1] at k1
  rw [a2, b2, c2] at k2
  rw [a3, b3, c3] at k3
  refine ⟨?_, ?_, ?_⟩
  · field_simp; linarith
  · field_simp; linarith
  · field_simp; linarith

/-- With contacts: what `solve_dynamics` passes to the solver. -/
theorem solve_contacts {H : ForceHeap} {lcp : LcpSolver} {mi : ℕ}
    {w : World (Option Mat) φ} {dt : ℝ} {e : Option Mat} {v' : Vec} (hnc : w.contacts ≠ [])
    (h : pdipmSolve 2 H lcp mi w dt = .ok (e, v')) :
    ∃ fl Jf x, forceCat H w.t w.bodies.length = .ok fl ∧ w.Jf 2 = .ok Jf ∧
      lcp mi (3 * w.bodies.length) w.num_constraints
        (w.contacts.length + 2 * w.contacts.length + w.contacts.length) w.M
        (fun k => if k < 3 * w.bodies.length then
          mv w.M (3 * w.bodies.length) w.v k + dt * cat3 fl k else 0)
        (assembleG w.Jc Jf w.contacts.length (2 * w.contacts.length))
        (assembleH (fun i => mv w.Jc (3 * w.bodies.length) w.v i * w.restitutions i)
          w.contacts.length) w.Je (fun _ => 0)
        (assembleF (w.E 2) w.mu w.contacts.length (2 * w.contacts.length)) = .ok x ∧
      v' = (fun k => -x k) ∧ e = w.eng := by
  unfold pdipmSolve at h
  simp only at h
  cases hf : forceCat H w.t w.bodies.length with
  | error x => rw [hf] at h; cases h
  | ok fl =>
    rw [hf] at h
    simp only at h
    rw [if_neg hnc] at h
    cases hJ : w.Jf 2 with
    | error x => rw [hJ] at h; cases h
    | ok Jf =>
      rw [hJ] at h
      simp only at h
      split at h
      · cases h
      · rename_i x hx
        injection h with h
        injection h with h1 h2
        exact ⟨fl, Jf, x, rfl, rfl, hx, h2.symm, h1.symm⟩

/-- C38/C39: with an exact LCP solver, every velocity the engine returns satisfies the contact law
(dynamics, joint constraints, restitution, Coulomb friction) for some impulses. -/
theorem C38_engine_contact_law (H : ForceHeap) (lcp : LcpSolver) (mi : ℕ)
    (w : World (Option Mat) φ) (dt : ℝ) (e : Option Mat) (v' : Vec) (hj : JointsOk w)
    (hc : ContactsOk w) (hcache : CacheOk w) (hx : Exact lcp)
    (h : pdipmSolve 2 H lcp mi w dt = .ok (e, v')) :
    ∃ fl l pn a b g, forceCat H w.t w.bodies.length = .ok fl ∧
      ContactLaw w.bodies w.joints w.contacts (impulse fl dt) w.v v' l pn a b g := by
  by_cases hnc : w.contacts = []
  · obtain ⟨fl, l, hf, hl⟩ := C35_no_contact_solution 2 H lcp mi w dt e v' hj hnc hcache h
    rw [hnc]
    exact ⟨fl, l, 0, 0, 0, 0, hf, hl⟩
  · obtain ⟨fl, Jf, x, hf, hJ, hs, rfl, -⟩ := solve_contacts hnc h
    obtain ⟨s, z, y, hm⟩ := hx _ _ _ _ _ _ _ _ _ _ _ _ hs
    have hlen := (forceCat_length hf).1
    exact ⟨fl, y, z, _, _, _, hf, C34_lcp_sound w hj hc Jf hJ (impulse fl dt)
      (fun k => dt * cat3 fl k) (fun i hi => impulse_entries fl dt i (by omega)) _
      (fun k hk => if_pos hk) x s z y hm⟩

/-- C38: after the update, no contact approaches faster than restitution allows, and a contact that
separates faster transmits no normal impulse. -/
theorem C38_restitution (bs : List Body) (js : List Joint) (cs : List Contact) (f : ℕ → V3)
    (v v' l : Vec) (pn a b g : ℕ → ℝ) (h : ContactLaw bs js cs f v v' l pn a b g) (i : ℕ)
    (hi : i < cs.length) :
    -(meanRestitution bs cs[i] * normalVel cs[i] v) ≤ normalVel cs[i] v' ∧
    (-(meanRestitution bs cs[i] * normalVel cs[i] v) < normalVel cs[i] v' → pn i = 0) ∧
    (0 < pn i → normalVel cs[i] v' = -(meanRestitution bs cs[i] * normalVel cs[i] v)) := by
  obtain ⟨h1, h2⟩ := h.restitution i hi
  refine ⟨by linarith, fun hlt => ?_, fun hp => ?_⟩
  · rcases mul_eq_zero.1 h2 with h3 | h3
    · exact h3
    · linarith
  · rcases mul_eq_zero.1 h2 with h3 | h3 <;> linarith

/-- C38: in particular contacts with non-negative restitution that were approaching (or resting) do
not approach afterwards. -/
theorem C38_no_approach (bs : List Body) (js : List Joint) (cs : List Contact) (f : ℕ → V3)
    (v v' l : Vec) (pn a b g : ℕ → ℝ) (h : ContactLaw bs js cs f v v' l pn a b g) (i : ℕ)
    (hi : i < cs.length) (he : 0 ≤ meanRestitution bs cs[i]) (hv : normalVel cs[i] v ≤ 0) :
    0 ≤ normalVel cs[i] v' := by
  have := (C38_restitution bs js cs f v v' l pn a b g h i hi).1
  nlinarith [mul_nonneg he (neg_nonneg.2 hv)]

/-- C39: Coulomb friction.  The friction impulse lies in the cone; if the contact slides afterwards,
friction has maximal magnitude and opposes the sliding; inside the cone it sticks. -/
theorem C39_coulomb (bs : List Body) (js : List Joint) (cs : List Contact) (f : ℕ → V3)
    (v v' l : Vec) (pn a b g : ℕ → ℝ) (h : ContactLaw bs js cs f v v' l pn a b g) (i : ℕ)
    (hi : i < cs.length) :
    |a i - b i| ≤ meanFriction bs cs[i] * pn i ∧
    (0 < slipVel cs[i] v' → a i - b i = -(meanFriction bs cs[i] * pn i)) ∧
    (slipVel cs[i] v' < 0 → a i - b i = meanFriction bs cs[i] * pn i) ∧
    (a i + b i < meanFriction bs cs[i] * pn i → slipVel cs[i] v' = 0) := by
  obtain ⟨-, ha, hb, hg⟩ := h.nonneg i hi
  obtain ⟨s1, s2, s3, s4⟩ := h.slip i hi
  obtain ⟨c1, c2⟩ := h.cone i hi
  refine ⟨abs_le.2 ⟨by linarith, by linarith⟩, fun hs => ?_, fun hs => ?_, fun hlt => ?_⟩
  · have ha0 : a i = 0 := by
      rcases mul_eq_zero.1 s2 with h | h <;> linarith
    have : meanFriction bs cs[i] * pn i - (a i + b i) = 0 := by
      rcases mul_eq_zero.1 c2 with h | h <;> linarith
    linarith
  · have hb0 : b i = 0 := by
      rcases mul_eq_zero.1 s4 with h | h <;> linarith
    have : meanFriction bs cs[i] * pn i - (a i + b i) = 0 := by
      rcases mul_eq_zero.1 c2 with h | h <;> linarith
    linarith
  · have : g i = 0 := by
      rcases mul_eq_zero.1 c2 with h | h <;> linarith
    linarith

end LcpPhysics
