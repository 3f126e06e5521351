import Verif.Lemmas.Assembly
import Verif.Spec.Lcp
import Verif.Spec.Contact
import Mathlib.Algebra.Order.BigOperators.Group.Finset
import Mathlib.Tactic.Linarith

/-! # C07 (world part), C32, C33, C34: the assembled matrices -/

noncomputable section

namespace LcpPhysics
open Spec

variable {σ φ : Type}

/-! ## C07: mass matrix -/

theorem sum_mv_M (w : World σ φ) (u v : Vec) :
    ∑ k ∈ Finset.range (3 * w.bodies.length), u k * mv w.M (3 * w.bodies.length) v k =
      momentumPower w.bodies u v := by
  rw [sum3]
  unfold momentumPower
  refine Finset.sum_congr rfl fun i hi => ?_
  have hi := Finset.mem_range.1 hi
  obtain ⟨h1, h2, h3⟩ := M_mv w v i hi
  have hb : bodyAt w.bodies i = w.bodies[i] := by simp [bodyAt, List.getD_eq_getElem?_getD, hi]
  rw [h1, h2, h3, hb]
  simp only [twist]
  ring

/-- C07: the world mass matrix is symmetric. -/
theorem C07_mass_matrix_symm (w : World σ φ) (i j : ℕ) (hi : i < 3 * w.bodies.length)
    (hj : j < 3 * w.bodies.length) : w.M i j = w.M j i := by
  have key : ∀ i j : ℕ, i < 3 * w.bodies.length → j < 3 * w.bodies.length →
      w.M i j = if i = j then (if i % 3 = 0 then (bodyAt w.bodies (i / 3)).ang_inertia
        else (bodyAt w.bodies (i / 3)).mass) else 0 := by
    intro i j hi hj
    obtain ⟨m, a, ha, rfl⟩ : ∃ m a, a < 3 ∧ i = 3 * m + a := ⟨i / 3, i % 3, by omega, by omega⟩
    have hm : m < w.bodies.length := by omega
    have hb : bodyAt w.bodies ((3 * m + a) / 3) = w.bodies[m] := by
      rw [show (3 * m + a) / 3 = m by omega]
      simp [bodyAt, List.getD_eq_getElem?_getD, hm]
    rw [hb]
    obtain ⟨h1, h2, h3⟩ := M_entry w m hm j
    have : a = 0 ∨ a = 1 ∨ a = 2 := by omega
    rcases this with rfl | rfl | rfl
    · rw [add_zero, h1]
      unfold blk
      split_ifs <;> first | rfl | (exfalso; omega)
    · rw [h2]
      unfold blk
      split_ifs <;> first | rfl | (exfalso; omega)
    · rw [h3]
      unfold blk
      split_ifs <;> first | rfl | (exfalso; omega)
  rw [key i j hi hj, key j i hj hi]
  by_cases h : i = j
  · subst h; rfl
  · rw [if_neg h, if_neg (fun h' => h h'.symm)]

/-- C07: the quadratic form of the mass matrix is the sum over bodies of `I ω² + m |v|²`. -/
theorem C07_mass_matrix_quadratic (w : World σ φ) (v : Vec) :
    ∑ k ∈ Finset.range (3 * w.bodies.length), v k * mv w.M (3 * w.bodies.length) v k =
      ∑ i ∈ Finset.range w.bodies.length,
        ((bodyAt w.bodies i).ang_inertia * v (3 * i) ^ 2 +
          (bodyAt w.bodies i).mass * (v (3 * i + 1) ^ 2 + v (3 * i + 2) ^ 2)) := by
  rw [sum_mv_M]
  unfold momentumPower
  refine Finset.sum_congr rfl fun i _ => ?_
  simp only [twist]; ring

/-- C07: the world mass matrix is positive definite when all masses and inertias are positive. -/
theorem C07_mass_matrix_posdef (w : World σ φ)
    (hpos : ∀ b ∈ w.bodies, 0 < b.mass ∧ 0 < b.ang_inertia) (v : Vec)
    (hv : ∃ k < 3 * w.bodies.length, v k ≠ 0) :
    0 < ∑ k ∈ Finset.range (3 * w.bodies.length), v k * mv w.M (3 * w.bodies.length) v k := by
  rw [C07_mass_matrix_quadratic]
  have hb : ∀ i < w.bodies.length, 0 < (bodyAt w.bodies i).mass ∧
      0 < (bodyAt w.bodies i).ang_inertia := by
    intro i hi
    have : bodyAt w.bodies i = w.bodies[i] := by simp [bodyAt, List.getD_eq_getElem?_getD, hi]
    rw [this]; exact hpos _ (List.getElem_mem hi)
  apply Finset.sum_pos'
  · intro i hi
    obtain ⟨h1, h2⟩ := hb i (Finset.mem_range.1 hi)
    positivity
  · obtain ⟨k, hk, hne⟩ := hv
    refine ⟨k / 3, Finset.mem_range.2 (by omega), ?_⟩
    obtain ⟨h1, h2⟩ := hb (k / 3) (by omega)
    have : k = 3 * (k / 3) ∨ k = 3 * (k / 3) + 1 ∨ k = 3 * (k / 3) + 2 := by omega
    rcases this with h | h | h <;> rw [h] at hne <;> positivity

/-! ## C32: equality Jacobian -/

theorem JeLoop_range (n : ℕ) (v : Vec) (js : List Joint) :
    ∀ (row : ℕ) (A : Mat) (_ : ∀ r, row ≤ r → ∀ k, A r k = 0)
      (_ : ∀ j ∈ js, j.i1 < n ∧ ∀ k ∈ j.i2, k < n ∧ j.i1 ≠ k),
      (List.range (js.map fun j => j.kind.num_constraints).sum).map
        (fun r => mv (JeLoop js row A) (3 * n) v (row + r)) = jointVels js v := by
  induction js with
  | nil => intro row A _ _; rfl
  | cons j js ih =>
    intro row A hA hv
    have hj := hv j (by simp)
    rw [List.map_cons, List.sum_cons, List.range_add, List.map_append, List.map_map]
    unfold jointVels
    rw [List.flatMap_cons]
    congr 1
    · have hrow : ∀ a < j.kind.num_constraints,
          mv (JeLoop (j :: js) row A) (3 * n) v (row + a) = j.rowVal v a := by
        intro a ha
        have := JeLoop_mv n v (j :: js) row A hA 0 (by simp) hj.1 hj.2 a ha
        simpa [rowOffset] using this
      have : (List.range j.kind.num_constraints).map
          (fun r => mv (JeLoop (j :: js) row A) (3 * n) v (row + r)) =
          (List.range j.kind.num_constraints).map (fun a => j.rowVal v a) := by
        apply List.map_congr_left
        intro a ha
        exact hrow a (List.mem_range.1 ha)
      rw [this]
      obtain ⟨kind, i1, i2, pos, pos1, pos2, r1, rot1, rot2⟩ := j
      cases kind <;> cases i2 <;>
        simp [JKind.num_constraints, List.range_succ, Joint.rowVal, Joint.J, rows3, jointVel,
          pointVel, twist] <;> ring_nf <;> simp
    · unfold JeLoop
      simp only
      have hih := ih (row + j.kind.num_constraints)
        (match j.J.2, j.i2 with
          | some J2, some i2 => setBlock (setBlock A row j.kind.num_constraints (j.i1 * 3) 3 j.J.1)
              row j.kind.num_constraints (i2 * 3) 3 J2
          | _, _ => setBlock A row j.kind.num_constraints (j.i1 * 3) 3 j.J.1) ?_
        (fun j' hj' => hv j' (by simp [hj']))
      · unfold jointVels at hih
        rw [← hih]
        apply List.map_congr_left
        intro a _
        simp only [Function.comp]
        rw [← add_assoc]
        cases j.J.2 <;> cases j.i2 <;> rfl
      · intro r hr k
        cases j.J.2 <;> cases j.i2 <;> simp only <;>
          first
          | rw [setBlock_other_row _ _ _ _ _ _ _ (by omega),
              setBlock_other_row _ _ _ _ _ _ _ (by omega)]; exact hA r (by omega) k
          | rw [setBlock_other_row _ _ _ _ _ _ _ (by omega)]; exact hA r (by omega) k

/-- A constraint acts on valid, distinct bodies. -/
def JointsOk (w : World σ φ) : Prop :=
  ∀ j ∈ w.joints, j.i1 < w.bodies.length ∧ ∀ k ∈ j.i2, k < w.bodies.length ∧ j.i1 ≠ k

/-- C32: applied to any velocity, the equality Jacobian gives, joint after joint, the relative
velocity of the anchor points (and of the angles for fixed joints), or the constrained components. -/
theorem C32_equality_jacobian (w : World σ φ) (hw : JointsOk w) (v : Vec) :
    (List.range w.num_constraints).map (mv w.Je (3 * w.bodies.length) v) =
      jointVels w.joints v := by
  have := JeLoop_range w.bodies.length v w.joints 0 (fun _ _ => 0) (fun _ _ _ => rfl) hw
  simpa [World.num_constraints, World.Je] using this

/-- C32: there are as many rows as constraint velocities. -/
theorem C32_row_count (w : World σ φ) (v : Vec) :
    w.num_constraints = (jointVels w.joints v).length := by
  unfold World.num_constraints jointVels
  rw [List.length_flatMap]
  congr 1
  apply List.map_congr_left
  intro j _
  obtain ⟨kind, i1, i2, pos, pos1, pos2, r1, rot1, rot2⟩ := j
  cases kind <;> rfl

theorem Je_getD (w : World σ φ) (hw : JointsOk w) (v : Vec) (r : ℕ) (hr : r < w.num_constraints) :
    mv w.Je (3 * w.bodies.length) v r = (jointVels w.joints v).getD r 0 := by
  rw [← C32_equality_jacobian w hw v]
  simp [List.getD_eq_getElem?_getD, hr]

/-- C32: the Jacobian annihilates `v` iff every joint's constraint velocities vanish. -/
theorem C32_kernel (w : World σ φ) (hw : JointsOk w) (v : Vec) :
    (∀ r < w.num_constraints, mv w.Je (3 * w.bodies.length) v r = 0) ↔
      ∀ j ∈ w.joints, ∀ x ∈ jointVel j v, x = 0 := by
  have h := C32_equality_jacobian w hw v
  have h2 : (∀ x ∈ jointVels w.joints v, x = 0) ↔
      ∀ j ∈ w.joints, ∀ x ∈ jointVel j v, x = 0 := by
    unfold jointVels
    simp only [List.mem_flatMap]
    constructor
    · intro h j hj x hx; exact h x ⟨j, hj, hx⟩
    · rintro h x ⟨j, hj, hx⟩; exact h j hj x hx
  rw [← h2, ← h]
  simp

/-- C32: the Jacobian blocks of a constraint do not depend on `rot2` (the attribute that rejected
step attempts fail to restore). -/
theorem C32_J_ignores_rot2 (j : Joint) (x : ℝ) : ({ j with rot2 := x } : Joint).J = j.J := by
  obtain ⟨kind, i1, i2, pos, pos1, pos2, r1, rot1, rot2⟩ := j
  cases kind <;> cases i2 <;> rfl

/-! ## C33: contact Jacobians -/

/-- Contacts refer to valid, distinct bodies and are not NaN. -/
def ContactsOk (w : World σ φ) : Prop :=
  ∀ c ∈ w.contacts, c.i1 < w.bodies.length ∧ c.i2 < w.bodies.length ∧ c.i1 ≠ c.i2 ∧ c.nan = false

/-- C33: row `i` of `Jc` gives the normal component of the relative velocity at contact `i`. -/
theorem C33_normal_jacobian (w : World σ φ) (hw : ContactsOk w) (v : Vec) (i : ℕ)
    (hi : i < w.contacts.length) :
    mv w.Jc (3 * w.bodies.length) v i = normalVel w.contacts[i] v := by
  obtain ⟨h1, h2, h3, -⟩ := hw _ (List.getElem_mem hi)
  have := JcLoop_mv w.bodies.length v w.contacts 0 (fun _ _ => 0) (fun _ _ _ => rfl) i hi h1 h2 h3
  simpa [World.Jc, normalVel] using this

/-- C33: rows `2i`, `2i+1` of `Jf` give the tangential component and its negation. -/
theorem C33_friction_jacobian (w : World σ φ) (hw : ContactsOk w) (Jf : Mat) (hJ : w.Jf 2 = .ok Jf)
    (v : Vec) (i : ℕ) (hi : i < w.contacts.length) :
    mv Jf (3 * w.bodies.length) v (2 * i) = slipVel w.contacts[i] v ∧
    mv Jf (3 * w.bodies.length) v (2 * i + 1) = -slipVel w.contacts[i] v := by
  obtain ⟨h1, h2, h3, -⟩ := hw _ (List.getElem_mem hi)
  have := JfLoop_mv w.bodies.length v w.contacts 0 (fun _ _ => 0) (fun _ _ _ => rfl) i hi h1 h2 h3
  have hJ' : Jf = JfLoop w.contacts 0 fun _ _ => 0 := by
    unfold World.Jf at hJ
    rw [if_neg (by simp)] at hJ
    injection hJ with hJ; exact hJ.symm
  rw [hJ']
  simpa [slipVel] using this

/-- C33: with contacts present, any other number of friction directions raises. -/
theorem C33_fric_dirs_not_two (w : World σ φ) (fd : ℕ) (hfd : fd ≠ 2) (hc : w.contacts ≠ []) :
    ∃ e, w.Jf fd = .error e := by
  unfold World.Jf
  rw [if_pos ⟨hc, hfd⟩]
  exact ⟨_, rfl⟩

/-- C33: the tangent is a unit vector orthogonal to a unit normal. -/
theorem C33_tangent_orthonormal (n : V2) (hn : inner n n = 1) :
    inner (tangent n) n = 0 ∧ inner (tangent n) (tangent n) = 1 := by
  simp only [inner, tangent] at *
  constructor
  · ring
  · linarith

end LcpPhysics
