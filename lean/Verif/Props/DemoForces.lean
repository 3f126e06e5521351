import Verif.Props.DemoRun
import Verif.Spec.Flight

/-! # C115, continued: the forces on the bodies of the demo scenes, and the fixed balls -/

noncomputable section

namespace LcpPhysics
open Spec Demos

/-- C115: the forces of the demos: on the slopes, fixed balls, wheels, struck balls and the clock there is none. -/
theorem C115_forces (k : ℕ) (t : ℝ) :
    forceOn slide_demo.forces k t = (if k = 1 then ⟨0, 0, 100⟩ else 0) ∧
    forceOn fixed_joint_demo.forces k t = (if k = 0 ∨ k = 1 then ⟨0, 0, 100⟩ else 0) ∧
    forceOn fric_demo.forces k t =
      (if k = 0 then (100 : ℝ) • timed_force t + ⟨0, 0, 100⟩ else if k = 1 then ⟨0, 0, 100⟩ else 0) ∧
    forceOn debug_demo.forces k t =
      (if k = 0 ∨ k = 6 then (500 : ℝ) • vert_impulse t else if k = 2 ∨ k = 4 then ⟨0, 0, 100⟩
        else if k = 8 then ⟨0, 0, -100⟩ else 0) ∧
    forceOn chain_demo.forces k t =
      (if 1 ≤ k ∧ k ≤ 9 then ⟨0, 0, 100⟩ else if k = 10 then (2000 : ℝ) • hor_impulse t else 0) := by
  by_cases hk : k < 12
  · refine ⟨?_, ?_, ?_, ?_, ?_⟩
    · interval_cases k <;> simp [forceOn, ForceHeap.apply_forces, slide_demo, withForces, ForceHeap.add_force, Force.set_body, sumForces, Force.force, List.range_succ] <;> apply V3.ext <;> simp
    · interval_cases k <;> simp [forceOn, ForceHeap.apply_forces, fixed_joint_demo, withForces, ForceHeap.add_force, Force.set_body, sumForces, Force.force, List.range_succ] <;> apply V3.ext <;> simp
    · interval_cases k <;> simp [forceOn, ForceHeap.apply_forces, fric_demo, withForces, ForceHeap.add_force, Force.set_body, sumForces, Force.force, List.range_succ] <;> apply V3.ext <;> simp
    · interval_cases k <;> simp [forceOn, ForceHeap.apply_forces, debug_demo, withForces, ForceHeap.add_force, Force.set_body, sumForces, Force.force, List.range_succ] <;> apply V3.ext <;> simp
    · interval_cases k <;> simp [forceOn, ForceHeap.apply_forces, chain_demo, withForces, ForceHeap.add_force, Force.set_body, sumForces, Force.force, List.range_succ] <;> apply V3.ext <;> simp
  · have hne : ∀ j < 12, k ≠ j := fun j hj h => hk (h ▸ hj)
    have n0 := hne 0 (by norm_num)
    have n1 := hne 1 (by norm_num)
    have n2 := hne 2 (by norm_num)
    have n3 := hne 3 (by norm_num)
    have n4 := hne 4 (by norm_num)
    have n5 := hne 5 (by norm_num)
    have n6 := hne 6 (by norm_num)
    have n7 := hne 7 (by norm_num)
    have n8 := hne 8 (by norm_num)
    have n9 := hne 9 (by norm_num)
    have n10 := hne 10 (by norm_num)
    have n11 := hne 11 (by norm_num)
    refine ⟨?_, ?_, ?_, ?_, ?_⟩
    · simp [forceOn, ForceHeap.apply_forces, slide_demo, withForces, ForceHeap.add_force, n0, n1, n2, n3, n4, n5, n6, n7, n8, n9, n10, n11]
    · simp [forceOn, ForceHeap.apply_forces, fixed_joint_demo, withForces, ForceHeap.add_force, n0, n1, n2, n3, n4, n5, n6, n7, n8, n9, n10, n11]
    · simp [forceOn, ForceHeap.apply_forces, fric_demo, withForces, ForceHeap.add_force, n0, n1, n2, n3, n4, n5, n6, n7, n8, n9, n10, n11]
    · simp [forceOn, ForceHeap.apply_forces, debug_demo, withForces, ForceHeap.add_force, n0, n1, n2, n3, n4, n5, n6, n7, n8, n9, n10, n11]
    · have h9 : ¬ (1 ≤ k ∧ k ≤ 9) := by omega
      simp [forceOn, ForceHeap.apply_forces, chain_demo, withForces, ForceHeap.add_force, List.range_succ, h9, n0, n1, n2, n3, n4, n5, n6, n7, n8, n9, n10, n11]

/-- C115: the ball under the falling one in `debug_demo` and in its test never moves. -/
theorem C115_fixed_ball (lcp : LcpSolver) (hx : Exact lcp) (mi cfuel : ℕ) (hcf : 66 ≤ cfuel)
    (pairs : List Body → List (ℕ × ℕ)) (hp : ∀ bs, ∀ p ∈ pairs bs, p.1 < bs.length ∧ p.2 < bs.length ∧ p.1 ≠ p.2)
    (fnd : Finder) (w0 w : World (Option Mat) Finder) :
    (debug_demo.start lcp mi (rejectNan (diffCollide cfuel debug_demo.nc pairs)) fnd = .done w0 →
      Reaches (pdipmEnv 2 debug_demo.forces lcp mi (rejectNan (diffCollide cfuel debug_demo.nc pairs))) w0 w →
      (bodyAt w.bodies 3).p = ⟨0, 301, 230⟩) ∧
    (testDemo.start lcp mi (rejectNan (diffCollide cfuel testDemo.nc pairs)) fnd = .done w0 →
      Reaches (pdipmEnv 2 testDemo.forces lcp mi (rejectNan (diffCollide cfuel testDemo.nc pairs))) w0 w →
      (bodyAt w.bodies 3).p = ⟨0, 301, 230⟩) := by
  refine ⟨fun h1 h2 => ?_, fun h1 h2 => ?_⟩
  · exact C115_held debug_demo debug_made lcp hx mi cfuel hcf pairs hp fnd w0 w 3 (by simp [debug_demo, debugBalls])
      (by simp [debug_demo, debugJoints]) h1 h2
  · exact C115_held testDemo testDemo_made lcp hx mi cfuel hcf pairs hp fnd w0 w 3 (by simp [testDemo, debugBalls])
      (by simp [testDemo, debugJoints]) h1 h2

/-- The block of `slide_demo` is pulled down, the slope is not. -/
example : forceOn slide_demo.forces 1 3 = ⟨0, 0, 100⟩ ∧ forceOn slide_demo.forces 0 3 = 0 :=
  ⟨(C115_forces 1 3).1, (C115_forces 0 3).1⟩

/-- At the start of `debug_demo` the ball is where it stays. -/
example (pairs : List Body → List (ℕ × ℕ)) (hp : ∀ bs, ∀ p ∈ pairs bs, p.1 < bs.length ∧ p.2 < bs.length ∧ p.1 ≠ p.2) (f : Finder) :
    ∃ w, debug_demo.start exactLcp 10 (rejectNan (diffCollide 66 debug_demo.nc pairs)) f = .done w ∧
      (bodyAt w.bodies 3).p = ⟨0, 301, 230⟩ := by
  obtain ⟨w, hw, -⟩ := C115_demos_start debug_demo (by simp [shippedScenes]) exactLcp 10 66 le_rfl pairs hp f
  exact ⟨w, hw, (C115_fixed_ball exactLcp exactLcp_exact 10 66 le_rfl pairs hp f w w).1 hw .refl⟩

end LcpPhysics
