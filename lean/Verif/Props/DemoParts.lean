import Verif.Props.DemoForces

/-! # C115, continued: the forces of the test scenes, and what the bodies of the scenes are made of -/

noncomputable section

namespace LcpPhysics
open Spec Demos

/-- C115: the push of `fric_demo` and of its test is to the right, during the second second; the impulses end at 0.1. -/
theorem C115_pushes (t : ℝ) :
    timed_force t = (if t ≤ 1 then 0 else if t < 2 then ⟨0, 1, 0⟩ else 0) ∧
    vert_impulse t = (if t < 1 / 10 then ⟨0, 0, 1⟩ else 0) ∧ hor_impulse t = (if t < 1 / 10 then ⟨0, 1, 0⟩ else 0) := by
  refine ⟨?_, ?_, ?_⟩
  · unfold timed_force RIGHT ZEROS
    split_ifs with h1 h2 h3
    · linarith [h1.1]
    · rfl
    · linarith [h1.2]
    · rfl
    · exact absurd ⟨by linarith, by assumption⟩ h1
    · rfl
  · unfold vert_impulse DOWN ZEROS
    norm_num
    rfl
  · unfold hor_impulse RIGHT ZEROS
    norm_num
    rfl

/-- C115: the forces of the test scenes.  Unlike in the demo only the last link of the chain is pulled. -/
theorem C115_test_forces (k : ℕ) (t : ℝ) :
    forceOn testDemo.forces k t =
      (if k = 0 ∨ k = 6 then (500 : ℝ) • vert_impulse t else if k = 2 ∨ k = 4 then ⟨0, 0, 100⟩
        else if k = 8 then ⟨0, 0, -100⟩ else 0) ∧
    forceOn testChain.forces k t = (if k = 9 then ⟨0, 0, 100⟩ else if k = 10 then (1000 : ℝ) • hor_impulse t else 0) ∧
    forceOn testSlide.forces k t = (if k = 1 then ⟨0, 0, 100⟩ else 0) ∧
    forceOn testFric.forces k t =
      (if k = 0 then (100 : ℝ) • timed_force t + ⟨0, 0, 100⟩ else if k = 1 then ⟨0, 0, 100⟩ else 0) := by
  by_cases hk : k < 12
  · refine ⟨?_, ?_, ?_, ?_⟩
    · interval_cases k <;> simp [forceOn, ForceHeap.apply_forces, testDemo, withForces, ForceHeap.add_force, Force.set_body, sumForces, Force.force, List.range_succ, down_force, DOWN] <;> apply V3.ext <;> simp
    · interval_cases k <;> simp [forceOn, ForceHeap.apply_forces, testChain, withForces, ForceHeap.add_force, Force.set_body, sumForces, Force.force, List.range_succ, down_force, DOWN] <;> apply V3.ext <;> simp
    · interval_cases k <;> simp [forceOn, ForceHeap.apply_forces, testSlide, withForces, ForceHeap.add_force, Force.set_body, sumForces, Force.force, List.range_succ, down_force, DOWN] <;> apply V3.ext <;> simp
    · interval_cases k <;> simp [forceOn, ForceHeap.apply_forces, testFric, withForces, ForceHeap.add_force, Force.set_body, sumForces, Force.force, List.range_succ, down_force, DOWN] <;> apply V3.ext <;> simp
  · have hne : ∀ j < 12, k ≠ j := fun j hj h => hk (h ▸ hj)
    have n0 := hne 0 (by norm_num)
    have n1 := hne 1 (by norm_num)
    have n2 := hne 2 (by norm_num)
    have n4 := hne 4 (by norm_num)
    have n6 := hne 6 (by norm_num)
    have n8 := hne 8 (by norm_num)
    have n9 := hne 9 (by norm_num)
    have n10 := hne 10 (by norm_num)
    refine ⟨?_, ?_, ?_, ?_⟩
    · simp [forceOn, ForceHeap.apply_forces, testDemo, withForces, ForceHeap.add_force, n0, n2, n4, n6, n8]
    · simp [forceOn, ForceHeap.apply_forces, testChain, withForces, ForceHeap.add_force, n9, n10]
    · simp [forceOn, ForceHeap.apply_forces, testSlide, withForces, ForceHeap.add_force, n1]
    · simp [forceOn, ForceHeap.apply_forces, testFric, withForces, ForceHeap.add_force, n0, n1]

/-- What a constructor is called with. -/
def itemParams : Item → Params
  | .circle _ _ a => a
  | .rect _ _ a => a
  | .turned _ _ a _ => a

theorem rect_material {pos : Arg} {dims : V2} {a : Params} {b : Body} (h : mkRect pos dims a = .ok b) :
    b.restitution = a.restitution ∧ b.fric_coeff = a.fric_coeff ∧ b.mass = a.mass := by
  unfold mkRect at h
  simp only at h
  split at h
  · cases pos with
    | two q => cases h; exact ⟨rfl, rfl, rfl⟩
    | three q =>
      cases h
      exact ⟨set_p_restitution _ _, set_p_fric _ _, set_p_mass _ _⟩
  · cases h

theorem item_material {i : Item} {b : Body} (h : i.build = .ok b) :
    b.restitution = (itemParams i).restitution ∧ b.fric_coeff = (itemParams i).fric_coeff ∧ b.mass = (itemParams i).mass := by
  cases i with
  | circle pos rad a => cases h; exact ⟨rfl, rfl, rfl⟩
  | rect pos dims a => exact rect_material h
  | turned pos dims a w =>
    simp only [Item.build] at h
    cases hr : mkRect pos dims a with
    | error e => rw [hr] at h; cases h
    | ok c =>
      rw [hr] at h
      cases h
      have := rect_material hr
      simpa [itemParams, Body.op, Body.move, set_p_restitution, set_p_fric, set_p_mass] using this

theorem all_material : ∀ (is : List Item) (bs : List Body), buildAll is = .ok bs →
    bs.map (fun b => (b.restitution, b.fric_coeff, b.mass)) =
      is.map fun i => ((itemParams i).restitution, (itemParams i).fric_coeff, (itemParams i).mass)
  | [], bs, h => by cases h; rfl
  | i :: is, bs, h => by
    unfold buildAll at h
    cases hb : i.build with
    | error e => rw [hb] at h; cases h
    | ok b =>
      cases hs : buildAll is with
      | error e => rw [hb, hs] at h; cases h
      | ok cs =>
        rw [hb, hs] at h
        cases h
        obtain ⟨h1, h2, h3⟩ := item_material hb
        simp [h1, h2, h3, all_material is cs hs]

/-- C115: restitution, friction and mass of the bodies of the scenes. -/
theorem C115_materials (bs : List Body) :
    (buildAll debug_demo.items = .ok bs → bs.map (fun b => (b.restitution, b.fric_coeff, b.mass)) = List.replicate 10 (1 / 2, 9 / 10, 1)) ∧
    (buildAll testDemo.items = .ok bs → bs.map (fun b => (b.restitution, b.fric_coeff, b.mass)) = List.replicate 9 (1 / 2, 9 / 10, 1)) ∧
    (buildAll chain_demo.items = .ok bs → bs.map (fun b => (b.restitution, b.fric_coeff, b.mass)) =
      List.replicate 11 (9 / 10, 9 / 10, 1) ++ [(1 / 2, 9 / 10, 1)]) ∧
    (buildAll testChain.items = .ok bs → bs.map (fun b => (b.restitution, b.fric_coeff, b.mass)) =
      List.replicate 10 (1 / 2, 9 / 10, 1) ++ [(1, 9 / 10, 1)]) ∧
    (buildAll slide_demo.items = .ok bs → bs.map (fun b => (b.restitution, b.fric_coeff, b.mass)) = List.replicate 2 (1 / 2, 3 / 20, 1)) ∧
    (buildAll testSlide.items = .ok bs → bs.map (fun b => (b.restitution, b.fric_coeff, b.mass)) = List.replicate 2 (1 / 2, 9 / 10, 1)) ∧
    (buildAll fric_demo.items = .ok bs → bs.map (fun b => (b.restitution, b.fric_coeff, b.mass)) =
      List.replicate 4 (1 / 10, 1, 1) ++ [(1 / 2, 9 / 10, 1)]) ∧
    (buildAll testFric.items = .ok bs → bs.map (fun b => (b.restitution, b.fric_coeff, b.mass)) =
      List.replicate 4 (3 / 4, 1, 1) ++ [(1 / 2, 9 / 10, 1)]) ∧
    (buildAll fixed_joint_demo.items = .ok bs → bs.map (fun b => (b.restitution, b.fric_coeff, b.mass)) =
      List.replicate 3 (1 / 2, 3 / 20, 1)) := by
  refine ⟨?_, ?_, ?_, ?_, ?_, ?_, ?_, ?_, ?_⟩ <;> intro h <;> rw [all_material _ _ h] <;>
    norm_num [debug_demo, testDemo, chain_demo, testChain, slide_demo, testSlide, fric_demo, testFric, fixed_joint_demo, debugBalls,
      chainLinks, fricItems, clock, itemParams, List.range_succ, List.replicate_succ]

/-- All nine scenes are built. -/
example : ∀ d ∈ shippedScenes, ∃ bs, buildAll d.items = .ok bs := by
  intro d hd
  obtain ⟨h1, -⟩ := shipped_made d hd
  obtain ⟨bs, hb, -⟩ := built_all d.items h1.fine
  exact ⟨bs, hb⟩

/-- The ball of the friction test bounces more than that of the demo. -/
example : ∃ bs cs, buildAll fric_demo.items = .ok bs ∧ buildAll testFric.items = .ok cs ∧
    (bs.map fun b => (b.restitution, b.fric_coeff, b.mass)).getD 1 0 = (1 / 10, 1, 1) ∧
    (cs.map fun b => (b.restitution, b.fric_coeff, b.mass)).getD 1 0 = (3 / 4, 1, 1) := by
  obtain ⟨bs, hb, -⟩ := built_all fric_demo.items fric_made.fine
  obtain ⟨cs, hc, -⟩ := built_all testFric.items testFric_made.fine
  refine ⟨bs, cs, hb, hc, ?_, ?_⟩
  · rw [(C115_materials bs).2.2.2.2.2.2.1 hb]; rfl
  · rw [(C115_materials cs).2.2.2.2.2.2.2.1 hc]; rfl

/-- At time 3/2 the plank is pushed, at time 3 it is not. -/
example : forceOn testFric.forces 0 (3 / 2) = ⟨0, 100, 100⟩ ∧ forceOn testFric.forces 0 3 = ⟨0, 0, 100⟩ := by
  constructor
  · rw [(C115_test_forces 0 (3 / 2)).2.2.2, if_pos rfl, (C115_pushes _).1]
    norm_num
    apply V3.ext <;> simp
  · rw [(C115_test_forces 0 3).2.2.2, if_pos rfl, (C115_pushes _).1]
    norm_num
    apply V3.ext <;> simp

end LcpPhysics
