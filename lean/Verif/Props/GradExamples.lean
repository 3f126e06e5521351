import Verif.Props.GradCentre

/-! # Examples for C117 -/

noncomputable section

namespace LcpPhysics
open Spec Demos GradDemo

/-- A push downwards and a weak push to the right miss; the run returns with every ball where it should be. -/
example (lcp : LcpSolver) (pairs : List Body → List (ℕ × ℕ))
    (hp : ∀ bs, ∀ p ∈ pairs bs, p.1 < bs.length ∧ p.2 < bs.length ∧ p.1 ≠ p.2) (fnd : Finder) :
    ∃ w, (scene ⟨0, 6 / 5, -3⟩).play lcp 10 1 210 (rejectNan (diffCollide 66 (scene ⟨0, 6 / 5, -3⟩).nc pairs)) fnd = .done w ∧
      w.t = 7 ∧ (bodyAt w.bodies 1).pos = (333 + 3 / 5, 1) ∧ (bodyAt w.bodies 2).p = ⟨0, 400, 250⟩ := by
  obtain ⟨w, h1, h2, -, h3, h4⟩ := C117_miss ⟨0, 6 / 5, -3⟩ (C117_weak_misses _ (by norm_num)) lcp 10 0 66 le_rfl pairs hp fnd
  exact ⟨w, h1, h2, by rw [h4]; norm_num, h3⟩

/-- The same two facts from the theorems on runs that may have contacts. -/
example (pairs : List Body → List (ℕ × ℕ))
    (hp : ∀ bs, ∀ p ∈ pairs bs, p.1 < bs.length ∧ p.2 < bs.length ∧ p.1 ≠ p.2) (fnd : Finder) :
    ∃ w, (scene ⟨0, 6 / 5, -3⟩).play exactLcp 10 1 210 (rejectNan (diffCollide 66 (scene ⟨0, 6 / 5, -3⟩).nc pairs)) fnd = .done w ∧
      (bodyAt w.bodies 0).p = ⟨0, 500, 300⟩ ∧
      (bodyAt w.bodies 1).pos + (bodyAt w.bodies 2).pos = (650, 460) + (10 * w.t - 1 / 3) • ((6 / 5 : ℝ), (-3 : ℝ)) := by
  obtain ⟨w, h1, -⟩ := C117_miss ⟨0, 6 / 5, -3⟩ (C117_weak_misses _ (by norm_num)) exactLcp 10 0 66 le_rfl pairs hp fnd
  refine ⟨w, h1, C117_target _ exactLcp exactLcp_exact 10 1 210 66 le_rfl pairs hp fnd w h1, ?_⟩
  exact (C117_centre ⟨0, 6 / 5, -3⟩ (fun n hn => C117_weak_misses _ (by norm_num) n (by omega)) exactLcp exactLcp_exact 10 0 207 66
    le_rfl pairs hp fnd w h1).1

/-- The push the demo starts from keeps clear of the second ball while it acts, so the centre theorem applies to the demo. -/
theorem first_push_clear : ClearStart initial_force := by
  intro n hn
  unfold len
  apply Real.lt_sqrt_of_sq_lt
  interval_cases n <;> norm_num [pushedPos, pushed, initial_force]

/-- Every simulation has a gradient in the sense of `Differentiates`. -/
theorem exists_differentiates (sim : V3 → Run ℝ) : ∃ grad, Differentiates sim grad := by
  classical
  refine ⟨fun F => ⟨deriv (fun x : ℝ => returned (sim (F + x • (⟨1, 0, 0⟩ : V3)))) 0,
    deriv (fun x : ℝ => returned (sim (F + x • (⟨0, 1, 0⟩ : V3)))) 0, deriv (fun x : ℝ => returned (sim (F + x • (⟨0, 0, 1⟩ : V3)))) 0⟩,
    fun F D h => ⟨(h _).deriv, (h _).deriv, (h _).deriv⟩⟩

/-- So from a push that misses, the descent ends at once, with the force it started from. -/
example (pairs : List Body → List (ℕ × ℕ))
    (hp : ∀ bs, ∀ p ∈ pairs bs, p.1 < bs.length ∧ p.2 < bs.length ∧ p.1 ≠ p.2) (fnd : Finder) :
    ∃ grad r, descend (simulate exactLcp 10 1 210 (rejectNan (diffCollide 66 (scene ⟨0, 1, 0⟩).nc pairs)) fnd) grad 100
      { start with force := ⟨0, 1, 0⟩ } = .done r ∧ r.force = ⟨0, 1, 0⟩ ∧ r.dist = some (50 * √5) := by
  obtain ⟨grad, hg⟩ := exists_differentiates
    (simulate exactLcp 10 1 210 (rejectNan (diffCollide 66 (scene ⟨0, 1, 0⟩).nc pairs)) fnd)
  obtain ⟨r, h1, h2, h3, -⟩ := C117_stalls { start with force := ⟨0, 1, 0⟩ } (C117_weak_misses _ (by norm_num)) exactLcp 10 0 66 le_rfl
    pairs hp fnd grad hg 98
  exact ⟨grad, r, h1, h2, h3⟩

open Classical in
/-- A simulation that gets worse when the push is weakened. -/
def steps (F : V3) : Run ℝ := if F.x < 2.999 then .done 7 else .done 5

/-- The distance printed at the end need not be that of the learned force: 5 is printed, and the learned force gives 7. -/
theorem C117_printed_stale : grad_demo steps (fun _ => ⟨0, 1, 0⟩) = .done (some 5, ⟨0, 2.9981, 0⟩, [5]) ∧
    steps ⟨0, 2.9981, 0⟩ = .done 7 := by
  have h1 : steps ⟨0, 3, 0⟩ = .done 5 := by unfold steps; rw [if_neg (by norm_num)]
  have h2 : steps ⟨0, 2.999, 0⟩ = .done 5 := by unfold steps; rw [if_neg (by norm_num)]
  have h3 : steps ⟨0, 2.9981, 0⟩ = .done 7 := by unfold steps; rw [if_pos (by norm_num)]
  have e1 : initial_force - (0.001 : ℝ) • (⟨0, 1, 0⟩ : V3) = ⟨0, 2.999, 0⟩ := by
    apply V3.ext <;> norm_num [initial_force]
  have e2 : (⟨0, 2.999, 0⟩ : V3) - (0.001 * 0.9 : ℝ) • (⟨0, 1, 0⟩ : V3) = ⟨0, 2.9981, 0⟩ := by
    apply V3.ext <;> norm_num
  refine ⟨?_, h3⟩
  unfold grad_demo
  rw [show steps initial_force = .done 5 from h1]
  simp only [Run.bind_done]
  unfold descend
  rw [show steps start.force = .done 5 from h1]
  simp only [Run.bind_done]
  rw [if_neg (by norm_num [start, abs_lt])]
  unfold descend
  simp only [start, e1, h2, Run.bind_done]
  rw [if_pos (by norm_num)]
  simp only [Run.bind_done, e2, h3]
  rfl

/-- The force in that run has moved by no more than the bound of `C117_reach`. -/
example (r : State) (h : descend steps (fun _ => ⟨0, 1, 0⟩) 100 start = .done r) : |r.force.x - 3| ≤ 10 * 1 * (0.001 - r.rate) :=
  (C117_reach steps (fun _ => ⟨0, 1, 0⟩) 1 (fun _ => by norm_num) 100 start r (by norm_num [start]) h).2.2.1

end LcpPhysics
