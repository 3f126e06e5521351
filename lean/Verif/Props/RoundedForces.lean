import Verif.Model.RoundedForces
import Verif.Spec.RoundedForces
import Verif.Props.RoundedFlight
import Verif.Props.Forces
import Verif.Props.RunTimes

/-! # C138: forces in double precision -/

noncomputable section

namespace LcpPhysics
open Spec Rounded

variable {A : Arith}

theorem rnd3_exact (v : V3) : rnd3 .exact v = v := rfl

theorem fsum_exact : ∀ (l : List (Option V3)) (acc : V3), fsumForces .exact l acc = sumForces l acc
  | [], _ => rfl
  | none :: _, _ => rfl
  | some f :: fs, acc => by
    show fsumForces .exact fs (acc + f) = sumForces fs (acc + f)
    exact fsum_exact fs _

/-- C138: without rounding these are the forces of C56. -/
theorem C138_exact (H : ForceHeap) (i : ℕ) (t mass : ℝ) (h : ℕ) (f : Force) :
    fapplyForces .exact H i t = H.apply_forces i t ∧ fsetBody .exact f mass = f.set_body mass ∧
    (faddForce .exact H i mass h).obj = (H.add_force i mass h).obj ∧
    (faddForce .exact H i mass h).attached = (H.add_force i mass h).attached := by
  have hs : ∀ f : Force, fsetBody .exact f mass = f.set_body mass := by
    intro f
    cases f with
    | external fn m => rfl
    | gravity g c =>
      simp only [fsetBody, rnd3_exact, Force.set_body, Force.gravity.injEq, Option.some.injEq, true_and]
      apply V3.ext <;> simp [mul_comm]
  have hf : ∀ f : Force, fforce .exact f t = f.force t := by
    intro f
    cases f <;> rfl
  refine ⟨?_, hs f, ?_, rfl⟩
  · unfold fapplyForces ForceHeap.apply_forces
    simp only [fsum_exact, hf]
  · funext k
    simp only [faddForce, ForceHeap.add_force, hs]

/-- Sums of numbers, every addition rounded. -/
theorem fold_error (h : DoubleArith A) : ∀ (fs : List ℝ) (acc : ℝ), Rep acc → (∀ f ∈ fs, Rep f) →
    |fs.foldl (fun a f => A.rnd (a + f)) acc - (acc + fs.sum)| ≤ ((1 + 1 / 2 ^ 53) ^ fs.length - 1) * (|acc| + (fs.map abs).sum)
  | [], acc, _, _ => by simp
  | f :: fs, acc, hacc, hf => by
    have ih := fold_error h fs (A.rnd (acc + f)) (h.nearest _).1 (fun g hg => hf g (by simp [hg]))
    have he := add_error h.nearest hacc (hf f (by simp))
    have hab := abs_add_le acc f
    have hS : 0 ≤ (fs.map abs).sum := List.sum_nonneg (by intro x hx; obtain ⟨y, -, rfl⟩ := List.mem_map.1 hx; exact abs_nonneg y)
    have hP : (1 : ℝ) ≤ (1 + 1 / 2 ^ 53) ^ fs.length := one_le_pow₀ (by norm_num)
    simp only [List.foldl_cons, List.sum_cons, List.map_cons, List.length_cons]
    rw [pow_succ ((1 : ℝ) + 1 / 2 ^ 53) fs.length]
    generalize fs.foldl (fun a f => A.rnd (a + f)) (A.rnd (acc + f)) = r at *
    generalize A.rnd (acc + f) = b at *
    generalize (fs.map abs).sum = S at *
    generalize fs.sum = s at *
    generalize ((1 : ℝ) + 1 / 2 ^ 53) ^ fs.length = P at *
    have hb : |b| ≤ (1 + 1 / 2 ^ 53) * (|acc| + |f|) := by
      have := abs_add_le (b - (acc + f)) (acc + f)
      rw [sub_add_cancel] at this
      linarith
    have k1 : (P - 1) * (|b| + S) ≤ (P - 1) * ((1 + 1 / 2 ^ 53) * (|acc| + |f| + S)) := by
      refine mul_le_mul_of_nonneg_left ?_ (by linarith)
      linarith
    have tri := abs_sub_le r (b + s) (acc + (f + s))
    have e : b + s - (acc + (f + s)) = b - (acc + f) := by ring
    rw [e] at tri
    have e2 : (P * (1 + 1 / 2 ^ 53) - 1) * (|acc| + (|f| + S)) = (P - 1) * ((1 + 1 / 2 ^ 53) * (|acc| + |f| + S)) +
      1 / 2 ^ 53 * (|acc| + |f| + S) := by ring
    rw [e2]
    linarith

/-- The same when the terms are rounded values of others. -/
theorem terms_error (h : DoubleArith A) (F E : List ℝ) (hF : ∀ f ∈ F, Rep f)
    (hE : List.Forall₂ (fun f e => |f - e| ≤ 1 / 2 ^ 53 * |e| + 1 / 2 ^ 1074) F E) :
    |F.foldl (fun a f => A.rnd (a + f)) 0 - E.sum| ≤ sumError E.length (E.map abs).sum := by
  have h1 := fold_error h F 0 rep_zero hF
  have hl : F.length = E.length := hE.length_eq
  have h2 : |F.sum - E.sum| ≤ 1 / 2 ^ 53 * (E.map abs).sum + E.length * (1 / 2 ^ 1074) ∧
      (F.map abs).sum ≤ (1 + 1 / 2 ^ 53) * (E.map abs).sum + E.length * (1 / 2 ^ 1074) := by
    clear h1 hl hF
    generalize (1 : ℝ) / 2 ^ 1074 = η at *
    induction hE with
    | nil => simp
    | @cons f e F E hfe _ ih =>
      simp only [List.sum_cons, List.map_cons, List.length_cons]
      push_cast
      constructor
      · have := abs_add_le (f - e) (F.sum - E.sum)
        rw [show f + F.sum - (e + E.sum) = f - e + (F.sum - E.sum) by ring]
        linarith [ih.1]
      · have := abs_add_le (f - e) e
        rw [sub_add_cancel] at this
        linarith [ih.2]
  rw [zero_add, abs_zero, zero_add, hl] at h1
  unfold sumError
  have hP : (1 : ℝ) ≤ (1 + 1 / 2 ^ 53) ^ E.length := one_le_pow₀ (by norm_num)
  rw [pow_succ ((1 : ℝ) + 1 / 2 ^ 53) E.length]
  generalize (1 : ℝ) / 2 ^ 1074 = η at *
  generalize ((1 : ℝ) + 1 / 2 ^ 53) ^ E.length = P at *
  generalize F.foldl (fun a f => A.rnd (a + f)) 0 = r at *
  generalize (E.map abs).sum = S at *
  generalize (F.map abs).sum = S' at *
  have k := mul_le_mul_of_nonneg_left h2.2 (by linarith : 0 ≤ P - 1)
  have tri := abs_sub_le r F.sum E.sum
  have e : (P * (1 + 1 / 2 ^ 53) - 1) * S + P * (E.length * η) = (P - 1) * ((1 + 1 / 2 ^ 53) * S + E.length * η) +
    (1 / 2 ^ 53 * S + E.length * η) := by ring
  rw [e]
  linarith [h2.1]

theorem fsum_some : ∀ (l : List V3) (acc : V3), fsumForces A (l.map some) acc = some ⟨(l.map V3.r).foldl (fun a f => A.rnd (a + f)) acc.r,
    (l.map V3.x).foldl (fun a f => A.rnd (a + f)) acc.x, (l.map V3.y).foldl (fun a f => A.rnd (a + f)) acc.y⟩
  | [], _ => rfl
  | f :: fs, acc => by
    show fsumForces A (fs.map some) (rnd3 A (acc + f)) = _
    rw [fsum_some]
    rfl

/-- What an object attached to a body of mass `M` returns. -/
theorem fforce_value (h : DoubleArith A) (f : Force) {M : ℝ} (hM : Rep M) (t : ℝ) : ∃ v, fforce A (fsetBody A f M) t = some v ∧ RepPose v ∧
    |v.r - (idealForce M t (fsetBody A f M)).r| ≤ 1 / 2 ^ 53 * |(idealForce M t (fsetBody A f M)).r| + 1 / 2 ^ 1074 ∧
    |v.x - (idealForce M t (fsetBody A f M)).x| ≤ 1 / 2 ^ 53 * |(idealForce M t (fsetBody A f M)).x| + 1 / 2 ^ 1074 ∧
    |v.y - (idealForce M t (fsetBody A f M)).y| ≤ 1 / 2 ^ 53 * |(idealForce M t (fsetBody A f M)).y| + 1 / 2 ^ 1074 := by
  cases f with
  | external fn m =>
    exact ⟨_, rfl, ⟨(h.nearest _).1, (h.nearest _).1, (h.nearest _).1⟩, any_error h.nearest _, any_error h.nearest _, any_error h.nearest _⟩
  | gravity g c =>
    have e : rnd3 A (g • rnd3 A (M • (⟨0, 0, 1⟩ : V3))) = ⟨0, 0, A.rnd (M * g)⟩ := by
      apply V3.ext <;> simp [rnd3, nearest_zero h.nearest, nearest_id h.nearest hM, mul_comm]
    refine ⟨⟨0, 0, A.rnd (M * g)⟩, by simp only [fsetBody, fforce, e], ⟨rep_zero, rep_zero, (h.nearest _).1⟩, ?_, ?_, ?_⟩
    · simp [fsetBody, idealForce]
    · simp [fsetBody, idealForce]
    · exact any_error h.nearest _

/-- C138: the total force on a body of mass `M` to which `n` objects are attached differs in every component from the sum of the forces
they stand for by at most `((1 + 2^-53)^(n+1) - 1) W` and a few of the smallest numbers, `W` the sum of the sizes. -/
theorem C138_total (h : DoubleArith A) (H : ForceHeap) (i : ℕ) (t : ℝ) {M : ℝ} (hM : Rep M)
    (hH : ∀ k ∈ H.attached i, ∃ f, H.obj k = fsetBody A f M) : ∃ v, fapplyForces A H i t = some v ∧
    |v.r - ((H.attached i).map fun k => (idealForce M t (H.obj k)).r).sum| ≤
      sumError (H.attached i).length ((H.attached i).map fun k => |(idealForce M t (H.obj k)).r|).sum ∧
    |v.x - ((H.attached i).map fun k => (idealForce M t (H.obj k)).x).sum| ≤
      sumError (H.attached i).length ((H.attached i).map fun k => |(idealForce M t (H.obj k)).x|).sum ∧
    |v.y - ((H.attached i).map fun k => (idealForce M t (H.obj k)).y).sum| ≤
      sumError (H.attached i).length ((H.attached i).map fun k => |(idealForce M t (H.obj k)).y|).sum := by
  have hv : ∀ l : List ℕ, (∀ k ∈ l, ∃ f, H.obj k = fsetBody A f M) → ∃ vs : List V3, l.map (fun k => fforce A (H.obj k) t) = vs.map some ∧
      (∀ v ∈ vs, RepPose v) ∧ List.Forall₂ (fun (v : V3) k =>
        |v.r - (idealForce M t (H.obj k)).r| ≤ 1 / 2 ^ 53 * |(idealForce M t (H.obj k)).r| + 1 / 2 ^ 1074 ∧
        |v.x - (idealForce M t (H.obj k)).x| ≤ 1 / 2 ^ 53 * |(idealForce M t (H.obj k)).x| + 1 / 2 ^ 1074 ∧
        |v.y - (idealForce M t (H.obj k)).y| ≤ 1 / 2 ^ 53 * |(idealForce M t (H.obj k)).y| + 1 / 2 ^ 1074) vs l := by
    intro l
    induction l with
    | nil => intro _; exact ⟨[], rfl, by simp, .nil⟩
    | cons k l ih =>
      intro hl
      obtain ⟨vs, h1, h2, h3⟩ := ih fun j hj => hl j (by simp [hj])
      obtain ⟨f, hf⟩ := hl k (by simp)
      obtain ⟨v, g1, g2, g3⟩ := fforce_value h f hM t
      rw [← hf] at g1 g3
      refine ⟨v :: vs, by simp [h1, g1], ?_, .cons g3 h3⟩
      intro u hu
      rcases List.mem_cons.1 hu with rfl | hu
      · exact g2
      · exact h2 u hu
  obtain ⟨vs, h1, h2, h3⟩ := hv _ hH
  have key (c : V3 → ℝ) (hc : ∀ v, RepPose v → Rep (c v)) (h4 : List.Forall₂ (fun (v : V3) k =>
      |c v - c (idealForce M t (H.obj k))| ≤ 1 / 2 ^ 53 * |c (idealForce M t (H.obj k))| + 1 / 2 ^ 1074) vs (H.attached i)) :
      |(vs.map c).foldl (fun a f => A.rnd (a + f)) 0 - ((H.attached i).map fun k => c (idealForce M t (H.obj k))).sum| ≤
        sumError (H.attached i).length ((H.attached i).map fun k => |c (idealForce M t (H.obj k))|).sum := by
    have := terms_error h (vs.map c) ((H.attached i).map fun k => c (idealForce M t (H.obj k))) (by
      intro f hf
      obtain ⟨v, hv, rfl⟩ := List.mem_map.1 hf
      exact hc v (h2 v hv)) (by
      rw [List.forall₂_map_left_iff, List.forall₂_map_right_iff]
      exact h4)
    rw [List.length_map, List.map_map] at this
    exact this
  have r := key V3.r (fun v hv => hv.1) (h3.imp fun _ _ h => h.1)
  have x := key V3.x (fun v hv => hv.2.1) (h3.imp fun _ _ h => h.2.1)
  have y := key V3.y (fun v hv => hv.2.2) (h3.imp fun _ _ h => h.2.2)
  unfold fapplyForces
  split_ifs with h0
  · have : H.attached i = [] := List.length_eq_zero_iff.1 h0
    refine ⟨0, rfl, ?_, ?_, ?_⟩ <;> simp [this, sumError]
  · rw [h1, fsum_some]
    exact ⟨_, rfl, r, x, y⟩

/-- C138: a body under its weight alone: the force is the rounded product of mass and `g`. -/
theorem C138_weight (h : DoubleArith A) (H : ForceHeap) (i k : ℕ) (t g : ℝ) (c : Option V3) {M : ℝ} (hM : Rep M)
    (hk : H.obj k = .gravity g c) (hi : H.attached i = []) : fapplyForces A (faddForce A H i M k) i t = some ⟨0, 0, A.rnd (M * g)⟩ := by
  have e : rnd3 A (g • rnd3 A (M • (⟨0, 0, 1⟩ : V3))) = ⟨0, 0, A.rnd (M * g)⟩ := by
    apply V3.ext <;> simp [rnd3, nearest_zero h.nearest, nearest_id h.nearest hM, mul_comm]
  have ha : (faddForce A H i M k).attached i = [k] := by simp [faddForce, hi]
  have ho : (faddForce A H i M k).obj k = .gravity g (some ⟨0, 0, A.rnd (M * g)⟩) := by simp [faddForce, hk, fsetBody, e]
  unfold fapplyForces
  rw [ha]
  simp only [List.length_singleton, one_ne_zero, if_false, List.map_cons, List.map_nil, ho, fforce, fsumForces, Option.some.injEq]
  apply V3.ext <;> simp [rnd3, nearest_zero h.nearest, nearest_id h.nearest (h.nearest (M * g)).1]

/-- C138: Galileo's law: in a step a body under its weight gains the velocity `dt g` whatever its mass, up to
`7 2^-53 (|v| + |dt g|)` and a few of the smallest numbers. -/
theorem C138_fall (h : DoubleArith A) {M v dt g : ℝ} (hM : 0 < M) (hM2 : M ≤ 2 ^ 1000) :
    |fvel A M v dt (A.rnd (M * g)) - (v + dt * g)| ≤ 7 / 2 ^ 53 * (|v| + |dt * g|) + ((4 + 2 * |dt|) / M + 1) * (1 / 2 ^ 1074) := by
  have h1 := C135_velocity h (v := v) (dt := dt) (f := A.rnd (M * g)) hM hM2
  have h2 := any_error h.nearest (M * g)
  generalize fvel A M v dt (A.rnd (M * g)) = r at *
  generalize A.rnd (M * g) = w at *
  have hη : (0 : ℝ) ≤ 1 / 2 ^ 1074 := by positivity
  generalize (1 : ℝ) / 2 ^ 1074 = η at *
  rw [abs_mul, abs_of_pos hM] at h2
  have a1 : |w / M - g| ≤ 1 / 2 ^ 53 * |g| + η / M := by
    rw [show w / M - g = (w - M * g) / M by field_simp, abs_div, abs_of_pos hM, div_le_iff₀ hM]
    refine h2.trans (le_of_eq ?_)
    field_simp
  have a2 : |w / M| ≤ (1 + 1 / 2 ^ 53) * |g| + η / M := by
    have := abs_add_le (w / M - g) g
    rw [sub_add_cancel] at this
    linarith
  have b1 : |dt * w / M - dt * g| ≤ |dt| * (1 / 2 ^ 53 * |g| + η / M) := by
    rw [show dt * w / M - dt * g = dt * (w / M - g) by ring, abs_mul]
    exact mul_le_mul_of_nonneg_left a1 (abs_nonneg _)
  have b2 : |dt * w| / M ≤ |dt| * ((1 + 1 / 2 ^ 53) * |g| + η / M) := by
    rw [show |dt * w| / M = |dt| * |w / M| by rw [abs_mul, abs_div, abs_of_pos hM]; ring]
    exact mul_le_mul_of_nonneg_left a2 (abs_nonneg _)
  have tri := abs_sub_le r (v + dt * w / M) (v + dt * g)
  rw [show v + dt * w / M - (v + dt * g) = dt * w / M - dt * g by ring] at tri
  rw [abs_mul]
  have hv := abs_nonneg v
  have hdg : 0 ≤ |dt| * |g| := mul_nonneg (abs_nonneg _) (abs_nonneg _)
  have hdm : 0 ≤ |dt| * (η / M) := mul_nonneg (abs_nonneg _) (by positivity)
  have e1 : |dt| * (1 / 2 ^ 53 * |g| + η / M) = 1 / 2 ^ 53 * (|dt| * |g|) + |dt| * (η / M) := by ring
  have e2 : |dt| * ((1 + 1 / 2 ^ 53) * |g| + η / M) = (1 + 1 / 2 ^ 53) * (|dt| * |g|) + |dt| * (η / M) := by ring
  have e3 : ((4 + 2 * |dt|) / M + 1) * η = (4 / M + 1) * η + 2 * (|dt| * (η / M)) := by ring
  rw [e1] at b1
  rw [e2] at b2
  rw [e3]
  generalize |dt| * (η / M) = y at *
  generalize |dt| * |g| = x at *
  generalize (4 / M + 1) * η = z at *
  generalize |dt * w| / M = q at *
  have hm := mul_le_mul_of_nonneg_left b2 (show (0 : ℝ) ≤ 5 / 2 ^ 53 by positivity)
  clear a1 a2 e1 e2 e3 h2 hη
  norm_num at h1 b1 hm ⊢
  linarith

/-- C138: two forces may be attached in either order. -/
theorem C138_two (h : DoubleArith A) (f g : V3) (hf : RepPose f) (hg : RepPose g) :
    fsumForces A [some f, some g] 0 = fsumForces A [some g, some f] 0 := by
  obtain ⟨f1, f2, f3⟩ := hf
  obtain ⟨g1, g2, g3⟩ := hg
  simp only [fsumForces, Option.some.injEq]
  apply V3.ext <;>
    simp [rnd3, nearest_id h.nearest f1, nearest_id h.nearest f2, nearest_id h.nearest f3, nearest_id h.nearest g1,
      nearest_id h.nearest g2, nearest_id h.nearest g3, add_comm]

/-- C138: for three the order matters: two small forces are lost after a large one, but not before it. -/
theorem C138_three (h : DoubleArith A) :
    fsumForces A [some ⟨0, 1, 0⟩, some ⟨0, 3 / 2 ^ 55, 0⟩, some ⟨0, 3 / 2 ^ 55, 0⟩] 0 = some ⟨0, 1, 0⟩ ∧
    fsumForces A [some ⟨0, 3 / 2 ^ 55, 0⟩, some ⟨0, 3 / 2 ^ 55, 0⟩, some ⟨0, 1, 0⟩] 0 = some ⟨0, 1 + 1 / 2 ^ 52, 0⟩ := by
  have z := nearest_zero h.nearest
  have r1 : A.rnd 1 = 1 := nearest_id h.nearest (by simpa using rep_nat 1 (by norm_num) 0 (by norm_num))
  have r2 : A.rnd (3 / 2 ^ 55) = 3 / 2 ^ 55 := nearest_id h.nearest ⟨3, -55, by norm_num, by norm_num, by norm_num⟩
  have r3 : A.rnd (3 / 2 ^ 55 + 3 / 2 ^ 55) = 3 / 2 ^ 54 := by
    rw [show (3 / 2 ^ 55 + 3 / 2 ^ 55 : ℝ) = 3 / 2 ^ 54 by norm_num]
    exact nearest_id h.nearest ⟨3, -54, by norm_num, by norm_num, by norm_num⟩
  have r4 : A.rnd (1 + 3 / 2 ^ 55) = 1 := by
    rw [Clock.round_grid h.nearest _ 4503599627370496 52 (by norm_num) (by norm_num) (by norm_num) (by norm_num [abs_lt]) (by norm_num)]
    norm_num
  have r5 : A.rnd (3 / 2 ^ 54 + 1) = 1 + 1 / 2 ^ 52 := by
    have : (1 : ℝ) + 1 / 2 ^ 52 = (4503599627370497 : ℕ) * (2 : ℝ) ^ (-52 : ℤ) := by norm_num
    rw [this]
    apply round_near h.nearest _ _ (by norm_num) (by norm_num) (by norm_num)
    rw [abs_lt]
    constructor <;> norm_num
  simp only [fsumForces, Option.some.injEq]
  constructor
  · apply V3.ext <;> simp [rnd3, z, r1, r4]
  · apply V3.ext <;> simp only [rnd3, V3.add_r, V3.add_x, V3.add_y, V3.zero_r, V3.zero_x, V3.zero_y, zero_add, z, r2, r3, r5]

/-- A weight and a push: two objects. -/
def twoObjects : ForceHeap := ⟨fun k => if k = 0 then .gravity 10 none else .external hor_impulse 3, fun _ => []⟩

/-- Attached to a body of mass two. -/
example : ∃ v, fapplyForces (doubleOf rne) (faddForce (doubleOf rne) (faddForce (doubleOf rne) twoObjects 0 2 0) 0 2 1) 0 0 = some v ∧
    |v.x - 3| ≤ sumError 2 3 ∧ |v.y - 20| ≤ sumError 2 20 := by
  have r2 : Rep 2 := ⟨2, 0, by norm_num, by norm_num, by norm_num⟩
  have hA := rounded_arith rne_nearest
  obtain ⟨v, h1, -, h3, h4⟩ := C138_total hA (faddForce (doubleOf rne) (faddForce (doubleOf rne) twoObjects 0 2 0) 0 2 1) 0 0 r2 (by
    intro k hk
    have : k = 0 ∨ k = 1 := by simpa [faddForce, twoObjects] using hk
    rcases this with rfl | rfl
    · exact ⟨.gravity 10 none, by simp [faddForce, twoObjects]⟩
    · exact ⟨.external hor_impulse 3, by simp [faddForce, twoObjects]⟩)
  have ha : (faddForce (doubleOf rne) (faddForce (doubleOf rne) twoObjects 0 2 0) 0 2 1).attached 0 = [0, 1] := by
    simp [faddForce, twoObjects]
  have o0 : (faddForce (doubleOf rne) (faddForce (doubleOf rne) twoObjects 0 2 0) 0 2 1).obj 0 = fsetBody (doubleOf rne) (.gravity 10 none) 2 := by
    simp [faddForce, twoObjects]
  have o1 : (faddForce (doubleOf rne) (faddForce (doubleOf rne) twoObjects 0 2 0) 0 2 1).obj 1 = .external hor_impulse 3 := by
    simp [faddForce, twoObjects, fsetBody]
  have hh : hor_impulse 0 = ⟨0, 1, 0⟩ := by
    unfold hor_impulse
    rw [if_pos (by norm_num)]
    rfl
  refine ⟨v, h1, ?_, ?_⟩
  · rw [ha] at h3
    simpa [o0, o1, idealForce, fsetBody, hh] using h3
  · rw [ha] at h4
    norm_num [o0, o1, idealForce, fsetBody, hh] at h4 ⊢
    exact h4

/-- A weight alone, on a body of mass three. -/
example : fapplyForces (doubleOf rne) (faddForce (doubleOf rne) twoObjects 0 3 0) 0 0 = some ⟨0, 0, rne (3 * 10)⟩ :=
  C138_weight (rounded_arith rne_nearest) twoObjects 0 0 0 10 none ⟨3, 0, by norm_num, by norm_num, by norm_num⟩ rfl rfl

/-- Masses of 3 and of 1000 falling from rest for a thirtieth of a second: the same velocity up to rounding. -/
example : |fvel (doubleOf rne) 3 0 (1 / 30) (rne (3 * 10)) - fvel (doubleOf rne) 1000 0 (1 / 30) (rne (1000 * 10))| ≤
    14 / 2 ^ 53 * (1 / 3) + 5 * (1 / 2 ^ 1074) := by
  have a := C138_fall (rounded_arith rne_nearest) (M := 3) (v := 0) (dt := 1 / 30) (g := 10) (by norm_num)
    (le_trans (by norm_num : (3 : ℝ) ≤ 2 ^ 2) (pow_le_pow_right₀ (by norm_num) (by norm_num)))
  have b := C138_fall (rounded_arith rne_nearest) (M := 1000) (v := 0) (dt := 1 / 30) (g := 10) (by norm_num)
    (le_trans (by norm_num : (1000 : ℝ) ≤ 2 ^ 10) (pow_le_pow_right₀ (by norm_num) (by norm_num)))
  have hη : (0 : ℝ) ≤ 1 / 2 ^ 1074 := by positivity
  change |fvel (doubleOf rne) 3 0 (1 / 30) (rne (3 * 10)) - _| ≤ _ at a
  change |fvel (doubleOf rne) 1000 0 (1 / 30) (rne (1000 * 10)) - _| ≤ _ at b
  generalize (1 : ℝ) / 2 ^ 1074 = η at *
  generalize fvel (doubleOf rne) 3 0 (1 / 30) (rne (3 * 10)) = x at *
  generalize fvel (doubleOf rne) 1000 0 (1 / 30) (rne (1000 * 10)) = y at *
  have t := abs_sub_le x (0 + 1 / 30 * 10) y
  rw [abs_sub_comm (0 + 1 / 30 * 10 : ℝ) y] at t
  norm_num at a b t ⊢
  linarith

end LcpPhysics
