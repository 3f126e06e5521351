import Verif.Props.FrictionGradient
import Verif.Props.Rolling
import Verif.Props.LibraryRun
import Verif.Lemmas.LuExists

/-! # C101: the ball sliding on the floor, differentiated -/

noncomputable section

namespace LcpPhysics
open Matrix Spec

variable {S : RollScene}

/-- In the scene of C98 the ball leans on the floor. -/
theorem floor_leans (hS : S.Valid) {w : World (Option Mat) Finder} (h : OnFloor S w) :
    Leans w.bodies w.joints w.contacts 0 0 (0, -1) S.r := by
  obtain ⟨j, hj, hk, hi1, hi2⟩ := h.joint
  obtain ⟨c, hc, htf⟩ := h.contact
  obtain ⟨bm, bI⟩ := h.ball
  have hr := hS.r
  have hm := hS.m
  refine ⟨by rw [hc]; simp, by rw [h.len]; omega, by norm_num [Spec.inner], ?_, ?_, ?_, ?_⟩
  · intro j' hj'
    rw [hj, List.mem_singleton] at hj'
    rw [hj', hi1, hi2]
    simp
  · intro q hq hne
    rw [hc] at hq
    simp at hq
    exact absurd hq hne
  · intro q hq
    have hrest : twist q 1 = 0 := by
      rw [← hi1]
      refine total_rest hk fun x hx => hq x ?_
      exact List.mem_flatMap.2 ⟨j, by rw [hj]; simp, hx⟩
    have hc0 : ∀ hk : 0 < w.contacts.length, w.contacts[0] = c := by
      intro hk; simp only [hc, List.getElem_cons_zero]
    rw [hc0]
    rcases htf.2.2 with ⟨e1, e2, e3, e4⟩ | ⟨e1, e2, e3, e4⟩
    · exact Or.inl ⟨e1, by rw [e2]; simp, e3, by rw [e4]; ext <;> simp, by rw [e2]; exact hrest, by rw [e2]; exact hrest⟩
    · exact Or.inr ⟨e2, by rw [e1]; simp, by rw [e3]; ext <;> simp, by rw [e4]; ext <;> simp,
        by rw [e1]; exact hrest, by rw [e1]; exact hrest⟩
  · rw [bm, bI]
    exact ⟨hm, by positivity⟩

theorem floor_independent {w : World (Option Mat) Finder} (h : OnFloor S w) : Independent w := by
  obtain ⟨j, hj, hk, hi1, hi2⟩ := h.joint
  apply C71_tree_independent w h.inv.joints
  intro k hk'
  rw [hj] at hk'
  refine ⟨_, Or.inl rfl, fun c _ k' hk'' => ?_⟩
  simp at hk'
  omega

/-- Slacks and multipliers of an interior point at which the ball slides. -/
def slideS : ℕ → ℝ
  | 0 => 1
  | 1 => 1
  | 2 => 3
  | _ => 1 / 2

def slideZ : ℕ → ℝ
  | 0 => 4
  | 1 => 1
  | 2 => 1 / 2
  | _ => 2

theorem slideS_pos (k : ℕ) : 0 < slideS k := by
  rcases k with _ | _ | _ | k
  · norm_num [slideS]
  · norm_num [slideS]
  · norm_num [slideS]
  · show (0 : ℝ) < 1 / 2
    norm_num

theorem slideZ_pos (k : ℕ) : 0 < slideZ k := by
  rcases k with _ | _ | _ | k
  · norm_num [slideZ]
  · norm_num [slideZ]
  · norm_num [slideZ]
  · show (0 : ℝ) < 2
    norm_num

/-- The interior point; the velocities are `-x`. -/
def slideIter (w : World (Option Mat) Finder) : Iter (3 * w.bodies.length)
    (w.contacts.length + 2 * w.contacts.length + w.contacts.length) w.num_constraints where
  x := fun k => atBody 0 ⟨1 / 10, 0, 1⟩ k
  s := fun k => slideS k
  z := fun k => slideZ k
  y := 0

/-- The impulse for which it solves the engine's problem. -/
def slideU (w : World (Option Mat) Finder) (Jf : Mat) : Vec := fun k =>
  -(mv w.M (3 * w.bodies.length) (finVec (slideIter w).x) k +
    tmv (assembleG w.Jc Jf w.contacts.length (2 * w.contacts.length))
      (w.contacts.length + 2 * w.contacts.length + w.contacts.length) (finVec (slideIter w).z) k)

theorem slide_rows {w : World (Option Mat) Finder} (h : OnFloor slideScene w) (Jf : Mat) (hJ : w.Jf 2 = .ok Jf) :
    SolvesRows (engineProblem w Jf (slideU w Jf)) (slideIter w) := by
  have hl := floor_leans slide_valid h
  obtain ⟨c, hc, htf⟩ := h.contact
  have hlen : w.contacts.length = 1 := by rw [hc]; rfl
  have hk : 0 < w.contacts.length := by omega
  have hc0 : w.contacts[0] = c := by simp only [hc, List.getElem_cons_zero]
  have hx : finVec (slideIter w).x = atBody 0 ⟨1 / 10, 0, 1⟩ := by
    funext k
    unfold finVec slideIter
    by_cases hk : k < 3 * w.bodies.length
    · simp [hk]
    · rw [h.len] at hk
      have h0 : k ≠ 3 * 0 := by omega
      have h1 : k ≠ 3 * 0 + 1 := by omega
      have h2 : k ≠ 3 * 0 + 2 := by omega
      rw [dif_neg (by rw [h.len]; exact hk)]
      simp only [atBody, if_neg h0, if_neg h1, if_neg h2]
  have hfl : twist (atBody 0 ⟨1 / 10, 0, 1⟩) 1 = 0 := by rw [twist_atBody]; simp
  have hq : ∀ r ∈ jointVels w.joints (atBody 0 ⟨1 / 10, 0, 1⟩), r = 0 := by
    obtain ⟨j, hj, hkj, hi1, hi2⟩ := h.joint
    intro r hr
    rw [hj] at hr
    simp only [jointVels, List.flatMap_cons, List.flatMap_nil, List.append_nil, jointVel, hkj, hi1, hfl] at hr
    simpa using hr
  have hp := hl.presses _ hq
  have hrv : (w.contacts[0].i1 ≠ 0 → twist (atBody 0 ⟨1 / 10, 0, 1⟩) w.contacts[0].i1 = 0) ∧
      (w.contacts[0].i2 ≠ 0 → twist (atBody 0 ⟨1 / 10, 0, 1⟩) w.contacts[0].i2 = 0) := by
    constructor <;> intro hne <;> rw [twist_atBody, if_neg hne]
  obtain ⟨hn, hs⟩ := presses_vel hl.unit hp _ hrv
  rw [twist_atBody, if_pos rfl] at hn hs
  have hn' : normalVel w.contacts[0] (atBody 0 ⟨1 / 10, 0, 1⟩) = -1 := by
    rw [hn]; norm_num [lift, Spec.inner]
  have hs' : slipVel w.contacts[0] (atBody 0 ⟨1 / 10, 0, 1⟩) = 1 := by
    rw [hs]; norm_num [slip, Spec.inner, tangent, slideScene]
  have hv0 : normalVel w.contacts[0] w.v = 0 := by
    have hrest : (w.contacts[0].i1 ≠ 0 → twist w.v w.contacts[0].i1 = 0) ∧
        (w.contacts[0].i2 ≠ 0 → twist w.v w.contacts[0].i2 = 0) := by
      rw [hc0]
      rcases htf.2.2 with ⟨e1, e2, -⟩ | ⟨e1, e2, -⟩ <;> rw [e1, e2] <;> simp [h.rest]
    rw [(presses_vel hl.unit hp _ hrest).1]
    simp [lift, Spec.inner, h.level]
  have hmu : meanFriction w.bodies w.contacts[0] = 1 / 2 := by
    rw [hc0, h.fric htf]; norm_num [slideScene, RollScene.μ]
  have hz : ∀ k < 4, finVec (slideIter w).z k = slideZ k := by
    intro k hk
    rw [finVec_at _ _ (by omega)]
    rfl
  obtain ⟨g1, g2, g3, g4⟩ := G_mv w h.inv.contacts Jf hJ (atBody 0 ⟨1 / 10, 0, 1⟩) 0 hk
  have f1 := F_mv_normal w (finVec (slideIter w).z) 0 hk
  have f2 := F_mv_fric w (finVec (slideIter w).z) 0 0 hk (Or.inl rfl)
  have f3 := F_mv_fric w (finVec (slideIter w).z) 0 1 hk (Or.inr rfl)
  have f4 := F_mv_cone w (finVec (slideIter w).z) 0 hk
  have hH := H_entry w h.inv.contacts 0 hk
  rw [hn'] at g1
  rw [hs'] at g2 g3
  rw [hmu] at f4
  rw [hv0, mul_zero] at hH
  refine ⟨fun k => ?_, fun i => ?_, fun i => ?_⟩
  · have e1 := finVec_mv w.M (slideIter w).x k
    have e2 := finVec_tmv (n := 3 * w.bodies.length)
      (assembleG w.Jc Jf w.contacts.length (2 * w.contacts.length)) (slideIter w).z k
    have e : (engineProblem w Jf (slideU w Jf)).p k = -(mv w.M (3 * w.bodies.length) (finVec (slideIter w).x) k +
        tmv (assembleG w.Jc Jf w.contacts.length (2 * w.contacts.length))
          (w.contacts.length + 2 * w.contacts.length + w.contacts.length) (finVec (slideIter w).z) k) := rfl
    rw [e, e1, e2]
    have e3 : ∑ i, (engineProblem w Jf (slideU w Jf)).A i k * (slideIter w).y i = 0 :=
      Finset.sum_eq_zero fun i _ => by simp [slideIter]
    rw [e3]
    simp only [Matrix.mulVec, dotProduct, Matrix.transpose_apply]
    have : ∀ a b : ℝ, a + -(a + b) + b + 0 = 0 := by intros; ring
    exact this _ _
  · have e1 := finVec_mv (assembleG w.Jc Jf w.contacts.length (2 * w.contacts.length)) (slideIter w).x i
    have e2 := finVec_mv (assembleF (w.E 2) w.mu w.contacts.length (2 * w.contacts.length)) (slideIter w).z i
    have key : mv (assembleG w.Jc Jf w.contacts.length (2 * w.contacts.length)) (3 * w.bodies.length)
        (finVec (slideIter w).x) i + slideS i -
        assembleH (fun i => mv w.Jc (3 * w.bodies.length) w.v i * w.restitutions i) w.contacts.length i -
        mv (assembleF (w.E 2) w.mu w.contacts.length (2 * w.contacts.length))
          (w.contacts.length + 2 * w.contacts.length + w.contacts.length) (finVec (slideIter w).z) i = 0 := by
      rw [hx]
      obtain ⟨i, hi⟩ := i
      have hi4 : i = 0 ∨ i = 1 ∨ i = 2 ∨ i = 3 := by omega
      have hH0 : ∀ k, 1 ≤ k → assembleH (fun i => mv w.Jc (3 * w.bodies.length) w.v i * w.restitutions i)
          w.contacts.length k = 0 := fun k hk => if_neg (by omega)
      have i1 : w.contacts.length + 2 * 0 = 1 := by omega
      have i1' : w.contacts.length + (2 * 0 + 0) = 1 := by omega
      have i2 : w.contacts.length + (2 * 0 + 1) = 2 := by omega
      have i3 : 3 * w.contacts.length + 0 = 3 := by omega
      rw [i1] at g2
      rw [i2] at g3
      rw [i3] at g4
      rw [i1', i3] at f2
      rw [i2, i3] at f3
      rw [i1, i2, i3] at f4
      rw [hz 3 (by omega)] at f2 f3
      rw [hz 0 (by omega), hz 1 (by omega), hz 2 (by omega)] at f4
      simp only
      rcases hi4 with rfl | rfl | rfl | rfl
      · rw [g1, hH, f1]; norm_num [slideS]
      · rw [g2, hH0 1 (by omega), f2]; norm_num [slideS, slideZ]
      · rw [g3, hH0 2 (by omega), f3]; norm_num [slideS, slideZ]
      · rw [g4, hH0 3 (by omega), f4]; norm_num [slideS, slideZ]
    rw [e1, e2] at key
    exact key
  · have e := C32_equality_jacobian w h.inv.joints (atBody 0 ⟨1 / 10, 0, 1⟩)
    have e1 := finVec_mv w.Je (slideIter w).x i
    have : mv w.Je (3 * w.bodies.length) (atBody 0 ⟨1 / 10, 0, 1⟩) i = 0 := by
      apply hq
      rw [← e]
      exact List.mem_map.2 ⟨i, List.mem_range.2 i.isLt, rfl⟩
    rw [hx] at e1
    have e3 := e1.symm.trans this
    show _ - (0 : ℝ) = 0
    rw [sub_zero]
    exact e3

/-- C101: a ball on a floor, any friction, at rest or in motion: the backward pass returns. -/
theorem C101_ball_returns (S : RollScene) (hS : S.Valid) (f : Btrifact) (hf : BtrifactOk f)
    (w : World (Option Mat) Finder) (h : OnFloor S w) (u : Vec) :
    ∃ Jf K, w.Jf 2 = .ok Jf ∧ pre_factor_kkt f (engineProblem w Jf u).Q (engineProblem w Jf u).G (engineProblem w Jf u).F
        (engineProblem w Jf u).A = .ok K ∧
      ∀ (ds : List (Fin (w.contacts.length + 2 * w.contacts.length + w.contacts.length) → ℝ))
        (it : Iter (3 * w.bodies.length) (w.contacts.length + 2 * w.contacts.length + w.contacts.length)
          w.num_constraints) (gv : Vec), (∀ i, 0 < it.s i) → (∀ i, 0 < it.z i) →
        ∃ G, engineImpulseGrad f w Jf u K (factorHistory f K.R K.S_LU ds) it gv = some G := by
  have hl := floor_leans hS h
  have hJ : w.Jf 2 = .ok (JfLoop w.contacts 0 fun _ _ => 0) := if_neg (by simp)
  obtain ⟨K, hK, hret⟩ := C101_backward_returns f hf w h.inv.joints h.inv.contacts _ hJ u (h.solid hS)
    (floor_independent h) (by
      intro k hk
      obtain ⟨c, hc, -⟩ := h.contact
      rw [hc] at hk
      have : k = 0 := by simpa using hk
      subst this
      exact ⟨_, _, _, hl⟩)
  exact ⟨_, K, hJ, hK, hret⟩

/-- A world of this kind, with the contact found. -/
theorem slide_world (fl : Bool) (fnd : Finder) : ∃ w : World (Option Mat) Finder, OnFloor slideScene w ∧
    twist w.v 0 = ⟨0, 30, 0⟩ := by
  obtain ⟨w, -, hon, -, hv⟩ := C98_initial slideScene slide_valid (by norm_num [slideScene]) slideForces exactLcp 0 66 le_rfl
    (bouncePairs fl) (bouncePairs_one fl) (bouncePairs_valid fl) fnd (1 / 30) (1 / 10) (1 / 1000000) (by norm_num)
    (by norm_num) false
  exact ⟨w, hon, hv⟩

theorem slide_weights {w : World (Option Mat) Finder} (h : OnFloor slideScene w) :
    (finVec fun i => (slideIter w).z i / (slideIter w).s i) (w.contacts.length + 2 * 0) = 1 ∧
    (finVec fun i => (slideIter w).z i / (slideIter w).s i) (w.contacts.length + (2 * 0 + 1)) = 1 / 6 := by
  obtain ⟨c, hc, -⟩ := h.contact
  have hlen : w.contacts.length = 1 := by rw [hc]; rfl
  constructor
  · rw [finVec_at _ _ (by omega)]
    simp only [slideIter, hlen]
    norm_num [slideZ, slideS]
  · rw [finVec_at _ _ (by omega)]
    simp only [slideIter, hlen]
    norm_num [slideZ, slideS]

/-- The hypotheses of `C101_wrong_gradient` and `C101_spurious_gradient` are met: both gradients are returned, and both are
wrong. -/
example (fl : Bool) (fnd : Finder) :
    ∃ (w : World (Option Mat) Finder) (Jf : Mat)
      (K : Kkt (3 * w.bodies.length) (w.contacts.length + 2 * w.contacts.length + w.contacts.length) w.num_constraints)
      (G G' : Vec)
      (P : ℝ → Lcp (3 * w.bodies.length) (w.contacts.length + 2 * w.contacts.length + w.contacts.length) w.num_constraints)
      (v : ℝ → Iter (3 * w.bodies.length) (w.contacts.length + 2 * w.contacts.length + w.contacts.length) w.num_constraints)
      (dv : Iter (3 * w.bodies.length) (w.contacts.length + 2 * w.contacts.length + w.contacts.length) w.num_constraints)
      (D : ℝ), w.Jf 2 = .ok Jf ∧ engineImpulseGrad someBtrifact w Jf (slideU w Jf) K K.S_LU (slideIter w)
        (atBody 0 ⟨10, -1, 0⟩) = some G ∧
      engineImpulseGrad someBtrifact w Jf (slideU w Jf) K K.S_LU (slideIter w) (atBody 0 ⟨0, 0, -1⟩) = some G' ∧
      P 0 = engineProblem w Jf (slideU w Jf) ∧ v 0 = slideIter w ∧
      SolutionCurve P v (onlyP fun r => atBody 0 ⟨0, 0, 1⟩ r) dv ∧
      HasDerivAt (fun t => slip (0, -1) 10 (twist (fun r => -finVec (v t).x r) 0)) D 0 ∧ D ≠ 0 ∧ (twist G 0).y = 0 ∧
      (twist G' 0).x ≠ 0 := by
  obtain ⟨w, hon, -⟩ := slide_world fl fnd
  have hJ : w.Jf 2 = .ok (JfLoop w.contacts 0 fun _ _ => 0) := if_neg (by simp)
  obtain ⟨Jf, K, hJf, hK, hret⟩ := C101_ball_returns slideScene slide_valid someBtrifact someBtrifact_ok w hon
    (slideU w (JfLoop w.contacts 0 fun _ _ => 0))
  have : Jf = JfLoop w.contacts 0 fun _ _ => 0 := by
    rw [hJ] at hJf; injection hJf with h; exact h.symm
  subst this
  have hs : ∀ i, 0 < (slideIter w).s i := fun i => slideS_pos _
  have hz : ∀ i, 0 < (slideIter w).z i := fun i => slideZ_pos _
  have hl := floor_leans slide_valid hon
  obtain ⟨c, hc, htf⟩ := hon.contact
  have hc0 : w.contacts[0]'hl.contact = c := by simp only [hc, List.getElem_cons_zero]
  have hmu : meanFriction w.bodies (w.contacts[0]'hl.contact) ≠ 0 := by
    rw [hc0, hon.fric htf]; norm_num [slideScene, RollScene.μ]
  have hne : (finVec fun i => (slideIter w).z i / (slideIter w).s i) (w.contacts.length + 2 * 0) ≠
      (finVec fun i => (slideIter w).z i / (slideIter w).s i) (w.contacts.length + (2 * 0 + 1)) := by
    rw [(slide_weights hon).1, (slide_weights hon).2]; norm_num
  have t1 : (⟨slideScene.r, (tangent ((0 : ℝ), (-1 : ℝ))).1, (tangent ((0 : ℝ), (-1 : ℝ))).2⟩ : V3) = ⟨10, -1, 0⟩ := by
    apply V3.ext <;> norm_num [slideScene, tangent]
  obtain ⟨G, hG⟩ := hret [] (slideIter w) (atBody 0 ⟨10, -1, 0⟩) hs hz
  obtain ⟨G', hG'⟩ := hret [] (slideIter w) (atBody 0 ⟨0, 0, -1⟩) hs hz
  obtain ⟨P, v, dv, D, hP, hv, hcv, hder, hD, hsum⟩ := C101_wrong_gradient someBtrifact someBtrifact_ok w hon.inv.joints
    hon.inv.contacts _ hJ _ K hK [] (slideIter w) (slide_rows hon _ hJ) hs hz 0 0 (0, -1) slideScene.r hl hmu hne G
    (by rw [t1]; exact hG)
  obtain ⟨h0, -⟩ := C101_spurious_gradient someBtrifact someBtrifact_ok w hon.inv.joints hon.inv.contacts _ hJ _ K hK []
    (slideIter w) hs hz 0 0 (0, -1) slideScene.r hl hmu hne G' hG'
  rw [atBody_pair _ _ hl.body] at hsum h0
  refine ⟨w, _, K, G, G', P, v, dv, D, hJ, hG, hG', hP, hv, ?_, ?_, hD, ?_, ?_⟩
  · simpa using hcv
  · exact hder
  · simpa using hsum
  · intro h
    apply h0
    simp [h, tangent]

/-- The hypotheses of `C101_transposed` are met by the same curve. -/
example (fl : Bool) (fnd : Finder) :
    ∃ (w : World (Option Mat) Finder) (Jf : Mat)
      (K : Kkt (3 * w.bodies.length) (w.contacts.length + 2 * w.contacts.length + w.contacts.length) w.num_constraints)
      (P : ℝ → Lcp (3 * w.bodies.length) (w.contacts.length + 2 * w.contacts.length + w.contacts.length) w.num_constraints)
      (v : ℝ → Iter (3 * w.bodies.length) (w.contacts.length + 2 * w.contacts.length + w.contacts.length) w.num_constraints)
      (dv : Iter (3 * w.bodies.length) (w.contacts.length + 2 * w.contacts.length + w.contacts.length) w.num_constraints)
      (g : Grads (3 * w.bodies.length) (w.contacts.length + 2 * w.contacts.length + w.contacts.length) w.num_constraints),
      P 0 = engineProblem w Jf (slideU w Jf) ∧ SolutionCurve P v (onlyP fun r => atBody 0 ⟨0, 0, 1⟩ r) dv ∧
      lcpBackward someBtrifact (P 0) K (factorHistory someBtrifact K.R K.S_LU []) (v 0) (fun r => atBody 0 ⟨0, 0, 1⟩ r) = some g ∧
      g.dp = dv.x := by
  obtain ⟨w, hon, -⟩ := slide_world fl fnd
  have hJ : w.Jf 2 = .ok (JfLoop w.contacts 0 fun _ _ => 0) := if_neg (by simp)
  obtain ⟨Jf, K, hJf, hK, hret⟩ := C101_ball_returns slideScene slide_valid someBtrifact someBtrifact_ok w hon
    (slideU w (JfLoop w.contacts 0 fun _ _ => 0))
  have : Jf = JfLoop w.contacts 0 fun _ _ => 0 := by
    rw [hJ] at hJf; injection hJf with h; exact h.symm
  subst this
  set Jf := JfLoop w.contacts 0 fun _ _ => 0
  have hs : ∀ i, 0 < (slideIter w).s i := fun i => slideS_pos _
  have hz : ∀ i, 0 < (slideIter w).z i := fun i => slideZ_pos _
  obtain ⟨G, hG⟩ := hret [] (slideIter w) (fun r => -atBody 0 ⟨0, 0, 1⟩ r) hs hz
  obtain ⟨g, hg, -⟩ := Option.map_eq_some_iff.1 hG
  simp only [neg_neg] at hg
  have hg' := hg
  obtain ⟨S', hS', -⟩ := Option.map_eq_some_iff.1 hg'
  have hsym : (engineProblem w Jf (slideU w Jf)).Qᵀ = (engineProblem w Jf (slideU w Jf)).Q := by
    ext i j
    exact C07_mass_matrix_symm w j i j.isLt i.isLt
  have hw := C44_factor_and_solve someBtrifact someBtrifact_ok _ _ _ _ hsym K hK [] _
    (fun i => (div_pos (hz i) (hs i)).ne') S' hS' (fun r => atBody 0 ⟨0, 0, 1⟩ r) 0 0 0
  obtain ⟨P, v, hP, hv, hcv⟩ := C101_curve_exists _ _ (slide_rows hon Jf hJ) hs hz _ _ hw
  refine ⟨w, Jf, K, P, v, _, g, hP, hcv, by rw [hP, hv]; exact hg, ?_⟩
  exact C101_transposed someBtrifact someBtrifact_ok P v _ _ hcv (by rw [hv]; exact hs) (by rw [hv]; exact hz)
    (by rw [hP]; exact hsym) K (by rw [hP]; exact hK) [] g (by rw [hP, hv]; exact hg)

/-- The hypotheses of `C101_exact_load` are met: 1 more towards the floor takes 3/2 off the slip. -/
example (fl : Bool) (fnd : Finder) :
    ∃ (w : World (Option Mat) Finder) (v₁ v₂ l l' : Vec) (pn a b g pn' a' b' g' : ℕ → ℝ),
      ContactLaw w.bodies w.joints w.contacts (fun i => if i = 0 then ⟨0, 0, 1 / 3⟩ else 0) w.v v₁ l pn a b g ∧
      ContactLaw w.bodies w.joints w.contacts (fun i => if i = 0 then ⟨0, 0, 4 / 3⟩ else 0) w.v v₂ l' pn' a' b' g' ∧
      |slip (0, -1) 10 (twist v₂ 0)| = |slip (0, -1) 10 (twist v₁ 0)| - 3 / 2 := by
  obtain ⟨w, hon, hv⟩ := slide_world fl fnd
  have hl := floor_leans slide_valid hon
  obtain ⟨c, hc, htf⟩ := hon.contact
  have hc0 : w.contacts[0]'hl.contact = c := by simp only [hc, List.getElem_cons_zero]
  have hmu : meanFriction w.bodies (w.contacts[0]'hl.contact) = 1 / 2 := by
    rw [hc0, hon.fric htf]; norm_num [slideScene, RollScene.μ]
  obtain ⟨bm, bI⟩ := hon.ball
  have bm : (bodyAt w.bodies 0).mass = 1 := by rw [bm]; rfl
  have bI : (bodyAt w.bodies 0).ang_inertia = 50 := by rw [bI]; norm_num [slideScene]
  have hvj : ∀ r ∈ jointVels w.joints w.v, r = 0 := by
    obtain ⟨j, hj, hkj, hi1, hi2⟩ := hon.joint
    intro r hr
    rw [hj] at hr
    simp only [jointVels, List.flatMap_cons, List.flatMap_nil, List.append_nil, jointVel, hkj, hi1, hon.rest] at hr
    simpa using hr
  have laws : ∀ f : ℕ → V3, ∃ v' l pn a b g, ContactLaw w.bodies w.joints w.contacts f w.v v' l pn a b g := by
    intro f
    exact C74_friction_inelastic w hon.inv.joints hon.inv.contacts (hon.solid slide_valid)
      (by
        intro c' hc'
        rw [hc, List.mem_singleton] at hc'
        rw [hc', hon.fric htf]
        exact slide_valid.μ)
      (by
        intro c' hc'
        rw [hc, List.mem_singleton] at hc'
        subst hc'
        have hr := hon.rest
        have hl := hon.level
        have : normalVel c' w.v = 0 := by
          rcases htf.2.2 with ⟨e1, e2, e3, e4⟩ | ⟨e1, e2, e3, e4⟩
          · simp [normalVel, contactVel, e1, e2, e3, e4, hr, pointVel, Spec.inner, hl]
          · simp [normalVel, contactVel, e1, e2, e3, e4, hr, pointVel, Spec.inner, hl]
        rw [this, mul_zero]) f
  obtain ⟨v₁, l, pn, a, b, g, h⟩ := laws fun i => if i = 0 then ⟨0, 0, 1 / 3⟩ else 0
  obtain ⟨v₂, l', pn', a', b', g', h'⟩ := laws fun i => if i = 0 then ⟨0, 0, 4 / 3⟩ else 0
  refine ⟨w, v₁, v₂, l, l', pn, a, b, g, pn', a', b', g', h, h', ?_⟩
  have hpr : PressesOn (w.contacts[0]'hl.contact) w.v v₂ 0 (0, -1) slideScene.r := by
    obtain ⟨j, hj, hkj, hi1, hi2⟩ := hon.joint
    rw [hc0]
    refine floor_presses hon ?_ htf
    rw [← hi1]
    refine total_rest hkj fun x hx => h'.joints x ?_
    exact List.mem_flatMap.2 ⟨j, by rw [hj]; simp, hx⟩
  obtain ⟨hP', -⟩ := C97_rub _ _ _ _ _ _ _ _ _ _ _ h' 0 hl.contact 0 hl.body (0, -1) slideScene.r hl.unit hpr hl.free hl.only
    hl.mass
  have hpn : pn' 0 = 4 / 3 := by
    rw [hP', bm, hv]
    norm_num [lift, Spec.inner, freeTwist, hv, bm]
  have := C101_exact_load _ _ _ _ _ w.v v₁ v₂ _ _ _ _ _ _ _ _ _ _ h h' 0 0 (0, -1) slideScene.r hl hvj 1 (by norm_num)
    (by apply V3.ext <;> norm_num) (by rw [hmu]; norm_num)
    (by rw [hv]; norm_num [lift, Spec.inner, freeTwist, hv, bm])
    (by rw [hpn, hmu, bm, bI]; norm_num [slip, Spec.inner, tangent, freeTwist, hv, bm, bI, slideScene])
  rw [hmu, bm, bI] at this
  have e : slideScene.r = 10 := rfl
  rw [e] at this
  rw [this]
  norm_num

end LcpPhysics
