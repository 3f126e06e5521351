import Verif.Spec.Converge
import Verif.Lemmas.Converge
import Verif.Props.Flight
import Verif.Props.Bounce
import Verif.Props.UnitsRun

/-!
# C124: as the steps become shorter the simulated motion approaches Newton's, to first order, until something comes within the
contact distance
-/

noncomputable section

namespace LcpPhysics
open Spec Demos

/-- The world of a scene of circles after some steps of length `τ` in which nothing touched. -/
structure Gliding (τ ep : ℝ) (N : ℕ) (rad m I : ℕ → ℝ) (P V : ℕ → V3) (w : World (Option Mat) Finder) : Prop where
  inv : EngineInv w
  count : w.bodies.length = N
  joints : w.joints = []
  clear : w.contacts = []
  pars : w.dt = τ ∧ w.eps = ep ∧ w.post_stab = false
  body : ∀ k < N, (bodyAt w.bodies k).shape = .circle (rad k) ∧ (bodyAt w.bodies k).mass = m k ∧
    (bodyAt w.bodies k).ang_inertia = I k ∧ 0 < m k ∧ 0 < I k ∧ (bodyAt w.bodies k).p = P k ∧ twist w.v k = V k

theorem gliding_step {τ ep : ℝ} {N : ℕ} {rad m I : ℕ → ℝ} {P V P' V' : ℕ → V3} {H : ForceHeap} {f : ℕ → V3} {lcp : LcpSolver} {mi cfuel : ℕ}
    {nc : ℕ → List ℕ} {pairs : List Body → List (ℕ × ℕ)}
    (hp : ∀ bs, ∀ p ∈ pairs bs, p.1 < bs.length ∧ p.2 < bs.length ∧ p.1 ≠ p.2)
    {w : World (Option Mat) Finder} (h : Gliding τ ep N rad m I P V w) (hf : ∀ k < N, H.apply_forces k w.t = some (f k))
    (hfl : ∃ fl, forceCat H w.t N = .ok fl)
    (hV : ∀ k < N, V' k = V k + ⟨τ * (f k).r / I k, τ * (f k).x / m k, τ * (f k).y / m k⟩)
    (hP : ∀ k < N, P' k = P k + τ • V' k)
    (hs : ∀ k < N, ∀ l < N, k ≠ l → k ∉ nc l → rad k + rad l + ep < len ((P' k).xy - (P' l).xy)) (fuel : ℕ) :
    ∃ w', w.step_dt (pdipmEnv 2 H lcp mi (rejectNan (diffCollide cfuel nc pairs))) (fuel + 1) w.dt = .done w' ∧
      Gliding τ ep N rad m I P' V' w' ∧ w'.t = w.t + τ := by
  obtain ⟨fl, hfl⟩ := hfl
  have hlen := h.count
  have hsolid : ∀ b ∈ w.bodies, 0 < b.mass ∧ 0 < b.ang_inertia := by
    intro b hb
    obtain ⟨q, hq, rfl⟩ := List.getElem_of_mem hb
    obtain ⟨-, e1, e2, e3, e4, -⟩ := h.body q (by omega)
    rw [show bodyAt w.bodies q = w.bodies[q] by simp [bodyAt, List.getD_eq_getElem?_getD, hq]] at e1 e2
    rw [e1, e2]; exact ⟨e3, e4⟩
  obtain ⟨⟨e, v⟩, hr⟩ := C35_no_contact_succeeds 2 H lcp mi w w.dt h.inv.joints hsolid
    (C71_tree_independent w h.inv.joints (by rw [h.joints]; exact tree_nil)) h.clear fl (by rw [hlen]; exact hfl)
  obtain ⟨fl', l, hfl', hl⟩ := C35_no_contact_solution 2 H lcp mi w w.dt e v h.inv.joints h.clear h.inv.cache.ok hr
  rw [hlen, hfl] at hfl'
  injection hfl' with hfl'
  subst hfl'
  have hv : ∀ k < N, twist v k = V' k := by
    intro k hk
    obtain ⟨-, e1, e2, e3, e4, -, e6⟩ := h.body k hk
    obtain ⟨k1, k2, k3⟩ := C78_isolated_body w.bodies w.joints [] _ w.v v l 0 0 0 0 hl k (by omega)
      (by rw [h.joints]; simp) (by simp) (by rw [e1]; exact e3) (by rw [e2]; exact e4)
    have hfk : impulse fl w.dt k = τ • f k := by
      obtain ⟨l1, l2⟩ := forceCat_length hfl
      have := l2 k hk (by omega)
      rw [hf k hk] at this
      injection this with this
      unfold impulse
      rw [h.pars.1, this]
      simp [List.getD_eq_getElem?_getD, show k < fl.length by omega]
    rw [hfk, e2] at k1
    rw [hfk, e1] at k2 k3
    rw [hV k hk, ← e6]
    apply V3.ext
    · show v (3 * k) = w.v (3 * k) + _
      rw [k1]; simp
    · show v (3 * k + 1) = w.v (3 * k + 1) + _
      rw [k2]; simp
    · show v (3 * k + 2) = w.v (3 * k + 2) + _
      rw [k3]; simp
  set w1 : World (Option Mat) Finder := ({ w with eng := e } : World (Option Mat) Finder).set_v v with hw1
  have hl1 : w1.bodies.length = N := by rw [hw1, set_v_length]; exact hlen
  have hb1 : ∀ k < N, bodyAt (w1.bodies.map fun b => b.move w.dt) k = ({ bodyAt w.bodies k with v := V' k } : Body).move w.dt := by
    intro k hk
    rw [bodyAt_map _ _ _ (by omega), hw1, set_v_at _ _ _ (by show k < w.bodies.length; omega), hv k hk]
  have hshape : ∀ k < N, (bodyAt (w1.bodies.map fun b => b.move w.dt) k).shape = .circle (rad k) := by
    intro k hk
    rw [hb1 k hk]
    exact run_circle ({ bodyAt w.bodies k with v := V' k } : Body) (h.body k hk).1 [.move w.dt]
  have hpos : ∀ k < N, (bodyAt (w1.bodies.map fun b => b.move w.dt) k).p = P' k := by
    intro k hk
    rw [hb1 k hk, move_p, hP k hk, h.pars.1]
    show (bodyAt w.bodies k).p + _ = _
    rw [(h.body k hk).2.2.2.2.2.1]
  have hcol : rejectNan (diffCollide cfuel nc pairs) w.eps w.fnd (w1.bodies.map fun b => b.move w.dt) = .ok (w.fnd, []) := by
    apply circles_silent
    · exact hp _
    · intro k hk
      rw [List.length_map, hl1] at hk
      unfold Body.isCircle
      rw [hshape k hk]
    · intro k hk l hl' hne hx
      rw [List.length_map, hl1] at hk hl'
      have := hs k hk l hl' hne hx
      unfold Body.rad Body.pos
      rw [hshape k hk, hshape l hl', hpos k hk, hpos l hl', h.pars.2.1]
      exact this
  have hstep := step_first (pdipmEnv 2 H lcp mi (rejectNan (diffCollide cfuel nc pairs))) fuel w h.inv.good w.dt h.pars.2.2 e v hr
    w.fnd [] hcol (by simp)
  refine ⟨_, hstep, ?_, ?_⟩
  · have hinv' := step_inv (C12_finder_ok cfuel nc pairs hp) h.inv hstep
    have hst := step_dt_statics h.inv.good hstep
    have hcon := fun i hi => posed_consts (posed_step h.inv.good hstep) (i := i) hi
    refine ⟨hinv', ?_, ?_, rfl, h.pars, ?_⟩
    · show (w1.bodies.map _).length = N
      rw [List.length_map, hl1]
    · exact List.map_eq_nil_iff.1 (hst.2.trans (by rw [h.joints]; rfl))
    · intro k hk
      obtain ⟨-, e1, e2, e3, e4, -⟩ := h.body k hk
      refine ⟨hshape k hk, ?_, ?_, e3, e4, hpos k hk, hv k hk⟩
      · rw [(hcon k (by omega)).1, e1]
      · rw [(hcon k (by omega)).2, e2]
  · show w.t + w.dt = _
    rw [h.pars.1]

theorem gliding_prefix {τ ep : ℝ} (hτ : 0 < τ) {N : ℕ} {rad m I : ℕ → ℝ} (P V : ℕ → ℕ → V3) {H : ForceHeap} (f : ℕ → ℝ → V3) {lcp : LcpSolver} {mi cfuel : ℕ}
    {nc : ℕ → List ℕ} {pairs : List Body → List (ℕ × ℕ)}
    (hp : ∀ bs, ∀ p ∈ pairs bs, p.1 < bs.length ∧ p.2 < bs.length ∧ p.1 ≠ p.2)
    (hf : ∀ k < N, ∀ t, H.apply_forces k t = some (f k t)) (hfl : ForcesOk H N)
    (hV : ∀ n, ∀ k < N, V (n + 1) k = V n k +
      ⟨τ * (f k (n * τ)).r / I k, τ * (f k (n * τ)).x / m k, τ * (f k (n * τ)).y / m k⟩)
    (hP : ∀ n, ∀ k < N, P (n + 1) k = P n k + τ • V (n + 1) k) (M : ℕ)
    (hs : ∀ n ≤ M, ∀ k < N, ∀ l < N, k ≠ l → k ∉ nc l → rad k + rad l + ep < len ((P n k).xy - (P n l).xy)) (fuel : ℕ)
    (T : ℝ) (hT : M * τ ≤ T) :
    ∀ (i j : ℕ) (w : World (Option Mat) Finder), j + i = M → Gliding τ ep N rad m I (P j) (V j) w → w.t = j * τ →
      ∃ w', (∀ n, runWorld (pdipmEnv 2 H lcp mi (rejectNan (diffCollide cfuel nc pairs))) (fuel + 1) T (n + i) w =
          runWorld (pdipmEnv 2 H lcp mi (rejectNan (diffCollide cfuel nc pairs))) (fuel + 1) T n w') ∧
        Gliding τ ep N rad m I (P M) (V M) w' ∧ w'.t = M * τ := by
  intro i
  induction i with
  | zero =>
    intro j w hj h ht
    obtain rfl : j = M := by omega
    exact ⟨w, fun n => rfl, h, ht⟩
  | succ i ih =>
    intro j w hj h ht
    obtain ⟨w1, h1, h2, h3⟩ := gliding_step (lcp := lcp) (mi := mi) (cfuel := cfuel) (nc := nc) hp h (f := fun k => f k (j * τ))
      (fun k hk => by rw [ht]; exact hf k hk _) (hfl _) (hV j) (hP j) (hs (j + 1) (by omega)) fuel
    obtain ⟨w', h4, h5⟩ := ih (j + 1) w1 (by omega) h2 (by rw [h3, ht]; push_cast; ring)
    refine ⟨w', fun n => ?_, h5⟩
    rw [← h4 n, ← Nat.add_assoc]
    conv_lhs => unfold runWorld
    rw [if_pos (by
      rw [ht]
      have : (j : ℝ) < M := by exact_mod_cast (by omega : j < M)
      nlinarith)]
    simp only [World.step, Bool.false_eq_true, if_false]
    rw [h1]
    rfl


/-- C124: the poses and velocities of free flight differ from those of Newton's motion by at most a multiple of the step `h`. -/
theorem C124_flight (m I : ℝ) (f : ℝ → V3) (T A L : ℝ) (x u : ℝ → V3) (hx : NewtonMotion m I f T x u) (hf : Gentle m I f T A L)
    (hL : 0 ≤ L) (h : ℝ) (hh : 0 ≤ h) (n : ℕ) (hn : n * h ≤ T) :
    Within (L * (n * h) * h) (flightVel h m I (fun j => f (j * h)) (u 0) n) (u (n * h)) ∧
    Within (n * h * (A + L * (n * h)) * h) (flightPose h m I (fun j => f (j * h)) (x 0) (u 0) n) (x (n * h)) := by
  have a1 := euler_error hx.turns hx.torque (fun t ht => (hf.bound t ht).1) (fun s hs t ht => (hf.change s hs t ht).1) hL hh
    (fun n => (flightVel h m I (fun j => f (j * h)) (u 0) n).r) (fun n => (flightPose h m I (fun j => f (j * h)) (x 0) (u 0) n).r)
    rfl rfl (fun n => by simp [flightVel, mul_div_assoc]) (fun n => by simp [flightPose]) n hn
  have a2 := euler_error hx.right hx.pushRight (fun t ht => (hf.bound t ht).2.1) (fun s hs t ht => (hf.change s hs t ht).2.1) hL hh
    (fun n => (flightVel h m I (fun j => f (j * h)) (u 0) n).x) (fun n => (flightPose h m I (fun j => f (j * h)) (x 0) (u 0) n).x)
    rfl rfl (fun n => by simp [flightVel, mul_div_assoc]) (fun n => by simp [flightPose]) n hn
  have a3 := euler_error hx.down hx.pushDown (fun t ht => (hf.bound t ht).2.2) (fun s hs t ht => (hf.change s hs t ht).2.2) hL hh
    (fun n => (flightVel h m I (fun j => f (j * h)) (u 0) n).y) (fun n => (flightPose h m I (fun j => f (j * h)) (x 0) (u 0) n).y)
    rfl rfl (fun n => by simp [flightVel, mul_div_assoc]) (fun n => by simp [flightPose]) n hn
  exact ⟨⟨a1.1, a2.1, a3.1⟩, ⟨a1.2, a2.2, a3.2⟩⟩

/-- A scene of circles that are apart: the constructor returns a world without contacts. -/
theorem circles_start (bs : List Body) (hne : bs ≠ []) (rad : ℕ → ℝ) (hc : ∀ k < bs.length, (bodyAt bs k).shape = .circle (rad k))
    (hm : ∀ k < bs.length, 0 < (bodyAt bs k).mass ∧ 0 < (bodyAt bs k).ang_inertia) (H : ForceHeap) (lcp : LcpSolver) (mi cfuel : ℕ)
    (nc : ℕ → List ℕ) (pairs : List Body → List (ℕ × ℕ))
    (hp : ∀ bs, ∀ p ∈ pairs bs, p.1 < bs.length ∧ p.2 < bs.length ∧ p.1 ≠ p.2) (fnd : Finder) (h eps tol : ℝ) (strict : Bool)
    (hs : ∀ k < bs.length, ∀ l < bs.length, k ≠ l → k ∉ nc l →
      rad k + rad l + eps < len ((bodyAt bs k).p.xy - (bodyAt bs l).p.xy)) :
    ∃ w, mkWorld (pdipmEnv 2 H lcp mi (rejectNan (diffCollide cfuel nc pairs))) none fnd bs [] h eps tol false strict = .done w ∧
      Gliding h eps bs.length rad (fun k => (bodyAt bs k).mass) (fun k => (bodyAt bs k).ang_inertia) (fun k => (bodyAt bs k).p)
        (fun k => (bodyAt bs k).v) w ∧ w.t = 0 := by
  have hcol : rejectNan (diffCollide cfuel nc pairs) eps fnd bs = .ok (fnd, []) := by
    apply circles_silent _ _ _ _ _ _ (hp bs)
    · intro k hk; unfold Body.isCircle; rw [hc k hk]
    · intro k hk l hl hkl hx
      have := hs k hk l hl hkl hx
      unfold Body.rad Body.pos
      rw [hc k hk, hc l hl]
      exact this
  set W := initWorld (none : Option Mat) fnd bs [] h eps tol false strict with hW
  have hvel : W.bodies = bs := by
    apply List.ext_getElem
    · simp [W, initWorld, World.set_v]
    · intro i h1 h2
      simp only [W, initWorld, World.set_v, List.getElem_map, List.getElem_zipIdx]
      rw [Nat.zero_add, cat3_slice _ i (by simpa using h2), List.getElem_map]
  have hmk : mkWorld (pdipmEnv 2 H lcp mi (rejectNan (diffCollide cfuel nc pairs))) none fnd bs [] h eps tol false strict =
      .done { W with contacts := [], fnd := fnd } := by
    unfold mkWorld
    rw [if_neg (fun h0 => hne (List.length_eq_zero_iff.1 h0)), if_pos (by simp)]
    unfold World.find_contacts
    have : (pdipmEnv 2 H lcp mi (rejectNan (diffCollide cfuel nc pairs))).collide W.eps W.fnd W.bodies = .ok (fnd, []) := by
      rw [hvel]; exact hcol
    rw [this]
    simp only [Run.bind]
    cases strict
    · rfl
    · simp only [if_true]
      rw [if_pos]
      intro c hc
      cases hc
  obtain ⟨q1, q2, q3, q4, q5, -, q7, -⟩ := mkWorld_done (C12_finder_ok cfuel nc pairs hp) (by
    intro b hb
    obtain ⟨k, hk, rfl⟩ := List.getElem_of_mem hb
    have := hc k hk
    rw [show bodyAt bs k = bs[k] by simp [bodyAt, List.getD_eq_getElem?_getD, hk]] at this
    unfold Body.RectForm
    rw [this]; trivial) (by simp) (by simp) hmk
  refine ⟨_, hmk, ⟨q1, congrArg List.length hvel, q3, rfl, ⟨rfl, q5, q7⟩, fun k hk => ?_⟩, rfl⟩
  have hv : twist W.v k = (bodyAt bs k).v := by
    have := q1.good.vel k (by show k < W.bodies.length; rw [hvel]; exact hk)
    rw [← slice3_twist]
    refine this.symm.trans ?_
    simp [bodyAt, List.getD_eq_getElem?_getD, hvel, hk]
  have hb : bodyAt W.bodies k = bodyAt bs k := by rw [hvel]
  show (bodyAt W.bodies k).shape = _ ∧ (bodyAt W.bodies k).mass = _ ∧ (bodyAt W.bodies k).ang_inertia = _ ∧ _ ∧ _ ∧
    (bodyAt W.bodies k).p = _ ∧ twist W.v k = _
  rw [hb]
  exact ⟨hc k hk, rfl, rfl, (hm k hk).1, (hm k hk).2, rfl, hv⟩

/-- C124: a scene of circles without constraints.  If in Newton's motion all pairs that may touch stay farther apart than the contact
distance `eps`, by more than `δ`, then with short enough steps the simulation returns, never sees a contact, and ends with poses
and velocities that are wrong by at most a multiple of the step. -/
theorem C124_run (bs : List Body) (hne : bs ≠ []) (rad : ℕ → ℝ) (hc : ∀ k < bs.length, (bodyAt bs k).shape = .circle (rad k))
    (hm : ∀ k < bs.length, 0 < (bodyAt bs k).mass ∧ 0 < (bodyAt bs k).ang_inertia) (H : ForceHeap) (f : ℕ → ℝ → V3)
    (hf : ∀ k < bs.length, ∀ t, H.apply_forces k t = some (f k t)) (hfl : ForcesOk H bs.length) (lcp : LcpSolver)
    (mi fuel cfuel : ℕ) (nc : ℕ → List ℕ) (pairs : List Body → List (ℕ × ℕ))
    (hp : ∀ bs, ∀ p ∈ pairs bs, p.1 < bs.length ∧ p.2 < bs.length ∧ p.1 ≠ p.2) (fnd : Finder) (eps tol : ℝ) (strict : Bool)
    (T A L δ : ℝ) (hT : 0 < T) (hA : 0 ≤ A) (hL : 0 ≤ L) (x u : ℕ → ℝ → V3)
    (hx : ∀ k < bs.length, NewtonMotion (bodyAt bs k).mass (bodyAt bs k).ang_inertia (f k) T (x k) (u k))
    (hg : ∀ k < bs.length, Gentle (bodyAt bs k).mass (bodyAt bs k).ang_inertia (f k) T A L)
    (h0 : ∀ k < bs.length, x k 0 = (bodyAt bs k).p ∧ u k 0 = (bodyAt bs k).v)
    (hs : ∀ t ∈ Set.Icc 0 T, ∀ k < bs.length, ∀ l < bs.length, k ≠ l → k ∉ nc l →
      rad k + rad l + eps + δ < len ((x k t).xy - (x l t).xy))
    (M : ℕ) (hM : 0 < M) (hδ : 4 * (T * (A + L * T) * (T / M)) ≤ δ) :
    ∃ w0 w, mkWorld (pdipmEnv 2 H lcp mi (rejectNan (diffCollide cfuel nc pairs))) none fnd bs [] (T / M) eps tol false strict =
        .done w0 ∧
      runWorld (pdipmEnv 2 H lcp mi (rejectNan (diffCollide cfuel nc pairs))) (fuel + 1) T M w0 = .done w ∧
      w.t = T ∧ w.contacts = [] ∧ w.bodies.length = bs.length ∧
      ∀ k < bs.length, Within (T * (A + L * T) * (T / M)) (bodyAt w.bodies k).p (x k T) ∧
        Within (L * T * (T / M)) (bodyAt w.bodies k).v (u k T) := by
  have hM' : (0 : ℝ) < M := by exact_mod_cast hM
  set h := T / M with hh
  have hpos : 0 < h := div_pos hT hM'
  have hMh : (M : ℝ) * h = T := by rw [hh]; field_simp
  have hδ0 : 0 ≤ δ := le_trans (by positivity) hδ
  obtain ⟨w0, s1, s2, s3⟩ := circles_start bs hne rad hc hm H lcp mi cfuel nc pairs hp fnd h eps tol strict (by
    intro k hk l hl hkl hn
    have := hs 0 ⟨le_rfl, hT.le⟩ k hk l hl hkl hn
    rw [(h0 k hk).1, (h0 l hl).1] at this
    linarith)
  have herr : ∀ n ≤ M, ∀ k < bs.length,
      Within (L * T * h) (flightVel h (bodyAt bs k).mass (bodyAt bs k).ang_inertia (fun j => f k (j * h)) (bodyAt bs k).v n) (u k (n * h)) ∧
      Within (T * (A + L * T) * h)
        (flightPose h (bodyAt bs k).mass (bodyAt bs k).ang_inertia (fun j => f k (j * h)) (bodyAt bs k).p (bodyAt bs k).v n)
        (x k (n * h)) := by
    intro n hn k hk
    have hn' : (n : ℝ) * h ≤ T := by
      rw [← hMh]; exact mul_le_mul_of_nonneg_right (by exact_mod_cast hn) hpos.le
    have hn0 : 0 ≤ (n : ℝ) * h := by positivity
    obtain ⟨q1, q2⟩ := C124_flight _ _ _ T A L _ _ (hx k hk) (hg k hk) hL h hpos.le n hn'
    rw [(h0 k hk).1, (h0 k hk).2] at q2
    rw [(h0 k hk).2] at q1
    have b1 : L * (n * h) * h ≤ L * T * h :=
      mul_le_mul_of_nonneg_right (mul_le_mul_of_nonneg_left hn' hL) hpos.le
    have b2 : n * h * (A + L * (n * h)) * h ≤ T * (A + L * T) * h := by
      apply mul_le_mul_of_nonneg_right _ hpos.le
      apply mul_le_mul hn' _ (by positivity) hT.le
      have := mul_le_mul_of_nonneg_left hn' hL
      linarith
    exact ⟨⟨q1.1.trans b1, q1.2.1.trans b1, q1.2.2.trans b1⟩, ⟨q2.1.trans b2, q2.2.1.trans b2, q2.2.2.trans b2⟩⟩
  obtain ⟨w, r1, r2, r3⟩ := gliding_prefix hpos (N := bs.length) (rad := rad)
    (fun n k => flightPose h (bodyAt bs k).mass (bodyAt bs k).ang_inertia (fun j => f k (j * h)) (bodyAt bs k).p (bodyAt bs k).v n)
    (fun n k => flightVel h (bodyAt bs k).mass (bodyAt bs k).ang_inertia (fun j => f k (j * h)) (bodyAt bs k).v n)
    f (lcp := lcp) (mi := mi) (cfuel := cfuel) (nc := nc) hp hf hfl (fun n k hk => rfl) (fun n k hk => rfl) M
    (by
      intro n hn k hk l hl hkl hnc
      have hn' : (n : ℝ) * h ≤ T := by
        rw [← hMh]; exact mul_le_mul_of_nonneg_right (by exact_mod_cast hn) hpos.le
      have q := apart_within (herr n hn k hk).2 (herr n hn l hl).2
      have := hs (n * h) ⟨by positivity, hn'⟩ k hk l hl hkl hnc
      linarith) fuel T hMh.le M 0 w0 (by omega) s2 (by rw [s3]; simp)
  refine ⟨w0, w, s1, ?_, r3.trans hMh, r2.clear, r2.count, fun k hk => ?_⟩
  · have := r1 0
    rw [Nat.zero_add] at this
    rw [this]
    unfold runWorld
    rw [if_neg (by rw [r3, hMh]; exact lt_irrefl _)]
  · obtain ⟨-, -, -, -, -, e1, e2⟩ := r2.body k hk
    obtain ⟨q1, q2⟩ := herr M le_rfl k hk
    rw [hMh] at q1 q2
    have hv : (bodyAt w.bodies k).v = twist w.v k := by
      have := r2.inv.good.vel k (by rw [r2.count]; exact hk)
      rw [← slice3_twist, ← this]
      simp [bodyAt, List.getD_eq_getElem?_getD, show k < w.bodies.length by rw [r2.count]; exact hk]
    rw [e1, hv, e2]
    exact ⟨q2, q1⟩

/-- C124: so the simulated motion converges to Newton's. -/
theorem C124_converges (bs : List Body) (hne : bs ≠ []) (rad : ℕ → ℝ) (hc : ∀ k < bs.length, (bodyAt bs k).shape = .circle (rad k))
    (hm : ∀ k < bs.length, 0 < (bodyAt bs k).mass ∧ 0 < (bodyAt bs k).ang_inertia) (H : ForceHeap) (f : ℕ → ℝ → V3)
    (hf : ∀ k < bs.length, ∀ t, H.apply_forces k t = some (f k t)) (hfl : ForcesOk H bs.length) (lcp : LcpSolver)
    (mi fuel cfuel : ℕ) (nc : ℕ → List ℕ) (pairs : List Body → List (ℕ × ℕ))
    (hp : ∀ bs, ∀ p ∈ pairs bs, p.1 < bs.length ∧ p.2 < bs.length ∧ p.1 ≠ p.2) (fnd : Finder) (eps tol : ℝ) (strict : Bool)
    (T A L δ : ℝ) (hT : 0 < T) (hA : 0 ≤ A) (hL : 0 ≤ L) (hδ : 0 < δ) (x u : ℕ → ℝ → V3)
    (hx : ∀ k < bs.length, NewtonMotion (bodyAt bs k).mass (bodyAt bs k).ang_inertia (f k) T (x k) (u k))
    (hg : ∀ k < bs.length, Gentle (bodyAt bs k).mass (bodyAt bs k).ang_inertia (f k) T A L)
    (h0 : ∀ k < bs.length, x k 0 = (bodyAt bs k).p ∧ u k 0 = (bodyAt bs k).v)
    (hs : ∀ t ∈ Set.Icc 0 T, ∀ k < bs.length, ∀ l < bs.length, k ≠ l → k ∉ nc l →
      rad k + rad l + eps + δ < len ((x k t).xy - (x l t).xy)) (ε : ℝ) (hε : 0 < ε) :
    ∃ M0 : ℕ, ∀ M : ℕ, M0 ≤ M → ∃ w0 w,
      mkWorld (pdipmEnv 2 H lcp mi (rejectNan (diffCollide cfuel nc pairs))) none fnd bs [] (T / M) eps tol false strict =
        .done w0 ∧
      runWorld (pdipmEnv 2 H lcp mi (rejectNan (diffCollide cfuel nc pairs))) (fuel + 1) T M w0 = .done w ∧
      w.t = T ∧ w.contacts = [] ∧ w.bodies.length = bs.length ∧
      ∀ k < bs.length, Within ε (bodyAt w.bodies k).p (x k T) ∧ Within ε (bodyAt w.bodies k).v (u k T) := by
  set E := T * (A + L * T) * T with hE
  set E' := L * T * T with hE'
  have hE0 : 0 ≤ E := by positivity
  have hE0' : 0 ≤ E' := by positivity
  obtain ⟨N, hN⟩ := exists_nat_gt (4 * E / δ + E / ε + E' / ε)
  refine ⟨N + 1, fun M hM => ?_⟩
  have hM0 : (0 : ℝ) < M := by exact_mod_cast (by omega : 0 < M)
  have hMN : (N : ℝ) ≤ M := by exact_mod_cast (by omega : N ≤ M)
  have p1 : 0 ≤ 4 * E / δ := by positivity
  have p2 : 0 ≤ E / ε := by positivity
  have p3 : 0 ≤ E' / ε := by positivity
  have k1 : T * (A + L * T) * (T / M) = E / M := by rw [hE]; ring
  have k2 : L * T * (T / M) = E' / M := by rw [hE']; ring
  have b1 : 4 * (E / M) ≤ δ := by
    have : 4 * E / δ ≤ M := by linarith
    rw [div_le_iff₀ hδ] at this
    rw [← mul_div_assoc, div_le_iff₀ hM0]; linarith
  have b2 : E / M ≤ ε := by
    have : E / ε ≤ M := by linarith
    rw [div_le_iff₀ hε] at this
    rw [div_le_iff₀ hM0]; linarith
  have b3 : E' / M ≤ ε := by
    have : E' / ε ≤ M := by linarith
    rw [div_le_iff₀ hε] at this
    rw [div_le_iff₀ hM0]; linarith
  obtain ⟨w0, w, r1, r2, r3, r4, r5, r6⟩ := C124_run bs hne rad hc hm H f hf hfl lcp mi fuel cfuel nc pairs hp fnd eps tol strict T A L δ
    hT hA hL x u hx hg h0 hs M (by omega) (by rw [k1]; exact b1)
  refine ⟨w0, w, r1, r2, r3, r4, r5, fun k hk => ?_⟩
  obtain ⟨⟨c1, c2, c3⟩, ⟨d1, d2, d3⟩⟩ := r6 k hk
  rw [k1] at c1 c2 c3
  rw [k2] at d1 d2 d3
  exact ⟨⟨c1.trans b2, c2.trans b2, c3.trans b2⟩, ⟨d1.trans b3, d2.trans b3, d3.trans b3⟩⟩

/-- C124: first order is what one gets: under a constant force the velocities are exact and the poses are ahead by half a step times
the velocity gained. -/
theorem C124_constant (m I : ℝ) (F : V3) (T : ℝ) (x u : ℝ → V3) (hx : NewtonMotion m I (fun _ => F) T x u)
    (h : ℝ) (hh : 0 ≤ h) (n : ℕ) (hn : n * h ≤ T) :
    flightVel h m I (fun _ => F) (u 0) n = u (n * h) ∧
    flightPose h m I (fun _ => F) (x 0) (u 0) n =
      x (n * h) + ⟨h / 2 * (n * h * (F.r / I)), h / 2 * (n * h * (F.x / m)), h / 2 * (n * h * (F.y / m))⟩ := by
  have hn0 : 0 ≤ (n : ℝ) * h := by positivity
  have key : ∀ (y s : ℝ → ℝ) (a : ℝ), (∀ t ∈ Set.Icc 0 T, HasDerivWithinAt y (s t) (Set.Icc 0 T) t) →
      (∀ t ∈ Set.Icc 0 T, HasDerivWithinAt s a (Set.Icc 0 T) t) → ∀ t ∈ Set.Icc 0 T,
        s t = s 0 + t * a ∧ y t = y 0 + t * s 0 + t ^ 2 / 2 * a := by
    intro y s a hy hs t ht
    have hsp : ∀ t ∈ Set.Icc 0 T, s t = s 0 + t * a := by
      intro t ht
      have := change_within hs le_rfl ht.1 ht.2 (c := a) (C := 0) (fun r _ => by simp)
      rw [zero_mul] at this
      have := abs_nonpos_iff.1 this
      linarith
    refine ⟨hsp t ht, ?_⟩
    have hd : ∀ r ∈ Set.Icc 0 T, HasDerivWithinAt (fun r => y r - a * (r ^ 2 / 2)) (s r - a * r) (Set.Icc 0 T) r := by
      intro r hr
      have h2 := ((((hasDerivAt_id r).pow 2).div_const 2).const_mul a).hasDerivWithinAt (s := Set.Icc 0 T)
      refine ((hy r hr).sub h2).congr_deriv ?_
      simp
    have := change_within hd le_rfl ht.1 ht.2 (c := s 0) (C := 0) (fun r hr => by
      rw [hsp r ⟨hr.1, hr.2.trans ht.2⟩, show s 0 + r * a - a * r - s 0 = 0 by ring, abs_zero])
    rw [zero_mul] at this
    have := abs_nonpos_iff.1 this
    simp at this
    linarith
  have mem : (n : ℝ) * h ∈ Set.Icc 0 T := ⟨hn0, hn⟩
  obtain ⟨r1, r2⟩ := key _ _ _ hx.turns hx.torque _ mem
  obtain ⟨x1, x2⟩ := key _ _ _ hx.right hx.pushRight _ mem
  obtain ⟨y1, y2⟩ := key _ _ _ hx.down hx.pushDown _ mem
  have hvel : ∀ n : ℕ, flightVel h m I (fun _ => F) (u 0) n =
      u 0 + ⟨n * h * (F.r / I), n * h * (F.x / m), n * h * (F.y / m)⟩ := by
    intro n
    induction n with
    | zero => apply V3.ext <;> simp [flightVel]
    | succ n ih => simp only [flightVel]; rw [ih]; apply V3.ext <;> simp <;> ring
  have hpos : ∀ n : ℕ, flightPose h m I (fun _ => F) (x 0) (u 0) n = x 0 + (n * h : ℝ) • u 0 +
      ⟨h ^ 2 * (n * (n + 1) / 2) * (F.r / I), h ^ 2 * (n * (n + 1) / 2) * (F.x / m), h ^ 2 * (n * (n + 1) / 2) * (F.y / m)⟩ := by
    intro n
    induction n with
    | zero => apply V3.ext <;> simp [flightPose]
    | succ n ih => simp only [flightPose]; rw [ih, hvel]; apply V3.ext <;> simp <;> ring
  constructor
  · rw [hvel]
    apply V3.ext
    · show (u 0).r + _ = _; rw [r1]
    · show (u 0).x + _ = _; rw [x1]
    · show (u 0).y + _ = _; rw [y1]
  · rw [hpos]
    apply V3.ext
    · simp; rw [r2]; ring
    · simp; rw [x2]; ring
    · simp; rw [y2]; ring

/-- C124: the impulses of forces.py, which push until the time 1/10, push for whole steps: the velocity gained is that of a push that
lasts until the first end of a step not before 1/10, less than one step longer. -/
theorem C124_impulse (c m I : ℝ) (f : ℝ → V3) (hf : ∀ t, (Force.external vert_impulse c).force t = some (f t)) (v : V3) (h : ℝ)
    (hh : 0 < h) (n : ℕ) (hn : 1 / 10 ≤ n * h) :
    ∃ k : ℕ, flightVel h m I (fun j => f (j * h)) v n = v + ⟨0, 0, k * h * (c / m)⟩ ∧ 1 / 10 ≤ k * h ∧ k * h < 1 / 10 + h := by
  have hv : ∀ t, f t = ⟨c * (vert_impulse t).r, c * (vert_impulse t).x, c * (vert_impulse t).y⟩ := by
    intro t
    have := hf t
    rw [C56_multiplier] at this
    injection this with this
    exact this.symm
  have key : ∀ n : ℕ, flightVel h m I (fun j => f (j * h)) v n = v + ⟨0, 0, (min n ⌈1 / 10 / h⌉₊ : ℕ) * h * (c / m)⟩ := by
    intro n
    induction n with
    | zero => apply V3.ext <;> simp [flightVel]
    | succ n ih =>
      simp only [flightVel]
      rw [ih, hv]
      rcases lt_or_ge ((n : ℝ) * h) (1 / 10) with h1 | h1
      · rw [((C56_impulses _).1 h1).1]
        have h2 : n < ⌈1 / 10 / h⌉₊ := by
          rw [Nat.lt_ceil, lt_div_iff₀ hh]; exact h1
        rw [min_eq_left h2.le, min_eq_left (by omega : n + 1 ≤ ⌈1 / 10 / h⌉₊)]
        apply V3.ext
        · simp
        · simp
        · simp; ring
      · rw [((C56_impulses _).2 h1).1]
        have h2 : ⌈1 / 10 / h⌉₊ ≤ n := by
          rw [Nat.ceil_le, div_le_iff₀ hh]; exact h1
        rw [min_eq_right h2, min_eq_right (by omega : ⌈1 / 10 / h⌉₊ ≤ n + 1)]
        apply V3.ext <;> simp
  have hk : ⌈1 / 10 / h⌉₊ ≤ n := by
    rw [Nat.ceil_le, div_le_iff₀ hh]; exact hn
  refine ⟨⌈1 / 10 / h⌉₊, by rw [key, min_eq_right hk], ?_, ?_⟩
  · have := Nat.le_ceil (1 / 10 / h)
    rwa [div_le_iff₀ hh] at this
  · have := Nat.ceil_lt_add_one (a := 1 / 10 / h) (by positivity)
    have := mul_lt_mul_of_pos_right this hh
    rw [add_mul, div_mul_cancel₀ _ hh.ne'] at this
    linarith

/-- A ball that turns round does so within one step of the contact distance. -/
theorem track_early {dt eps tol g u : ℝ} (hdt : 0 < dt) (hu : 0 < u) (hg : eps < g) {k : ℕ} {T : ℝ} {o : Option ℝ}
    (a : Track dt eps tol g u k T o) :
    (o = none → eps - u * dt < g - u * T) ∧ ∀ τ, o = some τ → τ ≤ T ∧ eps - u * dt < g - u * τ ∧ g - u * τ ≤ eps := by
  induction a with
  | start => exact ⟨fun _ => by nlinarith, fun τ h => by cases h⟩
  | fall a hg' hh ih =>
    obtain ⟨q1, q2⟩ := hop_pos hdt hh
    exact ⟨fun _ => by nlinarith, fun τ h => by cases h⟩
  | turn a hg' ih =>
    refine ⟨fun h => (by cases h), fun τ h => ?_⟩
    injection h with h
    subst h
    exact ⟨by linarith, ih.1 rfl, hg'⟩
  | leave a ih =>
    refine ⟨fun h => (by cases h), fun τ h => ?_⟩
    obtain ⟨q1, q2⟩ := ih.2 τ h
    exact ⟨by linarith, q2⟩

/-- C124: at a contact shorter steps do not help: a ball (without gravity) that falls on a floor turns round when it comes within the
contact distance `eps`, so with short steps it never gets to the floor, and afterwards is too high by `(1 + e) eps`, to within one
step. -/
theorem C124_early (S : RollScene) (H : ForceHeap) (lcp : LcpSolver) (mi cfuel : ℕ) (pairs : List Body → List (ℕ × ℕ))
    (dt eps tol : ℝ) (B : BounceSetting S H lcp cfuel pairs dt eps tol) (n : ℕ) (g u : ℝ) (hg : eps < g) (hu : 0 < u)
    (hudt : u * dt < S.r) (ws : ℕ → World (Option Mat) Finder)
    (hr : BounceRun S (pdipmEnv 2 H lcp mi (rejectNan (diffCollide cfuel (fun _ => []) pairs))) dt eps tol n g u ws)
    (k : ℕ) (hk : k ≤ n) :
    eps - u * dt < S.gap (ws k).bodies ∧
    (g < u * (ws k).t → (twist (ws k).v 0).y ≤ 0 →
      (1 + S.e) * (eps - u * dt) < S.gap (ws k).bodies - bouncePath S.e g u (ws k).t ∧
      S.gap (ws k).bodies - bouncePath S.e g u (ws k).t ≤ (1 + S.e) * eps) := by
  have he := B.e
  obtain ⟨o, tr, -, -, h⟩ := bounce_track B mi (B.eps.trans hg.le) hu hudt hr k hk
  obtain ⟨q1, q2⟩ := track_early B.dt hu hg tr
  rw [bouncing_gap h]
  have hs := h.speed
  cases o with
  | none =>
    refine ⟨q1 rfl, fun _ hy => ?_⟩
    rw [hs] at hy
    exact absurd hy (not_le.2 hu)
  | some τ =>
    obtain ⟨h1, h2, h3⟩ := q2 τ rfl
    have hpos : 0 ≤ S.e * u * ((ws k).t - τ) := mul_nonneg (mul_nonneg he hu.le) (by linarith)
    refine ⟨by simp only [heightAt]; linarith, fun hl _ => ?_⟩
    unfold bouncePath
    rw [if_neg (not_le.2 hl)]
    simp only [heightAt]
    have e : g - u * τ + S.e * u * ((ws k).t - τ) - S.e * (u * (ws k).t - g) = (1 + S.e) * (g - u * τ) := by ring
    rw [e]
    exact ⟨mul_lt_mul_of_pos_left h2 (by linarith), mul_le_mul_of_nonneg_left h3 (by linarith)⟩

/-! ## Concrete cases -/

/-- A ball of radius 5 thrown upwards past a resting ball of radius 5 that is 40 to the right and held by no force. -/
def thrown : List Body :=
  [mkCircle (.two (0, 0)) 5 { vel := .two (0, -20) }, mkCircle (.two (40, 0)) 5 {}]

/-- Gravity acts on the first. -/
def thrownForces : ForceHeap := withForces [.gravity 10 none] [(0, 0)]

def thrownPath (k : ℕ) (t : ℝ) : V3 := if k = 0 then ⟨0, 0, -20 * t + 5 * t ^ 2⟩ else ⟨0, 40, 0⟩
def thrownSpeed (k : ℕ) (t : ℝ) : V3 := if k = 0 then ⟨0, 0, -20 + 10 * t⟩ else 0
def thrownPush (k : ℕ) (_ : ℝ) : V3 := if k = 0 then ⟨0, 0, 10⟩ else 0

theorem thrown_newton (k : ℕ) (hk : k < 2) (T : ℝ) :
    NewtonMotion (bodyAt thrown k).mass (bodyAt thrown k).ang_inertia (thrownPush k) T (thrownPath k) (thrownSpeed k) := by
  interval_cases k
  · refine ⟨?_, ?_, ?_, ?_, ?_, ?_⟩ <;> intro t _
    · simpa [thrownPath, thrownSpeed] using (hasDerivAt_const t (0 : ℝ)).hasDerivWithinAt
    · simpa [thrownPath, thrownSpeed] using (hasDerivAt_const t (0 : ℝ)).hasDerivWithinAt
    · have := (((hasDerivAt_id t).const_mul (-20 : ℝ)).add (((hasDerivAt_id t).pow 2).const_mul (5 : ℝ))).hasDerivWithinAt
        (s := Set.Icc 0 T)
      have e : (thrownSpeed 0 t).y = -20 * 1 + 5 * (2 * t ^ 1 * 1) := by simp [thrownSpeed]; ring
      rw [e]
      exact this
    · simpa [thrownPush, thrownSpeed] using (hasDerivAt_const t (0 : ℝ)).hasDerivWithinAt
    · simpa [thrownPush, thrownSpeed] using (hasDerivAt_const t (0 : ℝ)).hasDerivWithinAt
    · have := (((hasDerivAt_id t).const_mul (10 : ℝ)).const_add (-20)).hasDerivWithinAt (s := Set.Icc 0 T)
      have e : (thrownPush 0 t).y / (bodyAt thrown 0).mass = 10 * 1 := by simp [thrownPush, thrown, bodyAt, mkCircle]
      rw [e]
      exact this
  · refine ⟨?_, ?_, ?_, ?_, ?_, ?_⟩ <;> intro t _ <;>
      simp [thrownPush, thrownPath, thrownSpeed] <;> exact (hasDerivAt_const t _).hasDerivWithinAt

theorem thrown_gentle (k : ℕ) (hk : k < 2) (T : ℝ) :
    Gentle (bodyAt thrown k).mass (bodyAt thrown k).ang_inertia (thrownPush k) T 10 0 := by
  interval_cases k
  · constructor
    · intro t _; simp [thrownPush, thrown, bodyAt, mkCircle]
    · intro s _ t _; simp [thrownPush]
  · constructor
    · intro t _; simp [thrownPush]
    · intro s _ t _; simp [thrownPush]

theorem thrown_pushed (k : ℕ) (hk : k < 2) (t : ℝ) : thrownForces.apply_forces k t = some (thrownPush k t) := by
  interval_cases k <;>
    simp [thrownForces, withForces, ForceHeap.add_force, ForceHeap.apply_forces, thrownPush, sumForces, Force.set_body, Force.force]
  apply V3.ext <;> simp

/-- It is caught after one second at the height 15; with `M` steps the simulation has it within `10 / M` of there. -/
example (lcp : LcpSolver) (mi cfuel : ℕ) (fnd : Finder) (M : ℕ) (hM : 2 ≤ M) :
    ∃ w0 w, mkWorld (pdipmEnv 2 thrownForces lcp mi (rejectNan (diffCollide cfuel (fun _ => []) allPairs))) none fnd thrown [] (1 / M)
        (1 / 10) (1 / 1000000) false true = .done w0 ∧
      runWorld (pdipmEnv 2 thrownForces lcp mi (rejectNan (diffCollide cfuel (fun _ => []) allPairs))) 1 1 M w0 = .done w ∧
      w.t = 1 ∧ w.contacts = [] ∧ |(bodyAt w.bodies 0).p.y + 15| ≤ 10 / M ∧ (bodyAt w.bodies 0).v = ⟨0, 0, -10⟩ := by
  have hM' : (2 : ℝ) ≤ M := by exact_mod_cast hM
  obtain ⟨w0, w, r1, r2, r3, r4, -, r6⟩ := C124_run thrown (by simp [thrown]) (fun _ => 5)
    (by intro k hk; have hk : k < 2 := hk; interval_cases k <;> rfl)
    (by intro k hk; have hk : k < 2 := hk; interval_cases k <;> norm_num [thrown, bodyAt, mkCircle, circleInertia])
    thrownForces thrownPush (fun k hk t => thrown_pushed k hk t) (withForces_ok _ _ _) lcp mi 0 cfuel (fun _ => []) allPairs
    (fun bs p hp => by
      have := (allPairs_mem bs p.1 p.2).1 hp
      exact ⟨by omega, this.2, by omega⟩) fnd (1 / 10) (1 / 1000000) true 1 10 0 20 one_pos (by norm_num) le_rfl thrownPath thrownSpeed
    (fun k hk => thrown_newton k hk 1) (fun k hk => thrown_gentle k hk 1)
    (by
      intro k hk
      have hk : k < 2 := hk
      interval_cases k
      · constructor <;> apply V3.ext <;> simp [thrownPath, thrownSpeed, thrown, bodyAt, mkCircle, Arg.toV3]
      · constructor <;> apply V3.ext <;> simp [thrownPath, thrownSpeed, thrown, bodyAt, mkCircle, Arg.toV3])
    (by
      intro t ht k hk l hl hkl _
      have hk : k < 2 := hk
      have hl : l < 2 := hl
      have : (40 : ℝ) ≤ len ((thrownPath k t).xy - (thrownPath l t).xy) := by
        apply Real.le_sqrt_of_sq_le
        interval_cases k <;> interval_cases l <;> simp [thrownPath, V3.xy] at hkl ⊢ <;> nlinarith [sq_nonneg (-20 * t + 5 * t ^ 2)]
      linarith) M (by omega) (by
      have : (1 : ℝ) / M ≤ 1 / 2 := one_div_le_one_div_of_le (by norm_num) hM'
      linarith)
  obtain ⟨⟨-, -, q1⟩, q2, q3, q4⟩ := r6 0 (by simp [thrown])
  refine ⟨w0, w, r1, r2, r3, r4, ?_, ?_⟩
  · have e : (thrownPath 0 1).y = -15 := by norm_num [thrownPath]
    rw [e, sub_neg_eq_add] at q1
    refine q1.trans (le_of_eq ?_)
    ring
  · have e : thrownSpeed 0 1 = ⟨0, 0, -10⟩ := by simp [thrownSpeed]; norm_num
    rw [e] at q2 q3 q4
    simp only [zero_mul, abs_nonpos_iff] at q2 q3 q4
    apply V3.ext
    · linarith
    · linarith
    · linarith

/-- With steps of 1/30 the fall of a body under `Gravity()` is ahead by 1/6 after one second; a true fall is 5. -/
example (x u : ℝ → V3) (hx : NewtonMotion 1 1 (fun _ => ⟨0, 0, 10⟩) 1 x u) (h0 : x 0 = 0) (h1 : u 0 = 0) :
    flightPose (1 / 30) 1 1 (fun _ => ⟨0, 0, 10⟩) 0 0 30 = x 1 + ⟨0, 0, 1 / 6⟩ := by
  have := (C124_constant 1 1 ⟨0, 0, 10⟩ 1 x u hx (1 / 30) (by norm_num) 30 (by norm_num)).2
  rw [h0, h1] at this
  rw [this]
  apply V3.ext <;> norm_num

/-- With steps of 0.03 the push lasts 0.12 instead of 0.1: the velocity is one fifth too large. -/
example (f : ℝ → V3) (hf : ∀ t, (Force.external vert_impulse 100).force t = some (f t)) :
    flightVel (3 / 100) 1 1 (fun j => f (j * (3 / 100))) 0 10 = ⟨0, 0, 12⟩ := by
  obtain ⟨k, h1, h2, h3⟩ := C124_impulse 100 1 1 f hf 0 (3 / 100) (by norm_num) 10 (by norm_num)
  have hk : k = 4 := by
    have a : (3 : ℝ) < k := by linarith
    have b : (k : ℝ) < 5 := by linarith
    have a : 3 < k := by exact_mod_cast a
    have b : k < 5 := by exact_mod_cast b
    omega
  rw [h1, hk]
  apply V3.ext <;> norm_num

/-- The ball of `slideScene`, from the height 10/3 with speed 1 (a thirtieth of the contact distance in each step of 1/30), never
gets below 1/15, and has bounced after some time. -/
example (fl : Bool) (mi : ℕ) (fnd : Finder) : ∃ n ws,
    BounceRun slideScene (pdipmEnv 2 noForces exactLcp mi (rejectNan (diffCollide 66 (fun _ => []) (bouncePairs fl)))) (1 / 30)
      (1 / 10) (1 / 1000000) n (10 / 3) 1 ws ∧ (∀ k ≤ n, 1 / 15 < slideScene.gap (ws k).bodies) ∧
    1 / 10 < slideScene.gap (ws n).bodies - bouncePath slideScene.e (10 / 3) 1 (ws n).t := by
  have B := bounce_setting fl
  have he : slideScene.e = 1 / 2 := by norm_num [slideScene, RollScene.e]
  have hud : (1 : ℝ) * (1 / 30) < slideScene.r := by norm_num [slideScene]
  obtain ⟨N, hN⟩ := C103_bounces slideScene noForces exactLcp mi 66 (bouncePairs fl) (1 / 30) (1 / 10) (1 / 1000000) B (by norm_num)
    (10 / 3) 1 (by norm_num) one_pos hud
  obtain ⟨ws, hw⟩ := C103_runs slideScene noForces mi 66 (bouncePairs fl) (1 / 30) (1 / 10) (1 / 1000000) B fnd (10 / 3) 1 (by norm_num)
    one_pos hud (N + 4)
  have E := fun k hk => C124_early slideScene noForces exactLcp mi 66 (bouncePairs fl) (1 / 30) (1 / 10) (1 / 1000000) B (N + 4) (10 / 3) 1
    (by norm_num) one_pos hud ws hw k hk
  refine ⟨N + 4, ws, hw, fun k hk => by have := (E k hk).1; norm_num at this ⊢; exact this, ?_⟩
  obtain ⟨o, tr, -, -, h⟩ := bounce_track B mi (by norm_num : (0 : ℝ) ≤ 10 / 3) one_pos hud hw (N + 4) le_rfl
  obtain ⟨o', tr', -, -, h'⟩ := bounce_track B mi (by norm_num : (0 : ℝ) ≤ 10 / 3) one_pos hud hw N (by omega)
  have ht := hN N le_rfl ws (by
    obtain ⟨fnd', m1, m2⟩ := hw
    exact ⟨fnd', m1, fun k hk => m2 k (by omega)⟩)
  have ho : ∃ τ, o' = some τ := by
    rw [h'.speed, he] at ht
    cases o' with
    | none => norm_num [speedAt] at ht
    | some τ => exact ⟨τ, rfl⟩
  obtain ⟨τ, rfl⟩ := ho
  obtain ⟨e1, rfl⟩ := track_unique tr (track_turned tr' 4)
  obtain ⟨k1, -, k2⟩ := (track_early (by norm_num) one_pos (by norm_num) tr').2 τ rfl
  have := ((E (N + 4) le_rfl).2 (by rw [e1]; push_cast; linarith) (by rw [h.speed, he]; norm_num [speedAt])).1
  rw [he] at this ⊢
  norm_num at this ⊢
  exact this

end LcpPhysics
