import Verif.Spec.Flight
import Verif.Props.DemoRun
import Verif.Props.InferenceRun

/-!
# C117: scenes of circles without constraints, as long as nothing touches
-/

noncomputable section

namespace LcpPhysics
open Spec Demos

/-- The contact search on circles that are apart, or excluded from contact. -/
theorem circles_silent (fuel : ℕ) (nc : ℕ → List ℕ) (pairs : List Body → List (ℕ × ℕ)) (eps : ℝ) (f : Finder) (bs : List Body)
    (hp : ∀ p ∈ pairs bs, p.1 < bs.length ∧ p.2 < bs.length ∧ p.1 ≠ p.2) (hc : ∀ k < bs.length, (bodyAt bs k).isCircle = true)
    (hs : ∀ k < bs.length, ∀ l < bs.length, k ≠ l → k ∉ nc l →
      (bodyAt bs k).rad + (bodyAt bs l).rad + eps < len ((bodyAt bs k).pos - (bodyAt bs l).pos)) :
    rejectNan (diffCollide fuel nc pairs) eps f bs = .ok (f, []) := by
  have key : ∀ (ps : List (ℕ × ℕ)), (∀ p ∈ ps, p.1 < bs.length ∧ p.2 < bs.length ∧ p.1 ≠ p.2) →
      handleAll fuel nc eps bs ps f = .done (f, []) := by
    intro ps
    induction ps with
    | nil => intro _; rfl
    | cons p ps ih =>
      intro h
      obtain ⟨h1, h2, h3⟩ := h p (by simp)
      have : handle fuel nc eps bs f p.1 p.2 = .done (f, []) := by
        unfold handle
        split_ifs with hx
        · rfl
        · unfold handlePair
          simp only [hc _ h1, hc _ h2, and_self, if_true]
          have hd := hs _ h1 _ h2 h3 hx
          have e : circleCircle eps (bodyAt bs p.1).rad (bodyAt bs p.2).rad (bodyAt bs p.1).pos (bodyAt bs p.2).pos = [] := by
            unfold circleCircle
            have : nrm ((bodyAt bs p.1).pos - (bodyAt bs p.2).pos) = len ((bodyAt bs p.1).pos - (bodyAt bs p.2).pos) :=
              nrm_eq_len _
            simp only [this]
            rw [if_pos (by linarith)]
          rw [e]; rfl
      unfold handleAll
      rw [this]
      simp only [Run.bind_done]
      rw [ih fun q hq => h q (by simp [hq])]
      rfl
  unfold rejectNan diffCollide
  rw [key _ hp]
  rfl

/-- The world of such a scene after some steps. -/
structure Flying (N : ℕ) (rad m I : ℕ → ℝ) (P V : ℕ → V3) (w : World (Option Mat) Finder) : Prop where
  inv : EngineInv w
  count : w.bodies.length = N
  joints : w.joints = []
  clear : w.contacts = []
  pars : w.dt = 1 / 30 ∧ w.eps = 1 / 10 ∧ w.tol = 1 / 1000000 ∧ w.post_stab = false
  body : ∀ k < N, (bodyAt w.bodies k).shape = .circle (rad k) ∧ (bodyAt w.bodies k).mass = m k ∧
    (bodyAt w.bodies k).ang_inertia = I k ∧ 0 < m k ∧ 0 < I k ∧ (bodyAt w.bodies k).p = P k ∧ twist w.v k = V k

theorem flying_step {N : ℕ} {rad m I : ℕ → ℝ} {P V P' V' : ℕ → V3} {H : ForceHeap} {f : ℕ → V3} {lcp : LcpSolver} {mi cfuel : ℕ}
    {nc : ℕ → List ℕ} {pairs : List Body → List (ℕ × ℕ)}
    (hp : ∀ bs, ∀ p ∈ pairs bs, p.1 < bs.length ∧ p.2 < bs.length ∧ p.1 ≠ p.2)
    {w : World (Option Mat) Finder} (h : Flying N rad m I P V w) (hf : ∀ k < N, H.apply_forces k w.t = some (f k))
    (hfl : ∃ fl, forceCat H w.t N = .ok fl)
    (hV : ∀ k < N, V' k = V k + ⟨1 / 30 * (f k).r / I k, 1 / 30 * (f k).x / m k, 1 / 30 * (f k).y / m k⟩)
    (hP : ∀ k < N, P' k = P k + (1 / 30 : ℝ) • V' k)
    (hs : ∀ k < N, ∀ l < N, k ≠ l → k ∉ nc l → rad k + rad l + 1 / 10 < len ((P' k).xy - (P' l).xy)) (fuel : ℕ) :
    ∃ w', w.step_dt (pdipmEnv 2 H lcp mi (rejectNan (diffCollide cfuel nc pairs))) (fuel + 1) w.dt = .done w' ∧
      Flying N rad m I P' V' w' ∧ w'.t = w.t + 1 / 30 := by
  obtain ⟨fl, hfl⟩ := hfl
  have hlen := h.count
  have hsolid : ∀ b ∈ w.bodies, 0 < b.mass ∧ 0 < b.ang_inertia := by
    intro b hb
    obtain ⟨q, hq, rfl⟩ := List.getElem_of_mem hb
    obtain ⟨-, e1, e2, e3, e4, -⟩ := h.body q (by omega)
    rw [show bodyAt w.bodies q = w.bodies[q] by simp [bodyAt, List.getD_eq_getElem?_getD, hq]] at e1 e2
    rw [e1, e2]; exact ⟨e3, e4⟩
  obtain ⟨⟨e, v⟩, hr⟩ := C35_no_contact_succeeds 2 H lcp mi w w.dt h.inv.joints hsolid
    (C71_tree_independent w h.inv.joints (by rw [h.joints]; exact tree_nil)) h.clear fl (by rw [hlen]; exact hfl)
  obtain ⟨fl', l, hfl', hl⟩ := C35_no_contact_solution 2 H lcp mi w w.dt e v h.inv.joints h.clear h.inv.cache.ok hr
  rw [hlen, hfl] at hfl'
  injection hfl' with hfl'
  subst hfl'
  have hv : ∀ k < N, twist v k = V' k := by
    intro k hk
    obtain ⟨-, e1, e2, e3, e4, -, e6⟩ := h.body k hk
    obtain ⟨k1, k2, k3⟩ := C78_isolated_body w.bodies w.joints [] _ w.v v l 0 0 0 0 hl k (by omega)
      (by rw [h.joints]; simp) (by simp) (by rw [e1]; exact e3) (by rw [e2]; exact e4)
    have hfk : impulse fl w.dt k = (1 / 30 : ℝ) • f k := by
      obtain ⟨l1, l2⟩ := forceCat_length hfl
      have := l2 k hk (by omega)
      rw [hf k hk] at this
      injection this with this
      unfold impulse
      rw [h.pars.1, this]
      simp [List.getD_eq_getElem?_getD, show k < fl.length by omega]
    rw [hfk, e2] at k1
    rw [hfk, e1] at k2 k3
    rw [hV k hk, ← e6]
    apply V3.ext
    · show v (3 * k) = w.v (3 * k) + _
      rw [k1]; simp
    · show v (3 * k + 1) = w.v (3 * k + 1) + _
      rw [k2]; simp
    · show v (3 * k + 2) = w.v (3 * k + 2) + _
      rw [k3]; simp
  set w1 : World (Option Mat) Finder := ({ w with eng := e } : World (Option Mat) Finder).set_v v with hw1
  have hl1 : w1.bodies.length = N := by rw [hw1, set_v_length]; exact hlen
  have hb1 : ∀ k < N, bodyAt (w1.bodies.map fun b => b.move w.dt) k = ({ bodyAt w.bodies k with v := V' k } : Body).move w.dt := by
    intro k hk
    rw [bodyAt_map _ _ _ (by omega), hw1, set_v_at _ _ _ (by show k < w.bodies.length; omega), hv k hk]
  have hshape : ∀ k < N, (bodyAt (w1.bodies.map fun b => b.move w.dt) k).shape = .circle (rad k) := by
    intro k hk
    rw [hb1 k hk]
    exact run_circle ({ bodyAt w.bodies k with v := V' k } : Body) (h.body k hk).1 [.move w.dt]
  have hpos : ∀ k < N, (bodyAt (w1.bodies.map fun b => b.move w.dt) k).p = P' k := by
    intro k hk
    rw [hb1 k hk, move_p, hP k hk, h.pars.1]
    show (bodyAt w.bodies k).p + _ = _
    rw [(h.body k hk).2.2.2.2.2.1]
  have hcol : rejectNan (diffCollide cfuel nc pairs) w.eps w.fnd (w1.bodies.map fun b => b.move w.dt) = .ok (w.fnd, []) := by
    apply circles_silent
    · exact hp _
    · intro k hk
      rw [List.length_map, hl1] at hk
      unfold Body.isCircle
      rw [hshape k hk]
    · intro k hk l hl' hne hx
      rw [List.length_map, hl1] at hk hl'
      have := hs k hk l hl' hne hx
      unfold Body.rad Body.pos
      rw [hshape k hk, hshape l hl', hpos k hk, hpos l hl', h.pars.2.1]
      exact this
  have hstep := step_first (pdipmEnv 2 H lcp mi (rejectNan (diffCollide cfuel nc pairs))) fuel w h.inv.good w.dt h.pars.2.2.2 e v hr
    w.fnd [] hcol (by simp)
  refine ⟨_, hstep, ?_, ?_⟩
  · have hinv' := step_inv (C12_finder_ok cfuel nc pairs hp) h.inv hstep
    have hst := step_dt_statics h.inv.good hstep
    have hcon := fun i hi => posed_consts (posed_step h.inv.good hstep) (i := i) hi
    refine ⟨hinv', ?_, ?_, rfl, h.pars, ?_⟩
    · show (w1.bodies.map _).length = N
      rw [List.length_map, hl1]
    · exact List.map_eq_nil_iff.1 (hst.2.trans (by rw [h.joints]; rfl))
    · intro k hk
      obtain ⟨-, e1, e2, e3, e4, -⟩ := h.body k hk
      refine ⟨hshape k hk, ?_, ?_, e3, e4, hpos k hk, hv k hk⟩
      · rw [(hcon k (by omega)).1, e1]
      · rw [(hcon k (by omega)).2, e2]
  · show w.t + w.dt = _
    rw [h.pars.1]

theorem flying_prefix {N : ℕ} {rad m I : ℕ → ℝ} (P V : ℕ → ℕ → V3) {H : ForceHeap} (f : ℕ → ℝ → V3) {lcp : LcpSolver} {mi cfuel : ℕ}
    {nc : ℕ → List ℕ} {pairs : List Body → List (ℕ × ℕ)}
    (hp : ∀ bs, ∀ p ∈ pairs bs, p.1 < bs.length ∧ p.2 < bs.length ∧ p.1 ≠ p.2)
    (hf : ∀ k < N, ∀ t, H.apply_forces k t = some (f k t)) (hfl : ForcesOk H N)
    (hV : ∀ n, ∀ k < N, V (n + 1) k = V n k +
      ⟨1 / 30 * (f k (n / 30)).r / I k, 1 / 30 * (f k (n / 30)).x / m k, 1 / 30 * (f k (n / 30)).y / m k⟩)
    (hP : ∀ n, ∀ k < N, P (n + 1) k = P n k + (1 / 30 : ℝ) • V (n + 1) k) (M : ℕ)
    (hs : ∀ n ≤ M, ∀ k < N, ∀ l < N, k ≠ l → k ∉ nc l → rad k + rad l + 1 / 10 < len ((P n k).xy - (P n l).xy)) (fuel : ℕ)
    (T : ℝ) (hT : M / 30 ≤ T) :
    ∀ (i j : ℕ) (w : World (Option Mat) Finder), j + i = M → Flying N rad m I (P j) (V j) w → w.t = j / 30 →
      ∃ w', (∀ n, runWorld (pdipmEnv 2 H lcp mi (rejectNan (diffCollide cfuel nc pairs))) (fuel + 1) T (n + i) w =
          runWorld (pdipmEnv 2 H lcp mi (rejectNan (diffCollide cfuel nc pairs))) (fuel + 1) T n w') ∧
        Flying N rad m I (P M) (V M) w' ∧ w'.t = M / 30 := by
  intro i
  induction i with
  | zero =>
    intro j w hj h ht
    obtain rfl : j = M := by omega
    exact ⟨w, fun n => rfl, h, ht⟩
  | succ i ih =>
    intro j w hj h ht
    obtain ⟨w1, h1, h2, h3⟩ := flying_step (lcp := lcp) (mi := mi) (cfuel := cfuel) (nc := nc) hp h (f := fun k => f k (j / 30))
      (fun k hk => by rw [ht]; exact hf k hk _) (hfl _) (hV j) (hP j) (hs (j + 1) (by omega)) fuel
    obtain ⟨w', h4, h5⟩ := ih (j + 1) w1 (by omega) h2 (by rw [h3, ht]; push_cast; ring)
    refine ⟨w', fun n => ?_, h5⟩
    rw [← h4 n, ← Nat.add_assoc]
    conv_lhs => unfold runWorld
    rw [if_pos (by
      rw [ht]
      have : (j : ℝ) < M := by exact_mod_cast (by omega : j < M)
      linarith)]
    simp only [World.step, Bool.false_eq_true, if_false]
    rw [h1]
    rfl

theorem forces_some {H : ForceHeap} {N : ℕ} (h : ForcesOk H N) (k : ℕ) (hk : k < N) (t : ℝ) :
    ∃ f, H.apply_forces k t = some f := by
  obtain ⟨fl, hfl⟩ := h t
  obtain ⟨h1, h2⟩ := forceCat_length hfl
  exact ⟨_, h2 k hk (by omega)⟩

/-- The beginning of the run of a scene of circles without constraints, as long as nothing touches. -/
theorem flight_prefix (d : Demo) (h : WellMade d) (hc : ∀ i ∈ d.items, ∃ pos r a, i = .circle pos r a) (hj : ∀ bs, d.joints bs = [])
    (hst : d.post_stab = false) (hfo : ForcesOk d.forces d.items.length) (lcp : LcpSolver) (mi fuel cfuel : ℕ) (hcf : 66 ≤ cfuel)
    (pairs : List Body → List (ℕ × ℕ)) (hp : ∀ bs, ∀ p ∈ pairs bs, p.1 < bs.length ∧ p.2 < bs.length ∧ p.1 ≠ p.2)
    (fnd : Finder) (M : ℕ) (hM : M / 30 ≤ d.run_time) (B : ℕ → Body)
    (hB : ∀ k < d.items.length, (d.items.getD k clock).build = .ok (B k)) (P : ℕ → ℕ → V3)
    (hP : ∀ k < d.items.length, ∀ n, P n k =
      flightPose (1 / 30) (B k).mass (B k).ang_inertia (fun j => forceOn d.forces k (j / 30)) (B k).p (B k).v n)
    (hs : ∀ n ≤ M, ∀ k < d.items.length, ∀ l < d.items.length, k ≠ l → k ∉ d.nc l →
      (B k).rad + (B l).rad + 1 / 10 < len ((P n k).xy - (P n l).xy)) :
    ∃ w, (∀ n, d.play lcp mi (fuel + 1) (n + M) (rejectNan (diffCollide cfuel d.nc pairs)) fnd =
        runWorld (pdipmEnv 2 d.forces lcp mi (rejectNan (diffCollide cfuel d.nc pairs))) (fuel + 1) d.run_time n w) ∧
      Flying d.items.length (fun k => (B k).rad) (fun k => (B k).mass) (fun k => (B k).ang_inertia) (P M)
        (fun k => flightVel (1 / 30) (B k).mass (B k).ang_inertia (fun j => forceOn d.forces k (j / 30)) (B k).v M) w ∧
      w.t = M / 30 := by
  obtain ⟨w0, bs, s1, s2, s3, s4, s5, s6, s7, s8, s9, s10, s11, s12⟩ := C115_starts d h lcp mi cfuel hcf pairs hp fnd
  obtain ⟨bs', e1, e2, e3⟩ := built_all d.items h.fine
  rw [s2] at e1
  injection e1 with e1
  subst e1
  have hbody : ∀ k < d.items.length, bodyAt w0.bodies k = B k := by
    intro k hk
    have := e3 k hk
    rw [hB k hk] at this
    injection this with this
    rw [s3, this]
  have hpar : w0.eps = 1 / 10 ∧ w0.tol = 1 / 1000000 ∧ w0.post_stab = false := by
    have hm := s1
    unfold Demo.start at hm
    rw [s2] at hm
    obtain ⟨-, -, -, -, q1, q2, q3, -⟩ := mkWorld_done (C12_finder_ok cfuel d.nc pairs hp) (by rw [← s3]; exact s8.good.rect)
      (by rw [hj]; simp) (by rw [hj]; simp) hm
    exact ⟨q1, q2, q3.trans hst⟩
  have hshape : ∀ k < d.items.length, (B k).shape = .circle (B k).rad := by
    intro k hk
    obtain ⟨pos, r, a, hi⟩ := hc (d.items.getD k clock) (by
      rw [List.getD_eq_getElem?_getD, List.getElem?_eq_getElem hk]; exact List.getElem_mem _)
    have := hB k hk
    rw [hi] at this
    injection this with this
    rw [← this]; rfl
  have hfly : Flying d.items.length (fun k => (B k).rad) (fun k => (B k).mass) (fun k => (B k).ang_inertia)
      (P 0) (fun k => (B k).v) w0 := by
    refine ⟨s8, s11, by rw [s4, hj], s5, ⟨s7, hpar⟩, fun k hk => ?_⟩
    have hm : bodyAt w0.bodies k ∈ w0.bodies := bodyAt_mem (by omega)
    have hpos := s10 _ hm
    have hv : (bodyAt w0.bodies k).v = twist w0.v k := by
      have := s8.good.vel k (by omega)
      rw [← slice3_twist, ← this]
      simp [bodyAt, List.getD_eq_getElem?_getD, show k < w0.bodies.length by omega]
    rw [hbody k hk] at hpos hv ⊢
    refine ⟨hshape k hk, rfl, rfl, hpos.1, hpos.2, ?_, hv.symm⟩
    rw [hP k hk]; rfl
  obtain ⟨w, r1, r2, r3⟩ := flying_prefix (N := d.items.length) P
    (fun n k => flightVel (1 / 30) (B k).mass (B k).ang_inertia (fun j => forceOn d.forces k (j / 30)) (B k).v n)
    (fun k t => forceOn d.forces k t) (lcp := lcp) (mi := mi) (cfuel := cfuel) (nc := d.nc) hp
    (fun k hk t => by
      obtain ⟨f, hf⟩ := forces_some hfo k hk t
      unfold forceOn
      rw [hf]; rfl) hfo (fun n k hk => rfl) (fun n k hk => by rw [hP k hk, hP k hk]; rfl) M hs fuel d.run_time hM M 0 w0 (by omega) hfly
    (by rw [s6]; simp)
  refine ⟨w, fun n => ?_, r2, r3⟩
  unfold Demo.play
  rw [s1]
  exact r1 n

/-- C117: a scene of circles without constraints.  If the paths of free flight keep all pairs that may touch apart (by more than
the contact tolerance, at the ends of the steps), then `run_world` returns and every body has flown its path: no contact is ever
solved, so this holds with any LCP solver. -/
theorem C117_flight (d : Demo) (h : WellMade d) (hc : ∀ i ∈ d.items, ∃ pos r a, i = .circle pos r a) (hj : ∀ bs, d.joints bs = [])
    (hst : d.post_stab = false) (hfo : ForcesOk d.forces d.items.length) (lcp : LcpSolver) (mi fuel cfuel : ℕ) (hcf : 66 ≤ cfuel)
    (pairs : List Body → List (ℕ × ℕ)) (hp : ∀ bs, ∀ p ∈ pairs bs, p.1 < bs.length ∧ p.2 < bs.length ∧ p.1 ≠ p.2)
    (fnd : Finder) (M : ℕ) (hM : d.run_time = M / 30) (B : ℕ → Body)
    (hB : ∀ k < d.items.length, (d.items.getD k clock).build = .ok (B k)) (P : ℕ → ℕ → V3)
    (hP : ∀ k < d.items.length, ∀ n, P n k =
      flightPose (1 / 30) (B k).mass (B k).ang_inertia (fun j => forceOn d.forces k (j / 30)) (B k).p (B k).v n)
    (hs : ∀ n ≤ M, ∀ k < d.items.length, ∀ l < d.items.length, k ≠ l → k ∉ d.nc l →
      (B k).rad + (B l).rad + 1 / 10 < len ((P n k).xy - (P n l).xy)) :
    ∃ w, d.play lcp mi (fuel + 1) M (rejectNan (diffCollide cfuel d.nc pairs)) fnd = .done w ∧ w.t = d.run_time ∧
      w.contacts = [] ∧ w.bodies.length = d.items.length ∧ ∀ k < d.items.length, (bodyAt w.bodies k).p = P M k := by
  obtain ⟨w, h1, h2, h3⟩ := flight_prefix d h hc hj hst hfo lcp mi fuel cfuel hcf pairs hp fnd M hM.ge B hB P hP hs
  refine ⟨w, ?_, by rw [h3, hM], h2.clear, h2.count, fun k hk => (h2.body k hk).2.2.2.2.2.1⟩
  have := h1 0
  rw [Nat.zero_add] at this
  rw [this]
  unfold runWorld
  rw [if_neg (by rw [h3, hM]; exact lt_irrefl _)]

end LcpPhysics
