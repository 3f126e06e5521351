import Verif.Model.GradDemo
import Verif.Spec.GradDemo
import Verif.Props.Flight
import Mathlib.Analysis.Calculus.Deriv.Basic

/-!
# C117: `demos/grad_demo.py`
-/

noncomputable section

namespace LcpPhysics
open Spec Demos GradDemo

/-! ## The scene -/

theorem scene_made (F : V3) : WellMade (scene F) where
  some := by simp [scene]
  fine := by
    intro i hi
    simp only [scene, List.mem_cons, List.not_mem_nil, or_false] at hi
    rcases hi with rfl | rfl | rfl <;> norm_num [Fine]
  apart := by
    intro k hk l hl h
    have hl' : l < 3 := hl
    interval_cases l
    · omega
    · interval_cases k
      left
      simp [scene, addNoContact]
    · interval_cases k
      · left
        simp [scene, addNoContact]
      · right
        left
        norm_num [scene, halfBox, startPose, Arg.toV3, V3.xy]
  joints := by
    intro bs j hj
    simp [scene] at hj
  tree := fun bs => tree_nil

theorem scene_forces (F : V3) (n : ℕ) : ForcesOk (scene F).forces n := withForces_ok _ _ n

theorem scene_force (F : V3) (k : ℕ) (t : ℝ) :
    forceOn (scene F).forces k t = if k = 1 then (100 : ℝ) • learned_force F t else 0 := by
  unfold forceOn ForceHeap.apply_forces
  by_cases hk : k = 1
  · subst hk
    simp [scene, withForces, ForceHeap.add_force, Force.set_body, sumForces, Force.force]
    apply V3.ext <;> simp
  · simp [scene, withForces, ForceHeap.add_force, hk]

/-- The bodies of the scene. -/
def sceneBody (k : ℕ) : Body :=
  match k with
  | 0 => mkCircle (.two (500, 300)) 30 {}
  | 1 => mkCircle (.two (250, 210)) 30 {}
  | _ => mkCircle (.two (400, 250)) 30 {}

theorem scene_build (F : V3) (k : ℕ) (hk : k < (scene F).items.length) :
    ((scene F).items.getD k clock).build = .ok (sceneBody k) := by
  have hk' : k < 3 := hk
  interval_cases k <;> rfl

/-! ## The flight of the pushed ball -/

theorem rest_flight (F : V3) (k : ℕ) (hk : k ≠ 1) (m I : ℝ) (p : V3) (n : ℕ) :
    flightVel (1 / 30) m I (fun j => forceOn (scene F).forces k (j / 30)) 0 n = 0 ∧
      flightPose (1 / 30) m I (fun j => forceOn (scene F).forces k (j / 30)) p 0 n = p := by
  induction n with
  | zero => exact ⟨rfl, rfl⟩
  | succ n ih =>
    have hv : flightVel (1 / 30) m I (fun j => forceOn (scene F).forces k (j / 30)) 0 (n + 1) = 0 := by
      unfold flightVel
      rw [ih.1, scene_force, if_neg hk]
      apply V3.ext <;> simp
    refine ⟨hv, ?_⟩
    unfold flightPose
    rw [hv, ih.2]
    apply V3.ext <;> simp

theorem pushed_force (F : V3) (n : ℕ) : forceOn (scene F).forces 1 (n / 30) = if n < 3 then (100 : ℝ) • F else 0 := by
  rw [scene_force, if_pos rfl]
  unfold learned_force
  by_cases h : n < 3
  · have : (n : ℝ) / 30 < 0.1 := by
      have : (n : ℝ) ≤ 2 := by exact_mod_cast (by omega : n ≤ 2)
      norm_num; linarith
    rw [if_pos this, if_pos h]
  · have : ¬ (n : ℝ) / 30 < 0.1 := by
      have : (3 : ℝ) ≤ n := by exact_mod_cast (by omega : 3 ≤ n)
      norm_num; linarith
    rw [if_neg this, if_neg h]
    apply V3.ext <;> simp [ZEROS]

theorem pushed_vel (F : V3) (I : ℝ) (n : ℕ) :
    (flightVel (1 / 30) 1 I (fun j => forceOn (scene F).forces 1 (j / 30)) 0 n).xy =
      (10 / 3 * (min n 3 : ℕ) * F.x, 10 / 3 * (min n 3 : ℕ) * F.y) := by
  induction n with
  | zero => simp [flightVel, V3.xy]
  | succ n ih =>
    unfold flightVel
    rw [pushed_force]
    simp only [V3.xy, Prod.mk.injEq] at ih ⊢
    by_cases h : n < 3
    · rw [if_pos h]
      rw [show min n 3 = n by omega] at ih
      rw [show min (n + 1) 3 = n + 1 by omega]
      simp only [V3.add_x, V3.add_y, ih.1, ih.2]
      constructor <;> simp <;> ring
    · rw [if_neg h]
      rw [show min n 3 = 3 by omega] at ih
      rw [show min (n + 1) 3 = 3 by omega]
      simp only [V3.add_x, V3.add_y, ih.1, ih.2]
      constructor <;> simp

theorem pushed_flight (F : V3) (I : ℝ) (n : ℕ) :
    (flightPose (1 / 30) 1 I (fun j => forceOn (scene F).forces 1 (j / 30)) ⟨0, 250, 210⟩ 0 n).xy = pushedPos F n := by
  induction n with
  | zero => simp [flightPose, V3.xy, pushedPos, pushed]
  | succ n ih =>
    unfold flightPose
    have hv := pushed_vel F I (n + 1)
    unfold pushedPos at ih ⊢
    simp only [V3.xy, Prod.mk.injEq] at ih hv ⊢
    simp only [V3.add_x, V3.add_y, V3.smul_x, V3.smul_y, ih.1, ih.2, hv.1, hv.2]
    match n with
    | 0 => constructor <;> norm_num [pushed] <;> ring
    | 1 => constructor <;> norm_num [pushed] <;> ring
    | n + 2 =>
      rw [show min (n + 2 + 1) 3 = 3 by omega]
      constructor <;> simp [pushed] <;> ring

/-! ## Pushes that miss -/

/-- Where the bodies are after `n` steps of free flight. -/
def scenePos (F : V3) (n k : ℕ) : V2 :=
  match k with
  | 0 => (500, 300)
  | 1 => pushedPos F n
  | _ => (400, 250)

/-- How fast they are. -/
def sceneVel (F : V3) (n k : ℕ) : V2 :=
  match k with
  | 1 => (10 / 3 * (min n 3 : ℕ) * F.x, 10 / 3 * (min n 3 : ℕ) * F.y)
  | _ => 0

/-- The run, as long as the pushed ball does not come to the other. -/
theorem scene_flight (F : V3) (M : ℕ) (hM : M ≤ 210) (hF : ∀ n ≤ M, 60.1 < len (pushedPos F n - (400, 250))) (lcp : LcpSolver)
    (mi fuel cfuel : ℕ) (hcf : 66 ≤ cfuel)
    (pairs : List Body → List (ℕ × ℕ)) (hp : ∀ bs, ∀ p ∈ pairs bs, p.1 < bs.length ∧ p.2 < bs.length ∧ p.1 ≠ p.2)
    (fnd : Finder) :
    ∃ w, (∀ n, (scene F).play lcp mi (fuel + 1) (n + M) (rejectNan (diffCollide cfuel (scene F).nc pairs)) fnd =
        runWorld (pdipmEnv 2 (scene F).forces lcp mi (rejectNan (diffCollide cfuel (scene F).nc pairs))) (fuel + 1)
          (scene F).run_time n w) ∧
      (∃ rad m I P V, Flying 3 rad m I P V w) ∧ w.t = M / 30 ∧
      (∀ k < 3, (bodyAt w.bodies k).mass = 1 ∧ (bodyAt w.bodies k).pos = scenePos F M k ∧
        (bodyAt w.bodies k).v.xy = sceneVel F M k) ∧ (bodyAt w.bodies 0).p = ⟨0, 500, 300⟩ ∧ (bodyAt w.bodies 2).p = ⟨0, 400, 250⟩ := by
  have hv : ∀ k, (sceneBody k).v = 0 := by
    intro k
    unfold sceneBody
    split <;> rfl
  have hq : ∀ k, k ≠ 1 → ∀ n, flightPose (1 / 30) (sceneBody k).mass (sceneBody k).ang_inertia
      (fun j => forceOn (scene F).forces k (j / 30)) (sceneBody k).p (sceneBody k).v n = (sceneBody k).p := by
    intro k hk n
    rw [hv]
    exact (rest_flight F k hk _ _ _ n).2
  have h1 : ∀ n, (flightPose (1 / 30) (sceneBody 1).mass (sceneBody 1).ang_inertia
      (fun j => forceOn (scene F).forces 1 (j / 30)) (sceneBody 1).p (sceneBody 1).v n).xy = pushedPos F n := by
    intro n
    rw [hv]
    exact pushed_flight F _ n
  obtain ⟨w, r1, r2, r3⟩ := flight_prefix (scene F) (scene_made F)
    (by
      intro i hi
      simp only [scene, List.mem_cons, List.not_mem_nil, or_false] at hi
      rcases hi with rfl | rfl | rfl <;> exact ⟨_, _, _, rfl⟩)
    (fun bs => rfl) rfl (scene_forces F _) lcp mi fuel cfuel hcf pairs hp fnd M
    (by
      have : (M : ℝ) ≤ 210 := by exact_mod_cast hM
      show (M : ℝ) / 30 ≤ 7
      linarith) sceneBody
    (scene_build F) (fun n k => flightPose (1 / 30) (sceneBody k).mass (sceneBody k).ang_inertia
      (fun j => forceOn (scene F).forces k (j / 30)) (sceneBody k).p (sceneBody k).v n) (fun k hk n => rfl)
    (by
      intro n hn k hk l hl hne hx
      have hk' : k < 3 := hk
      have hl' : l < 3 := hl
      have e2 : (sceneBody 2).p.xy = (400, 250) := rfl
      have hd := hF n hn
      interval_cases k <;> interval_cases l
      all_goals first
        | exact absurd rfl hne
        | (exfalso; apply hx; simp [scene, addNoContact]; done)
        | skip
      · rw [h1, hq 2 (by norm_num), e2]
        norm_num [sceneBody, Body.rad, mkCircle] at hd ⊢
        exact hd
      · rw [h1, hq 2 (by norm_num), e2]
        have : len ((400, 250) - pushedPos F n) = len (pushedPos F n - (400, 250)) := by
          unfold len
          congr 1
          simp only [Prod.fst_sub, Prod.snd_sub]
          ring
        rw [this]
        norm_num [sceneBody, Body.rad, mkCircle] at hd ⊢
        exact hd)
  have hpose := fun k (hk : k < 3) => (r2.body k hk).2.2.2.2.2.1
  have hvel : ∀ k, k < 3 → (bodyAt w.bodies k).v = twist w.v k := fun k hk => by
    have e := r2.inv.good.vel k (by rw [r2.count]; exact hk)
    have e' : bodyAt w.bodies k = w.bodies[k]'(by rw [r2.count]; exact hk) := by
      simp [bodyAt, List.getD_eq_getElem?_getD, show k < w.bodies.length by rw [r2.count]; exact hk]
    rw [e', e, slice3_twist]
  refine ⟨w, r1, ⟨_, _, _, _, _, r2⟩, r3, ?_, ?_, ?_⟩
  · intro k hk
    refine ⟨?_, ?_, ?_⟩
    · rw [(r2.body k hk).2.1]
      interval_cases k <;> rfl
    · unfold Body.pos
      rw [hpose k hk]
      interval_cases k
      · rw [hq 0 (by norm_num)]; rfl
      · exact h1 M
      · rw [hq 2 (by norm_num)]; rfl
    · rw [hvel k hk, (r2.body k hk).2.2.2.2.2.2, hv]
      interval_cases k
      · rw [(rest_flight F 0 (by norm_num) _ _ 0 M).1]; rfl
      · exact pushed_vel F _ M
      · rw [(rest_flight F 2 (by norm_num) _ _ 0 M).1]; rfl
  · rw [hpose 0 (by norm_num), hq 0 (by norm_num)]; rfl
  · rw [hpose 2 (by norm_num), hq 2 (by norm_num)]; rfl

/-- C117: with a push that misses, `run_world` returns, with any LCP solver; the pushed ball has flown past, and neither the second
ball nor the target has moved. -/
theorem C117_miss (F : V3) (hF : Misses F) (lcp : LcpSolver) (mi fuel cfuel : ℕ) (hcf : 66 ≤ cfuel)
    (pairs : List Body → List (ℕ × ℕ)) (hp : ∀ bs, ∀ p ∈ pairs bs, p.1 < bs.length ∧ p.2 < bs.length ∧ p.1 ≠ p.2)
    (fnd : Finder) :
    ∃ w, (scene F).play lcp mi (fuel + 1) 210 (rejectNan (diffCollide cfuel (scene F).nc pairs)) fnd = .done w ∧ w.t = 7 ∧
      (bodyAt w.bodies 0).p = ⟨0, 500, 300⟩ ∧ (bodyAt w.bodies 2).p = ⟨0, 400, 250⟩ ∧
      (bodyAt w.bodies 1).pos = (250 + 209 / 3 * F.x, 210 + 209 / 3 * F.y) := by
  obtain ⟨w, r1, -, r3, r4, r5, r6⟩ := scene_flight F 210 le_rfl hF lcp mi fuel cfuel hcf pairs hp fnd
  have r3 : w.t = 7 := by rw [r3]; norm_num
  refine ⟨w, ?_, r3, r5, r6, ?_⟩
  · have := r1 0
    rw [Nat.zero_add] at this
    rw [this]
    unfold runWorld
    rw [if_neg (by rw [r3]; exact lt_irrefl _)]
  · rw [(r4 1 (by norm_num)).2.1]
    norm_num [scenePos, pushedPos, pushed]

/-- Every push with a horizontal part of at most 1.29 misses. -/
theorem C117_weak_misses (F : V3) (h : F.x ≤ 1.29) : Misses F := by
  intro n hn
  have hc : 0 ≤ pushed n ∧ pushed n ≤ 209 / 3 := by
    match n with
    | 0 => norm_num [pushed]
    | 1 => norm_num [pushed]
    | n + 2 =>
      have : (n : ℝ) ≤ 208 := by exact_mod_cast (by omega : n ≤ 208)
      have h0 : (0 : ℝ) ≤ n := Nat.cast_nonneg n
      unfold pushed
      constructor
      · positivity
      · linarith
  have hx : pushed n * F.x ≤ 209 / 3 * 1.29 := by
    by_cases h0 : 0 ≤ F.x
    · exact mul_le_mul hc.2 h h0 (by norm_num)
    · have : pushed n * F.x ≤ 0 := mul_nonpos_of_nonneg_of_nonpos hc.1 (by linarith)
      norm_num; linarith
  unfold len
  apply Real.lt_sqrt_of_sq_lt
  simp only [pushedPos, Prod.fst_sub, Prod.snd_sub]
  norm_num at hx ⊢
  nlinarith [sq_nonneg (210 + pushed n * F.y - 250)]

/-- The push the demo starts from does not miss. -/
theorem C117_first_push_hits : ¬ Misses initial_force := by
  intro h
  have := h 107 (by norm_num)
  unfold len at this
  rw [Real.lt_sqrt (by norm_num)] at this
  norm_num [pushedPos, pushed, initial_force] at this

/-- What the loop measures. -/
theorem simulate_miss (F : V3) (hF : Misses F) (lcp : LcpSolver) (mi fuel cfuel : ℕ) (hcf : 66 ≤ cfuel)
    (pairs : List Body → List (ℕ × ℕ)) (hp : ∀ bs, ∀ p ∈ pairs bs, p.1 < bs.length ∧ p.2 < bs.length ∧ p.1 ≠ p.2)
    (fnd : Finder) :
    simulate lcp mi (fuel + 1) 210 (rejectNan (diffCollide cfuel (scene F).nc pairs)) fnd F = .done (50 * √5) := by
  obtain ⟨w, h1, -, h2, h3, -⟩ := C117_miss F hF lcp mi fuel cfuel hcf pairs hp fnd
  unfold simulate
  rw [h1]
  simp only [Run.bind_done]
  congr 1
  unfold distOf Body.pos
  rw [h2, h3, nrm_eq_len]
  unfold len
  rw [show ((⟨0, 500, 300⟩ : V3).xy - (⟨0, 400, 250⟩ : V3).xy).1 ^ 2 + ((⟨0, 500, 300⟩ : V3).xy - (⟨0, 400, 250⟩ : V3).xy).2 ^ 2 =
    (50 * √5) ^ 2 by
      rw [mul_pow, Real.sq_sqrt (by norm_num)]
      norm_num [V3.xy]]
  exact Real.sqrt_sq (by positivity)

/-- A push near one that misses misses too. -/
theorem misses_near (F E : V3) (hF : Misses F) : ∀ᶠ x : ℝ in nhds 0, Misses (F + x • E) := by
  have key : ∀ n ∈ Finset.range 211, ∀ᶠ x : ℝ in nhds 0, 60.1 < len (pushedPos (F + x • E) n - (400, 250)) := by
    intro n hn
    have hc : Continuous fun x : ℝ => len (pushedPos (F + x • E) n - (400, 250)) := by
      unfold len pushedPos
      simp only [V3.add_x, V3.add_y, V3.smul_x, V3.smul_y, Prod.fst_sub, Prod.snd_sub]
      fun_prop
    refine hc.continuousAt.eventually (lt_mem_nhds ?_)
    have := hF n (by simpa [Nat.lt_succ_iff] using hn)
    have e : F + (0 : ℝ) • E = F := by apply V3.ext <;> simp
    show 60.1 < len (pushedPos (F + (0 : ℝ) • E) n - (400, 250))
    rw [e]
    exact this
  have := (Finset.eventually_all (Finset.range 211)).2 key
  filter_upwards [this] with x hx n hn
  exact hx n (Finset.mem_range.2 (by omega))

/-- The value the simulation returns, if it does. -/
def returned (r : Run ℝ) : ℝ :=
  match r with
  | .done d => d
  | _ => 0

/-- C117: at a push that misses, the measured distance has derivative zero in every direction. -/
theorem C117_no_gradient (F E : V3) (hF : Misses F) (lcp : LcpSolver) (mi fuel cfuel : ℕ) (hcf : 66 ≤ cfuel)
    (pairs : List Body → List (ℕ × ℕ)) (hp : ∀ bs, ∀ p ∈ pairs bs, p.1 < bs.length ∧ p.2 < bs.length ∧ p.1 ≠ p.2)
    (fnd : Finder) :
    HasDerivAt (fun x : ℝ => returned (simulate lcp mi (fuel + 1) 210 (rejectNan (diffCollide cfuel (scene F).nc pairs)) fnd
      (F + x • E))) 0 0 := by
  refine (hasDerivAt_const (0 : ℝ) (50 * √5)).congr_of_eventuallyEq ?_
  filter_upwards [misses_near F E hF] with x hx
  have := simulate_miss (F + x • E) hx lcp mi fuel cfuel hcf pairs hp fnd
  change simulate lcp mi (fuel + 1) 210 (rejectNan (diffCollide cfuel (scene F).nc pairs)) fnd (F + x • E) = _ at this
  rw [this]
  rfl

/-- `backward` computes derivatives: where the distance has a derivative in every direction, the gradient gives it. -/
def Differentiates (sim : V3 → Run ℝ) (grad : V3 → V3) : Prop :=
  ∀ F, ∀ D : V3 → ℝ, (∀ E, HasDerivAt (fun x : ℝ => returned (sim (F + x • E))) (D E) 0) →
    (grad F).r = D ⟨1, 0, 0⟩ ∧ (grad F).x = D ⟨0, 1, 0⟩ ∧ (grad F).y = D ⟨0, 0, 1⟩

/-! ## The descent -/

/-- C117: once the push misses, the descent is over: the force is not changed any more, and the loop ends with its next iteration
or the one after that, whatever the step length. -/
theorem C117_stalls (s : State) (hF : Misses s.force) (lcp : LcpSolver) (mi fuel cfuel : ℕ) (hcf : 66 ≤ cfuel)
    (pairs : List Body → List (ℕ × ℕ)) (hp : ∀ bs, ∀ p ∈ pairs bs, p.1 < bs.length ∧ p.2 < bs.length ∧ p.1 ≠ p.2)
    (fnd : Finder) (grad : V3 → V3)
    (hg : Differentiates (simulate lcp mi (fuel + 1) 210 (rejectNan (diffCollide cfuel (scene s.force).nc pairs)) fnd) grad)
    (k : ℕ) :
    ∃ r, descend (simulate lcp mi (fuel + 1) 210 (rejectNan (diffCollide cfuel (scene s.force).nc pairs)) fnd) grad (k + 2) s =
      .done r ∧ r.force = s.force ∧ r.dist = some (50 * √5) ∧ r.hist.length ≤ s.hist.length + 1 := by
  have hsim := simulate_miss s.force hF lcp mi fuel cfuel hcf pairs hp fnd
  have hz := hg s.force (fun _ => 0) fun E => C117_no_gradient s.force E hF lcp mi fuel cfuel hcf pairs hp fnd
  have hsame : ∀ rate : ℝ, s.force - rate • grad s.force = s.force := by
    intro rate
    apply V3.ext <;> simp [hz.1, hz.2.1, hz.2.2]
  generalize simulate lcp mi (fuel + 1) 210 (rejectNan (diffCollide cfuel (scene s.force).nc pairs)) fnd = sim at *
  unfold descend
  rw [hsim]
  simp only [Run.bind_done, hsame]
  split_ifs with h1
  · exact ⟨_, rfl, rfl, rfl, by simp⟩
  · unfold descend
    simp only [hsim, Run.bind_done, hsame]
    rw [if_pos (by norm_num)]
    exact ⟨_, rfl, rfl, rfl, by simp⟩

/-- C117: how far the descent can go: if no component of a gradient is larger than `G`, then after any number of iterations no
component of the force has moved by `0.01 · G`. -/
theorem C117_reach (sim : V3 → Run ℝ) (grad : V3 → V3) (G : ℝ) (hG : ∀ F, |(grad F).r| ≤ G ∧ |(grad F).x| ≤ G ∧ |(grad F).y| ≤ G) :
    ∀ (k : ℕ) (s r : State), 0 ≤ s.rate → descend sim grad k s = .done r → 0 ≤ r.rate ∧
      |r.force.r - s.force.r| ≤ 10 * G * (s.rate - r.rate) ∧ |r.force.x - s.force.x| ≤ 10 * G * (s.rate - r.rate) ∧
      |r.force.y - s.force.y| ≤ 10 * G * (s.rate - r.rate)
  | 0, s, r, hs, h => by
    unfold descend at h
    injection h with h
    subst h
    simp [hs]
  | k + 1, s, r, hs, h => by
    unfold descend at h
    rw [Run.bind_eq_done] at h
    obtain ⟨d, h1, h2⟩ := h
    obtain ⟨g1, g2, g3⟩ := hG s.force
    have hstep : ∀ g : ℝ, |g| ≤ G → |s.rate * g| ≤ 10 * G * (s.rate - s.rate * 0.9) := by
      intro g hg
      rw [abs_mul, abs_of_nonneg hs]
      have := mul_le_mul_of_nonneg_left hg hs
      norm_num
      linarith
    simp only at h2
    split_ifs at h2 with hb
    · injection h2 with h2
      subst h2
      refine ⟨by positivity, ?_, ?_, ?_⟩
      · have := hstep _ g1
        simpa [abs_sub_comm] using this
      · have := hstep _ g2
        simpa [abs_sub_comm] using this
      · have := hstep _ g3
        simpa [abs_sub_comm] using this
    · obtain ⟨q0, q1, q2, q3⟩ := C117_reach sim grad G hG k _ r (by simp only; positivity) h2
      refine ⟨q0, ?_, ?_, ?_⟩
      · have := abs_sub_le r.force.r (s.force.r - s.rate * (grad s.force).r) s.force.r
        have e := hstep _ g1
        simp only [V3.sub_r, V3.smul_r] at q1
        rw [show s.force.r - s.rate * (grad s.force).r - s.force.r = -(s.rate * (grad s.force).r) by ring, abs_neg] at this
        linarith
      · have := abs_sub_le r.force.x (s.force.x - s.rate * (grad s.force).x) s.force.x
        have e := hstep _ g2
        simp only [V3.sub_x, V3.smul_x] at q2
        rw [show s.force.x - s.rate * (grad s.force).x - s.force.x = -(s.rate * (grad s.force).x) by ring, abs_neg] at this
        linarith
      · have := abs_sub_le r.force.y (s.force.y - s.rate * (grad s.force).y) s.force.y
        have e := hstep _ g3
        simp only [V3.sub_y, V3.smul_y] at q3
        rw [show s.force.y - s.rate * (grad s.force).y - s.force.y = -(s.rate * (grad s.force).y) by ring, abs_neg] at this
        linarith

/-- C117: in particular the learned force differs from the first one by less than a hundredth of the largest gradient, so that
with gradients below 171 the demo never gets to a push that misses by being too weak. -/
theorem C117_reach_demo (sim : V3 → Run ℝ) (grad : V3 → V3) (G : ℝ) (hG0 : 0 ≤ G)
    (hG : ∀ F, |(grad F).r| ≤ G ∧ |(grad F).x| ≤ G ∧ |(grad F).y| ≤ G) (d : Option ℝ) (F : V3) (hist : List ℝ)
    (h : grad_demo sim grad = .done (d, F, hist)) :
    |F.r| ≤ 0.01 * G ∧ |F.x - 3| ≤ 0.01 * G ∧ |F.y| ≤ 0.01 * G ∧ (G ≤ 171 → 1.29 ≤ F.x) := by
  unfold grad_demo at h
  rw [Run.bind_eq_done] at h
  obtain ⟨-, -, h⟩ := h
  rw [Run.bind_eq_done] at h
  obtain ⟨s, h1, h⟩ := h
  rw [Run.bind_eq_done] at h
  obtain ⟨-, -, h⟩ := h
  injection h with h
  simp only [Prod.mk.injEq] at h
  obtain ⟨rfl, rfl, rfl⟩ := h
  obtain ⟨h0, hr, hx, hy⟩ := C117_reach sim grad G hG 100 start s (by norm_num [start]) h1
  have hb : 10 * G * (start.rate - s.rate) ≤ 0.01 * G := by
    have : start.rate = 0.001 := rfl
    rw [this]
    nlinarith
  have er : start.force.r = 0 := rfl
  have ex : start.force.x = 3 := rfl
  have ey : start.force.y = 0 := rfl
  rw [er, sub_zero] at hr
  rw [ex] at hx
  rw [ey, sub_zero] at hy
  refine ⟨hr.trans hb, hx.trans hb, hy.trans hb, fun h => ?_⟩
  have := (abs_le.1 (hx.trans hb)).1
  norm_num at this ⊢
  linarith

/-- What is known after the loop: the last distance is that of the force before the last correction. -/
theorem descend_last (sim : V3 → Run ℝ) (grad : V3 → V3) : ∀ (k : ℕ) (s r : State), descend sim grad (k + 1) s = .done r →
    ∃ F d, sim F = .done d ∧ r.dist = some d ∧ r.force = F - (r.rate / 0.9) • grad F
  | k, s, r, h => by
    unfold descend at h
    rw [Run.bind_eq_done] at h
    obtain ⟨d, h1, h2⟩ := h
    simp only at h2
    split_ifs at h2 with hb
    · injection h2 with h2
      subst h2
      refine ⟨s.force, d, h1, rfl, ?_⟩
      simp only
      rw [mul_div_cancel_right₀ _ (by norm_num)]
    · match k with
      | 0 =>
        unfold descend at h2
        injection h2 with h2
        subst h2
        refine ⟨s.force, d, h1, rfl, ?_⟩
        simp only
        rw [mul_div_cancel_right₀ _ (by norm_num)]
      | k + 1 => exact descend_last sim grad k _ r h2

/-- C117: the distance printed at the end is not the distance reached with the force that is reported, but that of the force before
the last correction: the last run makes a new world, and the bodies measured are those of the loop. -/
theorem C117_printed (sim : V3 → Run ℝ) (grad : V3 → V3) (d : Option ℝ) (F : V3) (hist : List ℝ)
    (h : grad_demo sim grad = .done (d, F, hist)) :
    ∃ (F' : V3) (rate : ℝ), sim F' = .done (d.getD 0) ∧ d.isSome ∧ F = F' - rate • grad F' := by
  unfold grad_demo at h
  rw [Run.bind_eq_done] at h
  obtain ⟨-, -, h⟩ := h
  rw [Run.bind_eq_done] at h
  obtain ⟨s, h1, h⟩ := h
  rw [Run.bind_eq_done] at h
  obtain ⟨-, -, h⟩ := h
  injection h with h
  simp only [Prod.mk.injEq] at h
  obtain ⟨rfl, rfl, rfl⟩ := h
  obtain ⟨F', d', q1, q2, q3⟩ := descend_last sim grad 99 _ s h1
  exact ⟨F', _, by rw [q2]; exact q1, by rw [q2]; rfl, q3⟩

end LcpPhysics
