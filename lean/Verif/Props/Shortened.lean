import Verif.Props.Bounce
import Verif.Spec.Shortened

/-!
# C104: a step that is cut short applies the force of the whole step

`World.step_dt` asks the engine for the velocities after `dt` and then moves the bodies for `dt / 2^k` only.
-/

noncomputable section

namespace LcpPhysics
open Spec Filter Topology

variable {φ : Type}

/-- A body that no joint holds and nothing touches moves as the forces say. -/
theorem free_body_at {bs : List Body} {js : List Joint} {cs : List Contact} {f : ℕ → V3} {v v' l : Vec} {pn a b g : ℕ → ℝ}
    (h : ContactLaw bs js cs f v v' l pn a b g) (i : ℕ) (hi : i < bs.length) (hj : ∀ j ∈ js, j.i1 ≠ i ∧ i ∉ j.i2)
    (hc : ∀ c ∈ cs, c.i1 ≠ i ∧ c.i2 ≠ i)
    (hm : 0 < (bodyAt bs i).mass ∧ 0 < (bodyAt bs i).ang_inertia) : twist v' i = freeTwist bs f v i := by
  obtain ⟨hm, hI⟩ := hm
  have key : ∀ u : Vec, (bodyAt bs i).ang_inertia * v' (3 * i) * u (3 * i) +
      (bodyAt bs i).mass * (v' (3 * i + 1) * u (3 * i + 1) + v' (3 * i + 2) * u (3 * i + 2)) =
    (bodyAt bs i).ang_inertia * v (3 * i) * u (3 * i) +
      (bodyAt bs i).mass * (v (3 * i + 1) * u (3 * i + 1) + v (3 * i + 2) * u (3 * i + 2)) +
      ((f i).r * u (3 * i) + (f i).x * u (3 * i + 1) + (f i).y * u (3 * i + 2)) := by
    intro u
    have hd := h.dynamics (onlyOn (· = i) u)
    have hj0 : jointPower js l (onlyOn (· = i) u) = 0 := by
      apply jointPower_zero
      intro x hx
      obtain ⟨j, hjm, hx⟩ := List.mem_flatMap.1 hx
      refine jointVel_out (S := (· = i)) ?_ u x hx
      simp only [holds, decide_eq_true_eq, not_or, not_exists, not_and]
      exact ⟨(hj j hjm).1, fun k hk hki => (hj j hjm).2 (hki ▸ hk)⟩
    have hs : (Finset.range bs.length).filter (· = i) = {i} := by
      ext k
      simp only [Finset.mem_filter, Finset.mem_range, Finset.mem_singleton]
      constructor
      · exact fun h => h.2
      · rintro rfl; exact ⟨hi, rfl⟩
    have hc0 : ∀ pt, contactPower cs pn pt (onlyOn (· = i) u) = 0 := by
      intro pt
      unfold contactPower
      refine Finset.sum_eq_zero fun q hq => ?_
      have hq := Finset.mem_range.1 hq
      rw [List.getElem?_eq_getElem hq]
      have := hc cs[q] (List.getElem_mem hq)
      have ht : ¬ touches (· = i) cs[q] = true := by simpa [touches] using this
      simp [normalVel, slipVel, contactVel_out ht, Spec.inner]
    rw [hj0, hc0, momentumPower_onlyOn, momentumPower_onlyOn, forcePower_onlyOn, hs] at hd
    simp only [Finset.sum_singleton, twist, add_zero] at hd
    exact hd
  have k1 := key fun k => if k = 3 * i then 1 else 0
  have k2 := key fun k => if k = 3 * i + 1 then 1 else 0
  have k3 := key fun k => if k = 3 * i + 2 then 1 else 0
  have q1 : 3 * i + 1 ≠ 3 * i := by omega
  have q2 : 3 * i + 2 ≠ 3 * i := by omega
  have q3 : 3 * i ≠ 3 * i + 1 := by omega
  have q4 : 3 * i + 2 ≠ 3 * i + 1 := by omega
  have q5 : 3 * i ≠ 3 * i + 2 := by omega
  have q6 : 3 * i + 1 ≠ 3 * i + 2 := by omega
  simp only [if_true, if_neg q1, if_neg q2, if_neg q3, if_neg q4, if_neg q5, if_neg q6] at k1 k2 k3
  simp only [twist, freeTwist]
  refine V3.ext ?_ ?_ ?_ <;> simp only <;> field_simp <;> linarith

/-- C104: a step of length `dt` that is cut down to `dt / 2^k` changes the velocity of a body that is left alone by `dt`
times its acceleration, and its place by `dt / 2^k` times the new velocity. -/
theorem C104_step (H : ForceHeap) (lcp : LcpSolver) (hx : Exact lcp) (mi : ℕ)
    (collide : ℝ → φ → List Body → Except Err (φ × List Contact)) (w w' : World (Option Mat) φ) (hw : EngineInv w)
    (hp : w.post_stab = false) (fuel : ℕ) (dt : ℝ) (h : w.step_dt (pdipmEnv 2 H lcp mi collide) fuel dt = .done w')
    (i : ℕ) (hi : i < w.bodies.length) (hu : LeftAlone w i)
    (hm : 0 < (bodyAt w.bodies i).mass ∧ 0 < (bodyAt w.bodies i).ang_inertia) :
    ∃ (fl : List V3) (k : ℕ), forceCat H w.t w.bodies.length = .ok fl ∧ w'.t = w.t + dt / 2 ^ k ∧
      twist w'.v i = twist w.v i + dt • accel (bodyAt w.bodies i) (fl.getD i 0) ∧
      (bodyAt w'.bodies i).p = (bodyAt w.bodies i).p + (dt / 2 ^ k) • twist w'.v i := by
  obtain ⟨e, v, k, w1, w2, hsol, -, rfl, -, ⟨fk, f', cs, -, -, rfl⟩, -, hend⟩ := step_dt_done hw.good h
  obtain ⟨fl, l, pn, a, b, gs, hfl, law⟩ :=
    C38_engine_contact_law H lcp mi w dt e v hw.joints hw.contacts hw.cache.ok hx hsol
  rcases hend with ⟨-, rfl⟩ | ⟨hp', -⟩
  swap
  · rw [hp] at hp'; cases hp'
  have hv : twist v i = twist w.v i + dt • accel (bodyAt w.bodies i) (fl.getD i 0) := by
    rw [free_body_at law i hi hu.1 hu.2 hm]
    unfold freeTwist impulse accel
    apply V3.ext <;> simp only [V3.smul_r, V3.smul_x, V3.smul_y, V3.add_r, V3.add_x, V3.add_y] <;> ring
  refine ⟨fl, k, hfl, rfl, hv, ?_⟩
  show (bodyAt (((({ w with eng := e } : World (Option Mat) φ).set_v v).bodies).map fun b => b.move (dt / 2 ^ k)) i).p =
    (bodyAt w.bodies i).p + (dt / 2 ^ k) • twist v i
  rw [bodyAt_map _ _ _ (by rw [set_v_length]; exact hi), move_p,
    set_v_at ({ w with eng := e } : World (Option Mat) φ) v i hi]

/-- The force on body `i`, of mass `m`, is its weight at all times. -/
def WeighsAt (H : ForceHeap) (n i : ℕ) (m γ : ℝ) : Prop :=
  ∀ t, ∃ fl, forceCat H t n = .ok fl ∧ fl.getD i 0 = ⟨0, 0, m * γ⟩

/-- C104: the energy of a falling body after a step cut down to the length `d`: an error `γ dt²/2` of the method, and the
gain of the force that acted for the time `dt - d` that has not passed. -/
theorem C104_energy (H : ForceHeap) (lcp : LcpSolver) (hx : Exact lcp) (mi : ℕ)
    (collide : ℝ → φ → List Body → Except Err (φ × List Contact)) (w w' : World (Option Mat) φ) (hw : EngineInv w)
    (hp : w.post_stab = false) (fuel : ℕ) (dt : ℝ) (h : w.step_dt (pdipmEnv 2 H lcp mi collide) fuel dt = .done w')
    (i : ℕ) (hi : i < w.bodies.length) (hu : LeftAlone w i)
    (hm : 0 < (bodyAt w.bodies i).mass ∧ 0 < (bodyAt w.bodies i).ang_inertia) (γ : ℝ)
    (hg : WeighsAt H w.bodies.length i (bodyAt w.bodies i).mass γ) :
    fallEnergy (bodyAt w'.bodies i) γ (twist w'.v i) - fallEnergy (bodyAt w.bodies i) γ (twist w.v i) =
      (bodyAt w.bodies i).mass * γ * ((twist w'.v i).y * (dt - (w'.t - w.t)) - γ * dt ^ 2 / 2) := by
  obtain ⟨fl, k, hfl, ht, hv, hpl⟩ := C104_step H lcp hx mi collide w w' hw hp fuel dt h i hi hu hm
  obtain ⟨fl', hfl', hF⟩ := hg w.t
  rw [hfl] at hfl'
  injection hfl' with hfl'
  subst hfl'
  obtain ⟨o, ho⟩ := (posed_step hw.good h).2 i hi
  have hc : (bodyAt w'.bodies i).mass = (bodyAt w.bodies i).mass ∧
      (bodyAt w'.bodies i).ang_inertia = (bodyAt w.bodies i).ang_inertia := by
    have : (bodyAt w'.bodies i).consts = (bodyAt w.bodies i).consts := by rw [ho, run_consts]
    simp only [Body.consts, Prod.mk.injEq] at this
    exact ⟨this.1, this.2.1⟩
  unfold fallEnergy
  rw [hc.1, hc.2, hpl, ht, hv, hF]
  simp only [accel, V3.add_r, V3.add_x, V3.add_y, V3.smul_r, V3.smul_x, V3.smul_y]
  have hmn := hm.1.ne'
  generalize (bodyAt w.bodies i).mass = m at hmn
  rw [show m * γ / m = γ by field_simp, zero_div, zero_div]
  ring

/-! ## Runs -/

theorem posed_consts {bs bs' : List Body} (h : Posed bs bs') {i : ℕ} (hi : i < bs.length) :
    (bodyAt bs' i).mass = (bodyAt bs i).mass ∧ (bodyAt bs' i).ang_inertia = (bodyAt bs i).ang_inertia := by
  obtain ⟨o, ho⟩ := h.2 i hi
  have : (bodyAt bs' i).consts = (bodyAt bs i).consts := by rw [ho, run_consts]
  simp only [Body.consts, Prod.mk.injEq] at this
  exact ⟨this.1, this.2.1⟩

/-- One step of a falling body. -/
theorem fall_step {H : ForceHeap} {lcp : LcpSolver} (hx : Exact lcp) {mi : ℕ}
    {collide : ℝ → φ → List Body → Except Err (φ × List Contact)} {w w' : World (Option Mat) φ} (hw : EngineInv w)
    (hp : w.post_stab = false) {fuel : ℕ} {dt : ℝ} (h : w.step_dt (pdipmEnv 2 H lcp mi collide) fuel dt = .done w')
    {i : ℕ} (hi : i < w.bodies.length) (hu : LeftAlone w i)
    (hm : 0 < (bodyAt w.bodies i).mass ∧ 0 < (bodyAt w.bodies i).ang_inertia) {γ : ℝ}
    (hg : WeighsAt H w.bodies.length i (bodyAt w.bodies i).mass γ) :
    ∃ k : ℕ, w'.t = w.t + dt / 2 ^ k ∧ twist w'.v i = twist w.v i + ⟨0, 0, dt * γ⟩ ∧
      (bodyAt w'.bodies i).p = (bodyAt w.bodies i).p + (dt / 2 ^ k) • twist w'.v i := by
  obtain ⟨fl, k, hfl, ht, hv, hpl⟩ := C104_step H lcp hx mi collide w w' hw hp fuel dt h i hi hu hm
  obtain ⟨fl', hfl', hF⟩ := hg w.t
  rw [hfl] at hfl'
  injection hfl' with hfl'
  subst hfl'
  refine ⟨k, ht, ?_, hpl⟩
  rw [hv, hF]
  have hmn := hm.1.ne'
  unfold accel
  apply V3.ext
  · simp
  · simp
  · simp only [V3.add_y, V3.smul_y]
    field_simp

/-- C104: over `n` steps the weight acts on a body that is left alone for the time `n dt`; this is the time that has passed
exactly if none of the steps was cut short, and more than that otherwise. -/
theorem C104_run (H : ForceHeap) (lcp : LcpSolver) (hx : Exact lcp) (mi : ℕ)
    (collide : ℝ → φ → List Body → Except Err (φ × List Contact)) (hfind : FinderOk collide) (dt : ℝ) (hdt : 0 < dt) (n : ℕ)
    (ws : ℕ → World (Option Mat) φ) (hst : Steps (pdipmEnv 2 H lcp mi collide) dt n ws) (hw : EngineInv (ws 0))
    (hp : (ws 0).post_stab = false) (i : ℕ) (hi : i < (ws 0).bodies.length)
    (hm : 0 < (bodyAt (ws 0).bodies i).mass ∧ 0 < (bodyAt (ws 0).bodies i).ang_inertia)
    (hu : ∀ k < n, LeftAlone (ws k) i) (γ : ℝ)
    (hg : WeighsAt H (ws 0).bodies.length i (bodyAt (ws 0).bodies i).mass γ) :
    twist (ws n).v i = twist (ws 0).v i + ⟨0, 0, γ * (n * dt)⟩ ∧
    (ws n).t - (ws 0).t ≤ n * dt ∧
    ((ws n).t - (ws 0).t = n * dt ↔ ∀ k < n, (ws (k + 1)).t = (ws k).t + dt) := by
  have main : ∀ k ≤ n, EngineInv (ws k) ∧ (ws k).post_stab = false ∧ Posed (ws 0).bodies (ws k).bodies ∧
      twist (ws k).v i = twist (ws 0).v i + ⟨0, 0, γ * (k * dt)⟩ ∧ (ws k).t - (ws 0).t ≤ k * dt ∧
      ((ws k).t - (ws 0).t = k * dt ↔ ∀ q < k, (ws (q + 1)).t = (ws q).t + dt) := by
    intro k
    induction k with
    | zero =>
      intro _
      refine ⟨hw, hp, ⟨rfl, fun i _ => ⟨[], rfl⟩⟩, ?_, by simp, by simp⟩
      apply V3.ext <;> simp
    | succ k ih =>
      intro hk
      obtain ⟨i1, i2, i3, i4, i5, i6⟩ := ih (by omega)
      obtain ⟨fuel, hs⟩ := hst k (by omega)
      have hlen : i < (ws k).bodies.length := by rw [i3.1]; exact hi
      obtain ⟨c1, c2⟩ := posed_consts i3 hi
      obtain ⟨q, j1, j2, j3⟩ := fall_step hx i1 i2 hs hlen (hu k (by omega)) (by rw [c1, c2]; exact hm) (γ := γ)
        (by rw [c1, i3.1]; exact hg)
      have hle : dt / 2 ^ q ≤ dt := div_le_self hdt.le (one_le_pow₀ (by norm_num))
      refine ⟨step_inv hfind i1 hs, (step_dt_params i1.good hs).2.2.2.1.trans i2, i3.trans (posed_step i1.good hs), ?_, ?_, ?_⟩
      · rw [j2, i4]
        apply V3.ext <;> simp
        ring
      · rw [j1]; push_cast; linarith
      · constructor
        · intro hE r hr
          rw [j1] at hE
          push_cast at hE
          have e1 : (ws k).t - (ws 0).t = k * dt := by linarith
          rcases Nat.lt_succ_iff_lt_or_eq.1 hr with h | rfl
          · exact i6.1 e1 r h
          · rw [j1]; linarith
        · intro hA
          have := i6.2 fun r hr => hA r (by omega)
          rw [hA k (by omega)]
          push_cast
          linarith
  exact (main n le_rfl).2.2.2

/-- The sub-steps of `step(fixed_dt=True)`. -/
theorem fixedLoop_substeps {σ : Type} {env : Env σ φ} {fuel : ℕ} {end_t : ℝ} : ∀ (sub : ℕ) (w w' : World σ φ),
    fixedLoop env fuel end_t sub w = .done w' →
    ∃ (n : ℕ) (ws : ℕ → World σ φ), ws 0 = w ∧ ws n = w' ∧
      (∀ j < n, (ws j).t < end_t ∧ (ws j).step_dt env fuel (end_t - (ws j).t) = .done (ws (j + 1))) ∧ ¬ (ws n).t < end_t := by
  intro sub
  induction sub with
  | zero =>
    intro w w' h
    unfold fixedLoop at h
    split_ifs at h with h1
    have := Run.done.inj h
    subst this
    exact ⟨0, fun _ => w, rfl, rfl, fun j hj => by omega, h1⟩
  | succ m ih =>
    intro w w' h
    unfold fixedLoop at h
    split_ifs at h with h1
    · simp only [Run.bind_eq_done] at h
      obtain ⟨w1, h2, h3⟩ := h
      obtain ⟨n, ws, e1, e2, e3, e4⟩ := ih w1 w' h3
      refine ⟨n + 1, fun j => if j = 0 then w else ws (j - 1), by simp, by simp [e2], fun j hj => ?_, by simpa using e4⟩
      rcases Nat.eq_zero_or_pos j with rfl | hpos
      · simp only [if_true, Nat.zero_add, Nat.one_ne_zero, if_false, Nat.sub_self]
        rw [e1]; exact ⟨h1, h2⟩
      · simp only
        rw [if_neg (by omega), if_neg (by omega)]
        have := e3 (j - 1) (by omega)
        rwa [show j - 1 + 1 = j + 1 - 1 by omega] at this
    · have := Run.done.inj h
      subst this
      exact ⟨0, fun _ => w, rfl, rfl, fun j hj => by omega, h1⟩

/-- C104: `step(fixed_dt=True)` ends at `t + dt`, but every sub-step applies the force for all of the time that is left: the
force acts for the time `dt` exactly if there is only one sub-step, and for longer otherwise. -/
theorem C104_fixed_step (H : ForceHeap) (lcp : LcpSolver) (hx : Exact lcp) (mi : ℕ)
    (collide : ℝ → φ → List Body → Except Err (φ × List Contact)) (hfind : FinderOk collide) (fuel sub : ℕ)
    (w w' : World (Option Mat) φ) (h : w.step (pdipmEnv 2 H lcp mi collide) fuel sub true = .done w') (hdt : 0 < w.dt)
    (hw : EngineInv w) (hp : w.post_stab = false) (i : ℕ) (hi : i < w.bodies.length)
    (hm : 0 < (bodyAt w.bodies i).mass ∧ 0 < (bodyAt w.bodies i).ang_inertia) (γ : ℝ)
    (hg : WeighsAt H w.bodies.length i (bodyAt w.bodies i).mass γ) :
    ∃ (n : ℕ) (ws : ℕ → World (Option Mat) φ), ws 0 = w ∧ ws n = w' ∧ w'.t = w.t + w.dt ∧
      (∀ j < n, (ws j).step_dt (pdipmEnv 2 H lcp mi collide) fuel (w.t + w.dt - (ws j).t) = .done (ws (j + 1))) ∧
      ((∀ j < n, LeftAlone (ws j) i) →
        twist w'.v i = twist w.v i + ⟨0, 0, γ * ∑ j ∈ Finset.range n, (w.t + w.dt - (ws j).t)⟩ ∧
        w.dt ≤ ∑ j ∈ Finset.range n, (w.t + w.dt - (ws j).t) ∧
        (∑ j ∈ Finset.range n, (w.t + w.dt - (ws j).t) = w.dt ↔ n = 1)) := by
  have hT := C24_fixed_step_exact_time _ fuel sub w w' hw.good hdt.le h
  unfold World.step at h
  rw [if_pos rfl] at h
  obtain ⟨n, ws, e1, e2, e3, e4⟩ := fixedLoop_substeps sub w w' h
  refine ⟨n, ws, e1, e2, hT, fun j hj => (e3 j hj).2, fun hu => ?_⟩
  have main : ∀ k ≤ n, EngineInv (ws k) ∧ (ws k).post_stab = false ∧ Posed w.bodies (ws k).bodies ∧
      twist (ws k).v i = twist w.v i + ⟨0, 0, γ * ∑ j ∈ Finset.range k, (w.t + w.dt - (ws j).t)⟩ := by
    intro k
    induction k with
    | zero =>
      intro _
      rw [e1]
      refine ⟨hw, hp, ⟨rfl, fun i _ => ⟨[], rfl⟩⟩, ?_⟩
      apply V3.ext <;> simp
    | succ k ih =>
      intro hk
      obtain ⟨i1, i2, i3, i4⟩ := ih (by omega)
      obtain ⟨-, hs⟩ := e3 k (by omega)
      have hlen : i < (ws k).bodies.length := by rw [i3.1]; exact hi
      obtain ⟨c1, c2⟩ := posed_consts i3 hi
      obtain ⟨q, j1, j2, j3⟩ := fall_step hx i1 i2 hs hlen (hu k (by omega)) (by rw [c1, c2]; exact hm) (γ := γ)
        (by rw [c1, i3.1]; exact hg)
      refine ⟨step_inv hfind i1 hs, (step_dt_params i1.good hs).2.2.2.1.trans i2, i3.trans (posed_step i1.good hs), ?_⟩
      rw [j2, i4, Finset.sum_range_succ]
      apply V3.ext <;> simp
      ring
  obtain ⟨-, -, -, hv⟩ := main n le_rfl
  rw [e2] at hv
  have hn : 1 ≤ n := by
    by_contra h0
    have : n = 0 := by omega
    subst this
    rw [e1] at e4
    exact e4 (by linarith)
  obtain ⟨m, rfl⟩ : ∃ m, n = m + 1 := ⟨n - 1, by omega⟩
  have hpos : ∀ j ∈ Finset.range m, 0 ≤ w.t + w.dt - (ws (j + 1)).t := by
    intro j hj
    have := (e3 (j + 1) (by have := Finset.mem_range.1 hj; omega)).1
    linarith
  have h0 := Finset.sum_nonneg hpos
  refine ⟨hv, ?_, ?_⟩ <;> rw [Finset.sum_range_succ', e1]
  · linarith
  · constructor
    · intro he
      have he : ∑ j ∈ Finset.range m, (w.t + w.dt - (ws (j + 1)).t) = 0 := by linarith
      by_contra hne
      have hm0 : 0 < m := by omega
      have := (Finset.sum_eq_zero_iff_of_nonneg hpos).1 he 0 (Finset.mem_range.2 hm0)
      have h2 := (e3 1 (by omega)).1
      simp only [Nat.zero_add] at this
      linarith
    · intro h1
      have : m = 0 := by omega
      subst this
      simp

/-! ## A ball that is dropped -/

section Drop
variable {S : RollScene} {H : ForceHeap} {lcp : LcpSolver} {cfuel : ℕ} {pairs : List Body → List (ℕ × ℕ)} {γ dt eps tol : ℝ}

/-- The setting: a ball with the weight `m γ` over a level floor, an exact solver, the contact search of the library. -/
structure DropSetting (S : RollScene) (H : ForceHeap) (lcp : LcpSolver) (cfuel : ℕ) (pairs : List Body → List (ℕ × ℕ))
    (γ dt eps tol : ℝ) : Prop where
  scene : S.Valid
  over : |S.x - S.cx| ≤ S.W / 2
  e : 0 ≤ S.e
  weight : Weighs S H γ
  exact : Exact lcp
  fuel : 66 ≤ cfuel
  sees : SeesFloor S eps pairs
  pairs : ∀ bs, ∀ p ∈ pairs bs, p.1 < bs.length ∧ p.2 < bs.length ∧ p.1 ≠ p.2
  dt : 0 < dt
  eps : 0 ≤ eps
  tol : 0 ≤ tol

/-- Heights `s k .1` and downward speeds `s k .2` of the ball, and lengths of the steps. -/
def Falls (r e dt eps tol γ : ℝ) (n : ℕ) (s : ℕ → ℝ × ℝ) (d : ℕ → ℝ) : Prop :=
  ∀ k < n, -r < (s k).1 ∧ (s (k + 1)).2 = turned e eps (dt * γ) (s k).1 (s k).2 ∧ (s (k + 1)).2 * dt < (s k).1 + r ∧
    Hop dt tol (s k).1 (s (k + 1)).2 (d k) ∧ (s (k + 1)).1 = (s k).1 - (s (k + 1)).2 * d k

theorem falls_track (D : DropSetting S H lcp cfuel pairs γ dt eps tol) (mi : ℕ) {n : ℕ} {s : ℕ → ℝ × ℝ} {d : ℕ → ℝ}
    (hF : Falls S.r S.e dt eps tol γ n s d) (h0 : 0 ≤ (s 0).1) {ws : ℕ → World (Option Mat) Finder}
    (hr : BounceRun S (pdipmEnv 2 H lcp mi (rejectNan (diffCollide cfuel (fun _ => []) pairs))) dt eps tol n (s 0).1 (s 0).2 ws) :
    ∀ k ≤ n, (ws k).t = ∑ j ∈ Finset.range k, d j ∧ (ws k).eps = eps ∧ (ws k).tol = tol ∧
      Bouncing S (s 0).1 (s 0).2 (ws k) (s k).1 (s k).2 := by
  obtain ⟨fnd, hmk, hst⟩ := hr
  obtain ⟨w, hw, hb, he, ht, hz, -⟩ := drop_initial S D.scene D.over H lcp mi cfuel D.fuel pairs fnd dt eps tol D.sees D.pairs D.tol
    (s 0).1 (s 0).2 h0
  rw [hmk] at hw
  injection hw with hw
  subst hw
  intro k
  induction k with
  | zero => exact fun _ => ⟨by simpa using hz, he, ht, hb⟩
  | succ k ih =>
    intro hk
    obtain ⟨i1, i2, i3, i4⟩ := ih (by omega)
    obtain ⟨f1, f2, f3, f4, f5⟩ := hF k (by omega)
    obtain ⟨fuel, hs⟩ := hst k (by omega)
    obtain ⟨d', hd, j1, j2, j3, j4⟩ := drop_step D.scene D.over D.e D.weight D.exact D.fuel (by rw [i2]; exact D.sees) D.pairs i4
      (by rw [i2]; exact D.eps) (by rw [i3]; exact D.tol) D.dt hs f1 (by rw [i2, ← f2]; exact f3)
    rw [i2, ← f2] at hd j4
    rw [i3] at hd
    have := hop_unique hd f4
    subst this
    refine ⟨by rw [j1, i1, Finset.sum_range_succ], by rw [j2, i2], by rw [j3, i3], ?_⟩
    rw [f5]; exact j4

theorem falls_runs (D : DropSetting S H exactLcp cfuel pairs γ dt eps tol) (mi : ℕ) (fnd : Finder) {s : ℕ → ℝ × ℝ} {d : ℕ → ℝ}
    (h0 : 0 ≤ (s 0).1) (n : ℕ) (hF : Falls S.r S.e dt eps tol γ n s d) :
    ∃ ws, BounceRun S (pdipmEnv 2 H exactLcp mi (rejectNan (diffCollide cfuel (fun _ => []) pairs))) dt eps tol n (s 0).1 (s 0).2
      ws := by
  induction n with
  | zero =>
    obtain ⟨w, hw, -⟩ := drop_initial S D.scene D.over H exactLcp mi cfuel D.fuel pairs fnd dt eps tol D.sees D.pairs D.tol
      (s 0).1 (s 0).2 h0
    exact ⟨fun _ => w, fnd, hw, fun k hk => by omega⟩
  | succ n ih =>
    obtain ⟨ws, hr⟩ := ih fun k hk => hF k (by omega)
    obtain ⟨i1, i2, i3, i4⟩ := falls_track D mi (fun k hk => hF k (by omega)) h0 hr n le_rfl
    obtain ⟨f1, f2, f3, f4, f5⟩ := hF n (by omega)
    obtain ⟨fuel, w', hw'⟩ := drop_returns D.scene D.over D.e D.weight mi D.fuel (by rw [i2]; exact D.sees) i4
      (by rw [i2]; exact D.eps) (by rw [i3]; exact D.tol) D.dt f1 (by rw [i2, ← f2]; exact f3) (d := d n)
      (by rw [i2, i3, ← f2]; exact f4)
    obtain ⟨fnd', hmk, hst⟩ := hr
    refine ⟨fun k => if k ≤ n then ws k else w', fnd', by simpa using hmk, ?_⟩
    intro k hk
    simp only
    rcases Nat.lt_or_ge k n with hkn | hkn
    · rw [if_pos (by omega), if_pos (by omega)]
      exact hst k hkn
    · rw [if_pos (by omega), if_neg (by omega)]
      have : k = n := by omega
      subst this
      exact ⟨fuel, hw'⟩

/-- The ball of `C104_bounces_higher`: nine full steps, one of an eighth and one of a sixteenth of `1/30`, the bounce and
the way up. -/
def dropTable (k : ℕ) : ℝ × ℝ :=
  if k ≤ 9 then (21 / 4 - k * (k + 1) / 18, k * (10 / 3)) else
  if k = 10 then (1 / 9, 100 / 3) else
  if k = 11 then (5 / 144, 110 / 3) else
  (5 / 144 + ((k : ℝ) - 11) * (11 / 10) - ((k : ℝ) - 11) * ((k : ℝ) - 12) / 18, -33 + ((k : ℝ) - 12) * (10 / 3))

def dropLengths (k : ℕ) : ℝ := if k = 9 then 1 / 240 else if k = 10 then 1 / 480 else 1 / 30

theorem drop_falls {r : ℝ} (hr : 2 ≤ r) : Falls r (9 / 10) (1 / 30) (1 / 10) (1 / 1000000) 100 21 dropTable dropLengths := by
  intro k hk
  by_cases h9 : k = 9
  · subst h9
    refine ⟨by norm_num [dropTable]; linarith, by norm_num [dropTable, turned], by norm_num [dropTable]; linarith, ?_,
      by norm_num [dropTable, dropLengths]⟩
    refine ⟨3, by norm_num [dropLengths], by norm_num [dropTable, dropLengths], fun i hi => ?_⟩
    interval_cases i <;> norm_num [dropTable]
  by_cases h10 : k = 10
  · subst h10
    refine ⟨by norm_num [dropTable]; linarith, by norm_num [dropTable, turned], by norm_num [dropTable]; linarith, ?_,
      by norm_num [dropTable, dropLengths]⟩
    refine ⟨4, by norm_num [dropLengths], by norm_num [dropTable, dropLengths], fun i hi => ?_⟩
    interval_cases i <;> norm_num [dropTable]
  have hd : dropLengths k = 1 / 30 := by simp [dropLengths, h9, h10]
  rw [hd]
  refine ⟨?_, ?_, ?_, hop_first ?_, ?_⟩ <;> interval_cases k <;>
    first | exact absurd rfl h9 | exact absurd rfl h10 | (norm_num [dropTable, turned]; done) | (norm_num [dropTable]; linarith)

/-- C104: a ball dropped from rest from the height `21/4` on a floor with restitution `9/10`, with the gravity of the demos
and the default constants of the library, rises to more than `6`.  (With the speed `√(2·100·21/4)` that it gains on the way
it would rise to `81/100 · 21/4 < 4.3`.) -/
theorem C104_bounces_higher (S : RollScene) (H : ForceHeap) (lcp : LcpSolver) (mi cfuel : ℕ) (pairs : List Body → List (ℕ × ℕ))
    (D : DropSetting S H lcp cfuel pairs 100 (1 / 30) (1 / 10) (1 / 1000000)) (he : S.e = 9 / 10) (hr : 2 ≤ S.r)
    (ws : ℕ → World (Option Mat) Finder)
    (hrun : BounceRun S (pdipmEnv 2 H lcp mi (rejectNan (diffCollide cfuel (fun _ => []) pairs))) (1 / 30) (1 / 10) (1 / 1000000)
      21 (21 / 4) 0 ws) :
    S.gap (ws 0).bodies = 21 / 4 ∧ twist (ws 0).v 0 = 0 ∧
    (∀ k ≤ 10, (ws k).contacts = []) ∧ (ws 11).t = 49 / 160 ∧ twist (ws 11).v 0 = ⟨0, 0, 100 * (11 / 30)⟩ ∧
    S.gap (ws 21).bodies = 6 + 5 / 144 := by
  have h0 : dropTable 0 = (21 / 4, 0) := by norm_num [dropTable]
  have tr := falls_track D mi (by rw [he]; exact drop_falls hr) (by rw [h0]; norm_num) (by rw [h0]; exact hrun)
  obtain ⟨-, -, -, b0⟩ := tr 0 (by omega)
  obtain ⟨t11, -, -, b11⟩ := tr 11 (by omega)
  obtain ⟨-, -, -, b21⟩ := tr 21 (by omega)
  refine ⟨?_, ?_, fun k hk => ?_, ?_, ?_, ?_⟩
  · rw [bouncing_gap b0]; norm_num [dropTable]
  · rw [b0.speed]
    apply V3.ext <;> norm_num [dropTable]
  · obtain ⟨-, ek, -, bk⟩ := tr k (by omega)
    rcases bk.contact with ⟨-, h⟩ | ⟨h, -⟩
    · exact h
    · rw [ek] at h
      exfalso
      interval_cases k <;> norm_num [dropTable] at h
  · rw [t11]
    norm_num [Finset.sum_range_succ, dropLengths]
  · rw [b11.speed]
    norm_num [dropTable]
  · rw [bouncing_gap b21]
    norm_num [dropTable]

/-! ### Examples -/

/-- A ball of radius 10 over a floor, with restitution 9/10. -/
def dropScene : RollScene := { slideScene with eb := 9 / 10, ef := 9 / 10 }

theorem dropScene_valid : dropScene.Valid := by
  constructor <;> norm_num [dropScene, slideScene, RollScene.μ]

/-- `Gravity(g=γ)` added to the ball. -/
def dropForces (γ : ℝ) : ForceHeap := (⟨fun _ => .gravity γ none, fun _ => []⟩ : ForceHeap).add_force 0 1 0

theorem drop_cat (γ t : ℝ) : forceCat (dropForces γ) t 2 = .ok [⟨0, 0, γ⟩, 0] := by
  have h0 : (dropForces γ).apply_forces 0 t = some ⟨0, 0, γ⟩ := by
    simp [dropForces, ForceHeap.apply_forces, ForceHeap.add_force, sumForces, Force.force, Force.set_body]
    apply V3.ext <;> simp
  have h1 : (dropForces γ).apply_forces 1 t = some 0 := by
    simp [dropForces, ForceHeap.apply_forces, ForceHeap.add_force]
  simp [forceCat, h0, h1]

theorem drop_setting (fl : Bool) (γ dt eps tol : ℝ) (hdt : 0 < dt) (heps : 0 ≤ eps) (htol : 0 ≤ tol) :
    DropSetting dropScene (dropForces γ) exactLcp 66 (bouncePairs fl) γ dt eps tol where
  scene := dropScene_valid
  over := by norm_num [dropScene, slideScene]
  e := by norm_num [dropScene, RollScene.e]
  weight := fun t => ⟨0, by rw [drop_cat]; simp [dropScene, slideScene]⟩
  exact := exactLcp_exact
  fuel := le_rfl
  sees := fun bs hb => by
    rcases bouncePairs_one fl bs hb with h | h
    · exact Or.inl h
    · exact Or.inr (Or.inl h)
  pairs := bouncePairs_valid fl
  dt := hdt
  eps := heps
  tol := htol

theorem drop_untouched {S : RollScene} {g0 u0 g u : ℝ} {w : World (Option Mat) Finder} (h : Bouncing S g0 u0 w g u)
    (hc : w.eps < g) : LeftAlone w 0 := by
  obtain ⟨j, hj, hk, hi1, hi2⟩ := h.joint
  refine ⟨fun j' hj' => ?_, fun c hcm => ?_⟩
  · rw [hj, List.mem_singleton] at hj'
    subst hj'
    rw [hi1, hi2]; simp
  · rcases h.contact with ⟨-, h'⟩ | ⟨h', -⟩
    · rw [h'] at hcm; simp at hcm
    · linarith

/-- The run of `C104_bounces_higher` exists, and its first eleven steps meet the hypotheses of `C104_step`, `C104_energy` and
`C104_run`: the tenth and eleventh are cut short. -/
example (fl : Bool) (mi : ℕ) (fnd : Finder) :
    ∃ ws, BounceRun dropScene (pdipmEnv 2 (dropForces 100) exactLcp mi (rejectNan (diffCollide 66 (fun _ => []) (bouncePairs fl))))
        (1 / 30) (1 / 10) (1 / 1000000) 21 (21 / 4) 0 ws ∧
      dropScene.gap (ws 21).bodies = 6 + 5 / 144 ∧
      (∀ k < 11, EngineInv (ws k) ∧ (ws k).post_stab = false ∧ LeftAlone (ws k) 0 ∧ 0 < (ws k).bodies.length ∧
        0 < (bodyAt (ws k).bodies 0).mass ∧ 0 < (bodyAt (ws k).bodies 0).ang_inertia ∧
        WeighsAt (dropForces 100) (ws k).bodies.length 0 (bodyAt (ws k).bodies 0).mass 100) ∧
      (ws 11).t < 11 * (1 / 30) := by
  have D := drop_setting fl 100 (1 / 30) (1 / 10) (1 / 1000000) (by norm_num) (by norm_num) (by norm_num)
  have he : dropScene.e = 9 / 10 := by norm_num [dropScene, RollScene.e]
  have hr : (2 : ℝ) ≤ dropScene.r := by norm_num [dropScene, slideScene]
  have hF := drop_falls hr
  rw [← he] at hF
  have h0 : dropTable 0 = (21 / 4, 0) := by norm_num [dropTable]
  obtain ⟨ws, hrun⟩ := falls_runs D mi fnd (by rw [h0]; norm_num) 21 hF
  have tr := falls_track D mi hF (by rw [h0]; norm_num) hrun
  rw [h0] at hrun
  obtain ⟨-, -, -, q4, -, q6⟩ := C104_bounces_higher dropScene (dropForces 100) exactLcp mi 66 (bouncePairs fl) D he hr ws hrun
  refine ⟨ws, hrun, q6, fun k hk => ?_, by rw [q4]; norm_num⟩
  obtain ⟨-, ek, -, bk⟩ := tr k (by omega)
  obtain ⟨bm, bI⟩ := bk.ball
  refine ⟨bk.inv, bk.post, drop_untouched bk ?_, by rw [bk.len]; omega, ?_, ?_, ?_⟩
  · rw [ek]
    interval_cases k <;> norm_num [dropTable]
  · rw [bm]; norm_num [dropScene, slideScene]
  · rw [bI]; norm_num [dropScene, slideScene]
  · intro t
    refine ⟨_, by rw [bk.len]; exact drop_cat 100 t, ?_⟩
    rw [bm]
    simp [dropScene, slideScene]

/-- A ball that comes down on the floor at the height `1` against a force that pulls it up: `step(fixed_dt=True)` of length
`1` takes two sub-steps, the force `-2` acts for the time `3/2`. -/
example (fl : Bool) (mi : ℕ) (fnd : Finder) :
    let env := pdipmEnv 2 (dropForces (-2)) exactLcp mi (rejectNan (diffCollide 66 (fun _ => []) (bouncePairs fl)))
    ∃ fuel sub w w', mkWorld env none fnd (dropScene.dropped 1 (16 / 5)) (dropScene.held 1 (16 / 5)) 1 (1 / 10) (1 / 1000000)
        false true = .done w ∧
      w.step env fuel sub true = .done w' ∧ w'.t = 1 ∧ twist w.v 0 = ⟨0, 0, 16 / 5⟩ ∧
      twist w'.v 0 = ⟨0, 0, 16 / 5 - 2 * (3 / 2)⟩ := by
  intro env
  have D := drop_setting fl (-2) 1 (1 / 10) (1 / 1000000) (by norm_num) (by norm_num) (by norm_num)
  have D2 := drop_setting fl (-2) (1 / 2) (1 / 10) (1 / 1000000) (by norm_num) (by norm_num) (by norm_num)
  have he : dropScene.e = 9 / 10 := by norm_num [dropScene, RollScene.e]
  have hr : dropScene.r = 10 := by norm_num [dropScene, slideScene]
  obtain ⟨w, hmk, hb, e1, e2, e3, hdt⟩ := drop_initial dropScene D.scene D.over (dropForces (-2)) exactLcp mi 66 le_rfl (bouncePairs fl)
    fnd 1 (1 / 10) (1 / 1000000) D.sees D.pairs D.tol 1 (16 / 5) (by norm_num)
  have u1 : turned dropScene.e w.eps (1 * (-2)) 1 (16 / 5) = 6 / 5 := by rw [e1]; norm_num [turned]
  have hop1 : Hop 1 w.tol 1 (turned dropScene.e w.eps (1 * (-2)) 1 (16 / 5)) (1 / 2) := by
    rw [u1, e2]
    refine ⟨1, by norm_num, by norm_num, fun i hi => ?_⟩
    interval_cases i
    norm_num
  obtain ⟨f1, w1, s1⟩ := drop_returns D.scene D.over D.e D.weight mi D.fuel (by rw [e1]; exact D.sees) hb (by rw [e1]; exact D.eps)
    (by rw [e2]; exact D.tol) D.dt (by rw [hr]; norm_num) (by rw [u1, hr]; norm_num) hop1
  obtain ⟨d1, hd1, a1, a2, a3, b1⟩ := drop_step D.scene D.over D.e D.weight D.exact D.fuel (by rw [e1]; exact D.sees) D.pairs hb
    (by rw [e1]; exact D.eps) (by rw [e2]; exact D.tol) D.dt s1 (by rw [hr]; norm_num) (by rw [u1, hr]; norm_num)
  have := hop_unique hd1 hop1
  subst this
  rw [u1] at b1
  rw [e3] at a1
  rw [e1] at a2
  rw [e2] at a3
  have u2 : turned dropScene.e w1.eps (1 / 2 * (-2)) (1 - 6 / 5 * (1 / 2)) (6 / 5) = 1 / 5 := by rw [a2]; norm_num [turned]
  have hop2 : Hop (1 / 2) w1.tol (1 - 6 / 5 * (1 / 2)) (turned dropScene.e w1.eps (1 / 2 * (-2)) (1 - 6 / 5 * (1 / 2)) (6 / 5)) (1 / 2) := by
    rw [u2, a3]
    exact hop_first (by norm_num)
  obtain ⟨f2, w2, s2⟩ := drop_returns D2.scene D2.over D2.e D2.weight mi D2.fuel (by rw [a2]; exact D.sees) b1 (by rw [a2]; exact D.eps)
    (by rw [a3]; exact D.tol) D2.dt (by rw [hr]; norm_num) (by rw [u2, hr]; norm_num) hop2
  obtain ⟨d2, hd2, c1, c2, c3, b2⟩ := drop_step D2.scene D2.over D2.e D2.weight D2.exact D2.fuel (by rw [a2]; exact D.sees) D2.pairs b1
    (by rw [a2]; exact D.eps) (by rw [a3]; exact D.tol) D2.dt s2 (by rw [hr]; norm_num) (by rw [u2, hr]; norm_num)
  have := hop_unique hd2 hop2
  subst this
  rw [u2] at b2
  have s1' : w.step_dt env (max f1 f2) 1 = .done w1 := by
    rw [C23_fuel_irrelevant env f1 (max f1 f2) w 1 hb.inv.good (le_max_left _ _) (by rw [s1]; simp)]
    exact s1
  have s2' : w1.step_dt env (max f1 f2) (1 / 2) = .done w2 := by
    rw [C23_fuel_irrelevant env f2 (max f1 f2) w1 (1 / 2) b1.inv.good (le_max_right _ _) (by rw [s2]; simp)]
    exact s2
  have t1 : w1.t = 1 / 2 := by rw [a1]; norm_num
  have t2 : w2.t = 1 := by rw [c1, t1]; norm_num
  refine ⟨max f1 f2, 2, w, w2, hmk, ?_, t2, hb.speed, ?_⟩
  · unfold World.step
    rw [if_pos rfl, e3, hdt, zero_add]
    have l0 : fixedLoop env (max f1 f2) 1 0 w2 = .done w2 := by
      unfold fixedLoop
      rw [t2, if_neg (by norm_num)]
    have l1 : fixedLoop env (max f1 f2) 1 1 w1 = .done w2 := by
      unfold fixedLoop
      rw [t1, if_pos (by norm_num), show (1 : ℝ) - 1 / 2 = 1 / 2 by norm_num, s2']
      exact l0
    unfold fixedLoop
    rw [e3, if_pos (by norm_num), sub_zero, s1']
    exact l1
  · rw [b2.speed]; norm_num

end Drop

end LcpPhysics
