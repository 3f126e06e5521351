import Verif.Props.History
import Verif.Props.Forces

/-! # C36: free flight over many steps -/

noncomputable section

namespace LcpPhysics
open Spec

variable {φ : Type}

/-- `n` steps of length `dt`. -/
def iterSteps {σ : Type} (env : Env σ φ) (fuel : ℕ) (dt : ℝ) : ℕ → World σ φ → Run (World σ φ)
  | 0, w => .done w
  | n + 1, w => (w.step_dt env fuel dt).bind (iterSteps env fuel dt n)

/-- A step that sees no contacts is accepted at once. -/
theorem step_no_contacts {σ : Type} (env : Env σ φ) (fuel : ℕ) (w : World σ φ) (hg : w.Good) (dt : ℝ)
    (hp : w.post_stab = false) (hcol : ∀ e f bs, ∃ f', env.collide e f bs = .ok (f', []))
    (e : σ) (v : Vec) (hs : env.solve_dynamics w dt = .ok (e, v)) :
    ∃ f', w.step_dt env (fuel + 1) dt = .done
      { ((({ w with eng := e } : World σ φ).set_v v).accepted dt 0 f' []) with t := w.t + dt } := by
  rw [step_dt_eq env (fuel + 1) w hg dt, hs]
  obtain ⟨f', hf'⟩ := hcol w.eps w.fnd
    ((({ w with eng := e } : World σ φ).set_v v).bodies.map fun b => b.move dt)
  refine ⟨f', ?_⟩
  have hl : specLoop env (({ w with eng := e } : World σ φ).set_v v) (fuel + 1) w.fnd dt 0 =
      .done ((({ w with eng := e } : World σ φ).set_v v).accepted dt 0 f' [], dt) := by
    unfold specLoop
    have : (({ w with eng := e } : World σ φ).set_v v).eps = w.eps := rfl
    rw [this, hf']
    simp only
    exact if_pos (Or.inl (fun c hc => by cases hc))
  show Run.bind (Run.done (e, v)) _ = _
  simp only [Run.bind]
  rw [hl]
  have hps : ((({ w with eng := e } : World σ φ).set_v v).accepted dt 0 f' []).post_stab = false := hp
  simp only [hps, Bool.false_eq_true, if_false]
  rfl

/-- C36: `n` steps of free flight under constant forces: the exact closed form, for every body and
every `n`; no step raises or is subdivided. -/
theorem C36_free_flight_n (fd : ℕ) (H : ForceHeap) (lcp : LcpSolver) (mi fuel : ℕ)
    (collide : ℝ → φ → List Body → Except Err (φ × List Contact))
    (hcol : ∀ e f bs, ∃ f', collide e f bs = .ok (f', [])) (dt : ℝ) (fl : List V3) (n : ℕ) :
    ∀ (w : World (Option Mat) φ) (_ : w.Good) (_ : CacheInv w) (_ : w.joints = [])
      (_ : w.contacts = []) (_ : w.post_stab = false)
      (_ : ∀ b ∈ w.bodies, 0 < b.mass ∧ 0 < b.ang_inertia)
      (_ : ∀ t, forceCat H t w.bodies.length = .ok fl),
    ∃ w', iterSteps (pdipmEnv fd H lcp mi collide) (fuel + 1) dt n w = .done w' ∧
      w'.t = w.t + n * dt ∧ w'.bodies.length = w.bodies.length ∧
      ∀ (i : ℕ) (_ : i < w.bodies.length),
        let I := (bodyAt w.bodies i).ang_inertia
        let m := (bodyAt w.bodies i).mass
        let f := fl.getD i 0
        let p := (bodyAt w.bodies i).p
        (bodyAt w'.bodies i).p =
          ⟨p.r + n * dt * w.v (3 * i) + dt ^ 2 * (f.r / I) * (n * (n + 1) / 2),
           p.x + n * dt * w.v (3 * i + 1) + dt ^ 2 * (f.x / m) * (n * (n + 1) / 2),
           p.y + n * dt * w.v (3 * i + 2) + dt ^ 2 * (f.y / m) * (n * (n + 1) / 2)⟩ ∧
        (bodyAt w'.bodies i).v =
          ⟨w.v (3 * i) + n * dt * (f.r / I), w.v (3 * i + 1) + n * dt * (f.x / m),
           w.v (3 * i + 2) + n * dt * (f.y / m)⟩ := by
  induction n with
  | zero =>
    intro w hg _ _ _ _ _ _
    refine ⟨w, rfl, by simp, rfl, fun i hi => ?_⟩
    have hb : bodyAt w.bodies i = w.bodies[i] := by simp [bodyAt, List.getD_eq_getElem?_getD, hi]
    constructor
    · ext <;> simp
    · rw [hb, hg.vel i hi]
      ext <;> simp [slice3, mul_comm i 3]
  | succ n ih =>
    intro w hg hcache hj hc hp hpos hf
    obtain ⟨e, v', hsol, hv'⟩ := C36_free_flight fd H lcp mi w dt hj hc hcache.ok hpos fl (hf w.t)
    obtain ⟨f', hstep⟩ := step_no_contacts (pdipmEnv fd H lcp mi collide) fuel w hg dt hp hcol e v' hsol
    set w1 : World (Option Mat) φ :=
      { ((({ w with eng := e } : World (Option Mat) φ).set_v v').accepted dt 0 f' []) with
        t := w.t + dt } with hw1
    have hg1 := step_dt_good hg hstep
    have hst := step_dt_statics hg hstep
    have hl1 := sameStatics_length hst
    have hcache1 : CacheInv w1 := by
      obtain ⟨v2, hv2⟩ := step_dt_eng hg hstep
      exact solve_cacheInv hst hcache hv2
    have hj1 : w1.joints = [] := by
      have := congrArg List.length hst.2
      simp only [List.length_map, hj, List.length_nil] at this
      exact List.length_eq_zero_iff.1 this
    have hpos1 : ∀ b ∈ w1.bodies, 0 < b.mass ∧ 0 < b.ang_inertia := by
      intro b hb
      have : b.consts ∈ w.bodies.map Body.consts := hst.1 ▸ List.mem_map.2 ⟨b, hb, rfl⟩
      obtain ⟨b0, hb0, he⟩ := List.mem_map.1 this
      simp only [Body.consts, Prod.mk.injEq] at he
      rw [← he.1, ← he.2.1]
      exact hpos b0 hb0
    obtain ⟨w', h1, h2, h3, h4⟩ := ih w1 hg1 hcache1 hj1 rfl hp hpos1 (fun t => by rw [hl1]; exact hf t)
    refine ⟨w', ?_, ?_, h3.trans hl1, fun i hi => ?_⟩
    · show (w.step_dt _ _ dt).bind _ = _
      rw [hstep]; exact h1
    · rw [h2]; push_cast; show w.t + dt + n * dt = _; ring
    · obtain ⟨q1, q2⟩ := h4 i (by rw [hl1]; exact hi)
      have hb : bodyAt w.bodies i = w.bodies[i] := by simp [bodyAt, List.getD_eq_getElem?_getD, hi]
      have hfl : i < fl.length := by rw [(forceCat_length (hf 0)).1]; exact hi
      have hgd : fl.getD i 0 = fl[i] := by simp [List.getD_eq_getElem?_getD, hfl]
      obtain ⟨v1, v2, v3⟩ := hv' i hi hfl
      have hcon := sameStatics_bodyAt hst i
      simp only [Body.consts, Prod.mk.injEq] at hcon
      have hp1 : (bodyAt w1.bodies i).p = (bodyAt w.bodies i).p + dt • slice3 v' i := by
        rw [hw1]
        simp only [World.accepted]
        rw [bodyAt_map _ _ _ (by rw [set_v_length]; exact hi), move_p]
        simp [bodyAt, List.getD_eq_getElem?_getD, World.set_v, hi]
      have hvv : w1.v = v' := rfl
      rw [← hgd, ← hb] at v1 v2 v3
      simp only [hvv, hcon.1, hcon.2.1, hp1] at q1 q2
      rw [q1, q2]
      simp only [v1, v2, v3]
      constructor
      · ext
        · simp only [slice3, mul_comm i 3, V3.add_r, V3.smul_r, v1]; push_cast; ring
        · simp only [slice3, mul_comm i 3, V3.add_x, V3.smul_x, v2]; push_cast; ring
        · simp only [slice3, mul_comm i 3, V3.add_y, V3.smul_y, v3]; push_cast; ring
      · ext <;> simp only <;> push_cast <;> ring

/-- C36: under its own Gravity object a body of any mass accelerates with exactly `g` downwards. -/
theorem C36_gravity_acceleration (m g : ℝ) (hm : m ≠ 0) :
    (Force.set_body (.gravity g none) m).force 0 = some ⟨0, 0, m * g⟩ ∧ m * g / m = g := by
  constructor
  · simp [Force.set_body, Force.force]
  · field_simp

end LcpPhysics
