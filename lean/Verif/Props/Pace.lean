import Verif.Spec.Pace
import Verif.Spec.Billiard
import Verif.Lemmas.Pace
import Verif.Props.UnitsRun
import Verif.Props.Hinge
import Verif.Props.StrictStep
import Verif.Props.LibraryRun
import Verif.Props.FrictionSolvable
import Verif.Props.Billiard

/-!
# C130: the clock of a strict world of discs keeps running

A strict step that would leave discs deeper in each other than `tol` is halved (world.py:88-107).  The shortened steps could
add up to a finite time, so that `run_world` (world.py:266) never ends although every step returns.
-/

noncomputable section

namespace LcpPhysics
open Spec

variable {fuel : ℕ} {nc : ℕ → List ℕ} {pairs : List Body → List (ℕ × ℕ)}

theorem slice_twist (v : Vec) (k : ℕ) : slice3 v k = twist v k := by
  simp only [twist, slice3, mul_comm 3 k]

/-- A refused attempt: the discs of some pair that were farther apart than `eps` would have come nearer by more than
`eps + tol`. -/
theorem refused_far (hnc : ∀ i j, i ∈ nc j → j ∈ nc i) (hp : BroadPhase pairs) {w : World (Option Mat) Finder}
    (h : CircleScene fuel nc pairs w) {e : Option Mat} {v : Vec} {d V : ℝ} (hd : 0 ≤ d)
    (hc : ∀ c ∈ w.contacts, 0 ≤ normalVel c v) (hV : ∀ i < w.bodies.length, len (drift v i) ≤ V) {f f' : Finder}
    {cs : List Contact}
    (hcs : diffCollide fuel nc pairs w.eps f ((({ w with eng := e } : World (Option Mat) Finder).set_v v).bodies.map fun b => b.move d) =
      .ok (f', cs))
    (hrej : ¬ (({ w with eng := e } : World (Option Mat) Finder).set_v v).accepts d cs) : w.eps + w.tol < 2 * V * d := by
  set moved := (({ w with eng := e } : World (Option Mat) Finder).set_v v).bodies.map fun b => b.move d with hmoved
  have hcirc : ∀ i < moved.length, (bodyAt moved i).isCircle = true :=
    fun i hi => (tried_circle h e v d _ (bodyAt_mem hi)).circle
  have hlen : moved.length = w.bodies.length := (tried_bodies w e v d).1
  rw [collide_circles hp hcirc] at hcs
  have hcs' := (Prod.mk.inj (Except.ok.inj hcs)).2
  subst hcs'
  have hex : ∃ c ∈ circleContacts nc w.eps moved (pairs moved), w.tol < c.pen := by
    by_contra hne
    push Not at hne
    exact hrej (Or.inl hne)
  obtain ⟨c, hcm, hpen⟩ := hex
  obtain ⟨m1, m2, m3, -⟩ := circleContacts_mem hcm
  obtain ⟨hi, hj, hij⟩ := hp.valid _ _ m1
  rw [hlen] at hi hj
  simp only at hi hj hij
  generalize c.i1 = i at *
  generalize c.i2 = j at *
  set x := (bodyAt w.bodies i).pos - (bodyAt w.bodies j).pos with hxdef
  set u : V2 := drift v i - drift v j with hudef
  have hdepth : overlapDepth (bodyAt moved i) (bodyAt moved j) =
      (bodyAt w.bodies i).rad + (bodyAt w.bodies j).rad - len (x + d • u) := by
    have hb := tried_bodies w e v d
    unfold overlapDepth
    rw [hmoved, hb.2 i hi, hb.2 j hj, tried_pos, tried_pos,
      circle_rad_op (circleBody_op (h.bodies _ (bodyAt_mem hi)) _).circle,
      circle_rad_op (h.bodies _ (bodyAt_mem hi)).circle,
      circle_rad_op (circleBody_op (h.bodies _ (bodyAt_mem hj)) _).circle,
      circle_rad_op (h.bodies _ (bodyAt_mem hj)).circle, Spec.dist]
    congr 2
    rw [hxdef, hudef, slice_twist, slice_twist]
    unfold drift
    module
  have h0 : overlapDepth (bodyAt w.bodies i) (bodyAt w.bodies j) =
      (bodyAt w.bodies i).rad + (bodyAt w.bodies j).rad - len x := rfl
  rw [m3, hdepth] at hpen
  have hov := noOverlap_of_contacts hnc hp h.eps h.tol h.bodies (by rw [← h.contacts_eq hp]; exact h.nopen) i hi j hj hij m2
  rw [h0] at hov
  rcases lt_or_ge (overlapDepth (bodyAt w.bodies i) (bodyAt w.bodies j)) (-w.eps) with hfar | hnear
  · rw [h0] at hfar
    have h3 : len x ≤ len (x + d • u) + len (-(d • u)) := by
      have := len_add_le (x + d • u) (-(d • u))
      rwa [add_neg_cancel_right] at this
    rw [len_neg, len_smul, abs_of_nonneg hd] at h3
    have h4 : len u ≤ 2 * V := by
      have := len_add_le (drift v i) (-drift v j)
      rw [len_neg, ← sub_eq_add_neg] at this
      linarith [hV i hi, hV j hj]
    nlinarith [mul_le_mul_of_nonneg_left h4 hd]
  · exfalso
    suffices hin : 0 ≤ Spec.inner x u by
      have := dist_grows x u d hd hin
      linarith
    obtain ⟨c', hcm', hcij⟩ := near_reported hnc hp h.eps h.bodies hi hj hij m2 hnear
    obtain ⟨-, -, -, n4, n5, n6, -⟩ := circleContacts_mem hcm'
    have hcw : c' ∈ w.contacts := by rw [h.contacts_eq hp]; exact hcm'
    have hrest := hc c' hcw
    rw [circle_normalVel n5 n6, n4] at hrest
    have hlx : 0 < len x := by
      have := h.radii i hi j hj hij
      linarith
    have hsm : ∀ (k : ℝ) (p q : V2), Spec.inner (k • p) q = k * Spec.inner p q := by
      intro k p q; unfold Spec.inner; simp only [Prod.smul_fst, Prod.smul_snd, smul_eq_mul]; ring
    rw [hsm] at hrest
    rcases hcij with ⟨a, b⟩ | ⟨a, b⟩
    · rw [a, b] at hrest
      have hd : 0 < 1 / Spec.dist (bodyAt w.bodies i).pos (bodyAt w.bodies j).pos := by
        rw [Spec.dist]; exact one_div_pos.2 hlx
      exact nonneg_of_mul_nonneg_right hrest hd
    · rw [a, b] at hrest
      have hd : 0 < 1 / Spec.dist (bodyAt w.bodies j).pos (bodyAt w.bodies i).pos := by
        rw [Spec.dist_comm, Spec.dist]; exact one_div_pos.2 hlx
      have := nonneg_of_mul_nonneg_right hrest hd
      have e2 : Spec.inner ((bodyAt w.bodies j).pos - (bodyAt w.bodies i).pos)
          (((twist v j).x, (twist v j).y) - ((twist v i).x, (twist v i).y)) = Spec.inner x u := by
        rw [hxdef, hudef]
        unfold Spec.inner drift
        simp only [Prod.fst_sub, Prod.snd_sub]
        ring
      rwa [e2] at this

/-- C130: discs that touch do not approach and no disc is faster than `V`.  Then a step advances the clock by the full step
length or by more than `(eps + tol) / (4 V)`, and it returns after the number of attempts given. -/
theorem C130_step (fuel : ℕ) (nc : ℕ → List ℕ) (hnc : ∀ i j, i ∈ nc j → j ∈ nc i) (pairs : List Body → List (ℕ × ℕ))
    (hp : BroadPhase pairs) (H : ForceHeap) (lcp : LcpSolver) (mi : ℕ) (w : World (Option Mat) Finder)
    (h : CircleScene fuel nc pairs w) (dt V : ℝ) (hdt : 0 < dt) (hV0 : 0 < V) (e : Option Mat) (v : Vec)
    (hs : pdipmSolve 2 H lcp mi w dt = .ok (e, v)) (hc : ∀ c ∈ w.contacts, 0 ≤ normalVel c v)
    (hV : ∀ i < w.bodies.length, len (drift v i) ≤ V) :
    (∀ n w', w.step_dt (pdipmEnv 2 H lcp mi (diffCollide fuel nc pairs)) n dt = .done w' →
      w'.t = w.t + dt ∨ (w.eps + w.tol) / (4 * V) < w'.t - w.t) ∧
    ∀ n, 2 * V * dt / 2 ^ n ≤ w.eps + w.tol → ∃ w', w.step_dt (pdipmEnv 2 H lcp mi (diffCollide fuel nc pairs)) (n + 1) dt = .done w' := by
  set env := pdipmEnv 2 H lcp mi (diffCollide fuel nc pairs) with henv
  have hd : ∀ j : ℕ, 0 < dt / 2 ^ j := fun j => by positivity
  have hs' : env.solve_dynamics w dt = .ok (e, v) := hs
  constructor
  · intro n w' hw
    obtain ⟨e', v', k, w1, w2, hs2, _, hw1, hg1, ⟨fk, f', cs, hcs, ha, hw2⟩, hrej, hend⟩ := step_dt_done h.good hw
    rw [hs'] at hs2
    injection hs2 with hs2
    injection hs2 with he' hv'
    subst he' hv'
    have ht : w'.t = w.t + dt / 2 ^ k := by
      rcases hend with ⟨_, rfl⟩ | ⟨hp', _⟩
      · rfl
      · rw [h.nostab] at hp'; cases hp'
    rcases k with - | k
    · left; rw [ht]; simp
    · right
      obtain ⟨f1, f1', cs1, hc1, hr1⟩ := hrej k (by omega)
      rw [hw1] at hc1 hr1
      have k1 := refused_far hnc hp h (hd k).le hc hV hc1 hr1
      rw [ht, div_lt_iff₀ (by positivity)]
      have : dt / 2 ^ k = 2 * (dt / 2 ^ (k + 1)) := by rw [pow_succ]; field_simp
      rw [this] at k1
      linarith
  · intro n hn
    have hstep : w.step_dt env (n + 1) dt =
        (specLoop env (({ w with eng := e } : World (Option Mat) Finder).set_v v) (n + 1) w.fnd dt 0).bind fun r =>
          (if r.1.post_stab then postStab env r.1 r.2 else .done r.1).bind fun w =>
            .done { w with t := w.t + r.2 } := by
      rw [step_dt_eq env (n + 1) w h.good, hs']; rfl
    rw [hstep]
    cases hsl : specLoop env (({ w with eng := e } : World (Option Mat) Finder).set_v v) (n + 1) w.fnd dt 0 with
    | raised e' =>
      exfalso
      obtain ⟨f, d, hcol⟩ := specLoop_raised hsl
      have hcirc : ∀ i < ((({ w with eng := e } : World (Option Mat) Finder).set_v v).bodies.map fun b => b.move d).length,
          (bodyAt ((({ w with eng := e } : World (Option Mat) Finder).set_v v).bodies.map fun b => b.move d) i).isCircle = true :=
        fun i hi => (tried_circle h e v d _ (bodyAt_mem hi)).circle
      have hok := collide_circles (fuel := fuel) (nc := nc) hp hcirc f (eps := w.eps)
      have : diffCollide fuel nc pairs w.eps f
        ((({ w with eng := e } : World (Option Mat) Finder).set_v v).bodies.map fun b => b.move d) = .error e' := hcol
      rw [hok] at this
      cases this
    | done r =>
      obtain ⟨k, _, _, ⟨_, _, _, _, _, h3⟩, _⟩ := specLoop_done hsl
      have hps : r.1.post_stab = false := by rw [h3]; exact h.nostab
      simp only [Run.bind_done, hps, Bool.false_eq_true, ↓reduceIte]
      exact ⟨_, rfl⟩
    | running =>
      exfalso
      obtain ⟨f1, f1', cs1, hc1, hr1⟩ := specLoop_running hsl n (by omega)
      have k1 := refused_far hnc hp h (hd n).le hc hV hc1 hr1
      rw [mul_div_assoc] at hn
      linarith

/-- Discs without restitution, with any friction, none lighter than `m`. -/
structure DullScene (fuel : ℕ) (nc : ℕ → List ℕ) (pairs : List Body → List (ℕ × ℕ)) (m : ℝ) (w : World (Option Mat) Finder) : Prop where
  scene : CircleScene fuel nc pairs w
  bodies : ∀ i < w.bodies.length, m ≤ (bodyAt w.bodies i).mass ∧ 0 < (bodyAt w.bodies i).ang_inertia ∧
    0 ≤ (bodyAt w.bodies i).fric_coeff ∧ (bodyAt w.bodies i).restitution = 0

/-- One body's share of the kinetic energy. -/
theorem drift_le {bs : List Body} (hpos : ∀ i < bs.length, 0 < (bodyAt bs i).mass ∧ 0 < (bodyAt bs i).ang_inertia) (v : Vec) {i : ℕ}
    (hi : i < bs.length) {m : ℝ} (hm : 0 < m) (hmi : m ≤ (bodyAt bs i).mass) :
    len (drift v i) ≤ √(2 * kineticEnergy bs v) / √m := by
  rw [← Real.sqrt_div' _ hm.le]
  refine Real.sqrt_le_sqrt ?_
  rw [le_div_iff₀ hm]
  have h1 : (bodyAt bs i).mass * (v (3 * i + 1) ^ 2 + v (3 * i + 2) ^ 2) / 2 ≤ kineticEnergy bs v := by
    unfold kineticEnergy
    refine le_trans ?_ (Finset.single_le_sum (f := fun i => ((bodyAt bs i).ang_inertia * v (3 * i) ^ 2 +
      (bodyAt bs i).mass * (v (3 * i + 1) ^ 2 + v (3 * i + 2) ^ 2)) / 2) (fun k hk => ?_) (Finset.mem_range.2 hi))
    · have := (hpos i hi).2
      have : 0 ≤ (bodyAt bs i).ang_inertia * v (3 * i) ^ 2 := by positivity
      linarith
    · obtain ⟨a1, a2⟩ := hpos k (Finset.mem_range.1 hk)
      positivity
  simp only [drift, twist]
  nlinarith [sq_nonneg (v (3 * i + 1)), sq_nonneg (v (3 * i + 2))]

theorem DullScene.pos {m : ℝ} (hm : 0 < m) {w : World (Option Mat) Finder} (h : DullScene fuel nc pairs m w) :
    ∀ i < w.bodies.length, 0 < (bodyAt w.bodies i).mass ∧ 0 < (bodyAt w.bodies i).ang_inertia :=
  fun i hi => ⟨hm.trans_le (h.bodies i hi).1, (h.bodies i hi).2.1⟩

theorem DullScene.step {m : ℝ} {w w' : World (Option Mat) Finder} (h : DullScene fuel nc pairs m w) {H : ForceHeap} {lcp : LcpSolver}
    {mi n : ℕ} {dt : ℝ} (hs : w.step_dt (pdipmEnv 2 H lcp mi (diffCollide fuel nc pairs)) n dt = .done w') :
    DullScene fuel nc pairs m w' := by
  refine ⟨circleScene_step h.scene hs, fun i hi => ?_⟩
  have hst := step_dt_statics h.scene.good hs
  have := sameStatics_bodyAt hst i
  simp only [Body.consts, Prod.mk.injEq] at this
  rw [this.1, this.2.1, this.2.2.1, this.2.2.2]
  exact h.bodies i (by rw [← sameStatics_length hst]; exact hi)

/-- What the engine does to the velocities of such discs. -/
theorem dull_solved {m : ℝ} (hm : 0 < m) (hp : BroadPhase pairs) {w : World (Option Mat) Finder}
    (h : DullScene fuel nc pairs m w) {H : ForceHeap} {lcp : LcpSolver} (hx : Exact lcp) {mi : ℕ} {dt F A : ℝ} (hdt : 0 ≤ dt)
    (hF : PushAtMost H w.bodies F) (hA : √(2 * kineticEnergy w.bodies w.v) ≤ A) {e : Option Mat} {v : Vec}
    (hs : pdipmSolve 2 H lcp mi w dt = .ok (e, v)) :
    (∀ c ∈ w.contacts, 0 ≤ normalVel c v) ∧ √(2 * kineticEnergy w.bodies v) ≤ A + dt * F ∧
      ∀ i < w.bodies.length, len (drift v i) ≤ (A + dt * F) / √m := by
  obtain ⟨fl, l, pn, a, b, g, hfl, law⟩ := C38_engine_contact_law H lcp mi w dt e v h.scene.joints (h.scene.contactsOk hp)
    h.scene.cache.ok hx hs
  have hidx : ∀ c ∈ w.contacts, c.i1 < w.bodies.length ∧ c.i2 < w.bodies.length := by
    intro c hc
    have hc' := hc
    rw [h.scene.contacts_eq hp] at hc'
    obtain ⟨v1, v2, -⟩ := hp.valid _ _ (circleContacts_mem hc').1
    exact ⟨v1, v2⟩
  have he : ∀ c ∈ w.contacts, meanRestitution w.bodies c = 0 := by
    intro c hc
    obtain ⟨i1, i2⟩ := hidx c hc
    unfold meanRestitution
    rw [(h.bodies _ i1).2.2.2, (h.bodies _ i2).2.2.2]
    norm_num
  have hmu : ∀ c ∈ w.contacts, 0 ≤ meanFriction w.bodies c := by
    intro c hc
    obtain ⟨i1, i2⟩ := hidx c hc
    unfold meanFriction
    have := (h.bodies _ i1).2.2.1
    have := (h.bodies _ i2).2.2.1
    linarith
  have hE : √(2 * kineticEnergy w.bodies v) ≤ A + dt * F := by
    have h1 := C125_speed_step _ _ _ _ _ _ _ _ _ _ _ (h.pos hm) hmu he law
    have h2 : √(pushSq w.bodies (impulse fl dt)) ≤ dt * F := by
      refine Real.sqrt_le_iff.2 ⟨mul_nonneg hdt hF.1, ?_⟩
      rw [show impulse fl dt = fun i => dt • fl.getD i 0 from rfl, pushSq_smul, mul_pow]
      exact mul_le_mul_of_nonneg_left (hF.2 _ fl hfl) (sq_nonneg _)
    linarith
  refine ⟨fun c hc => ?_, hE, fun i hi => ?_⟩
  · obtain ⟨k, hk, hck⟩ := List.getElem_of_mem hc
    have := (law.restitution k hk).1
    rw [hck, he c hc] at this
    linarith
  · exact (drift_le (h.pos hm) v hi hm (h.bodies i hi).1).trans (div_le_div_of_nonneg_right hE (Real.sqrt_nonneg _))

theorem step_velocity {H : ForceHeap} {lcp : LcpSolver} {mi n : ℕ} {dt : ℝ}
    {collide : ℝ → Finder → List Body → Except Err (Finder × List Contact)} {w w' : World (Option Mat) Finder} (hg : w.Good)
    (hs : w.step_dt (pdipmEnv 2 H lcp mi collide) n dt = .done w') {e : Option Mat} {v : Vec}
    (hsol : pdipmSolve 2 H lcp mi w dt = .ok (e, v)) : w'.v = v := by
  obtain ⟨e', v', k, w1, w2, hsol', -, rfl, hg1, ⟨fk, f', cs, -, -, rfl⟩, -, hend⟩ := step_dt_done hg hs
  have hsol' : pdipmSolve 2 H lcp mi w dt = .ok (e', v') := hsol'
  rw [hsol] at hsol'
  injection hsol' with hsol'
  injection hsol' with _ hv
  subst hv
  rcases hend with ⟨-, e⟩ | ⟨-, dp, f2, cs2, -, w3, rfl, -, e⟩ <;> rw [e] <;> rfl

theorem pushAtMost_statics {σ φ : Type} {w w' : World σ φ} (h : SameStatics w w') {H : ForceHeap} {F : ℝ} (hF : PushAtMost H w.bodies F) :
    PushAtMost H w'.bodies F := by
  refine ⟨hF.1, fun t fl hfl => ?_⟩
  rw [consts_push h]
  exact hF.2 t fl (by rw [← sameStatics_length h]; exact hfl)

/-- The engine answers in every world that can be met. -/
def KeepsAnswering (H : ForceHeap) (lcp : LcpSolver) (mi : ℕ) (env : Env (Option Mat) Finder) (w0 : World (Option Mat) Finder) : Prop :=
  ∀ w, Reaches env w0 w → ∃ r, pdipmSolve 2 H lcp mi w w.dt = .ok r

/-- C130: the simulation of discs without restitution reaches the time `T` in at most `N` steps with at most `n + 1` attempts
each, if `N` steps with the certain advances make up the time. -/
theorem C130_run (fuel : ℕ) (nc : ℕ → List ℕ) (hnc : ∀ i j, i ∈ nc j → j ∈ nc i) (pairs : List Body → List (ℕ × ℕ))
    (hp : BroadPhase pairs) (H : ForceHeap) (lcp : LcpSolver) (hx : Exact lcp) (mi : ℕ) (m F T dt δ : ℝ) (hm : 0 < m) (hdt : 0 < dt)
    (n : ℕ) : ∀ (N : ℕ) (A : ℝ) (w : World (Option Mat) Finder), 0 < A → DullScene fuel nc pairs m w → w.dt = dt → w.eps + w.tol = δ →
    KeepsAnswering H lcp mi (pdipmEnv 2 H lcp mi (diffCollide fuel nc pairs)) w → PushAtMost H w.bodies F →
    √(2 * kineticEnergy w.bodies w.v) ≤ A →
    2 * ((A + N * (dt * F)) / √m) * dt / 2 ^ n ≤ δ → T ≤ w.t + headway dt δ (A / √m) (dt * F / √m) N →
    ∃ w', runWorld (pdipmEnv 2 H lcp mi (diffCollide fuel nc pairs)) (n + 1) T N w = .done w' := by
  intro N
  induction N with
  | zero =>
    intro A w _ _ _ _ _ _ _ _ hT
    simp only [headway, Finset.range_zero, Finset.sum_empty, add_zero] at hT
    refine ⟨w, ?_⟩
    unfold runWorld
    rw [if_neg (not_lt.2 hT)]
  | succ N ih =>
    intro A w hA h hwd hδ hans hF hE hn hT
    unfold runWorld
    split_ifs with hlt
    swap
    · exact ⟨w, rfl⟩
    obtain ⟨⟨e, v⟩, hs⟩ := hans w .refl
    rw [hwd] at hs
    obtain ⟨s1, s2, s3⟩ := dull_solved hm hp h hx hdt.le hF hE hs
    have hAF : 0 < A + dt * F := by have := mul_nonneg hdt.le hF.1; linarith
    have hrm : 0 < √m := Real.sqrt_pos.2 hm
    have hV : 0 < (A + dt * F) / √m := div_pos hAF hrm
    obtain ⟨k1, k2⟩ := C130_step fuel nc hnc pairs hp H lcp mi w h.scene dt _ hdt hV e v hs s1 s3
    have hNF : 0 ≤ (N : ℝ) * (dt * F) := mul_nonneg (Nat.cast_nonneg _) (mul_nonneg hdt.le hF.1)
    have hn' : 2 * ((A + dt * F + N * (dt * F)) / √m) * dt / 2 ^ n ≤ δ := by
      refine le_of_eq_of_le ?_ hn
      push_cast
      ring
    obtain ⟨w', hw'⟩ := k2 n (by
      rw [hδ]
      refine le_trans ?_ hn'
      have : (A + dt * F) / √m ≤ (A + dt * F + N * (dt * F)) / √m := div_le_div_of_nonneg_right (by linarith) hrm.le
      gcongr)
    have hst := step_dt_statics h.scene.good hw'
    obtain ⟨p1, p2, p3, -⟩ := step_dt_params h.scene.good hw'
    have hadv : w.t + pace dt δ ((A + dt * F) / √m) ≤ w'.t := by
      unfold pace
      rcases k1 _ _ hw' with ht | ht
      · rw [ht]; linarith [min_le_left dt (δ / (4 * ((A + dt * F) / √m)))]
      · rw [hδ] at ht
        have := min_le_right dt (δ / (4 * ((A + dt * F) / √m)))
        linarith
    have hsum : A / √m + dt * F / √m = (A + dt * F) / √m := (add_div _ _ _).symm
    rw [headway_succ, hsum] at hT
    have hstep' : w.step (pdipmEnv 2 H lcp mi (diffCollide fuel nc pairs)) (n + 1) 0 false = .done w' := by
      unfold World.step
      simp only [Bool.false_eq_true, ↓reduceIte]
      rw [hwd]
      exact hw'
    simp only [hstep', Run.bind_done]
    refine ih (A + dt * F) w' hAF (h.step hw') (p1.trans hwd) (by rw [p2, p3, hδ])
      (fun w2 hr => hans w2 (Relation.ReflTransGen.head ⟨_, _, hw'⟩ hr)) (pushAtMost_statics hst hF) ?_ hn' (by linarith)
    rw [consts_kinetic hst, step_velocity h.scene.good hw' hs]
    exact s2

/-- C130: whatever bounded forces act, the simulation reaches every time, although a step that is cut short applies the forces
of a whole step. -/
theorem C130_every_time (fuel : ℕ) (nc : ℕ → List ℕ) (hnc : ∀ i j, i ∈ nc j → j ∈ nc i) (pairs : List Body → List (ℕ × ℕ))
    (hp : BroadPhase pairs) (H : ForceHeap) (lcp : LcpSolver) (hx : Exact lcp) (mi : ℕ) (m F : ℝ) (hm : 0 < m)
    (w : World (Option Mat) Finder) (h : DullScene fuel nc pairs m w) (hdt : 0 < w.dt) (hδ : 0 < w.eps + w.tol)
    (hans : KeepsAnswering H lcp mi (pdipmEnv 2 H lcp mi (diffCollide fuel nc pairs)) w) (hF : PushAtMost H w.bodies F) (T : ℝ) :
    ∃ n N w', runWorld (pdipmEnv 2 H lcp mi (diffCollide fuel nc pairs)) n T N w = .done w' ∧ T ≤ w'.t := by
  have hA : 0 < √(2 * kineticEnergy w.bodies w.v) + 1 := by positivity
  obtain ⟨N, hN⟩ := headway_unbounded hdt hδ (div_pos hA (Real.sqrt_pos.2 hm))
    (div_nonneg (mul_nonneg hdt.le hF.1) (Real.sqrt_nonneg m)) (T - w.t)
  obtain ⟨n, hn⟩ := pow_unbounded_of_one_lt
    (2 * ((√(2 * kineticEnergy w.bodies w.v) + 1 + N * (w.dt * F)) / √m) * w.dt / (w.eps + w.tol)) (one_lt_two (α := ℝ))
  obtain ⟨w', hw'⟩ := C130_run fuel nc hnc pairs hp H lcp hx mi m F T w.dt (w.eps + w.tol) hm hdt n N _ w hA h rfl rfl hans hF
    (by linarith) (by
      rw [div_lt_iff₀ hδ] at hn
      rw [div_le_iff₀ (by positivity)]
      linarith) (by linarith)
  exact ⟨n + 1, N, w', hw', (runWorld_done N w w' h.scene.good hdt hw').1⟩

/-- C130: without forces the number of steps is at most proportional to the time: `N` steps advance the clock by `N` times the
smaller of the step length and `(eps + tol) / (4 V)`, where `V` bounds the speeds at the start. -/
theorem C130_no_forces (fuel : ℕ) (nc : ℕ → List ℕ) (hnc : ∀ i j, i ∈ nc j → j ∈ nc i) (pairs : List Body → List (ℕ × ℕ))
    (hp : BroadPhase pairs) (H : ForceHeap) (lcp : LcpSolver) (hx : Exact lcp) (mi : ℕ) (m V : ℝ) (hm : 0 < m) (hV : 0 < V)
    (w : World (Option Mat) Finder) (h : DullScene fuel nc pairs m w) (hdt : 0 < w.dt)
    (hans : KeepsAnswering H lcp mi (pdipmEnv 2 H lcp mi (diffCollide fuel nc pairs)) w) (hF : PushAtMost H w.bodies 0)
    (hE : 2 * kineticEnergy w.bodies w.v ≤ m * V ^ 2) (T : ℝ) (n N : ℕ) (hn : 2 * V * w.dt / 2 ^ n ≤ w.eps + w.tol)
    (hN : T ≤ w.t + N * min w.dt ((w.eps + w.tol) / (4 * V))) :
    ∃ w', runWorld (pdipmEnv 2 H lcp mi (diffCollide fuel nc pairs)) (n + 1) T N w = .done w' := by
  have hrm : 0 < √m := Real.sqrt_pos.2 hm
  have e1 : √m * V / √m = V := by field_simp
  refine C130_run fuel nc hnc pairs hp H lcp hx mi m 0 T w.dt (w.eps + w.tol) hm hdt n N (√m * V) w (mul_pos hrm hV) h rfl rfl hans hF
    ?_ ?_ ?_
  · refine Real.sqrt_le_iff.2 ⟨by positivity, ?_⟩
    rw [mul_pow, Real.sq_sqrt hm.le]
    exact hE
  · rw [mul_zero, mul_zero, add_zero, e1]
    exact hn
  · rw [mul_zero, zero_div, e1, headway_const]
    exact hN

/-- C130: free discs (no joints), an exact solver, forces that can be evaluated: the engine always answers. -/
theorem C130_answers (fuel : ℕ) (nc : ℕ → List ℕ) (pairs : List Body → List (ℕ × ℕ))
    (hp : BroadPhase pairs) (H : ForceHeap) (mi : ℕ) (m : ℝ) (hm : 0 < m) (w : World (Option Mat) Finder)
    (h : DullScene fuel nc pairs m w) (hjs : w.joints = []) (hH : ForcesOk H w.bodies.length) :
    KeepsAnswering H exactLcp mi (pdipmEnv 2 H exactLcp mi (diffCollide fuel nc pairs)) w := by
  intro w2 hr
  have h2 := circleScene_reaches h.scene hr
  have hst := (reaches_statics h.scene.good hr).2
  have hl := sameStatics_length hst
  have hb : ∀ b ∈ w2.bodies, 0 < b.mass ∧ 0 < b.ang_inertia ∧ 0 ≤ b.fric_coeff := by
    intro b hb
    obtain ⟨i, hi, rfl⟩ := mem_bodyAt hb
    have := sameStatics_bodyAt hst i
    simp only [Body.consts, Prod.mk.injEq] at this
    rw [this.1, this.2.1, this.2.2.2]
    obtain ⟨b1, b2, b3, -⟩ := h.bodies i (by omega)
    exact ⟨hm.trans_le b1, b2, b3⟩
  refine C74_circles_engine_answers fuel nc pairs hp H mi w2 h2 ?_ (fun b hbm => ⟨(hb b hbm).1, (hb b hbm).2.1⟩)
    (fun b hbm => (hb b hbm).2.2) (by rw [hl]; exact hH) w2.dt
  have := congrArg List.length hst.2
  rw [hjs] at this
  simpa using this

/-! ## A clock that stands still -/

/-- In a world of discs a step does not raise once the engine has answered. -/
theorem circle_no_raise (hp : BroadPhase pairs) {w : World (Option Mat) Finder} (h : CircleScene fuel nc pairs w) {H : ForceHeap}
    {lcp : LcpSolver} {mi : ℕ} {dt : ℝ} {r : Option Mat × Vec} (hs : pdipmSolve 2 H lcp mi w dt = .ok r) (n : ℕ) (er : Err) :
    w.step_dt (pdipmEnv 2 H lcp mi (diffCollide fuel nc pairs)) n dt ≠ .raised er := by
  obtain ⟨e, v⟩ := r
  set env := pdipmEnv 2 H lcp mi (diffCollide fuel nc pairs) with henv
  have hs' : env.solve_dynamics w dt = .ok (e, v) := hs
  rw [step_dt_eq env n w h.good, hs']
  simp only [Run.ofExcept, Run.bind_done]
  intro hd
  cases hsl : specLoop env (({ w with eng := e } : World (Option Mat) Finder).set_v v) n w.fnd dt 0 with
  | running => rw [hsl] at hd; cases hd
  | raised e' =>
    obtain ⟨f, d, hcol⟩ := specLoop_raised hsl
    have hcirc : ∀ i < ((({ w with eng := e } : World (Option Mat) Finder).set_v v).bodies.map fun b => b.move d).length,
        (bodyAt ((({ w with eng := e } : World (Option Mat) Finder).set_v v).bodies.map fun b => b.move d) i).isCircle = true :=
      fun i hi => (tried_circle h e v d _ (bodyAt_mem hi)).circle
    have hok := collide_circles (fuel := fuel) (nc := nc) hp hcirc f (eps := w.eps)
    have : diffCollide fuel nc pairs w.eps f
      ((({ w with eng := e } : World (Option Mat) Finder).set_v v).bodies.map fun b => b.move d) = .error e' := hcol
    rw [hok] at this
    cases this
  | done r =>
    rw [hsl] at hd
    obtain ⟨k, _, _, ⟨_, _, _, _, _, h3⟩, _⟩ := specLoop_done hsl
    have hps : r.1.post_stab = false := by rw [h3]; exact h.nostab
    simp only [Run.bind_done, hps, Bool.false_eq_true, ↓reduceIte] at hd
    cases hd

/-- Two discs before their meeting, after some steps. -/
structure Stalled (cfuel : ℕ) (pairs : List Body → List (ℕ × ℕ)) (P : TwoDiscs) (q0 v0 : V2) (t0 dt eps tol τ : ℝ)
    (w : World (Option Mat) Finder) : Prop where
  discs : Discs cfuel pairs P w
  hdt : w.dt = dt
  heps : w.eps = eps
  htol : w.tol = tol
  place : between w.bodies = q0 + (w.t - t0) • v0
  speed : closing w.v = v0
  start : t0 ≤ w.t
  before : w.t < t0 + τ
  dyadic : ∃ a b : ℕ, w.t - t0 = a * dt / 2 ^ b

variable {P : TwoDiscs} {cfuel : ℕ} {q0 v0 : V2} {t0 dt eps tol τ : ℝ}

theorem stalled_step {H : ForceHeap} {lcp : LcpSolver} (D : DiscSetting P H lcp pairs) (hdt : 0 < dt) (het : eps + tol = 0)
    (hfar : ∀ s, 0 ≤ s → s < τ → P.R + eps < len (q0 + s • v0)) (hin : ∀ s, τ < s → s < τ + dt → len (q0 + s • v0) < P.R + eps)
    (hτ : ∀ a b : ℕ, τ ≠ a * dt / 2 ^ b) {mi n : ℕ} {w w' : World (Option Mat) Finder} (h : Stalled cfuel pairs P q0 v0 t0 dt eps tol τ w)
    (hs : w.step_dt (pdipmEnv 2 H lcp mi (diffCollide cfuel (fun _ => []) pairs)) n dt = .done w') :
    Stalled cfuel pairs P q0 v0 t0 dt eps tol τ w' := by
  obtain ⟨-, -, -, hno, j, c1, c2, c3, -⟩ := C129_step P H lcp pairs D mi cfuel n dt w w' h.discs hs
  obtain ⟨d1, d2, d3, -⟩ := discs_step D.broad D.once D.m0 D.m1 D.e D.forces D.exact h.discs hs
  have hns : ¬ Strikes P.R w.eps (between w.bodies) (closing w.v) := by
    intro hst
    have := hfar (w.t - t0) (by linarith [h.start]) (by linarith [h.before])
    rw [← h.place, ← h.heps] at this
    linarith [hst.1]
  obtain ⟨e0, e1⟩ := hno hns
  have hcl : closing w'.v = v0 := by
    rw [← h.speed]
    unfold closing
    rw [e0, e1]
  have hd : 0 < dt / 2 ^ j := by positivity
  have hd' : dt / 2 ^ j ≤ dt := div_le_self hdt.le (one_le_pow₀ (by norm_num))
  have hpl : between w'.bodies = q0 + (w'.t - t0) • v0 := by
    rw [c2, hcl, h.place, c1]
    module
  have hdy : ∃ a b : ℕ, w'.t - t0 = a * dt / 2 ^ b := by
    obtain ⟨a, b, hab⟩ := h.dyadic
    refine ⟨a * 2 ^ j + 2 ^ b, b + j, ?_⟩
    rw [c1, show w.t + dt / 2 ^ j - t0 = (w.t - t0) + dt / 2 ^ j by ring, hab]
    push_cast
    field_simp
    ring
  refine ⟨d1, (step_dt_params h.discs.scene.good hs).1.trans h.hdt, d2.trans h.heps, d3.trans h.htol, hpl, hcl, by linarith [h.start], ?_, hdy⟩
  by_contra hge
  push Not at hge
  rcases hge.eq_or_lt with heq | hlt
  · obtain ⟨a, b, hab⟩ := hdy
    exact hτ a b (by rw [← hab, ← heq]; ring)
  · have := hin (w'.t - t0) (by linarith) (by linarith [h.before])
    rw [hpl, h.htol] at c3
    linarith

/-- C130: with `eps + tol = 0` a contact is only seen at exactly one distance.  Two discs that meet at a time that is not a
binary fraction of the step length are never seen to touch, the steps become shorter and shorter, every one of them returns, but the
clock never reaches the meeting. -/
theorem C130_stands_still (P : TwoDiscs) (H : ForceHeap) (pairs : List Body → List (ℕ × ℕ)) (D : DiscSetting P H exactLcp pairs)
    (mi cfuel : ℕ) (w : World (Option Mat) Finder) (h : Discs cfuel pairs P w) (hdt : 0 < w.dt) (het : w.eps + w.tol = 0) (τ : ℝ)
    (hτ0 : 0 < τ) (hfar : ∀ s, 0 ≤ s → s < τ → P.R + w.eps < len (between w.bodies + s • closing w.v))
    (hin : ∀ s, τ < s → s < τ + w.dt → len (between w.bodies + s • closing w.v) < P.R + w.eps)
    (hτ : ∀ a b : ℕ, τ ≠ a * w.dt / 2 ^ b) :
    (∀ T, w.t + τ ≤ T → ∀ fuel n,
      runWorld (pdipmEnv 2 H exactLcp mi (diffCollide cfuel (fun _ => []) pairs)) fuel T n w = .running) ∧
    ∀ n, ∃ ws, ws 0 = w ∧ Steps (pdipmEnv 2 H exactLcp mi (diffCollide cfuel (fun _ => []) pairs)) w.dt n ws := by
  refine ⟨fun T hT fuel n => ?_, fun n => C129_runs P H pairs D mi cfuel w.dt hdt w h n⟩
  have key : ∀ n w2, Stalled cfuel pairs P (between w.bodies) (closing w.v) w.t w.dt w.eps w.tol τ w2 →
      runWorld (pdipmEnv 2 H exactLcp mi (diffCollide cfuel (fun _ => []) pairs)) fuel T n w2 = .running := by
    intro n
    induction n with
    | zero =>
      intro w2 h2
      unfold runWorld
      rw [if_pos (lt_of_lt_of_le h2.before hT)]
    | succ n ih =>
      intro w2 h2
      unfold runWorld
      rw [if_pos (lt_of_lt_of_le h2.before hT)]
      simp only
      have hstep : w2.step (pdipmEnv 2 H exactLcp mi (diffCollide cfuel (fun _ => []) pairs)) fuel 0 false =
          w2.step_dt (pdipmEnv 2 H exactLcp mi (diffCollide cfuel (fun _ => []) pairs)) fuel w.dt := by
        unfold World.step
        rw [if_neg (by simp), h2.hdt]
      rw [hstep]
      cases hd : w2.step_dt (pdipmEnv 2 H exactLcp mi (diffCollide cfuel (fun _ => []) pairs)) fuel w.dt with
      | running => rfl
      | done w3 => exact ih w3 (stalled_step D hdt het hfar hin hτ h2 hd)
      | raised er =>
        exfalso
        obtain ⟨f, w3, hw3⟩ := discs_returns D mi hdt h2.discs
        obtain ⟨e, v, -, -, -, hsol, -⟩ := step_dt_done h2.discs.scene.good hw3
        exact circle_no_raise D.broad h2.discs.scene hsol fuel er hd
  exact key n w ⟨h, rfl, rfl, rfl, by simp, rfl, le_rfl, by linarith, 0, 0, by simp⟩

/-! ## Concrete worlds -/

/-- One third is not a binary fraction. -/
theorem third_not_dyadic (a b : ℕ) : (1 / 3 : ℝ) ≠ a * 1 / 2 ^ b := by
  intro h
  have h2 : (3 * a : ℝ) = 2 ^ b := by
    have : (2 : ℝ) ^ b ≠ 0 := by positivity
    field_simp at h
    linarith
  have h3 : 3 * a = 2 ^ b := by exact_mod_cast h2
  have : 3 ∣ 2 := Nat.Prime.dvd_of_dvd_pow Nat.prime_three (Dvd.intro a h3)
  omega

/-- With `eps = 0` and `tol = 0` the constructor makes a world of two discs at the distance `1/3`, one of which flies
towards the other with speed 1; asked for the first second, `run_world` never returns. -/
theorem C130_eps_zero_stands_still (e : ℝ) (he : 0 ≤ e) (mi cfuel : ℕ) (fnd : Finder) : ∃ w,
    mkWorld (pdipmEnv 2 idleForces exactLcp mi (diffCollide cfuel (fun _ => []) allPairs)) none fnd
      (discBodies e (-(7 / 3), 0) (0, 0) (1, 0) (0, 0)) [] 1 0 0 false true = .done w ∧
    (∀ fuel n, runWorld (pdipmEnv 2 idleForces exactLcp mi (diffCollide cfuel (fun _ => []) allPairs)) fuel 1 n w = .running) ∧
    ∀ n, ∃ ws, ws 0 = w ∧ Steps (pdipmEnv 2 idleForces exactLcp mi (diffCollide cfuel (fun _ => []) allPairs)) 1 n ws := by
  have hlen : ∀ x : ℝ, len ((x, 0) : V2) = |x| := fun x => len_x x
  obtain ⟨w, h1, h2, h3, h4, h5, h6, h7⟩ := discs_made e 1 0 0 le_rfl (by norm_num) (-(7 / 3), 0) (0, 0) (1, 0) (0, 0) le_rfl
    (by norm_num) (by
      rw [show ((-(7 / 3) : ℝ), (0 : ℝ)) - (0, 0) = (-(7 / 3), 0) by simp, hlen, abs_of_neg (by norm_num)]; norm_num)
    idleForces exactLcp mi cfuel fnd
  have hwd : w.dt = 1 := (mkWorld_clock h1).2
  have hq : ∀ s : ℝ, between w.bodies + s • closing w.v = (s - 7 / 3, 0) := by
    intro s
    rw [h6, h7]
    ext <;> simp
    ring
  have hR : (unitDiscs e).R = 2 := by norm_num [unitDiscs, TwoDiscs.R]
  obtain ⟨a1, a2⟩ := C130_stands_still (unitDiscs e) idleForces allPairs (unit_setting e he) mi cfuel w h2 (by rw [hwd]; norm_num)
    (by rw [h3, h4]; norm_num) (1 / 3) (by norm_num)
    (by
      intro s hs hs'
      rw [hq, hlen, hR, h3, abs_of_neg (by linarith)]
      linarith)
    (by
      intro s hs hs'
      rw [hwd] at hs'
      rw [hq, hlen, hR, h3, add_zero]
      exact abs_lt.2 ⟨by linarith, by linarith⟩)
    (by rw [hwd]; exact third_not_dyadic)
  rw [hwd] at a2
  exact ⟨w, h1, a1 1 (by rw [h5]; norm_num), a2⟩

/-- The constructor keeps the bodies and their velocities. -/
theorem made_bodies {env : Env (Option Mat) Finder} {fnd : Finder} {bs : List Body} {dt eps tol : ℝ}
    {w : World (Option Mat) Finder} (h : mkWorld env none fnd bs [] dt eps tol false true = .done w) :
    w.bodies = bs ∧ w.v = cat3 (bs.map Body.v) := by
  have hi := init_bodies fnd bs dt eps tol
  suffices w.bodies = (initWorld (none : Option Mat) fnd bs [] dt eps tol false true).bodies ∧ w.v = cat3 (bs.map Body.v) by
    rwa [hi] at this
  unfold mkWorld World.find_contacts at h
  by_cases h1 : bs.length = 0
  · rw [if_pos h1] at h; cases h
  rw [if_neg h1, if_pos (by simp)] at h
  cases hc : env.collide (initWorld none fnd bs [] dt eps tol false true).eps
    (initWorld none fnd bs [] dt eps tol false true).fnd (initWorld none fnd bs [] dt eps tol false true).bodies with
  | error e => rw [hc] at h; cases h
  | ok r =>
    rw [hc] at h
    simp only [Run.bind] at h
    split_ifs at h
    all_goals
      injection h with h
      rw [← h]
      exact ⟨rfl, rfl⟩

/-- One force on the first body: the unit force along the x axis. -/
def shove : ForceHeap := { obj := fun _ => .external (fun _ => ⟨0, 1, 0⟩) 1, attached := fun i => if i = 0 then [0] else [] }

theorem shove_cat (t : ℝ) : forceCat shove t 2 = .ok [⟨0, 1, 0⟩, 0] := by
  have h0 : shove.apply_forces 0 t = some ⟨0, 1, 0⟩ := by
    simp [ForceHeap.apply_forces, shove, sumForces, Force.force]
    apply V3.ext <;> simp
  have h1 : shove.apply_forces 1 t = some 0 := by simp [ForceHeap.apply_forces, shove]
  simp [forceCat, h0, h1]

theorem dull_made (p0 p1 u0 u1 : V2) {w : World (Option Mat) Finder} {cfuel : ℕ}
    (hd : Discs cfuel allPairs (unitDiscs 0) w) (hb : w.bodies = discBodies 0 p0 p1 u0 u1) :
    DullScene cfuel (fun _ => []) allPairs 1 w := by
  refine ⟨hd.scene, fun i hi => ?_⟩
  rw [hd.two] at hi
  interval_cases i
  · exact ⟨by rw [hd.mass0]; norm_num [unitDiscs], hd.inertia0, by rw [hd.fric0], by rw [hb]; rfl⟩
  · exact ⟨by rw [hd.mass1]; norm_num [unitDiscs], hd.inertia1, by rw [hd.fric1], by rw [hb]; rfl⟩

/-- Example for `C130_answers` and `C130_every_time`: a disc is pushed for ever towards another, both without restitution; the
world with these discs reaches every time. -/
example (mi cfuel : ℕ) (fnd : Finder) : ∃ w,
    mkWorld (pdipmEnv 2 shove exactLcp mi (diffCollide cfuel (fun _ => []) allPairs)) none fnd
      (discBodies 0 (-5, 0) (0, 0) (1, 0) (0, 0)) [] (1 / 30) (1 / 10) (1 / 1000000) false true = .done w ∧
    ∀ T, ∃ n N w', runWorld (pdipmEnv 2 shove exactLcp mi (diffCollide cfuel (fun _ => []) allPairs)) n T N w = .done w' ∧
      T ≤ w'.t := by
  obtain ⟨w, h1, h2, h3, h4, h5, h6, h7⟩ := discs_made 0 (1 / 30) (1 / 10) (1 / 1000000) (by norm_num) (by norm_num) (-5, 0) (0, 0)
    (1, 0) (0, 0) (by norm_num) (by norm_num)
    (by rw [show (((-5 : ℝ), (0 : ℝ)) - (0, 0)) = (-5, 0) by simp, len_x]; norm_num) shove exactLcp mi cfuel fnd
  obtain ⟨hb, hv⟩ := made_bodies h1
  have hdull := dull_made _ _ _ _ h2 hb
  refine ⟨w, h1, fun T => ?_⟩
  refine C130_every_time cfuel (fun _ => []) (by simp) allPairs allPairs_broad shove exactLcp exactLcp_exact mi 1 1 one_pos w hdull
    (by rw [(mkWorld_clock h1).2]; norm_num) (by rw [h3, h4]; norm_num)
    (C130_answers cfuel _ allPairs allPairs_broad shove mi 1 one_pos w hdull h2.free fun t => ⟨_, by rw [h2.two]; exact shove_cat t⟩)
    ⟨zero_le_one, fun t fl hfl => ?_⟩ T
  rw [h2.two, shove_cat] at hfl
  injection hfl with hfl
  unfold pushSq
  rw [h2.two, ← hfl, Finset.sum_range_succ, Finset.sum_range_one, h2.mass0, h2.mass1]
  norm_num [unitDiscs]

/-- Example for `C130_step`: the first step of the two discs that fly at each other; with speeds of at most 6 it takes at most 3
attempts and lasts the whole 1/30 or more than 1/240. -/
example (mi cfuel : ℕ) (fnd : Finder) : ∃ w w',
    mkWorld (pdipmEnv 2 idleForces exactLcp mi (diffCollide cfuel (fun _ => []) allPairs)) none fnd
      (discBodies 0 (-5 / 2, 0) (0, 0) (4, 0) (-4, 0)) [] (1 / 30) (1 / 10) (1 / 1000000) false true = .done w ∧
    w.step_dt (pdipmEnv 2 idleForces exactLcp mi (diffCollide cfuel (fun _ => []) allPairs)) 3 (1 / 30) = .done w' ∧
    (w'.t = w.t + 1 / 30 ∨ 1 / 240 < w'.t - w.t) := by
  obtain ⟨w, h1, h2, h3, h4, h5, h6, h7⟩ := discs_made 0 (1 / 30) (1 / 10) (1 / 1000000) (by norm_num) (by norm_num) (-5 / 2, 0) (0, 0)
    (4, 0) (-4, 0) (by norm_num) (by norm_num)
    (by rw [show (((-5 / 2 : ℝ), (0 : ℝ)) - (0, 0)) = (-5 / 2, 0) by simp, len_x, abs_of_neg (by norm_num)]; norm_num)
    idleForces exactLcp mi cfuel fnd
  obtain ⟨hb, hv⟩ := made_bodies h1
  have hdull := dull_made _ _ _ _ h2 hb
  have hwd := (mkWorld_clock h1).2
  obtain ⟨⟨e, v⟩, hs⟩ := C130_answers cfuel _ allPairs allPairs_broad idleForces mi 1 one_pos w hdull h2.free
    (fun t => ⟨_, by rw [h2.two]; exact idle_none t⟩) w .refl
  rw [hwd] at hs
  obtain ⟨a1, -, a3⟩ := dull_solved one_pos allPairs_broad hdull exactLcp_exact (F := 0) (A := 6) (by norm_num)
    ⟨le_rfl, fun t fl hfl => by
      rw [h2.two, idle_none] at hfl
      injection hfl with hfl
      unfold pushSq
      rw [h2.two, ← hfl, Finset.sum_range_succ, Finset.sum_range_one, h2.mass0, h2.mass1]
      norm_num [unitDiscs]⟩
    (by
      refine Real.sqrt_le_iff.2 ⟨by norm_num, ?_⟩
      unfold kineticEnergy
      rw [h2.two, Finset.sum_range_succ, Finset.sum_range_one, h2.mass0, h2.mass1, hv]
      norm_num [unitDiscs, cat3, discBodies, mkCircle, Arg.toV3]) hs
  obtain ⟨b1, b2⟩ := C130_step cfuel (fun _ => []) (by simp) allPairs allPairs_broad idleForces exactLcp mi w h2.scene (1 / 30) 6
    (by norm_num) (by norm_num) e v hs a1 (fun i hi => by simpa using a3 i hi)
  obtain ⟨w', hw'⟩ := b2 2 (by rw [h3, h4]; norm_num)
  refine ⟨w, w', h1, hw', (b1 _ _ hw').imp id fun h => ?_⟩
  rw [h3, h4] at h
  norm_num at h ⊢
  linarith

/-- Example for `C130_no_forces`: two discs fly at each other with speed 4 each; 14400 steps of at most 3 attempts make up a minute. -/
example (mi cfuel : ℕ) (fnd : Finder) : ∃ w w',
    mkWorld (pdipmEnv 2 idleForces exactLcp mi (diffCollide cfuel (fun _ => []) allPairs)) none fnd
      (discBodies 0 (-5, 0) (0, 0) (4, 0) (-4, 0)) [] (1 / 30) (1 / 10) (1 / 1000000) false true = .done w ∧
    runWorld (pdipmEnv 2 idleForces exactLcp mi (diffCollide cfuel (fun _ => []) allPairs)) 3 60 14400 w = .done w' := by
  obtain ⟨w, h1, h2, h3, h4, h5, h6, h7⟩ := discs_made 0 (1 / 30) (1 / 10) (1 / 1000000) (by norm_num) (by norm_num) (-5, 0) (0, 0)
    (4, 0) (-4, 0) (by norm_num) (by norm_num)
    (by rw [show (((-5 : ℝ), (0 : ℝ)) - (0, 0)) = (-5, 0) by simp, len_x]; norm_num) idleForces exactLcp mi cfuel fnd
  obtain ⟨hb, hv⟩ := made_bodies h1
  have hdull := dull_made _ _ _ _ h2 hb
  have hwd := (mkWorld_clock h1).2
  obtain ⟨w', hw'⟩ := C130_no_forces cfuel (fun _ => []) (by simp) allPairs allPairs_broad idleForces exactLcp exactLcp_exact mi 1 6
    one_pos (by norm_num) w hdull (by rw [hwd]; norm_num)
    (C130_answers cfuel _ allPairs allPairs_broad idleForces mi 1 one_pos w hdull h2.free
      fun t => ⟨_, by rw [h2.two]; exact idle_none t⟩)
    ⟨le_rfl, fun t fl hfl => by
      rw [h2.two, idle_none] at hfl
      injection hfl with hfl
      unfold pushSq
      rw [h2.two, ← hfl, Finset.sum_range_succ, Finset.sum_range_one, h2.mass0, h2.mass1]
      norm_num [unitDiscs]⟩
    (by
      unfold kineticEnergy
      rw [h2.two, Finset.sum_range_succ, Finset.sum_range_one, h2.mass0, h2.mass1, hv]
      norm_num [unitDiscs, cat3, discBodies, mkCircle, Arg.toV3])
    60 2 14400 (by rw [hwd, h3, h4]; norm_num) (by rw [hwd, h3, h4, h5, min_def]; split_ifs <;> norm_num)
  exact ⟨w, w', h1, hw'⟩

end LcpPhysics
