import Verif.Props.Quiet
import Verif.Props.Kicks
import Verif.Props.LibraryRun
import Verif.Props.FreeFall
import Verif.Props.Weld
import Verif.Lemmas.Hinge

/-!
# C125: joints come apart by an amount that vanishes with the step length

A joint constrains velocities only (constraints.py:13-92), and the bodies are moved along straight lines.
-/

noncomputable section

namespace LcpPhysics
open Spec Filter Topology

variable {σ φ : Type}

/-! ## Moves of one step -/

/-- Without post-stabilisation a step moves every body along its new velocity. -/
theorem plain_move {env : Env σ φ} {fuel : ℕ} {w w' : World σ φ} {dt : ℝ} (hg : w.Good) (hp : w.post_stab = false) (hdt : 0 ≤ dt)
    (h : w.step_dt env fuel dt = .done w') : (0 ≤ w'.t - w.t ∧ w'.t - w.t ≤ dt) ∧
      ∀ i < w.bodies.length, (bodyAt w'.bodies i).p = (bodyAt w.bodies i).p + (w'.t - w.t) • twist w'.v i := by
  obtain ⟨e, v, q, w1, w2, hsol, -, rfl, -, ⟨fk, f', cs, -, -, rfl⟩, -, hend⟩ := step_dt_done hg h
  rcases hend with ⟨-, hw'⟩ | ⟨hp', -⟩
  swap
  · rw [hp] at hp'; cases hp'
  have hd : w'.t - w.t = dt / 2 ^ q := by rw [hw']; simp
  refine ⟨?_, fun i hi => ?_⟩
  · rw [hd]
    exact ⟨by positivity, div_le_self hdt (one_le_pow₀ (by norm_num))⟩
  · rw [hd, hw']
    show (bodyAt (((({ w with eng := e } : World σ φ).set_v v).bodies).map fun b => b.move (dt / 2 ^ q)) i).p =
      (bodyAt w.bodies i).p + (dt / 2 ^ q) • twist v i
    rw [bodyAt_map _ _ _ (by rw [set_v_length]; exact hi), move_p, set_v_at ({ w with eng := e } : World σ φ) v i hi]

/-- A run without post-stabilisation; `n` steps of length `dt`, each possibly cut short. -/
structure PlainRun (env : Env σ φ) (dt : ℝ) (n : ℕ) (ws : ℕ → World σ φ) : Prop where
  steps : Steps env dt n ws
  good : (ws 0).Good
  post : (ws 0).post_stab = false
  dt : 0 ≤ dt

theorem PlainRun.reaches {env : Env σ φ} {dt : ℝ} {n : ℕ} {ws : ℕ → World σ φ} (h : PlainRun env dt n ws) :
    ∀ q ≤ n, Reaches env (ws 0) (ws q)
  | 0, _ => .refl
  | q + 1, hq => (h.reaches q (by omega)).tail (by
      obtain ⟨fuel, hs⟩ := h.steps q (by omega)
      exact ⟨fuel, dt, hs⟩)

theorem PlainRun.at {env : Env σ φ} {dt : ℝ} {n : ℕ} {ws : ℕ → World σ φ} (h : PlainRun env dt n ws) :
    ∀ q ≤ n, (ws q).Good ∧ SameStatics (ws 0) (ws q) ∧ (ws q).post_stab = false := by
  intro q hq
  have hr := reaches_statics h.good (h.reaches q hq)
  refine ⟨hr.1, hr.2, ?_⟩
  induction q with
  | zero => exact h.post
  | succ q ih =>
    obtain ⟨fuel, hs⟩ := h.steps q (by omega)
    rw [(step_dt_params (reaches_statics h.good (h.reaches q (by omega))).1 hs).2.2.2.1]
    exact ih (by omega) (reaches_statics h.good (h.reaches q (by omega)))

theorem PlainRun.move {env : Env σ φ} {dt : ℝ} {n : ℕ} {ws : ℕ → World σ φ} (h : PlainRun env dt n ws) (q : ℕ) (hq : q < n) :
    (0 ≤ (ws (q + 1)).t - (ws q).t ∧ (ws (q + 1)).t - (ws q).t ≤ dt) ∧
      ∀ i < (ws 0).bodies.length, (bodyAt (ws (q + 1)).bodies i).p =
        (bodyAt (ws q).bodies i).p + ((ws (q + 1)).t - (ws q).t) • twist (ws (q + 1)).v i := by
  obtain ⟨hg, hs, hp⟩ := h.at q (by omega)
  obtain ⟨fuel, hst⟩ := h.steps q hq
  obtain ⟨h1, h2⟩ := plain_move hg hp h.dt hst
  exact ⟨h1, fun i hi => h2 i (by rw [sameStatics_length hs]; exact hi)⟩

/-- The joint velocities of every step are at most `ε`, at the places where the step began. -/
def JointsHold (ε : ℝ) (n : ℕ) (ws : ℕ → World σ φ) : Prop :=
  ∀ q < n, ∀ r ∈ jointVels (ws q).joints (ws (q + 1)).v, |r| ≤ ε

theorem pointVel_quarter (u : V3) (a : V2) : pointVel u a = (u.x, u.y) + u.r • quarter a := by
  ext <;> simp [pointVel, quarter]; ring

theorem carried_self (b : Body) (a : V2) : carried b b a = a := by
  ext <;> simp [carried, rot]

/-- The arm of the carried point, before and after a move. -/
theorem carried_move {b0 b b' : Body} {d : ℝ} {u : V3} (h : b'.p = b.p + d • u) (a : V2) :
    carried b0 b' a = b.pos + d • (u.x, u.y) + rot (d * u.r) (carried b0 b a - b.pos) := by
  have e : b'.p.r - b0.p.r = d * u.r + (b.p.r - b0.p.r) := by rw [h]; simp; ring
  have e2 : b'.pos = b.pos + d • (u.x, u.y) := by
    unfold Body.pos
    rw [h]
    ext <;> simp [V3.xy]
  have e3 : carried b0 b a - b.pos = rot (b.p.r - b0.p.r) (a - b0.pos) := by unfold carried; abel
  rw [e3]
  unfold carried
  rw [e, e2]
  congr 1
  simp only [rot, Real.cos_add, Real.sin_add]
  ext <;> simp <;> ring

theorem carried_arm (b0 b : Body) (a : V2) : len (carried b0 b a - b.pos) = Spec.dist a b0.pos := by
  have e3 : carried b0 b a - b.pos = rot (b.p.r - b0.p.r) (a - b0.pos) := by unfold carried; abel
  rw [e3, rot_len]
  rfl

theorem len_le_two {ε : ℝ} {a : V2} (h1 : |a.1| ≤ ε) (h2 : |a.2| ≤ ε) : len a ≤ 2 * ε := by
  have h0 : 0 ≤ ε := (abs_nonneg _).trans h1
  refine Real.sqrt_le_iff.2 ⟨by linarith, ?_⟩
  have a1 := sq_le_sq' (abs_le.1 h1).1 (abs_le.1 h1).2
  have a2 := sq_le_sq' (abs_le.1 h2).1 (abs_le.1 h2).2
  nlinarith

/-! ## The bound along a run -/

/-- Two points that have the velocity of each other up to `2 ε` in every step. -/
theorem parted_along {env : Env σ φ} {dt : ℝ} {n : ℕ} {ws : ℕ → World σ φ} (h : PlainRun env dt n ws) (i j : ℕ)
    (hi : i < (ws 0).bodies.length) (hj : j < (ws 0).bodies.length) (a : V2) (ε Ω : ℝ) (hε : 0 ≤ ε)
    (hΩ : ∀ q < n, |spinOf (ws (q + 1)) i| ≤ Ω ∧ |spinOf (ws (q + 1)) j| ≤ Ω)
    (hrel : ∀ q < n, len (pointVel (twist (ws (q + 1)).v i) (carried (bodyAt (ws 0).bodies i) (bodyAt (ws q).bodies i) a - (bodyAt (ws q).bodies i).pos) -
      pointVel (twist (ws (q + 1)).v j) (carried (bodyAt (ws 0).bodies i) (bodyAt (ws q).bodies i) a - (bodyAt (ws q).bodies j).pos)) ≤ 2 * ε) :
    parted (ws 0).bodies (ws n).bodies i j a ≤ Real.exp (Ω ^ 2 * dt * ((ws n).t - (ws 0).t) / 2) *
      (reach (ws 0).bodies i j a + 2 * ε * ((ws n).t - (ws 0).t)) - reach (ws 0).bodies i j a := by
  set G : ℕ → ℝ := fun q => parted (ws 0).bodies (ws q).bodies i j a with hG
  set d : ℕ → ℝ := fun q => (ws (q + 1)).t - (ws q).t with hd
  have hsum : ∑ k ∈ Finset.range n, d k = (ws n).t - (ws 0).t := Finset.sum_range_sub (fun q => (ws q).t) n
  have key := parted_sum G d n (reach (ws 0).bodies i j a) Ω (2 * ε) dt
    (add_nonneg (len_nonneg _) (len_nonneg _)) (by linarith)
    (by simp only [hG, parted, carried_self]; simp [Spec.dist, len]) (fun q hq => (h.move q hq).1) ?_ n le_rfl
  · rw [hsum] at key
    linarith
  intro q hq
  obtain ⟨⟨d0, -⟩, hm⟩ := h.move q hq
  have hb := hinge_bound (bodyAt (ws q).bodies i).pos (bodyAt (ws q).bodies j).pos
    ((twist (ws (q + 1)).v i).x, (twist (ws (q + 1)).v i).y) ((twist (ws (q + 1)).v j).x, (twist (ws (q + 1)).v j).y)
    (carried (bodyAt (ws 0).bodies i) (bodyAt (ws q).bodies i) a - (bodyAt (ws q).bodies i).pos)
    (carried (bodyAt (ws 0).bodies j) (bodyAt (ws q).bodies j) a - (bodyAt (ws q).bodies j).pos)
    (twist (ws (q + 1)).v i).r (twist (ws (q + 1)).v j).r (d q) Ω (2 * ε) d0 (hΩ q hq).1 (hΩ q hq).2 (by
      have := hrel q hq
      rw [pointVel_quarter, pointVel_quarter] at this
      rw [add_sub_cancel]
      exact this)
  rw [carried_arm, carried_arm, add_sub_cancel, add_sub_cancel] at hb
  simp only [hG, parted, reach]
  rw [carried_move (hm i hi), carried_move (hm j hj)]
  exact hb

/-- The joint record agrees with the bodies. -/
theorem hinge_record {env : Env σ φ} {w0 w : World σ φ} (hg : w0.Good) (hr : Reaches env w0 w) {k i j : ℕ} {a : V2}
    (hh : HingedAt w0.joints k i j a) : ∃ J ∈ w.joints, J.kind = .revolute ∧ J.i1 = i ∧ J.i2 = some j ∧
      J.pos1 = carried (bodyAt w0.bodies i) (bodyAt w.bodies i) a - (bodyAt w.bodies i).pos ∧
      J.pos2 = carried (bodyAt w0.bodies i) (bodyAt w.bodies i) a - (bodyAt w.bodies j).pos := by
  obtain ⟨J, hJ, hk, h1, h2, hp⟩ := hh
  obtain ⟨hklt, rfl⟩ := List.getElem?_eq_some_iff.1 hJ
  obtain ⟨hk', c1, -, c3, c4⟩ := C28_anchor_rigid env w0 w hg hr k hklt hk
  simp only [h1, hp] at c1 c3 c4
  have hw : (w.joints[k]).wiring = (w0.joints[k]).wiring := by
    have := congrArg (fun l => l[k]?) (reaches_statics hg hr).2.2
    simpa [hk', hklt] using this
  simp only [Joint.wiring, Prod.mk.injEq] at hw
  have hpos : w.joints[k].pos = carried (bodyAt w0.bodies i) (bodyAt w.bodies i) a := by
    unfold carried
    rw [← c1]; abel
  refine ⟨w.joints[k], List.getElem_mem hk', hw.1.trans hk, hw.2.1.trans h1, hw.2.2.trans h2, ?_, ?_⟩
  · rw [c3, hpos]
  · rw [c4 j (by rw [h2]; rfl), hpos]

theorem hinge_pin {env : Env σ φ} {w0 w : World σ φ} (hg : w0.Good) (hr : Reaches env w0 w) {k i : ℕ} {a : V2}
    (hh : PinnedAt w0.joints k i a) : ∃ J ∈ w.joints, J.kind = .revolute ∧ J.i1 = i ∧ J.i2 = none ∧
      J.pos1 = carried (bodyAt w0.bodies i) (bodyAt w.bodies i) a - (bodyAt w.bodies i).pos := by
  obtain ⟨J, hJ, hk, h1, h2, hp⟩ := hh
  obtain ⟨hklt, rfl⟩ := List.getElem?_eq_some_iff.1 hJ
  obtain ⟨hk', c1, -, c3, -⟩ := C28_anchor_rigid env w0 w hg hr k hklt hk
  simp only [h1, hp] at c1 c3
  have hw : (w.joints[k]).wiring = (w0.joints[k]).wiring := by
    have := congrArg (fun l => l[k]?) (reaches_statics hg hr).2.2
    simpa [hk', hklt] using this
  simp only [Joint.wiring, Prod.mk.injEq] at hw
  have hpos : w.joints[k].pos = carried (bodyAt w0.bodies i) (bodyAt w.bodies i) a := by
    unfold carried
    rw [← c1]; abel
  exact ⟨w.joints[k], List.getElem_mem hk', hw.1.trans hk, hw.2.1.trans h1, hw.2.2.trans h2, by rw [c3, hpos]⟩

theorem weld_record {env : Env σ φ} {w0 w : World σ φ} (hg : w0.Good) (hr : Reaches env w0 w) {k i j : ℕ}
    (hh : FixedTo w0.joints k i j) : ∃ J ∈ w.joints, J.kind = .fixed ∧ J.i1 = i ∧ J.i2 = some j ∧
      J.pos1 = 0 ∧ J.pos2 = (bodyAt w.bodies i).pos - (bodyAt w.bodies j).pos := by
  obtain ⟨J, hJ, hk, h1, h2⟩ := hh
  obtain ⟨hg', hs⟩ := reaches_statics hg hr
  have hl := congrArg (fun l => l[k]?) hs.2
  simp only [List.getElem?_map, hJ, Option.map_some] at hl
  cases hJ' : w.joints[k]? with
  | none => rw [hJ'] at hl; simp at hl
  | some J' =>
    rw [hJ'] at hl
    simp only [Option.map_some, Option.some.injEq, Joint.wiring, Prod.mk.injEq] at hl
    have hm := List.mem_of_getElem? hJ'
    have hf := hg'.fix J' hm
    have hk' : J'.kind = .fixed := hl.1.trans hk
    have h1' : J'.i1 = i := hl.2.1.trans h1
    have h2' : J'.i2 = some j := hl.2.2.trans h2
    refine ⟨J', hm, hk', h1', h2', ?_, ?_⟩
    · rw [← hf]; simp [Joint.update_pos, hk']
    · rw [← hf]; simp [Joint.update_pos, hk', h1', h2']

/-- C125: two bodies hinged together, any engine whose joint velocities are right up to `ε`: the two points that were together at the hinge
stay together up to an amount of the order of the step length, and `ε` per unit of time. -/
theorem C125_hinge_any {env : Env σ φ} {dt : ℝ} {n : ℕ} {ws : ℕ → World σ φ} (h : PlainRun env dt n ws) (k i j : ℕ)
    (hi : i < (ws 0).bodies.length) (hj : j < (ws 0).bodies.length) (a : V2) (hh : HingedAt (ws 0).joints k i j a) (ε Ω : ℝ) (hε : 0 ≤ ε)
    (hv : JointsHold ε n ws) (hΩ : ∀ q < n, |spinOf (ws (q + 1)) i| ≤ Ω ∧ |spinOf (ws (q + 1)) j| ≤ Ω) :
    parted (ws 0).bodies (ws n).bodies i j a ≤ Real.exp (Ω ^ 2 * dt * ((ws n).t - (ws 0).t) / 2) *
      (reach (ws 0).bodies i j a + 2 * ε * ((ws n).t - (ws 0).t)) - reach (ws 0).bodies i j a := by
  refine parted_along h i j hi hj a ε Ω hε hΩ fun q hq => ?_
  obtain ⟨J, hJ, hk, h1, h2, e1, e2⟩ := hinge_record h.good (h.reaches q hq.le) hh
  have := fun r hr => hv q hq r (List.mem_flatMap.2 ⟨J, hJ, hr⟩)
  simp only [jointVel, hk, h1, h2, e1, e2, List.mem_cons, List.not_mem_nil, or_false, forall_eq_or_imp, forall_eq] at this
  exact len_le_two this.1 this.2

/-- C125: the same for two bodies fixed to each other, at the centre of the first; and the angle between them changes by at most `ε` per
unit of time. -/
theorem C125_weld_any {env : Env σ φ} {dt : ℝ} {n : ℕ} {ws : ℕ → World σ φ} (h : PlainRun env dt n ws) (k i j : ℕ)
    (hi : i < (ws 0).bodies.length) (hj : j < (ws 0).bodies.length) (hh : FixedTo (ws 0).joints k i j) (ε Ω : ℝ) (hε : 0 ≤ ε)
    (hv : JointsHold ε n ws) (hΩ : ∀ q < n, |spinOf (ws (q + 1)) i| ≤ Ω ∧ |spinOf (ws (q + 1)) j| ≤ Ω) :
    (let a := (bodyAt (ws 0).bodies i).pos
     parted (ws 0).bodies (ws n).bodies i j a ≤ Real.exp (Ω ^ 2 * dt * ((ws n).t - (ws 0).t) / 2) *
      (reach (ws 0).bodies i j a + 2 * ε * ((ws n).t - (ws 0).t)) - reach (ws 0).bodies i j a) ∧
    |((bodyAt (ws n).bodies i).p.r - (bodyAt (ws n).bodies j).p.r) - ((bodyAt (ws 0).bodies i).p.r - (bodyAt (ws 0).bodies j).p.r)| ≤
      ε * ((ws n).t - (ws 0).t) := by
  have hvel : ∀ q < n, (∀ c, c = (pointVel (twist (ws (q + 1)).v i) 0 - pointVel (twist (ws (q + 1)).v j)
      ((bodyAt (ws q).bodies i).pos - (bodyAt (ws q).bodies j).pos)) → |c.1| ≤ ε ∧ |c.2| ≤ ε) ∧
      |(twist (ws (q + 1)).v i).r - (twist (ws (q + 1)).v j).r| ≤ ε := by
    intro q hq
    obtain ⟨J, hJ, hk, h1, h2, e1, e2⟩ := weld_record h.good (h.reaches q hq.le) hh
    have := fun r hr => hv q hq r (List.mem_flatMap.2 ⟨J, hJ, hr⟩)
    simp only [jointVel, hk, h1, h2, e1, e2, List.mem_cons, List.not_mem_nil, or_false, forall_eq_or_imp, forall_eq] at this
    exact ⟨fun c hc => by rw [hc]; exact ⟨this.1, this.2.1⟩, this.2.2⟩
  refine ⟨?_, ?_⟩
  · intro a
    refine parted_along h i j hi hj a ε Ω hε hΩ fun q hq => ?_
    have hc : carried (bodyAt (ws 0).bodies i) (bodyAt (ws q).bodies i) a = (bodyAt (ws q).bodies i).pos := by
      unfold carried
      rw [sub_self]
      ext <;> simp [rot]
    rw [hc, sub_self]
    have := (hvel q hq).1 _ rfl
    exact len_le_two this.1 this.2
  · have : ∀ q ≤ n, |((bodyAt (ws q).bodies i).p.r - (bodyAt (ws q).bodies j).p.r) -
        ((bodyAt (ws 0).bodies i).p.r - (bodyAt (ws 0).bodies j).p.r)| ≤ ε * ((ws q).t - (ws 0).t) := by
      intro q
      induction q with
      | zero => intro _; simp
      | succ q ih =>
        intro hq
        obtain ⟨⟨d0, -⟩, hm⟩ := h.move q (by omega)
        rw [hm i hi, hm j hj]
        have hi' := ih (by omega)
        have hr := (hvel q (by omega)).2
        set d := (ws (q + 1)).t - (ws q).t with hd
        simp only [V3.add_r, V3.smul_r]
        have e : (bodyAt (ws q).bodies i).p.r + d * (twist (ws (q + 1)).v i).r - ((bodyAt (ws q).bodies j).p.r + d * (twist (ws (q + 1)).v j).r) -
            ((bodyAt (ws 0).bodies i).p.r - (bodyAt (ws 0).bodies j).p.r) =
            ((bodyAt (ws q).bodies i).p.r - (bodyAt (ws q).bodies j).p.r - ((bodyAt (ws 0).bodies i).p.r - (bodyAt (ws 0).bodies j).p.r)) +
            d * ((twist (ws (q + 1)).v i).r - (twist (ws (q + 1)).v j).r) := by ring
        rw [e]
        refine (abs_add_le _ _).trans ?_
        rw [abs_mul, abs_of_nonneg d0]
        have := mul_le_mul_of_nonneg_left hr d0
        have ht : (ws (q + 1)).t - (ws 0).t = d + ((ws q).t - (ws 0).t) := by rw [hd]; ring
        rw [ht]
        linarith
    exact this n le_rfl

/-- C125: a body hinged to the world: the point at the hinge stays there up to an amount of the order of the step length. -/
theorem C125_pin_any {env : Env σ φ} {dt : ℝ} {n : ℕ} {ws : ℕ → World σ φ} (h : PlainRun env dt n ws) (k i : ℕ)
    (hi : i < (ws 0).bodies.length) (a : V2) (hh : PinnedAt (ws 0).joints k i a) (ε Ω : ℝ)
    (hv : JointsHold ε n ws) (hΩ : ∀ q < n, |spinOf (ws (q + 1)) i| ≤ Ω) :
    Spec.dist (carried (bodyAt (ws 0).bodies i) (bodyAt (ws n).bodies i) a) a ≤
      (Ω ^ 2 * dt / 2 * Spec.dist a (bodyAt (ws 0).bodies i).pos + 2 * ε) * ((ws n).t - (ws 0).t) := by
  have : ∀ q ≤ n, Spec.dist (carried (bodyAt (ws 0).bodies i) (bodyAt (ws q).bodies i) a) a ≤
      (Ω ^ 2 * dt / 2 * Spec.dist a (bodyAt (ws 0).bodies i).pos + 2 * ε) * ((ws q).t - (ws 0).t) := by
    intro q
    induction q with
    | zero => intro _; rw [carried_self]; simp [Spec.dist, len]
    | succ q ih =>
      intro hq
      obtain ⟨⟨d0, d1⟩, hm⟩ := h.move q (by omega)
      have hi' := ih (by omega)
      obtain ⟨J, hJ, hk, h1, h2, e1⟩ := hinge_pin h.good (h.reaches q (by omega)) hh
      have hr := fun r hr => hv q (by omega) r (List.mem_flatMap.2 ⟨J, hJ, hr⟩)
      have e0 : pointVel (0 : V3) J.pos2 = 0 := by ext <;> simp [pointVel]
      simp only [jointVel, hk, h1, h2, e1, e0, sub_zero, List.mem_cons, List.not_mem_nil, or_false, forall_eq_or_imp, forall_eq] at hr
      have hr := len_le_two hr.1 hr.2
      rw [carried_move (hm i hi)]
      set d := (ws (q + 1)).t - (ws q).t with hd
      set u := twist (ws (q + 1)).v i
      set c := carried (bodyAt (ws 0).bodies i) (bodyAt (ws q).bodies i) a
      set x := (bodyAt (ws q).bodies i).pos
      have hu : |u.r| ≤ Ω := hΩ q (by omega)
      rw [pointVel_quarter] at hr
      have e : x + d • (u.x, u.y) + rot (d * u.r) (c - x) - c =
          (rot (d * u.r) (c - x) - (c - x) - (d * u.r) • quarter (c - x)) + d • ((u.x, u.y) + u.r • quarter (c - x)) := by
        ext <;> simp [quarter] <;> ring
      have b1 : Spec.dist (x + d • (u.x, u.y) + rot (d * u.r) (c - x)) c ≤
          Ω ^ 2 * dt / 2 * Spec.dist a (bodyAt (ws 0).bodies i).pos * d + 2 * ε * d := by
        unfold Spec.dist
        rw [e]
        refine (len_add_le _ _).trans (add_le_add ?_ ?_)
        · refine (chord_error _ _).trans ?_
          rw [show len (c - x) = Spec.dist a (bodyAt (ws 0).bodies i).pos from carried_arm _ _ _]
          have s1 : (d * u.r) ^ 2 ≤ Ω ^ 2 * dt * d := by
            have h1 : u.r ^ 2 ≤ Ω ^ 2 := by rw [← sq_abs u.r]; exact pow_le_pow_left₀ (abs_nonneg _) hu 2
            have h2 : d * d ≤ dt * d := mul_le_mul_of_nonneg_right d1 d0
            calc (d * u.r) ^ 2 = d * d * u.r ^ 2 := by ring
              _ ≤ dt * d * Ω ^ 2 := mul_le_mul h2 h1 (sq_nonneg _) (mul_nonneg (d0.trans d1) d0)
              _ = _ := by ring
          have hl : 0 ≤ Spec.dist a (bodyAt (ws 0).bodies i).pos := len_nonneg _
          have := mul_le_mul_of_nonneg_right s1 hl
          unfold Spec.dist at this hl ⊢
          nlinarith
        · rw [len_smul, abs_of_nonneg d0]
          nlinarith
      have ht : (ws (q + 1)).t - (ws 0).t = d + ((ws q).t - (ws 0).t) := by rw [hd]; ring
      rw [ht]
      have := Spec.dist_triangle (x + d • (u.x, u.y) + rot (d * u.r) (c - x)) c a
      nlinarith
  exact this n le_rfl

/-! ## The engines -/

/-- A run of the engine, without post-stabilisation. -/
structure JointRun (H : ForceHeap) (lcp : LcpSolver) (mi : ℕ) (collide : ℝ → φ → List Body → Except Err (φ × List Contact)) (dt : ℝ) (n : ℕ)
    (ws : ℕ → World (Option Mat) φ) : Prop where
  find : FinderOk collide
  steps : Steps (pdipmEnv 2 H lcp mi collide) dt n ws
  inv : EngineInv (ws 0)
  post : (ws 0).post_stab = false
  dt : 0 ≤ dt

section
variable {H : ForceHeap} {lcp : LcpSolver} {mi : ℕ} {collide : ℝ → φ → List Body → Except Err (φ × List Contact)} {dt : ℝ} {n : ℕ}
  {ws : ℕ → World (Option Mat) φ}

theorem JointRun.plain (h : JointRun H lcp mi collide dt n ws) : PlainRun (pdipmEnv 2 H lcp mi collide) dt n ws :=
  ⟨h.steps, h.inv.good, h.post, h.dt⟩

theorem JointRun.invAt (h : JointRun H lcp mi collide dt n ws) (q : ℕ) (hq : q ≤ n) : EngineInv (ws q) :=
  C29_engine_invariant H lcp mi collide h.find _ _ h.inv (h.plain.reaches q hq)

theorem JointRun.time (h : JointRun H lcp mi collide dt n ws) : 0 ≤ (ws n).t - (ws 0).t ∧ (ws n).t - (ws 0).t ≤ n * dt := by
  have : ∀ q ≤ n, 0 ≤ (ws q).t - (ws 0).t ∧ (ws q).t - (ws 0).t ≤ q * dt := by
    intro q
    induction q with
    | zero => intro _; simp
    | succ q ih =>
      intro hq
      obtain ⟨⟨d0, d1⟩, -⟩ := h.plain.move q (by omega)
      obtain ⟨i0, i1⟩ := ih (by omega)
      push_cast
      constructor <;> linarith
  exact this n le_rfl

theorem JointRun.exact (h : JointRun H lcp mi collide dt n ws) (hx : Exact lcp) : JointsHold 0 n ws := by
  intro q hq r hr
  obtain ⟨fuel, hs⟩ := h.steps q hq
  obtain ⟨fl, l, pn, a, b, g, -, law⟩ := step_law hx (h.invAt q hq.le) hs
  rw [law.joints r hr, abs_zero]

end

/-- C125, the library's own solver: what it leaves of the equations bounds the joint velocities. -/
theorem C125_library {f : Btrifact} {eps : ℝ} {lim : ℕ} {H : ForceHeap} {mi : ℕ}
    {collide : ℝ → φ → List Body → Except Err (φ × List Contact)} {dt : ℝ} {n : ℕ} {ws : ℕ → World (Option Mat) φ}
    (h : JointRun H (libraryLcp f eps lim) mi collide dt n ws) (ε : ℝ) (hε : ∀ q < n, engineResid f eps lim H mi (ws q) dt ≤ ε) :
    JointsHold ε n ws := by
  intro q hq r hr
  obtain ⟨fuel, hs⟩ := h.steps q hq
  have hw := h.invAt q hq.le
  obtain ⟨e, v, k, w1, w2, hsol, -, rfl, hg1, ⟨fk, f', cs, -, -, rfl⟩, -, hend⟩ := step_dt_done hw.good hs
  obtain ⟨-, fl, l, pn, a, b, g, -, law⟩ := C70_engine_law f eps lim H mi _ dt e v hw.joints hw.contacts hw.cache.ok hsol
  have hv : (ws (q + 1)).v = v := by
    rcases hend with ⟨-, e⟩ | ⟨-, dp, f2, cs2, -, w3, rfl, -, e⟩ <;> rw [e] <;> rfl
  rw [hv] at hr
  exact (law.joints r hr).trans (hε q hq)

/-! ## Speeds -/

theorem pushSq_nonneg {bs : List Body} (hpos : ∀ i < bs.length, 0 < (bodyAt bs i).mass ∧ 0 < (bodyAt bs i).ang_inertia) (f : ℕ → V3) :
    0 ≤ pushSq bs f := by
  refine Finset.sum_nonneg fun i hi => ?_
  obtain ⟨h1, h2⟩ := hpos i (Finset.mem_range.1 hi)
  positivity

/-- Cauchy and Schwarz for the mass matrix. -/
theorem force_schwarz {bs : List Body} (hpos : ∀ i < bs.length, 0 < (bodyAt bs i).mass ∧ 0 < (bodyAt bs i).ang_inertia) (f : ℕ → V3)
    (u : Vec) : forcePower bs.length f u ^ 2 ≤ pushSq bs f * momentumPower bs u u := by
  have key : ∀ t : ℝ, 0 ≤ pushSq bs f * (t * t) + 2 * forcePower bs.length f u * t + momentumPower bs u u := by
    intro t
    unfold pushSq forcePower momentumPower
    rw [Finset.sum_mul, Finset.mul_sum, Finset.sum_mul, ← Finset.sum_add_distrib, ← Finset.sum_add_distrib]
    refine Finset.sum_nonneg fun i hi => ?_
    obtain ⟨h1, h2⟩ := hpos i (Finset.mem_range.1 hi)
    set I := (bodyAt bs i).ang_inertia
    set m := (bodyAt bs i).mass
    have e : ((f i).r ^ 2 / I + ((f i).x ^ 2 + (f i).y ^ 2) / m) * (t * t) +
        2 * ((f i).r * (twist u i).r + (f i).x * (twist u i).x + (f i).y * (twist u i).y) * t +
        (I * (twist u i).r * (twist u i).r + m * ((twist u i).x * (twist u i).x + (twist u i).y * (twist u i).y)) =
        ((f i).r * t + I * (twist u i).r) ^ 2 / I + (((f i).x * t + m * (twist u i).x) ^ 2 + ((f i).y * t + m * (twist u i).y) ^ 2) / m := by
      field_simp
      ring
    rw [e]
    positivity
  have := discrim_le_zero key
  unfold discrim at this
  nlinarith

theorem momentum_schwarz {bs : List Body} (hpos : ∀ i < bs.length, 0 < (bodyAt bs i).mass ∧ 0 < (bodyAt bs i).ang_inertia) (u v : Vec) :
    momentumPower bs u v ^ 2 ≤ momentumPower bs v v * momentumPower bs u u := by
  have := force_schwarz hpos (fun i => ⟨(bodyAt bs i).ang_inertia * (twist v i).r, (bodyAt bs i).mass * (twist v i).x,
    (bodyAt bs i).mass * (twist v i).y⟩) u
  have e1 : forcePower bs.length (fun i => (⟨(bodyAt bs i).ang_inertia * (twist v i).r, (bodyAt bs i).mass * (twist v i).x,
    (bodyAt bs i).mass * (twist v i).y⟩ : V3)) u = momentumPower bs u v := by
    unfold forcePower momentumPower
    exact Finset.sum_congr rfl fun i _ => by ring
  have e2 : pushSq bs (fun i => (⟨(bodyAt bs i).ang_inertia * (twist v i).r, (bodyAt bs i).mass * (twist v i).x,
    (bodyAt bs i).mass * (twist v i).y⟩ : V3)) = momentumPower bs v v := by
    unfold pushSq momentumPower
    refine Finset.sum_congr rfl fun i hi => ?_
    obtain ⟨h1, h2⟩ := hpos i (Finset.mem_range.1 hi)
    field_simp
  rwa [e1, e2] at this

/-- C125: inelastic bodies gain speed from the forces only: the root of twice the kinetic energy grows by at most the size of the
impulses. -/
theorem C125_speed_step (bs : List Body) (js : List Joint) (cs : List Contact) (f : ℕ → V3) (v v' l : Vec) (pn a b g : ℕ → ℝ)
    (hpos : ∀ i < bs.length, 0 < (bodyAt bs i).mass ∧ 0 < (bodyAt bs i).ang_inertia)
    (hmu : ∀ c ∈ cs, 0 ≤ meanFriction bs c) (he : ∀ c ∈ cs, meanRestitution bs c = 0)
    (h : ContactLaw bs js cs f v v' l pn a b g) :
    √(2 * kineticEnergy bs v') ≤ √(2 * kineticEnergy bs v) + √(pushSq bs f) := by
  have hpos' : ∀ i < bs.length, 0 ≤ (bodyAt bs i).mass ∧ 0 ≤ (bodyAt bs i).ang_inertia := fun i hi =>
    ⟨(hpos i hi).1.le, (hpos i hi).2.le⟩
  have hb := C42_energy_balance bs js cs _ v v' l pn a b g h
  have hs : 0 ≤ ∑ i ∈ Finset.range cs.length, match cs[i]? with
        | none => 0
        | some c => meanRestitution bs c * pn i * normalVel c v + meanFriction bs c * pn i * g i := by
    refine Finset.sum_nonneg fun i hi => ?_
    have hi := Finset.mem_range.1 hi
    rw [List.getElem?_eq_getElem hi]
    simp only
    obtain ⟨hp, -, -, hg⟩ := h.nonneg i hi
    rw [he _ (List.getElem_mem hi)]
    have := hmu _ (List.getElem_mem hi)
    have : 0 ≤ meanFriction bs cs[i] * pn i * g i := by positivity
    linarith
  have e2 : momentumPower bs (v' - v) (v' - v) =
      momentumPower bs v' v' - 2 * momentumPower bs v' v + momentumPower bs v v := by
    rw [momentumPower_sub, momentumPower_symm bs (v' - v) v', momentumPower_symm bs (v' - v) v,
      momentumPower_sub, momentumPower_sub, momentumPower_symm bs v v']
    ring
  rw [kinetic_eq, kinetic_eq, kinetic_eq, e2] at hb
  rw [kinetic_eq, kinetic_eq, mul_div_cancel₀ _ (two_ne_zero' ℝ), mul_div_cancel₀ _ (two_ne_zero' ℝ)]
  have n1 := momentumPower_nonneg bs hpos' v
  have n2 := momentumPower_nonneg bs hpos' v'
  have n3 := pushSq_nonneg hpos f
  have c1 : momentumPower bs v' v ≤ √(momentumPower bs v v) * √(momentumPower bs v' v') := by
    rw [← Real.sqrt_mul n1]
    exact Real.le_sqrt_of_sq_le (momentum_schwarz hpos v' v)
  have c2 : forcePower bs.length f v' ≤ √(pushSq bs f) * √(momentumPower bs v' v') := by
    rw [← Real.sqrt_mul n3]
    exact Real.le_sqrt_of_sq_le (force_schwarz hpos f v')
  have q := Real.mul_self_sqrt n2
  set N' := √(momentumPower bs v' v')
  have hle : N' * N' ≤ (√(momentumPower bs v v) + √(pushSq bs f)) * N' := by
    have := hb.le.trans (sub_le_self _ hs)
    rw [q]
    linarith
  rcases (Real.sqrt_nonneg (momentumPower bs v' v')).eq_or_lt with h0 | h0
  · show N' ≤ _
    rw [show N' = 0 from h0.symm]
    positivity
  · exact le_of_mul_le_mul_right hle h0

/-- One body's share of the kinetic energy. -/
theorem spin_le {bs : List Body} (hpos : ∀ i < bs.length, 0 < (bodyAt bs i).mass ∧ 0 < (bodyAt bs i).ang_inertia) (v : Vec) {i : ℕ}
    (hi : i < bs.length) {m : ℝ} (hm : 0 < m) (hmi : m ≤ (bodyAt bs i).ang_inertia) :
    |(twist v i).r| ≤ √(2 * kineticEnergy bs v) / √m := by
  rw [← Real.sqrt_div' _ hm.le, ← Real.sqrt_sq_eq_abs]
  refine Real.sqrt_le_sqrt ?_
  rw [le_div_iff₀ hm]
  have h1 : (bodyAt bs i).ang_inertia * v (3 * i) ^ 2 / 2 ≤ kineticEnergy bs v := by
    unfold kineticEnergy
    refine le_trans ?_ (Finset.single_le_sum (f := fun i => ((bodyAt bs i).ang_inertia * v (3 * i) ^ 2 +
      (bodyAt bs i).mass * (v (3 * i + 1) ^ 2 + v (3 * i + 2) ^ 2)) / 2) (fun k hk => ?_) (Finset.mem_range.2 hi))
    · have := (hpos i hi).1
      have : 0 ≤ (bodyAt bs i).mass * (v (3 * i + 1) ^ 2 + v (3 * i + 2) ^ 2) := by positivity
      linarith
    · obtain ⟨a1, a2⟩ := hpos k (Finset.mem_range.1 hk)
      positivity
  have h2 : (twist v i).r = v (3 * i) := rfl
  rw [h2]
  nlinarith [sq_nonneg (v (3 * i))]

/-- The forces on `N` bodies like `bs` are never greater than `F`. -/
def PushAtMost (H : ForceHeap) (bs : List Body) (F : ℝ) : Prop :=
  0 ≤ F ∧ ∀ t fl, forceCat H t bs.length = .ok fl → pushSq bs (fun i => fl.getD i 0) ≤ F ^ 2

/-- All contacts of the run are inelastic. -/
def Inelastic {σ : Type} (n : ℕ) (ws : ℕ → World σ φ) : Prop :=
  ∀ q < n, ∀ c ∈ (ws q).contacts, meanRestitution (ws q).bodies c = 0 ∧ 0 ≤ meanFriction (ws q).bodies c

theorem consts_kinetic {σ : Type} {w w' : World σ φ} (h : SameStatics w w') (v : Vec) : kineticEnergy w'.bodies v = kineticEnergy w.bodies v := by
  unfold kineticEnergy
  rw [sameStatics_length h]
  refine Finset.sum_congr rfl fun i _ => ?_
  have := sameStatics_bodyAt h i
  simp only [Body.consts, Prod.mk.injEq] at this
  rw [this.1, this.2.1]

theorem consts_push {σ : Type} {w w' : World σ φ} (h : SameStatics w w') (f : ℕ → V3) : pushSq w'.bodies f = pushSq w.bodies f := by
  unfold pushSq
  rw [sameStatics_length h]
  refine Finset.sum_congr rfl fun i _ => ?_
  have := sameStatics_bodyAt h i
  simp only [Body.consts, Prod.mk.injEq] at this
  rw [this.1, this.2.1]

theorem pushSq_smul (bs : List Body) (d : ℝ) (f : ℕ → V3) : pushSq bs (fun i => d • f i) = d ^ 2 * pushSq bs f := by
  unfold pushSq
  rw [Finset.mul_sum]
  refine Finset.sum_congr rfl fun i _ => ?_
  simp only [V3.smul_r, V3.smul_x, V3.smul_y]
  ring

section
variable {H : ForceHeap} {lcp : LcpSolver} {mi : ℕ} {collide : ℝ → φ → List Body → Except Err (φ × List Contact)} {dt : ℝ} {n : ℕ}
  {ws : ℕ → World (Option Mat) φ}

/-- C125: along a run without bounces the speeds are bounded by those at the start and the forces. -/
theorem C125_speed (h : JointRun H lcp mi collide dt n ws) (hx : Exact lcp) (he : Inelastic n ws)
    (hpos : ∀ i < (ws 0).bodies.length, 0 < (bodyAt (ws 0).bodies i).mass ∧ 0 < (bodyAt (ws 0).bodies i).ang_inertia)
    (F : ℝ) (hF : PushAtMost H (ws 0).bodies F) :
    ∀ q ≤ n, √(2 * kineticEnergy (ws 0).bodies (ws q).v) ≤ √(2 * kineticEnergy (ws 0).bodies (ws 0).v) + q * dt * F := by
  intro q
  induction q with
  | zero => intro _; simp
  | succ q ih =>
    intro hq
    obtain ⟨fuel, hs⟩ := h.steps q (by omega)
    obtain ⟨fl, l, pn, a, b, g, hfl, law⟩ := step_law hx (h.invAt q (by omega)) hs
    have hst := (h.plain.at q (by omega)).2.1
    have hl := sameStatics_length hst
    have hpos' : ∀ i < (ws q).bodies.length, 0 < (bodyAt (ws q).bodies i).mass ∧ 0 < (bodyAt (ws q).bodies i).ang_inertia := by
      intro i hi
      have := sameStatics_bodyAt hst i
      simp only [Body.consts, Prod.mk.injEq] at this
      rw [this.1, this.2.1]
      exact hpos i (by omega)
    have hstep := C125_speed_step _ _ _ _ _ _ _ _ _ _ _ hpos' (fun c hc => (he q (by omega) c hc).2) (fun c hc => (he q (by omega) c hc).1) law
    rw [consts_kinetic hst, consts_kinetic hst] at hstep
    have hp : √(pushSq (ws q).bodies (impulse fl dt)) ≤ dt * F := by
      refine Real.sqrt_le_iff.2 ⟨mul_nonneg h.dt hF.1, ?_⟩
      rw [consts_push hst, show impulse fl dt = fun i => dt • fl.getD i 0 from rfl, pushSq_smul, mul_pow]
      rw [hl] at hfl
      exact mul_le_mul_of_nonneg_left (hF.2 _ _ hfl) (sq_nonneg _)
    have := ih (by omega)
    push_cast
    linarith

/-- C125: the joints hold, in terms of the world at the start: for a run of at most `T` units of time, with `E` the kinetic energy at the
start, `F` the greatest force and `m` the least moment of inertia. -/
theorem C125_holds (h : JointRun H lcp mi collide dt n ws) (hx : Exact lcp) (he : Inelastic n ws)
    (hpos : ∀ i < (ws 0).bodies.length, 0 < (bodyAt (ws 0).bodies i).mass ∧ 0 < (bodyAt (ws 0).bodies i).ang_inertia)
    (F : ℝ) (hF : PushAtMost H (ws 0).bodies F) (m : ℝ) (hm : 0 < m) (hmi : ∀ i < (ws 0).bodies.length, m ≤ (bodyAt (ws 0).bodies i).ang_inertia)
    (T : ℝ) (hT : n * dt ≤ T) (k i j : ℕ) (hi : i < (ws 0).bodies.length) (hj : j < (ws 0).bodies.length) (a : V2) :
    let Ω := (√(2 * kineticEnergy (ws 0).bodies (ws 0).v) + T * F) / √m
    (HingedAt (ws 0).joints k i j a →
      parted (ws 0).bodies (ws n).bodies i j a ≤ reach (ws 0).bodies i j a * (Real.exp (Ω ^ 2 * dt * T / 2) - 1)) ∧
    (FixedTo (ws 0).joints k i j → a = (bodyAt (ws 0).bodies i).pos →
      parted (ws 0).bodies (ws n).bodies i j a ≤ reach (ws 0).bodies i j a * (Real.exp (Ω ^ 2 * dt * T / 2) - 1) ∧
      (bodyAt (ws n).bodies i).p.r - (bodyAt (ws n).bodies j).p.r = (bodyAt (ws 0).bodies i).p.r - (bodyAt (ws 0).bodies j).p.r) ∧
    (PinnedAt (ws 0).joints k i a →
      Spec.dist (carried (bodyAt (ws 0).bodies i) (bodyAt (ws n).bodies i) a) a ≤
        Spec.dist a (bodyAt (ws 0).bodies i).pos * (Ω ^ 2 * dt * T / 2)) := by
  intro Ω
  have hv := h.exact hx
  have hΩ : ∀ i < (ws 0).bodies.length, ∀ q < n, |spinOf (ws (q + 1)) i| ≤ Ω := by
    intro i hi q hq
    refine (spin_le hpos _ hi hm (hmi i hi)).trans (div_le_div_of_nonneg_right ?_ (Real.sqrt_nonneg _))
    refine (C125_speed h hx he hpos F hF (q + 1) hq).trans ?_
    have h1 : ((q + 1 : ℕ) : ℝ) * dt ≤ n * dt := mul_le_mul_of_nonneg_right (by exact_mod_cast hq) h.dt
    have := mul_le_mul_of_nonneg_right (h1.trans hT) hF.1
    linarith
  obtain ⟨t0, t1⟩ := h.time
  have hT' : (ws n).t - (ws 0).t ≤ T := t1.trans hT
  have hexp : ∀ R : ℝ, 0 ≤ R → Real.exp (Ω ^ 2 * dt * ((ws n).t - (ws 0).t) / 2) * (R + 2 * 0 * ((ws n).t - (ws 0).t)) - R ≤
      R * (Real.exp (Ω ^ 2 * dt * T / 2) - 1) := by
    intro R hR
    have hle : Real.exp (Ω ^ 2 * dt * ((ws n).t - (ws 0).t) / 2) ≤ Real.exp (Ω ^ 2 * dt * T / 2) := by
      refine Real.exp_le_exp.2 ?_
      have := mul_le_mul_of_nonneg_left hT' (mul_nonneg (sq_nonneg Ω) h.dt)
      linarith
    have := mul_le_mul_of_nonneg_left hle hR
    simp only [mul_zero, zero_mul, add_zero]
    linarith
  have hR : 0 ≤ reach (ws 0).bodies i j a := add_nonneg (len_nonneg _) (len_nonneg _)
  refine ⟨fun hh => ?_, fun hh ha => ⟨?_, ?_⟩, fun hh => ?_⟩
  · exact (C125_hinge_any h.plain k i j hi hj a hh 0 Ω le_rfl hv fun q hq => ⟨hΩ i hi q hq, hΩ j hj q hq⟩).trans (hexp _ hR)
  · subst ha
    exact (C125_weld_any h.plain k i j hi hj hh 0 Ω le_rfl hv fun q hq => ⟨hΩ i hi q hq, hΩ j hj q hq⟩).1.trans (hexp _ hR)
  · have := (C125_weld_any h.plain k i j hi hj hh 0 Ω le_rfl hv fun q hq => ⟨hΩ i hi q hq, hΩ j hj q hq⟩).2
    rw [zero_mul] at this
    exact sub_eq_zero.1 (abs_nonpos_iff.1 this)
  · refine (C125_pin_any h.plain k i hi a hh 0 Ω hv fun q hq => hΩ i hi q hq).trans ?_
    have hl : 0 ≤ Spec.dist a (bodyAt (ws 0).bodies i).pos := len_nonneg _
    have := mul_le_mul_of_nonneg_left hT' (mul_nonneg (mul_nonneg (sq_nonneg Ω) h.dt) hl)
    linarith

end

/-- C125: in the limit of short steps the joints hold: for every tolerance and every span of time there is a step length below which no
run from the given bodies parts the joint by more. -/
theorem C125_limit (H : ForceHeap) (bs : List Body) (js : List Joint) (v0 : Vec)
    (hpos : ∀ i < bs.length, 0 < (bodyAt bs i).mass ∧ 0 < (bodyAt bs i).ang_inertia) (F : ℝ) (hF : PushAtMost H bs F)
    (k i j : ℕ) (hi : i < bs.length) (hj : j < bs.length) (a : V2) (T : ℝ) (η : ℝ) (hη : 0 < η) :
    ∃ δ > 0, ∀ (lcp : LcpSolver) (mi : ℕ) (collide : ℝ → φ → List Body → Except Err (φ × List Contact)) (dt : ℝ) (n : ℕ)
      (ws : ℕ → World (Option Mat) φ), Exact lcp → JointRun H lcp mi collide dt n ws → Inelastic n ws → (ws 0).bodies = bs →
      (ws 0).joints = js → (ws 0).v = v0 → dt ≤ δ → n * dt ≤ T →
        (HingedAt js k i j a → parted bs (ws n).bodies i j a ≤ η) ∧
        (FixedTo js k i j → a = (bodyAt bs i).pos → parted bs (ws n).bodies i j a ≤ η ∧
          (bodyAt (ws n).bodies i).p.r - (bodyAt (ws n).bodies j).p.r = (bodyAt bs i).p.r - (bodyAt bs j).p.r) ∧
        (PinnedAt js k i a → Spec.dist (carried (bodyAt bs i) (bodyAt (ws n).bodies i) a) a ≤ η) := by
  obtain ⟨m, hm, hmi⟩ : ∃ m : ℝ, 0 < m ∧ ∀ i < bs.length, m ≤ (bodyAt bs i).ang_inertia := by
    have hne : (Finset.range bs.length).Nonempty := ⟨i, Finset.mem_range.2 hi⟩
    obtain ⟨b, hb, hle⟩ := Finset.exists_min_image (Finset.range bs.length) (fun i => (bodyAt bs i).ang_inertia) hne
    exact ⟨_, (hpos b (Finset.mem_range.1 hb)).2, fun i hi => hle i (Finset.mem_range.2 hi)⟩
  set Ω := (√(2 * kineticEnergy bs v0) + T * F) / √m with hΩ
  have c1 : ContinuousAt (fun d : ℝ => reach bs i j a * (Real.exp (Ω ^ 2 * d * T / 2) - 1)) 0 := by fun_prop
  have c2 : ContinuousAt (fun d : ℝ => Spec.dist a (bodyAt bs i).pos * (Ω ^ 2 * d * T / 2)) 0 := by fun_prop
  have e1 : ∀ᶠ d in 𝓝 (0 : ℝ), reach bs i j a * (Real.exp (Ω ^ 2 * d * T / 2) - 1) < η :=
    c1.eventually_lt continuousAt_const (by simpa using hη)
  have e2 : ∀ᶠ d in 𝓝 (0 : ℝ), Spec.dist a (bodyAt bs i).pos * (Ω ^ 2 * d * T / 2) < η :=
    c2.eventually_lt continuousAt_const (by simpa using hη)
  obtain ⟨δ, hδ, hall⟩ := Metric.eventually_nhds_iff.1 (e1.and e2)
  refine ⟨δ / 2, by linarith, fun lcp mi collide dt n ws hx h he hb hjs hv0 hd hT => ?_⟩
  have hdt := hall (y := dt) (by rw [Real.dist_0_eq_abs, abs_of_nonneg h.dt]; linarith)
  subst hb hjs hv0
  obtain ⟨r1, r2, r3⟩ := C125_holds h hx he hpos F hF m hm hmi T hT k i j hi hj a
  exact ⟨fun hh => (r1 hh).trans hdt.1.le, fun hh ha => ⟨(r2 hh ha).1.trans hdt.1.le, (r2 hh ha).2⟩, fun hh => (r3 hh).trans hdt.2.le⟩

/-! ## A double pendulum -/

/-- The joints of a double pendulum: body 0 hinged to the world at `a`, body 1 to body 0 at `c`. -/
def hangJoints (b1 b2 : Body) (a c : V2) : List Joint := [mkJoint [b1, b2] 0 none a, mkJoint [b1, b2] 0 (some 1) c]

/-- C125: double pendulums run for as long as one likes. -/
theorem C125_runs (H : ForceHeap) (hH : ∀ t, ∃ fl, forceCat H t 2 = .ok fl) (lcp : LcpSolver) (mi cfuel : ℕ) (nc : ℕ → List ℕ)
    (h0 : 0 ∈ nc 1) (h1 : 1 ∈ nc 0) (pairs : List Body → List (ℕ × ℕ))
    (hpv : ∀ bs, ∀ p ∈ pairs bs, p.1 < bs.length ∧ p.2 < bs.length ∧ p.1 ≠ p.2) (fnd : Finder) (b1 b2 : Body)
    (hb : b1.RectForm ∧ b2.RectForm) (hm1 : 0 < b1.mass ∧ 0 < b1.ang_inertia) (hm2 : 0 < b2.mass ∧ 0 < b2.ang_inertia)
    (a c : V2) (dt eps tol : ℝ) (hdt : 0 ≤ dt) (strict : Bool) :
    ∃ ws : ℕ → World (Option Mat) Finder,
      mkWorld (loneEnv H lcp mi cfuel nc pairs) none fnd [b1, b2] (hangJoints b1 b2 a c) dt eps tol false strict = .done (ws 0) ∧
      (∀ n, JointRun H lcp mi (rejectNan (diffCollide cfuel nc pairs)) dt n ws ∧ Inelastic n ws) ∧
      (∀ n, (ws (n + 1)).t = (ws n).t + dt) ∧ (ws 0).bodies = [b1, b2] ∧ (ws 0).joints = hangJoints b1 b2 a c ∧
      (ws 0).v = cat3 [b1.v, b2.v] ∧ (ws 0).t = 0 ∧ ∀ n, (ws n).contacts = [] := by
  have hbs : ∀ i < 2, bodyAt [b1, b2] i = if i = 0 then b1 else b2 := by
    intro i hi
    rcases (by omega : i = 0 ∨ i = 1) with rfl | rfl <;> rfl
  obtain ⟨ws, q1, q2, q3, q4, q5, q6⟩ := quiet_runs (H := H) (lcp := lcp) (mi := mi) (C12_finder_ok cfuel nc pairs hpv) fnd
    [b1, b2] hH (by simp) (by simpa using hb) (fun eps f bs hl => pair_silent cfuel h0 h1 hpv eps f bs hl)
    (by
      intro i hi
      rw [hbs i (by simpa using hi)]
      split_ifs
      · exact hm1
      · exact hm2) (hangJoints b1 b2 a c)
    (by
      intro j hj
      simp only [hangJoints, List.mem_cons, List.not_mem_nil, or_false] at hj
      rcases hj with rfl | rfl
      · exact (C28_constructors_fix [b1, b2] 0 none 1 a).1
      · exact (C28_constructors_fix [b1, b2] 0 (some 1) 1 c).1)
    (by simp [hangJoints, mkJoint])
    (by simp [hangJoints, mkJoint])
    (by
      intro k hk
      rcases k with _ | _ | k
      · exact ⟨0, Or.inl rfl, fun c _ k' hk' => absurd hk' (by omega)⟩
      · refine ⟨1, Or.inr rfl, fun c hc k' hk' => ?_⟩
        have : k' = 0 := by omega
        subst this
        simp [hangJoints, held, touched, mkJoint, coords] at hc ⊢
        omega
      · simp [hangJoints] at hk) dt eps tol strict
  refine ⟨ws, q1, fun n => ⟨⟨C12_finder_ok cfuel nc pairs hpv, fun q _ => ⟨1, (q6 q).1⟩, (q6 0).2.1.inv, (q6 0).2.1.post, hdt⟩,
    fun q _ c hc => ?_⟩, fun n => (q6 n).2.2, q2, q3, q4, q5, fun n => (q6 n).2.1.clear⟩
  rw [(q6 q).2.1.clear] at hc
  simp at hc

theorem gravities_cat (g : ℝ) (m : ℕ → ℝ) (t : ℝ) :
    forceCat (gravities g m) t 2 = .ok [⟨0, 0, m 0 * g⟩, ⟨0, 0, m 1 * g⟩] := by
  have h : ∀ i, (gravities g m).apply_forces i t = some ⟨0, 0, m i * g⟩ := by
    intro i
    have : (0 : V3) + ⟨0, 0, m i * g⟩ = ⟨0, 0, m i * g⟩ := by apply V3.ext <;> simp
    simp [gravities, ForceHeap.apply_forces, sumForces, Force.set_body, Force.force, this]
  simp [forceCat, h]

/-- The weights of two bodies. -/
theorem gravities_push (g : ℝ) (b1 b2 : Body) (hm1 : 0 < b1.mass) (hm2 : 0 < b2.mass) :
    PushAtMost (gravities g fun i => (bodyAt [b1, b2] i).mass) [b1, b2] (|g| * √(b1.mass + b2.mass)) := by
  refine ⟨by positivity, fun t fl hfl => ?_⟩
  have e := gravities_cat g (fun i => (bodyAt [b1, b2] i).mass) t
  rw [show [b1, b2].length = 2 from rfl, e] at hfl
  injection hfl with hfl
  subst hfl
  rw [mul_pow, sq_abs, Real.sq_sqrt (by linarith)]
  have h0 : bodyAt [b1, b2] 0 = b1 := rfl
  have h1 : bodyAt [b1, b2] 1 = b2 := rfl
  simp only [pushSq, List.length_cons, List.length_nil, Finset.sum_range_succ, Finset.sum_range_zero, h0, h1, List.getD_cons_zero,
    List.getD_cons_succ, zero_add]
  apply le_of_eq
  field_simp
  ring

/-- C125: a double pendulum under gravity, for every tolerance and every span of time: in the library's world with short enough steps both
hinges hold. -/
theorem C125_pendulum (g : ℝ) (lcp : LcpSolver) (hx : Exact lcp) (mi cfuel : ℕ) (nc : ℕ → List ℕ)
    (h0 : 0 ∈ nc 1) (h1 : 1 ∈ nc 0) (pairs : List Body → List (ℕ × ℕ))
    (hpv : ∀ bs, ∀ p ∈ pairs bs, p.1 < bs.length ∧ p.2 < bs.length ∧ p.1 ≠ p.2) (fnd : Finder) (b1 b2 : Body)
    (hb : b1.RectForm ∧ b2.RectForm) (hm1 : 0 < b1.mass ∧ 0 < b1.ang_inertia) (hm2 : 0 < b2.mass ∧ 0 < b2.ang_inertia)
    (a c : V2) (eps tol : ℝ) (strict : Bool) (T η : ℝ) (hη : 0 < η) :
    ∃ δ > 0, ∀ dt, 0 ≤ dt → dt ≤ δ → ∃ ws : ℕ → World (Option Mat) Finder,
      let env := loneEnv (gravities g fun i => (bodyAt [b1, b2] i).mass) lcp mi cfuel nc pairs
      mkWorld env none fnd [b1, b2] (hangJoints b1 b2 a c) dt eps tol false strict = .done (ws 0) ∧
      (∀ n, ∃ fuel, (ws n).step_dt env fuel dt = .done (ws (n + 1))) ∧ (∀ n : ℕ, (ws n).t = n * dt) ∧
      ∀ n : ℕ, n * dt ≤ T →
        Spec.dist (carried b1 (bodyAt (ws n).bodies 0) a) a ≤ η ∧
        Spec.dist (carried b1 (bodyAt (ws n).bodies 0) c) (carried b2 (bodyAt (ws n).bodies 1) c) ≤ η := by
  have hpos : ∀ i < [b1, b2].length, 0 < (bodyAt [b1, b2] i).mass ∧ 0 < (bodyAt [b1, b2] i).ang_inertia := by
    intro i hi
    rcases (by simp at hi; omega : i = 0 ∨ i = 1) with rfl | rfl
    · exact hm1
    · exact hm2
  have hF := gravities_push g b1 b2 hm1.1 hm2.1
  obtain ⟨δ1, p1, l1⟩ := C125_limit (φ := Finder) _ [b1, b2] (hangJoints b1 b2 a c) (cat3 [b1.v, b2.v]) hpos _ hF 0 0 1 (by simp) (by simp) a T η hη
  obtain ⟨δ2, p2, l2⟩ := C125_limit (φ := Finder) _ [b1, b2] (hangJoints b1 b2 a c) (cat3 [b1.v, b2.v]) hpos _ hF 1 0 1 (by simp) (by simp) c T η hη
  refine ⟨min δ1 δ2, lt_min p1 p2, fun dt hdt hd => ?_⟩
  obtain ⟨ws, r1, r2, r3, r4, r5, r6, r7, -⟩ := C125_runs (gravities g fun i => (bodyAt [b1, b2] i).mass)
    (fun t => ⟨_, gravities_cat g _ t⟩) lcp mi cfuel nc h0 h1 pairs hpv fnd b1 b2 hb hm1 hm2 a c dt eps tol hdt strict
  refine ⟨ws, r1, fun n => (r2 (n + 1)).1.steps n (by omega), fun n => ?_, fun n hn => ⟨?_, ?_⟩⟩
  · induction n with
    | zero => simpa using r7
    | succ n ih => rw [r3, ih]; push_cast; ring
  · exact (l1 lcp mi _ dt n ws hx (r2 n).1 (r2 n).2 r4 r5 r6 (hd.trans (min_le_left _ _)) hn).2.2 ⟨_, rfl, rfl, rfl, rfl, rfl⟩
  · exact (l2 lcp mi _ dt n ws hx (r2 n).1 (r2 n).2 r4 r5 r6 (hd.trans (min_le_right _ _)) hn).1 ⟨_, rfl, rfl, rfl, rfl, rfl⟩

/-! ## Examples -/

/-- Example for `C125_pendulum`, and with it for `C125_hinge_any`, `C125_pin_any`, `C125_speed`, `C125_speed_step`, `C125_holds`,
`C125_limit` and `C125_runs`: two circles of the library, thrown, under gravity. -/
example (u1 u2 : V3) (fnd : Finder) (T η : ℝ) (hη : 0 < η) : ∃ δ > 0, ∀ dt, 0 ≤ dt → dt ≤ δ →
    ∃ ws : ℕ → World (Option Mat) Finder, (∀ n : ℕ, (ws n).t = n * dt) ∧ ∀ n : ℕ, n * dt ≤ T →
      Spec.dist (carried { unitCircle 1 0 0 with v := u1 } (bodyAt (ws n).bodies 0) (0, 0)) (0, 0) ≤ η ∧
      Spec.dist (carried { unitCircle 1 0 0 with v := u1 } (bodyAt (ws n).bodies 0) (2, 0))
        (carried { unitCircle 3 0 0 with v := u2 } (bodyAt (ws n).bodies 1) (2, 0)) ≤ η := by
  obtain ⟨δ, hδ, h⟩ := C125_pendulum 10 exactLcp exactLcp_exact 10 5 (fun i => [1 - i]) (by simp) (by simp) (fun _ => [(0, 1)].filter fun _ => false)
    (by simp) fnd { unitCircle 1 0 0 with v := u1 } { unitCircle 3 0 0 with v := u2 } (by simp [Body.RectForm, unitCircle])
    (by simp [unitCircle]) (by simp [unitCircle]) (0, 0) (2, 0) (1 / 10) 0 false T η hη
  refine ⟨δ, hδ, fun dt h1 h2 => ?_⟩
  obtain ⟨ws, -, -, r1, r2⟩ := h dt h1 h2
  exact ⟨ws, r1, r2⟩

/-- Example for `C125_weld_any`: circles fixed to each other and thrown; by C106 they do part, by no more than this. -/
example (u1 u2 : V3) (fnd : Finder) (dt : ℝ) (hdt : 0 ≤ dt) (T : ℝ) : ∃ Ω : ℝ, ∃ ws : ℕ → World (Option Mat) Finder,
    (ws 0).bodies = [{ unitCircle 1 0 0 with v := u1 }, { unitCircle 3 0 0 with v := u2 }] ∧
    (∀ n, Steps (loneEnv noForces exactLcp 10 5 (fun i => [1 - i]) (bouncePairs true)) dt n ws) ∧ ∀ n : ℕ, n * dt ≤ T →
      parted (ws 0).bodies (ws n).bodies 0 1 (1, 0) ≤ 2 * (Real.exp (Ω ^ 2 * dt * T / 2) - 1) ∧
      (bodyAt (ws n).bodies 0).p.r - (bodyAt (ws n).bodies 1).p.r = 0 := by
  obtain ⟨ws, -, r2, -, r4, -⟩ := C106_runs noForces (fun t => ⟨_, noForces_cat t 2⟩) exactLcp 10 5 (fun i => [1 - i]) (by simp) (by simp)
    (bouncePairs true) (bouncePairs_valid true) fnd { unitCircle 1 0 0 with v := u1 } { unitCircle 3 0 0 with v := u2 }
    (by simp [Body.RectForm, unitCircle]) (by simp [unitCircle]) (by simp [unitCircle]) dt (1 / 10) 0 false
  refine ⟨(√(2 * kineticEnergy (ws 0).bodies (ws 0).v) + T * 0) / √1, ws, r4, fun n => (r2 n).steps, fun n hn => ?_⟩
  have hrun : JointRun noForces exactLcp 10 (rejectNan (diffCollide 5 (fun i => [1 - i]) (bouncePairs true))) dt n ws :=
    ⟨(r2 n).finder, (r2 n).steps, (r2 n).inv, (r2 n).post, hdt⟩
  have hb0 : bodyAt (ws 0).bodies 0 = { unitCircle 1 0 0 with v := u1 } := by rw [r4]; rfl
  have hb1 : bodyAt (ws 0).bodies 1 = { unitCircle 3 0 0 with v := u2 } := by rw [r4]; rfl
  have hlen : (ws 0).bodies.length = 2 := by rw [r4]; rfl
  have hall : ∀ i < (ws 0).bodies.length, 0 < (bodyAt (ws 0).bodies i).mass ∧ 0 < (bodyAt (ws 0).bodies i).ang_inertia ∧
      1 ≤ (bodyAt (ws 0).bodies i).ang_inertia := by
    intro i hi
    rcases (by omega : i = 0 ∨ i = 1) with rfl | rfl
    · rw [hb0]; simp [unitCircle]
    · rw [hb1]; simp [unitCircle]
  have hF : PushAtMost noForces (ws 0).bodies 0 := by
    refine ⟨le_rfl, fun t fl hfl => ?_⟩
    rw [noForces_cat] at hfl
    injection hfl with hfl
    subst hfl
    simp [pushSq, hlen, Finset.sum_range_succ]
  obtain ⟨⟨J, w1, w2, w3, w4⟩, -⟩ := (r2 n).welded
  have key := (C125_holds hrun exactLcp_exact (fun q hq c hc => by
    obtain ⟨⟨a1, a2⟩, a3, a4⟩ := (r2 n).clear q hq c hc
    have hok := (hrun.invAt q hq.le).contacts c hc
    have hl := sameStatics_length (hrun.plain.at q hq.le).2.1
    have := hok.1
    omega) (fun i hi => ⟨(hall i hi).1, (hall i hi).2.1⟩) 0 hF 1 one_pos (fun i hi => (hall i hi).2.2) T hn 0 0 1
    (by rw [hlen]; norm_num) (by rw [hlen]; norm_num) (1, 0)).2.1 ⟨J, w1, w2, w3, w4⟩ (by rw [hb0]; simp [unitCircle, Body.pos, V3.xy])
  refine ⟨key.1.trans (le_of_eq ?_), ?_⟩
  · congr 1
    unfold reach
    rw [hb0, hb1]
    simp [Spec.dist, len, unitCircle, Body.pos, V3.xy]
    norm_num
    rw [show (4 : ℝ) = 2 ^ 2 by norm_num]
    exact Real.sqrt_sq (by norm_num)
  · rw [key.2, hb0, hb1]
    simp [unitCircle]

/-- Example for `C125_library`: the pendulum with the library's own solver, the residual of a step without contacts being 0. -/
example (u1 u2 : V3) (fnd : Finder) (eps : ℝ) (lim : ℕ) (dt : ℝ) (hdt : 0 ≤ dt) : ∃ ws : ℕ → World (Option Mat) Finder,
    (ws 0).v = cat3 [u1, u2] ∧ ∀ n, JointRun (gravities 10 fun _ => 1) (libraryLcp someBtrifact eps lim) 10
      (rejectNan (diffCollide 5 (fun i => [1 - i]) (bouncePairs true))) dt n ws ∧ JointsHold 0 n ws := by
  obtain ⟨ws, -, r2, -, -, -, r6, -, r8⟩ := C125_runs (gravities 10 fun _ => 1)
    (fun t => ⟨_, gravities_cat 10 _ t⟩) (libraryLcp someBtrifact eps lim) 10 5 (fun i => [1 - i]) (by simp) (by simp) (bouncePairs true)
    (bouncePairs_valid true) fnd { unitCircle 1 0 0 with v := u1 } { unitCircle 3 0 0 with v := u2 }
    (by simp [Body.RectForm, unitCircle]) (by simp [unitCircle]) (by simp [unitCircle]) (0, 0) (2, 0) dt (1 / 10) 0 hdt false
  refine ⟨ws, r6, fun n => ⟨(r2 n).1, C125_library (r2 n).1 0 fun q hq => ?_⟩⟩
  unfold engineResid
  simp only [r8 q, if_true]
  split <;> rfl

end LcpPhysics
