import Verif.Props.Shortened
import Verif.Props.Joints
import Verif.Props.Inference
import Verif.Props.Tower
import Verif.Spec.Pivot
import Verif.Lemmas.Pivot

/-!
# C105: a body on a pivot slows down without friction and comes off its pivot

`Joint` with one body (constraints.py:13-54) constrains velocities only; the engine projects the velocity of the last
step, which was that of a rotation about the pivot as it was seen then.
-/

noncomputable section

namespace LcpPhysics
open Spec Filter Topology

variable {φ : Type}

/-! ## One step of the engine -/

theorem pivot_law {bs : List Body} {js : List Joint} {cs : List Contact} {f : ℕ → V3} {v v' l : Vec} {pn pt : ℕ → ℝ}
    (hdyn : ∀ u : Vec, momentumPower bs u v' = momentumPower bs u v + forcePower bs.length f u + jointPower js l u +
      contactPower cs pn pt u) (hjnt : ∀ r ∈ jointVels js v', r = 0) (i k : ℕ) (hi : i < bs.length) (hp : PinnedBy js i k)
    (hc : ∀ c ∈ cs, c.i1 ≠ i ∧ c.i2 ≠ i) {A : V2} (hA : ∀ j, js[k]? = some j → j.pos1 = A)
    (hm : 0 < (bodyAt bs i).mass ∧ 0 < (bodyAt bs i).ang_inertia) :
    twist v' i = turnAbout A (((bodyAt bs i).ang_inertia * (twist v i).r +
      (bodyAt bs i).mass * (A.2 * (twist v i).x - A.1 * (twist v i).y) + ((f i).r + A.2 * (f i).x - A.1 * (f i).y)) /
        ((bodyAt bs i).ang_inertia + (bodyAt bs i).mass * (A.1 ^ 2 + A.2 ^ 2))) := by
  obtain ⟨hm, hI⟩ := hm
  obtain ⟨⟨j, hj, hkind, hi1, hi2⟩, hoth⟩ := hp
  have hjA := hA j hj
  -- the velocity after the step is that of a rotation about the pivot
  have hv : pointVel (twist v' i) A = 0 := by
    have hmem : j ∈ js := List.mem_of_getElem? hj
    have h1 : ∀ r ∈ jointVel j v', r = 0 := fun r hr => hjnt r (List.mem_flatMap.2 ⟨j, hmem, hr⟩)
    simp only [jointVel, hkind, hi1, hi2, hjA, List.mem_cons, List.not_mem_nil, or_false, forall_eq_or_imp, forall_eq] at h1
    have e0 : pointVel (0 : V3) j.pos2 = 0 := by ext <;> simp [pointVel]
    rw [e0, sub_zero] at h1
    exact Prod.ext h1.1 h1.2
  set x : Vec := fun q => if q = 3 * i then 1 else if q = 3 * i + 1 then A.2 else if q = 3 * i + 2 then -A.1 else 0 with hx
  have hd := hdyn (onlyOn (· = i) x)
  have tw : twist x i = ⟨1, A.2, -A.1⟩ := by
    simp [twist, hx]
  have hj0 : jointPower js l (onlyOn (· = i) x) = 0 := by
    apply jointPower_zero
    intro y hy
    obtain ⟨j', hjm, hy⟩ := List.mem_flatMap.1 hy
    obtain ⟨q, hq, rfl⟩ := List.getElem_of_mem hjm
    have hq' : js[q]? = some js[q] := List.getElem?_eq_getElem hq
    by_cases hqk : q = k
    · have e : js[q] = j := by
        subst hqk
        rw [hj] at hq'
        exact (Option.some.inj hq').symm
      rw [e] at hy
      have e0 : pointVel (0 : V3) j.pos2 = 0 := by ext <;> simp [pointVel]
      simp only [jointVel, hkind, hi1, hi2, hjA, twist_onlyOn, if_true, tw, pointVel] at hy
      simp at hy
      exact hy
    · obtain ⟨h1, h2⟩ := hoth q _ hq' hqk
      refine jointVel_out (S := (· = i)) ?_ x y hy
      simp only [holds, decide_eq_true_eq, not_or, not_exists, not_and]
      exact ⟨h1, fun k' hk' hki => h2 (hki ▸ hk')⟩
  have hs : (Finset.range bs.length).filter (· = i) = {i} := by
    ext q
    simp only [Finset.mem_filter, Finset.mem_range, Finset.mem_singleton]
    constructor
    · exact fun h => h.2
    · rintro rfl; exact ⟨hi, rfl⟩
  have hc0 : ∀ pt, contactPower cs pn pt (onlyOn (· = i) x) = 0 := by
    intro pt
    unfold contactPower
    refine Finset.sum_eq_zero fun q hq => ?_
    have hq := Finset.mem_range.1 hq
    rw [List.getElem?_eq_getElem hq]
    have := hc cs[q] (List.getElem_mem hq)
    have ht : ¬ touches (· = i) cs[q] = true := by simpa [touches] using this
    simp [normalVel, slipVel, contactVel_out ht, Spec.inner]
  rw [hj0, hc0, momentumPower_onlyOn, momentumPower_onlyOn, forcePower_onlyOn, hs] at hd
  simp only [Finset.sum_singleton, tw, add_zero] at hd
  have hv1 : (twist v' i).x = (twist v' i).r * A.2 := by
    have := congrArg Prod.fst hv
    simp [pointVel] at this
    linarith
  have hv2 : (twist v' i).y = -((twist v' i).r * A.1) := by
    have := congrArg Prod.snd hv
    simp [pointVel] at this
    linarith
  have hden : 0 < (bodyAt bs i).ang_inertia + (bodyAt bs i).mass * (A.1 ^ 2 + A.2 ^ 2) := by positivity
  have hr : (twist v' i).r = ((bodyAt bs i).ang_inertia * (twist v i).r +
      (bodyAt bs i).mass * (A.2 * (twist v i).x - A.1 * (twist v i).y) + ((f i).r + A.2 * (f i).x - A.1 * (f i).y)) /
        ((bodyAt bs i).ang_inertia + (bodyAt bs i).mass * (A.1 ^ 2 + A.2 ^ 2)) := by
    rw [eq_div_iff hden.ne']
    rw [hv1, hv2] at hd
    linarith
  rw [← hr]
  exact V3.ext rfl hv1 hv2

theorem pinned_wiring {js js' : List Joint} (h : js'.map Joint.wiring = js.map Joint.wiring) {i k : ℕ} (hp : PinnedBy js i k) :
    PinnedBy js' i k := by
  have key : ∀ (q : ℕ) (j' : Joint), js'[q]? = some j' → ∃ j : Joint, js[q]? = some j ∧ j.wiring = j'.wiring := by
    intro q j' hq
    have := congrArg (fun l => l[q]?) h
    simp only [List.getElem?_map, hq, Option.map_some] at this
    cases hj : js[q]? with
    | none => rw [hj] at this; simp at this
    | some j => rw [hj] at this; simp at this; exact ⟨j, rfl, this.symm⟩
  have key' : ∀ (q : ℕ) (j : Joint), js[q]? = some j → ∃ j' : Joint, js'[q]? = some j' ∧ j.wiring = j'.wiring := by
    intro q j hq
    have := congrArg (fun l => l[q]?) h
    simp only [List.getElem?_map, hq, Option.map_some] at this
    cases hj : js'[q]? with
    | none => rw [hj] at this; simp at this
    | some j => rw [hj] at this; simp at this; exact ⟨j, rfl, this.symm⟩
  obtain ⟨⟨j, hj, h1, h2, h3⟩, ho⟩ := hp
  refine ⟨?_, ?_⟩
  · obtain ⟨j', hj', hw⟩ := key' k j hj
    simp only [Joint.wiring, Prod.mk.injEq] at hw
    exact ⟨j', hj', by rw [← hw.1]; exact h1, by rw [← hw.2.1]; exact h2, by rw [← hw.2.2]; exact h3⟩
  · intro q j' hq hne
    obtain ⟨j, hj, hw⟩ := key q j' hq
    simp only [Joint.wiring, Prod.mk.injEq] at hw
    have := ho q j hj hne
    rw [hw.2.1, hw.2.2] at this
    exact this

theorem arm_pos1 {w : World (Option Mat) φ} (hg : w.Good) {i k : ℕ} (hp : PinnedBy w.joints i k) :
    ∀ j, w.joints[k]? = some j → j.pos1 = armOf w i k := by
  intro j hj
  obtain ⟨⟨j0, hj0, h1, h2, h3⟩, -⟩ := hp
  rw [hj] at hj0
  have := Option.some.inj hj0
  subst this
  have hf := hg.fix j (List.mem_of_getElem? hj)
  have hpos : j.pos = (bodyAt w.bodies j.i1).pos + j.pos1 := by
    rw [← hf]
    simp [Joint.update_pos, h1]
  unfold armOf pivotAt
  rw [hj]
  simp only
  rw [hpos, h2]
  abel

/-- C105: the step of a body on a pivot. With the arm `A` from the centre to the pivot, the body turns about the pivot
afterwards with the angular velocity `ω'` that conserves the angular momentum about the pivot, apart from the moment of the
force; the arm turns by `ω' d`, and the pivot moves from where it was. -/
theorem C105_step (H : ForceHeap) (lcp : LcpSolver) (hx : Exact lcp) (mi : ℕ)
    (collide : ℝ → φ → List Body → Except Err (φ × List Contact)) (w w' : World (Option Mat) φ) (hw : EngineInv w)
    (hp : w.post_stab = false) (fuel : ℕ) (dt : ℝ) (h : w.step_dt (pdipmEnv 2 H lcp mi collide) fuel dt = .done w')
    (i k : ℕ) (hi : i < w.bodies.length) (hpin : PinnedBy w.joints i k) (hc : ∀ c ∈ w.contacts, c.i1 ≠ i ∧ c.i2 ≠ i)
    (hm : 0 < (bodyAt w.bodies i).mass ∧ 0 < (bodyAt w.bodies i).ang_inertia) :
    ∃ (fl : List V3) (q : ℕ) (ω' : ℝ), forceCat H w.t w.bodies.length = .ok fl ∧ w'.t = w.t + dt / 2 ^ q ∧
      ((bodyAt w.bodies i).ang_inertia + (bodyAt w.bodies i).mass * ((armOf w i k).1 ^ 2 + (armOf w i k).2 ^ 2)) * ω' =
        (bodyAt w.bodies i).ang_inertia * (twist w.v i).r +
        (bodyAt w.bodies i).mass * ((armOf w i k).2 * (twist w.v i).x - (armOf w i k).1 * (twist w.v i).y) +
        dt * ((fl.getD i 0).r + (armOf w i k).2 * (fl.getD i 0).x - (armOf w i k).1 * (fl.getD i 0).y) ∧
      twist w'.v i = turnAbout (armOf w i k) ω' ∧
      armOf w' i k = rot (ω' * (w'.t - w.t)) (armOf w i k) ∧
      pivotAt w' k - pivotAt w k = rot (ω' * (w'.t - w.t)) (armOf w i k) - armOf w i k +
        (ω' * (w'.t - w.t)) • ((armOf w i k).2, -(armOf w i k).1) ∧
      PinnedBy w'.joints i k := by
  have hst := step_dt_statics hw.good h
  have hreach : Reaches (pdipmEnv 2 H lcp mi collide) w w' := Relation.ReflTransGen.single ⟨fuel, dt, h⟩
  have hpin' := pinned_wiring hst.2 hpin
  obtain ⟨e, v, q, w1, w2, hsol, -, rfl, -, ⟨fk, f', cs, -, -, rfl⟩, -, hend⟩ := step_dt_done hw.good h
  obtain ⟨fl, l, pn, a, b, gs, hfl, law⟩ :=
    C38_engine_contact_law H lcp mi w dt e v hw.joints hw.contacts hw.cache.ok hx hsol
  have hv := pivot_law law.dynamics law.joints i k hi hpin hc (arm_pos1 hw.good hpin) hm
  set A := armOf w i k with hA
  set ω' := ((bodyAt w.bodies i).ang_inertia * (twist w.v i).r +
      (bodyAt w.bodies i).mass * (A.2 * (twist w.v i).x - A.1 * (twist w.v i).y) +
      ((impulse fl dt i).r + A.2 * (impulse fl dt i).x - A.1 * (impulse fl dt i).y)) /
        ((bodyAt w.bodies i).ang_inertia + (bodyAt w.bodies i).mass * (A.1 ^ 2 + A.2 ^ 2)) with hω
  rcases hend with ⟨-, hw'⟩ | ⟨hp', -⟩
  swap
  · rw [hp] at hp'; cases hp'
  have ht : w'.t = w.t + dt / 2 ^ q := by rw [hw']
  have hv' : twist w'.v i = turnAbout A ω' := by rw [hw']; exact hv
  have hbp : (bodyAt w'.bodies i).p = (bodyAt w.bodies i).p + (dt / 2 ^ q) • turnAbout A ω' := by
    rw [hw', ← hv]
    show (bodyAt (((({ w with eng := e } : World (Option Mat) φ).set_v v).bodies).map fun b => b.move (dt / 2 ^ q)) i).p =
      (bodyAt w.bodies i).p + (dt / 2 ^ q) • twist v i
    rw [bodyAt_map _ _ _ (by rw [set_v_length]; exact hi), move_p,
      set_v_at ({ w with eng := e } : World (Option Mat) φ) v i hi]
  have hden : 0 < (bodyAt w.bodies i).ang_inertia + (bodyAt w.bodies i).mass * (A.1 ^ 2 + A.2 ^ 2) := by
    obtain ⟨h1, h2⟩ := hm
    positivity
  have hd : w'.t - w.t = dt / 2 ^ q := by rw [ht]; ring
  obtain ⟨⟨j, hj, hkind, hi1, hi2⟩, -⟩ := hpin
  obtain ⟨hklt, rfl⟩ := List.getElem?_eq_some_iff.1 hj
  obtain ⟨hk', h1, -⟩ := C28_anchor_rigid _ w w' hw.good hreach k hklt hkind
  simp only [hi1] at h1
  have hA' : w'.joints[k].pos - (bodyAt w'.bodies i).pos = armOf w' i k := by
    unfold armOf pivotAt
    rw [List.getElem?_eq_getElem hk']
  have hA0 : w.joints[k].pos - (bodyAt w.bodies i).pos = A := by
    rw [hA]; unfold armOf pivotAt
    rw [List.getElem?_eq_getElem hklt]
  rw [hA', hA0] at h1
  have hang : (bodyAt w'.bodies i).p.r - (bodyAt w.bodies i).p.r = ω' * (w'.t - w.t) := by
    rw [hbp, hd]; simp [turnAbout]; ring
  rw [hang] at h1
  refine ⟨fl, q, ω', hfl, ht, ?_, hv', h1, ?_, hpin'⟩
  · rw [hω, mul_div_cancel₀ _ hden.ne']
    simp only [impulse]
    simp only [V3.smul_r, V3.smul_x, V3.smul_y]
    ring
  · have hpv : pivotAt w' k = armOf w' i k + (bodyAt w'.bodies i).pos := by unfold armOf; abel
    have hpv0 : pivotAt w k = A + (bodyAt w.bodies i).pos := by rw [hA]; unfold armOf; abel
    have hpos : (bodyAt w'.bodies i).pos = (bodyAt w.bodies i).pos + (ω' * (w'.t - w.t)) • (A.2, -A.1) := by
      unfold Body.pos
      rw [hbp, hd]
      ext
      · simp [turnAbout, V3.xy]; ring
      · simp [turnAbout, V3.xy]; ring
    rw [hpv, hpv0, hpos, h1]
    abel

/-! ## Many steps without forces -/

/-- No force acts on body `i`. -/
def ForceFree (H : ForceHeap) (n i : ℕ) : Prop := ∀ t fl, forceCat H t n = .ok fl → fl.getD i 0 = 0

/-- The angular velocity of body `i`. -/
def spinOf {σ : Type} (w : World σ φ) (i : ℕ) : ℝ := (twist w.v i).r

theorem rot_length (θ : ℝ) (a : V2) : (rot θ a).1 ^ 2 + (rot θ a).2 ^ 2 = a.1 ^ 2 + a.2 ^ 2 := by
  simp only [rot]
  have := Real.sin_sq_add_cos_sq θ
  linear_combination (a.1 ^ 2 + a.2 ^ 2) * this

theorem squares_zero {x y : ℝ} : x ^ 2 + y ^ 2 = 0 ↔ x = 0 ∧ y = 0 := by
  constructor
  · intro h
    have h1 : x ^ 2 = 0 := le_antisymm (by linarith [sq_nonneg y]) (sq_nonneg x)
    have h2 : y ^ 2 = 0 := le_antisymm (by linarith [sq_nonneg x]) (sq_nonneg y)
    exact ⟨pow_eq_zero_iff (by norm_num) |>.1 h1, pow_eq_zero_iff (by norm_num) |>.1 h2⟩
  · rintro ⟨rfl, rfl⟩; norm_num

/-- A run of a body on a pivot. -/
structure PivotRun (H : ForceHeap) (lcp : LcpSolver) (mi : ℕ) (collide : ℝ → φ → List Body → Except Err (φ × List Contact))
    (dt : ℝ) (n : ℕ) (ws : ℕ → World (Option Mat) φ) (i k : ℕ) : Prop where
  finder : FinderOk collide
  steps : Steps (pdipmEnv 2 H lcp mi collide) dt n ws
  inv : EngineInv (ws 0)
  post : (ws 0).post_stab = false
  body : i < (ws 0).bodies.length
  pinned : PinnedBy (ws 0).joints i k
  clear : ∀ q < n, ∀ c ∈ (ws q).contacts, c.i1 ≠ i ∧ c.i2 ≠ i
  heavy : 0 < (bodyAt (ws 0).bodies i).mass ∧ 0 < (bodyAt (ws 0).bodies i).ang_inertia

theorem PivotRun.at {H : ForceHeap} {lcp : LcpSolver} {mi : ℕ} {collide : ℝ → φ → List Body → Except Err (φ × List Contact)}
    {dt : ℝ} {n : ℕ} {ws : ℕ → World (Option Mat) φ} {i k : ℕ} (h : PivotRun H lcp mi collide dt n ws i k) (hx : Exact lcp) :
    ∀ q ≤ n, EngineInv (ws q) ∧ (ws q).post_stab = false ∧ (ws q).bodies.length = (ws 0).bodies.length ∧
      PinnedBy (ws q).joints i k ∧ (bodyAt (ws q).bodies i).mass = (bodyAt (ws 0).bodies i).mass ∧
      (bodyAt (ws q).bodies i).ang_inertia = (bodyAt (ws 0).bodies i).ang_inertia ∧
      (armOf (ws q) i k).1 ^ 2 + (armOf (ws q) i k).2 ^ 2 = (armOf (ws 0) i k).1 ^ 2 + (armOf (ws 0) i k).2 ^ 2 := by
  intro q
  induction q with
  | zero => intro _; exact ⟨h.inv, h.post, rfl, h.pinned, rfl, rfl, rfl⟩
  | succ q ih =>
    intro hq
    obtain ⟨i1, i2, i3, i4, i5, i6, i7⟩ := ih (by omega)
    obtain ⟨fuel, hs⟩ := h.steps q (by omega)
    have hpar := step_dt_params i1.good hs
    have hcon := posed_consts (posed_step i1.good hs) (i := i) (by rw [i3]; exact h.body)
    obtain ⟨fl, e, ω', -, -, -, -, harm, -, hpin⟩ := C105_step H lcp hx mi collide _ _ i1 i2 fuel dt hs i k
      (by rw [i3]; exact h.body) i4 (h.clear q (by omega)) (by rw [i5, i6]; exact h.heavy)
    refine ⟨step_inv h.finder i1 hs, by rw [hpar.2.2.2.1]; exact i2, by rw [hpar.2.2.2.2.2.1]; exact i3, hpin,
      hcon.1.trans i5, hcon.2.trans i6, ?_⟩
    rw [harm, rot_length, i7]

/-- C105: without forces the angular velocity is multiplied in every step by `1 - κ (1 - cos δ)`, where `δ` is the angle of
the step before and `κ` the share of the mass away from the pivot in the moment of inertia. -/
theorem C105_slows (H : ForceHeap) (lcp : LcpSolver) (hx : Exact lcp) (mi : ℕ)
    (collide : ℝ → φ → List Body → Except Err (φ × List Contact)) (dt : ℝ) (n : ℕ) (ws : ℕ → World (Option Mat) φ) (i k : ℕ)
    (h : PivotRun H lcp mi collide dt n ws i k) (hff : ForceFree H (ws 0).bodies.length i) :
    (∀ q < n, twist (ws (q + 1)).v i = turnAbout (armOf (ws q) i k) (spinOf (ws (q + 1)) i)) ∧
    (∀ q, q + 1 < n → spinOf (ws (q + 2)) i = spinOf (ws (q + 1)) i *
      (1 - pivotShare (bodyAt (ws 0).bodies i).mass (bodyAt (ws 0).bodies i).ang_inertia (armOf (ws 0) i k) *
        (1 - Real.cos (spinOf (ws (q + 1)) i * ((ws (q + 1)).t - (ws q).t))))) ∧
    (0 < n → twist (ws 0).v i = turnAbout (armOf (ws 0) i k) (spinOf (ws 0) i) → spinOf (ws 1) i = spinOf (ws 0) i) := by
  have hat := h.at hx
  have hone : ∀ q < n, ∃ ω' : ℝ,
      ((bodyAt (ws 0).bodies i).ang_inertia + (bodyAt (ws 0).bodies i).mass *
        ((armOf (ws 0) i k).1 ^ 2 + (armOf (ws 0) i k).2 ^ 2)) * ω' =
        (bodyAt (ws 0).bodies i).ang_inertia * (twist (ws q).v i).r +
        (bodyAt (ws 0).bodies i).mass * ((armOf (ws q) i k).2 * (twist (ws q).v i).x - (armOf (ws q) i k).1 * (twist (ws q).v i).y) ∧
      twist (ws (q + 1)).v i = turnAbout (armOf (ws q) i k) ω' ∧
      armOf (ws (q + 1)) i k = rot (ω' * ((ws (q + 1)).t - (ws q).t)) (armOf (ws q) i k) := by
    intro q hq
    obtain ⟨i1, i2, i3, i4, i5, i6, i7⟩ := hat q hq.le
    obtain ⟨fuel, hs⟩ := h.steps q hq
    obtain ⟨fl, e, ω', hfl, -, hω, hv, harm, -, -⟩ := C105_step H lcp hx mi collide _ _ i1 i2 fuel dt hs i k
      (by rw [i3]; exact h.body) i4 (h.clear q hq) (by rw [i5, i6]; exact h.heavy)
    rw [i3] at hfl
    rw [hff _ _ hfl, i5, i6, i7] at hω
    refine ⟨ω', ?_, hv, harm⟩
    rw [hω]; simp
  have hden : 0 < (bodyAt (ws 0).bodies i).ang_inertia + (bodyAt (ws 0).bodies i).mass *
      ((armOf (ws 0) i k).1 ^ 2 + (armOf (ws 0) i k).2 ^ 2) := by
    obtain ⟨h1, h2⟩ := h.heavy
    positivity
  have hfirst : ∀ q < n, twist (ws (q + 1)).v i = turnAbout (armOf (ws q) i k) (spinOf (ws (q + 1)) i) := by
    intro q hq
    obtain ⟨ω', -, hv, -⟩ := hone q hq
    have : spinOf (ws (q + 1)) i = ω' := by unfold spinOf; rw [hv]; rfl
    rw [this]; exact hv
  refine ⟨hfirst, fun q hq => ?_, fun hn h0 => ?_⟩
  · obtain ⟨ω', -, hv, harm⟩ := hone q (by omega)
    obtain ⟨ω'', hω, hv', -⟩ := hone (q + 1) hq
    obtain ⟨-, -, -, -, -, -, i7⟩ := hat q (by omega)
    have e1 : spinOf (ws (q + 1)) i = ω' := by unfold spinOf; rw [hv]; rfl
    have e2 : spinOf (ws (q + 2)) i = ω'' := by unfold spinOf; rw [hv']; rfl
    rw [e1, e2]
    rw [hv, harm] at hω
    set δ := ω' * ((ws (q + 1)).t - (ws q).t)
    set A := armOf (ws q) i k
    simp only [turnAbout, rot] at hω
    unfold pivotShare
    rw [← i7] at hω hden ⊢
    apply mul_left_cancel₀ hden.ne'
    rw [hω]
    field_simp
    ring
  · obtain ⟨ω', hω, hv, -⟩ := hone 0 hn
    have e1 : spinOf (ws 1) i = ω' := by unfold spinOf; rw [hv]; rfl
    rw [e1]
    apply mul_left_cancel₀ hden.ne'
    rw [hω, h0]
    simp only [turnAbout]
    ring

/-- C105: the point that should stay moves in every step that turns the body. -/
theorem C105_drifts (H : ForceHeap) (lcp : LcpSolver) (hx : Exact lcp) (mi : ℕ)
    (collide : ℝ → φ → List Body → Except Err (φ × List Contact)) (dt : ℝ) (n : ℕ) (ws : ℕ → World (Option Mat) φ) (i k : ℕ)
    (h : PivotRun H lcp mi collide dt n ws i k) (q : ℕ) (hq : q < n) :
    let δ := spinOf (ws (q + 1)) i * ((ws (q + 1)).t - (ws q).t)
    let Δ := pivotAt (ws (q + 1)) k - pivotAt (ws q) k
    Δ.1 ^ 2 + Δ.2 ^ 2 = ((armOf (ws 0) i k).1 ^ 2 + (armOf (ws 0) i k).2 ^ 2) * ((1 - Real.cos δ) ^ 2 + (δ - Real.sin δ) ^ 2) ∧
    (pivotAt (ws (q + 1)) k = pivotAt (ws q) k ↔ armOf (ws 0) i k = 0 ∨ δ = 0) := by
  intro δ Δ
  obtain ⟨i1, i2, i3, i4, i5, i6, i7⟩ := h.at hx q hq.le
  obtain ⟨fuel, hs⟩ := h.steps q hq
  obtain ⟨fl, e, ω', hfl, -, hω, hv, harm, hpiv, -⟩ := C105_step H lcp hx mi collide _ _ i1 i2 fuel dt hs i k
    (by rw [i3]; exact h.body) i4 (h.clear q hq) (by rw [i5, i6]; exact h.heavy)
  have e1 : spinOf (ws (q + 1)) i = ω' := by unfold spinOf; rw [hv]; rfl
  have hδ : ω' * ((ws (q + 1)).t - (ws q).t) = δ := by rw [← e1]
  rw [hδ] at hpiv
  have main : Δ.1 ^ 2 + Δ.2 ^ 2 =
      ((armOf (ws 0) i k).1 ^ 2 + (armOf (ws 0) i k).2 ^ 2) * ((1 - Real.cos δ) ^ 2 + (δ - Real.sin δ) ^ 2) := by
    have : Δ = _ := hpiv
    rw [this, ← i7]
    simp only [rot, Prod.fst_add, Prod.snd_add, Prod.fst_sub, Prod.snd_sub, Prod.smul_fst, Prod.smul_snd, smul_eq_mul]
    ring
  refine ⟨main, ?_⟩
  have hΔ : pivotAt (ws (q + 1)) k = pivotAt (ws q) k ↔ Δ.1 ^ 2 + Δ.2 ^ 2 = 0 := by
    rw [← sub_eq_zero]
    change Δ = 0 ↔ _
    constructor
    · intro h; rw [h]; simp
    · intro h
      exact Prod.ext (squares_zero.1 h).1 (squares_zero.1 h).2
  rw [hΔ, main, mul_eq_zero]
  constructor
  · rintro (h | h)
    · left
      exact Prod.ext (squares_zero.1 h).1 (squares_zero.1 h).2
    · right
      have h2 := (squares_zero.1 h).2
      by_contra hne
      have := Real.abs_sin_lt_abs hne
      rw [← (by linarith : δ = Real.sin δ)] at this
      exact lt_irrefl _ this
  · rintro (h | h)
    · left; rw [h]; simp
    · right; rw [h]; simp

theorem pivotShare_bounds {m I : ℝ} (hm : 0 < m) (hI : 0 < I) {a : V2} (ha : a ≠ 0) :
    0 < pivotShare m I a ∧ pivotShare m I a < 1 := by
  have : 0 < a.1 ^ 2 + a.2 ^ 2 := by
    refine lt_of_le_of_ne (by positivity) fun h => ha ?_
    exact Prod.ext (squares_zero.1 h.symm).1 (squares_zero.1 h.symm).2
  unfold pivotShare
  refine ⟨by positivity, ?_⟩
  rw [div_lt_one (by positivity)]
  linarith

/-- C105: the rotation never gets faster, and it gets slower in every step but those after a standstill or whole turns. -/
theorem C105_brakes (H : ForceHeap) (lcp : LcpSolver) (hx : Exact lcp) (mi : ℕ)
    (collide : ℝ → φ → List Body → Except Err (φ × List Contact)) (dt : ℝ) (n : ℕ) (ws : ℕ → World (Option Mat) φ) (i k : ℕ)
    (h : PivotRun H lcp mi collide dt n ws i k) (hff : ForceFree H (ws 0).bodies.length i) (ha : armOf (ws 0) i k ≠ 0)
    (q : ℕ) (hq : q + 1 < n) :
    |spinOf (ws (q + 2)) i| ≤ |spinOf (ws (q + 1)) i| ∧
    (|spinOf (ws (q + 2)) i| = |spinOf (ws (q + 1)) i| ↔
      Real.cos (spinOf (ws (q + 1)) i * ((ws (q + 1)).t - (ws q).t)) = 1) := by
  obtain ⟨k0, k1⟩ := pivotShare_bounds h.heavy.1 h.heavy.2 ha
  rw [(C105_slows H lcp hx mi collide dt n ws i k h hff).2.1 q hq, abs_mul]
  set κ := pivotShare (bodyAt (ws 0).bodies i).mass (bodyAt (ws 0).bodies i).ang_inertia (armOf (ws 0) i k)
  set ω := spinOf (ws (q + 1)) i
  set d := (ws (q + 1)).t - (ws q).t
  change |ω| * |spinFactor κ (ω * d)| ≤ _ ∧ (|ω| * |spinFactor κ (ω * d)| = _ ↔ _)
  refine ⟨mul_le_of_le_one_right (abs_nonneg _) (spinFactor_abs k0.le k1), ?_⟩
  rw [← spinFactor_one k0 k1]
  constructor
  · intro he
    by_cases hω : ω = 0
    · rw [hω, zero_mul]; simp [spinFactor]
    · exact mul_left_cancel₀ (abs_ne_zero.2 hω) (by rw [he, mul_one])
  · intro he; rw [he, mul_one]

/-- C105: after `n` steps of full length the angle turned per step is at most `π / (2 √(κ n))`. -/
theorem C105_rate (H : ForceHeap) (lcp : LcpSolver) (hx : Exact lcp) (mi : ℕ)
    (collide : ℝ → φ → List Body → Except Err (φ × List Contact)) (dt : ℝ) (hdt : 0 < dt) (n : ℕ)
    (ws : ℕ → World (Option Mat) φ) (i k : ℕ)
    (h : PivotRun H lcp mi collide dt (n + 1) ws i k) (hff : ForceFree H (ws 0).bodies.length i) (ha : armOf (ws 0) i k ≠ 0)
    (ht : ∀ q < n + 1, (ws (q + 1)).t = (ws q).t + dt) (hs : |spinOf (ws 1) i| * dt ≤ Real.pi / 2) :
    4 * pivotShare (bodyAt (ws 0).bodies i).mass (bodyAt (ws 0).bodies i).ang_inertia (armOf (ws 0) i k) * n *
      (spinOf (ws (n + 1)) i * dt) ^ 2 ≤ Real.pi ^ 2 := by
  obtain ⟨k0, k1⟩ := pivotShare_bounds h.heavy.1 h.heavy.2 ha
  refine (spin_rate k0 k1 hdt (ω := fun q => spinOf (ws (q + 1)) i) (N := n) (fun q hq => ?_) hs n le_rfl).2
  have := (C105_slows H lcp hx mi collide dt (n + 1) ws i k h hff).2.1 q (by omega)
  rw [ht q (by omega), add_sub_cancel_left] at this
  exact this

/-- C105: a body on a pivot comes to rest. -/
theorem C105_stops (H : ForceHeap) (lcp : LcpSolver) (hx : Exact lcp) (mi : ℕ)
    (collide : ℝ → φ → List Body → Except Err (φ × List Contact)) (dt : ℝ) (hdt : 0 < dt) (ws : ℕ → World (Option Mat) φ)
    (i k : ℕ) (h : ∀ n, PivotRun H lcp mi collide dt n ws i k) (hff : ForceFree H (ws 0).bodies.length i)
    (ha : armOf (ws 0) i k ≠ 0) (ht : ∀ q, (ws (q + 1)).t = (ws q).t + dt) (hs : |spinOf (ws 1) i| * dt < 2 * Real.pi) :
    Tendsto (fun n => spinOf (ws n) i) atTop (𝓝 0) ∧
    Tendsto (fun n => (bodyAt (ws n).bodies i).ang_inertia * (twist (ws n).v i).r ^ 2 +
      (bodyAt (ws n).bodies i).mass * ((twist (ws n).v i).x ^ 2 + (twist (ws n).v i).y ^ 2)) atTop (𝓝 0) := by
  obtain ⟨k0, k1⟩ := pivotShare_bounds (h 0).heavy.1 (h 0).heavy.2 ha
  have h1 : Tendsto (fun n => spinOf (ws (n + 1)) i) atTop (𝓝 0) := by
    refine spin_stops k0 k1 hdt (fun q => ?_) hs
    have := (C105_slows H lcp hx mi collide dt (q + 2) ws i k (h _) hff).2.1 q (by omega)
    rw [ht q, add_sub_cancel_left] at this
    exact this
  refine ⟨(tendsto_add_atTop_iff_nat (f := fun n => spinOf (ws n) i) 1).1 h1, ?_⟩
  refine (tendsto_add_atTop_iff_nat 1).1 ?_
  have h2 := (h1.pow 2).const_mul ((bodyAt (ws 0).bodies i).ang_inertia + (bodyAt (ws 0).bodies i).mass *
    ((armOf (ws 0) i k).1 ^ 2 + (armOf (ws 0) i k).2 ^ 2))
  rw [zero_pow two_ne_zero, mul_zero] at h2
  refine h2.congr fun q => ?_
  obtain ⟨-, -, -, -, i5, i6, -⟩ := (h (q + 1)).at hx (q + 1) le_rfl
  obtain ⟨-, -, -, -, -, -, i7⟩ := (h (q + 1)).at hx q (by omega)
  rw [i5, i6, (C105_slows H lcp hx mi collide dt (q + 1) ws i k (h _) hff).1 q (by omega), ← i7]
  simp only [turnAbout]
  ring

/-! ## The library's world with one body on a pivot -/

/-- The joint of one body with the world. -/
def pivotJoints (b : Body) (pos : V2) : List Joint := [mkJoint [b] 0 none pos]

/-- What holds of the world of `C105_runs` at every step. -/
structure OnPivot (w : World (Option Mat) Finder) : Prop where
  inv : EngineInv w
  one : w.bodies.length = 1
  wires : w.joints.map Joint.wiring = [(.revolute, 0, none)]
  clear : w.contacts = []
  heavy : 0 < (bodyAt w.bodies 0).mass ∧ 0 < (bodyAt w.bodies 0).ang_inertia
  post : w.post_stab = false

theorem OnPivot.pinned {w : World (Option Mat) Finder} (h : OnPivot w) : PinnedBy w.joints 0 0 := by
  have hw := h.wires
  generalize w.joints = js at hw
  match js, hw with
  | [], hw => simp at hw
  | _ :: _ :: _, hw => simp at hw
  | [j], hw =>
    simp only [List.map_cons, List.map_nil, List.cons.injEq, and_true, Joint.wiring, Prod.mk.injEq] at hw
    refine ⟨⟨j, rfl, hw.1, hw.2.1, hw.2.2⟩, ?_⟩
    intro q j' hq hne
    rcases q with _ | q
    · exact absurd rfl hne
    · simp at hq

theorem OnPivot.tree {w : World (Option Mat) Finder} (h : OnPivot w) : JointTree w.joints := by
  have hw := h.wires
  have hl : w.joints.length = 1 := by simpa using congrArg List.length hw
  intro k hk
  have : k = 0 := by omega
  subst this
  exact ⟨_, Or.inl rfl, fun c _ k' hk' => absurd hk' (by omega)⟩

/-- The contact search has nothing to say of a single body. -/
theorem alone_silent (cfuel : ℕ) (nc : ℕ → List ℕ) {pairs : List Body → List (ℕ × ℕ)}
    (hpv : ∀ bs, ∀ p ∈ pairs bs, p.1 < bs.length ∧ p.2 < bs.length ∧ p.1 ≠ p.2) (eps : ℝ) (f : Finder) (bs : List Body)
    (hb : bs.length = 1) : rejectNan (diffCollide cfuel nc pairs) eps f bs = .ok (f, []) := by
  have hp : pairs bs = [] := by
    rw [List.eq_nil_iff_forall_not_mem]
    intro p hp
    obtain ⟨h1, h2, h3⟩ := hpv bs p hp
    omega
  simp [rejectNan, diffCollide, hp, handleAll, Run.toExcept]

/-- The environment of a single body. -/
abbrev loneEnv (H : ForceHeap) (lcp : LcpSolver) (mi cfuel : ℕ) (nc : ℕ → List ℕ) (pairs : List Body → List (ℕ × ℕ)) :
    Env (Option Mat) Finder := pdipmEnv 2 H lcp mi (rejectNan (diffCollide cfuel nc pairs))

theorem pivot_step {H : ForceHeap} (hH : ∀ t, ∃ fl, forceCat H t 1 = .ok fl) {lcp : LcpSolver} {mi cfuel : ℕ}
    {nc : ℕ → List ℕ} {pairs : List Body → List (ℕ × ℕ)}
    (hpv : ∀ bs, ∀ p ∈ pairs bs, p.1 < bs.length ∧ p.2 < bs.length ∧ p.1 ≠ p.2)
    {w : World (Option Mat) Finder} (h : OnPivot w) (dt : ℝ) :
    ∃ w', w.step_dt (loneEnv H lcp mi cfuel nc pairs) 1 dt = .done w' ∧ OnPivot w' ∧ w'.t = w.t + dt := by
  obtain ⟨fl, hfl⟩ := hH w.t
  have hsolid : ∀ b ∈ w.bodies, 0 < b.mass ∧ 0 < b.ang_inertia := by
    intro b hb
    obtain ⟨q, hq, rfl⟩ := List.getElem_of_mem hb
    have hq0 : q = 0 := by have := h.one; omega
    subst hq0
    have := h.heavy
    rw [show bodyAt w.bodies 0 = w.bodies[0] by simp [bodyAt, List.getD_eq_getElem?_getD, hq]] at this
    exact this
  have hlen := h.one
  obtain ⟨⟨e, v⟩, hr⟩ := C35_no_contact_succeeds 2 H lcp mi w dt h.inv.joints hsolid
    (C71_tree_independent w h.inv.joints h.tree) h.clear fl (by rw [hlen]; exact hfl)
  have silent : ∀ f d, rejectNan (diffCollide cfuel nc pairs) w.eps f
      ((({ w with eng := e } : World (Option Mat) Finder).set_v v).bodies.map fun b => b.move d) = .ok (f, []) := by
    intro f d
    apply alone_silent cfuel nc hpv
    rw [List.length_map, set_v_length]; exact h.one
  obtain ⟨r, hr'⟩ := specLoop_ends (env := loneEnv H lcp mi cfuel nc pairs)
    (w := ({ w with eng := e } : World (Option Mat) Finder).set_v v) 0 w.fnd dt 0
    (fun f j _ => ⟨_, silent f _⟩)
    (fun f r hc => by
      have := silent f (dt / 2 ^ 0)
      change rejectNan (diffCollide cfuel nc pairs) w.eps f _ = _ at hc
      rw [this] at hc
      injection hc with hc
      rw [← hc]
      exact Or.inl fun c hc => by simp at hc)
  have hps : r.1.post_stab = false := by
    obtain ⟨q, -, -, ⟨fk, f', cs, -, -, hq⟩, -⟩ := specLoop_done (w' := r.1) (d' := r.2) hr'
    rw [hq]; exact h.post
  have hstep : w.step_dt (loneEnv H lcp mi cfuel nc pairs) 1 dt = .done { r.1 with t := r.1.t + r.2 } := by
    rw [step_dt_eq _ _ w h.inv.good dt]
    have hs : (loneEnv H lcp mi cfuel nc pairs).solve_dynamics w dt = .ok (e, v) := hr
    rw [hs]
    simp only [Run.ofExcept, Run.bind_done]
    rw [hr']
    simp only [Run.bind_done, hps, Bool.false_eq_true, if_false]
  refine ⟨_, hstep, ?_⟩
  have hinv' := step_inv (C12_finder_ok cfuel _ pairs hpv) h.inv hstep
  have hst := step_dt_statics h.inv.good hstep
  have hpar := step_dt_params h.inv.good hstep
  have hcon := posed_consts (posed_step h.inv.good hstep) (i := 0) (by rw [h.one]; norm_num)
  generalize ({ r.1 with t := r.1.t + r.2 } : World (Option Mat) Finder) = w' at *
  have hends : w'.contacts = [] ∧ w'.t = w.t + dt := by
    obtain ⟨e, v, k, w1, w2, hsol, hk, rfl, -, ⟨fk, f', cs, hcs, hacc, rfl⟩, hrej, hend⟩ := step_dt_done h.inv.good hstep
    rcases hend with ⟨-, rfl⟩ | ⟨hp, -⟩
    swap
    · rw [h.post] at hp; cases hp
    have hk0 : k = 0 := by omega
    subst hk0
    have := alone_silent cfuel nc hpv w.eps fk
      ((({ w with eng := e } : World (Option Mat) Finder).set_v v).bodies.map fun b => b.move (dt / 2 ^ 0))
      (by rw [List.length_map, set_v_length]; exact h.one)
    change rejectNan (diffCollide cfuel nc pairs) w.eps fk _ = _ at hcs
    rw [this] at hcs
    injection hcs with hcs
    injection hcs with _ hcs
    subst hcs
    refine ⟨rfl, ?_⟩
    show w.t + dt / 2 ^ 0 = _
    norm_num
  exact ⟨⟨hinv', by rw [hpar.2.2.2.2.2.1]; exact h.one, hst.2.trans h.wires, hends.1, by rw [hcon.1, hcon.2]; exact h.heavy,
    by rw [hpar.2.2.2.1]; exact h.post⟩, hends.2⟩

/-- The library's world with one body held by one pivot. -/
theorem pivot_initial {H : ForceHeap} {lcp : LcpSolver} {mi cfuel : ℕ} {nc : ℕ → List ℕ} {pairs : List Body → List (ℕ × ℕ)}
    (hpv : ∀ bs, ∀ p ∈ pairs bs, p.1 < bs.length ∧ p.2 < bs.length ∧ p.1 ≠ p.2) (fnd : Finder) (b : Body) (hb : b.RectForm)
    (hm : 0 < b.mass ∧ 0 < b.ang_inertia) (pos : V2) (dt eps tol : ℝ) (strict : Bool) :
    ∃ w, mkWorld (loneEnv H lcp mi cfuel nc pairs) none fnd [b] (pivotJoints b pos) dt eps tol false strict = .done w ∧
      OnPivot w ∧ w.bodies = [b] ∧ w.joints = pivotJoints b pos ∧ twist w.v 0 = b.v := by
  have hbod : (initWorld (none : Option Mat) fnd [b] (pivotJoints b pos) dt eps tol false strict).bodies = [b] := by
    apply List.ext_getElem
    · simp [initWorld, World.set_v]
    · intro i h1 h2
      simp only [initWorld, World.set_v, List.getElem_map, List.getElem_zipIdx]
      rw [Nat.zero_add, cat3_slice _ i (by simpa using h2), List.getElem_map]
  have hmk : mkWorld (loneEnv H lcp mi cfuel nc pairs) none fnd [b] (pivotJoints b pos) dt eps tol false strict =
      .done { initWorld (none : Option Mat) fnd [b] (pivotJoints b pos) dt eps tol false strict with contacts := [], fnd := fnd } := by
    unfold mkWorld
    rw [if_neg (by simp), if_pos (by
      intro j hj
      simp only [pivotJoints, List.mem_singleton] at hj
      subst hj
      simp [mkJoint])]
    unfold World.find_contacts
    have : (loneEnv H lcp mi cfuel nc pairs).collide
        (initWorld (none : Option Mat) fnd [b] (pivotJoints b pos) dt eps tol false strict).eps
        (initWorld (none : Option Mat) fnd [b] (pivotJoints b pos) dt eps tol false strict).fnd
        (initWorld (none : Option Mat) fnd [b] (pivotJoints b pos) dt eps tol false strict).bodies = .ok (fnd, []) := by
      rw [hbod]; exact alone_silent cfuel nc hpv _ _ _ rfl
    rw [this]
    simp only [Run.bind]
    cases strict
    · rfl
    · simp only [if_true]
      rw [if_pos]
      intro c hc
      simp at hc
  obtain ⟨m1, m2, m3, m4, -, -, m7, -⟩ := mkWorld_done (C12_finder_ok cfuel nc pairs hpv) (by simpa using hb) (by
      intro j hj
      simp only [pivotJoints, List.mem_singleton] at hj
      subst hj
      exact mkJoint_fix ..) (by
      intro j hj
      simp only [pivotJoints, List.mem_singleton] at hj
      subst hj
      simp [mkJoint]) hmk
  refine ⟨_, hmk, ⟨m1, by rw [m2]; rfl, by rw [m3]; rfl, rfl, by rw [m2]; exact hm, m7⟩, m2, m3, ?_⟩
  rw [m4]
  have := cat3_slice [b.v] 0 (by simp)
  simpa [twist, slice3] using this

/-- C105: the run exists, for as long as one likes. -/
theorem C105_runs (H : ForceHeap) (hH : ∀ t, ∃ fl, forceCat H t 1 = .ok fl) (lcp : LcpSolver) (mi cfuel : ℕ) (nc : ℕ → List ℕ)
    (pairs : List Body → List (ℕ × ℕ)) (hpv : ∀ bs, ∀ p ∈ pairs bs, p.1 < bs.length ∧ p.2 < bs.length ∧ p.1 ≠ p.2)
    (fnd : Finder) (b : Body) (hb : b.RectForm) (hm : 0 < b.mass ∧ 0 < b.ang_inertia) (pos : V2) (dt eps tol : ℝ) (strict : Bool) :
    ∃ ws : ℕ → World (Option Mat) Finder,
      mkWorld (loneEnv H lcp mi cfuel nc pairs) none fnd [b] (pivotJoints b pos) dt eps tol false strict = .done (ws 0) ∧
      (∀ n, PivotRun H lcp mi (rejectNan (diffCollide cfuel nc pairs)) dt n ws 0 0) ∧
      (∀ n, (ws (n + 1)).t = (ws n).t + dt) ∧ (ws 0).bodies = [b] ∧ armOf (ws 0) 0 0 = pos - b.pos ∧
      twist (ws 0).v 0 = b.v := by
  obtain ⟨w, hw, hon, hbs, hjs, hv⟩ := pivot_initial (H := H) (lcp := lcp) (mi := mi) (cfuel := cfuel) (nc := nc) hpv fnd b hb hm pos
    dt eps tol strict
  choose nxt hn1 hn2 hn3 using fun (w : {w : World (Option Mat) Finder // OnPivot w}) =>
    pivot_step hH (lcp := lcp) (mi := mi) (cfuel := cfuel) (nc := nc) hpv w.2 dt
  let run : ℕ → {w : World (Option Mat) Finder // OnPivot w} := fun n => Nat.rec ⟨w, hon⟩ (fun _ x => ⟨nxt x, hn2 x⟩) n
  refine ⟨fun n => (run n).1, hw, fun n => ⟨C12_finder_ok cfuel nc pairs hpv, fun q _ => ⟨1, hn1 (run q)⟩, hon.inv, hon.post,
    by show 0 < w.bodies.length; rw [hon.one]; norm_num, hon.pinned, fun q _ c hc => ?_, hon.heavy⟩,
    fun n => hn3 (run n), hbs, ?_, hv⟩
  · rw [(run q).2.clear] at hc; simp at hc
  · show armOf w 0 0 = _
    unfold armOf pivotAt
    rw [hjs, hbs]
    simp [pivotJoints, mkJoint, bodyAt]

/-- C105: a lone body of the library, spinning about a pivot off its centre, without any force: the rotation dies out. -/
theorem C105_spinner (lcp : LcpSolver) (hx : Exact lcp) (mi cfuel : ℕ) (nc : ℕ → List ℕ)
    (pairs : List Body → List (ℕ × ℕ)) (hpv : ∀ bs, ∀ p ∈ pairs bs, p.1 < bs.length ∧ p.2 < bs.length ∧ p.1 ≠ p.2)
    (fnd : Finder) (b : Body) (hb : b.RectForm) (hm : 0 < b.mass ∧ 0 < b.ang_inertia) (pos : V2) (hpos : pos ≠ b.pos) (ω : ℝ)
    (hv : b.v = turnAbout (pos - b.pos) ω) (dt eps tol : ℝ) (hdt : 0 < dt) (hω : |ω| * dt < 2 * Real.pi) (strict : Bool) :
    ∃ ws : ℕ → World (Option Mat) Finder,
      mkWorld (loneEnv noForces lcp mi cfuel nc pairs) none fnd [b] (pivotJoints b pos) dt eps tol false strict = .done (ws 0) ∧
      (∀ n, Steps (loneEnv noForces lcp mi cfuel nc pairs) dt n ws) ∧
      spinOf (ws 1) 0 = ω ∧ Tendsto (fun n => spinOf (ws n) 0) atTop (𝓝 0) ∧
      (∀ n, |spinOf (ws (n + 1)) 0| ≤ |spinOf (ws n) 0|) := by
  obtain ⟨ws, h1, h2, h3, h4, h5, h6⟩ := C105_runs noForces (fun t => ⟨_, noForces_cat t 1⟩) lcp mi cfuel nc pairs hpv fnd b hb hm
    pos dt eps tol strict
  have hff : ForceFree noForces (ws 0).bodies.length 0 := by
    intro t fl hfl
    rw [noForces_cat] at hfl
    injection hfl with hfl
    rw [← hfl, h4]; rfl
  have ha : armOf (ws 0) 0 0 ≠ 0 := by rw [h5]; exact sub_ne_zero.2 hpos
  have e0 : spinOf (ws 0) 0 = ω := by unfold spinOf; rw [h6, hv]; rfl
  have e1 : spinOf (ws 1) 0 = ω := by
    rw [← e0]
    refine (C105_slows noForces lcp hx mi _ dt 1 ws 0 0 (h2 1) hff).2.2 (by norm_num) ?_
    rw [e0, h6, hv, h5]
  refine ⟨ws, h1, fun n => (h2 n).steps, e1, ?_, ?_⟩
  · exact (C105_stops noForces lcp hx mi _ dt hdt ws 0 0 h2 hff ha h3 (by rw [e1]; exact hω)).1
  · intro n
    rcases n with _ | n
    · rw [e0, e1]
    · exact (C105_brakes noForces lcp hx mi _ dt (n + 2) ws 0 0 (h2 _) hff ha n (by omega)).1

/-! ## Examples -/

/-- A disc of radius 1 and mass 2 at the origin, spinning about the point `(3, 4)` once in 2π seconds. -/
def spinDisc : Body := mkCircle (.three 0) 1 { mass := 2, vel := .three ⟨1, 4, -3⟩ }

example (mi cfuel : ℕ) (fnd : Finder) :
    ∃ ws : ℕ → World (Option Mat) Finder,
      mkWorld (loneEnv noForces exactLcp mi cfuel (fun _ => []) (bouncePairs true)) none fnd [spinDisc] (pivotJoints spinDisc (3, 4))
        (1 / 30) (1 / 10) (1 / 1000) false true = .done (ws 0) ∧
      (∀ n, Steps (loneEnv noForces exactLcp mi cfuel (fun _ => []) (bouncePairs true)) (1 / 30) n ws) ∧
      spinOf (ws 1) 0 = 1 ∧ Tendsto (fun n => spinOf (ws n) 0) atTop (𝓝 0) ∧
      (∀ n, |spinOf (ws (n + 1)) 0| ≤ |spinOf (ws n) 0|) :=
  C105_spinner exactLcp exactLcp_exact mi cfuel _ _ (bouncePairs_valid true) fnd spinDisc trivial
    (by constructor <;> norm_num [spinDisc, mkCircle, circleInertia]) (3, 4)
    (by simp [spinDisc, mkCircle, Body.pos, Arg.toV3, V3.xy]) 1
    (by simp [spinDisc, mkCircle, Body.pos, Arg.toV3, V3.xy, turnAbout]) (1 / 30) _ _ (by norm_num)
    (by have := Real.two_le_pi; norm_num; linarith) true

/-- The first steps of the disc: what the step, the recursion, the bound and the drift say of it. -/
example (mi cfuel : ℕ) (fnd : Finder) :
    ∃ ws : ℕ → World (Option Mat) Finder,
      (∀ n, PivotRun noForces exactLcp mi (rejectNan (diffCollide cfuel (fun _ => []) (bouncePairs true))) (1 / 30) n ws 0 0) ∧
      spinOf (ws 1) 0 = 1 ∧ spinOf (ws 2) 0 = 1 - 50 / 51 * (1 - Real.cos (1 / 30)) ∧ spinOf (ws 2) 0 < 1 ∧
      pivotAt (ws 1) 0 ≠ pivotAt (ws 0) 0 ∧
      ∀ n : ℕ, 4 * (50 / 51) * n * (spinOf (ws (n + 1)) 0 * (1 / 30)) ^ 2 ≤ Real.pi ^ 2 := by
  obtain ⟨ws, h1, h2, h3, h4, h5, h6⟩ := C105_runs noForces (fun t => ⟨_, noForces_cat t 1⟩) exactLcp mi cfuel (fun _ => [])
    (bouncePairs true) (bouncePairs_valid true) fnd spinDisc trivial
    (by constructor <;> norm_num [spinDisc, mkCircle, circleInertia]) (3, 4) (1 / 30) (1 / 10) (1 / 1000) true
  have hff : ForceFree noForces (ws 0).bodies.length 0 := by
    intro t fl hfl
    rw [noForces_cat] at hfl
    injection hfl with hfl
    rw [← hfl, h4]; rfl
  have h5' : armOf (ws 0) 0 0 = (3, 4) := by rw [h5]; simp [spinDisc, mkCircle, Body.pos, Arg.toV3, V3.xy]
  have ha : armOf (ws 0) 0 0 ≠ 0 := by rw [h5']; simp
  have hv : twist (ws 0).v 0 = turnAbout (3, 4) 1 := by
    rw [h6]; simp [spinDisc, mkCircle, Arg.toV3, turnAbout]
  have e0 : spinOf (ws 0) 0 = 1 := by unfold spinOf; rw [hv]; rfl
  have hsl := C105_slows noForces exactLcp exactLcp_exact mi _ (1 / 30) 2 ws 0 0 (h2 2) hff
  have e1 : spinOf (ws 1) 0 = 1 := by
    rw [← e0]
    exact hsl.2.2 (by norm_num) (by rw [e0, h5', hv])
  have hκ : pivotShare (bodyAt (ws 0).bodies 0).mass (bodyAt (ws 0).bodies 0).ang_inertia (armOf (ws 0) 0 0) = 50 / 51 := by
    rw [h4, h5']
    norm_num [pivotShare, bodyAt, spinDisc, mkCircle, circleInertia]
  have e2 := hsl.2.1 0 (by norm_num)
  norm_num only [zero_add] at e2
  rw [e1, hκ, h3 0, add_sub_cancel_left, one_mul, one_mul] at e2
  have hcos : Real.cos (1 / 30) < 1 := by
    refine lt_of_le_of_ne (Real.cos_le_one _) fun h => ?_
    have := (Real.cos_eq_one_iff_of_lt_of_lt (x := 1 / 30) (by linarith [Real.pi_pos])
      (by linarith [Real.two_le_pi])).1 h
    norm_num at this
  refine ⟨ws, h2, e1, e2, by rw [e2]; linarith, fun h => ?_, fun n => ?_⟩
  · have := (C105_drifts noForces exactLcp exactLcp_exact mi _ (1 / 30) 1 ws 0 0 (h2 1) 0 (by norm_num)).2.1 h
    rcases this with h | h
    · exact ha h
    · norm_num only [zero_add] at h
      rw [e1, h3 0] at h
      norm_num at h
  · have := C105_rate noForces exactLcp exactLcp_exact mi _ (1 / 30) (by norm_num) n ws 0 0 (h2 _) hff ha (fun q _ => h3 q)
      (by rw [e1]; norm_num; linarith [Real.two_le_pi])
    rw [hκ] at this
    exact this

end LcpPhysics
