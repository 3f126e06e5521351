import Verif.Props.Quiet
import Verif.Spec.Weld
import Verif.Lemmas.Weld

/-!
# C106: two bodies fixed to each other drift apart when they turn

`FixedJoint` (constraints.py:56-92) makes the velocities of two bodies those of one rigid body, and recomputes the offset
between them from their positions after every step.
-/

noncomputable section

namespace LcpPhysics
open Spec Filter Topology

variable {φ : Type}

/-! ## One step of the engine -/

/-- The law tested with a rigid motion of the two bodies. -/
theorem weld_test {bs : List Body} {js : List Joint} {cs : List Contact} {f : ℕ → V3} {v v' l : Vec} {pn pt : ℕ → ℝ}
    (hdyn : ∀ u : Vec, momentumPower bs u v' = momentumPower bs u v + forcePower bs.length f u + jointPower js l u +
      contactPower cs pn pt u) (i j k : ℕ) (hi : i < bs.length) (hj : j < bs.length) (hij : i ≠ j)
    (hp : WeldedBy js i j k) (hc : ∀ c ∈ cs, (c.i1 ≠ i ∧ c.i2 ≠ i) ∧ (c.i1 ≠ j ∧ c.i2 ≠ j)) {D : V2}
    (hD : ∀ J, js[k]? = some J → J.pos1 = 0 ∧ J.pos2 = -D) (c x y : ℝ) :
    ((bodyAt bs i).ang_inertia * (twist v' i).r * c + (bodyAt bs i).mass * ((twist v' i).x * x + (twist v' i).y * y)) +
      ((bodyAt bs j).ang_inertia * (twist v' j).r * c +
        (bodyAt bs j).mass * ((twist v' j).x * (x - c * D.2) + (twist v' j).y * (y + c * D.1))) =
    ((bodyAt bs i).ang_inertia * (twist v i).r * c + (bodyAt bs i).mass * ((twist v i).x * x + (twist v i).y * y)) +
      ((bodyAt bs j).ang_inertia * (twist v j).r * c +
        (bodyAt bs j).mass * ((twist v j).x * (x - c * D.2) + (twist v j).y * (y + c * D.1))) +
      (((f i).r * c + (f i).x * x + (f i).y * y) + ((f j).r * c + (f j).x * (x - c * D.2) + (f j).y * (y + c * D.1))) := by
  obtain ⟨⟨J, hJ, hkind, hi1, hi2⟩, hoth⟩ := hp
  obtain ⟨hD1, hD2⟩ := hD J hJ
  set u : Vec := fun q => if q = 3 * i then c else if q = 3 * i + 1 then x else if q = 3 * i + 2 then y else
    if q = 3 * j then c else if q = 3 * j + 1 then x - c * D.2 else if q = 3 * j + 2 then y + c * D.1 else 0 with hu
  have ti : twist u i = ⟨c, x, y⟩ := by simp [twist, hu]
  have tj : twist u j = ⟨c, x - c * D.2, y + c * D.1⟩ := by
    have n1 : 3 * j ≠ 3 * i := by omega
    have n2 : 3 * j ≠ 3 * i + 1 := by omega
    have n3 : 3 * j ≠ 3 * i + 2 := by omega
    have n4 : 3 * j + 1 ≠ 3 * i := by omega
    have n6 : 3 * j + 1 ≠ 3 * i + 2 := by omega
    have n7 : 3 * j + 2 ≠ 3 * i := by omega
    have n8 : 3 * j + 2 ≠ 3 * i + 1 := by omega
    have n9 : j ≠ i := Ne.symm hij
    simp [twist, hu, n1, n2, n3, n4, n6, n7, n8, n9]
  have hd := hdyn (onlyOn (fun q => q = i ∨ q = j) u)
  have hj0 : jointPower js l (onlyOn (fun q => q = i ∨ q = j) u) = 0 := by
    apply jointPower_zero
    intro r hr
    obtain ⟨J', hJm, hr⟩ := List.mem_flatMap.1 hr
    obtain ⟨q, hq, rfl⟩ := List.getElem_of_mem hJm
    have hq' : js[q]? = some js[q] := List.getElem?_eq_getElem hq
    by_cases hqk : q = k
    · have e : js[q] = J := by
        subst hqk
        rw [hJ] at hq'
        exact (Option.some.inj hq').symm
      rw [e] at hr
      simp only [jointVel, hkind, hi1, hi2, hD1, hD2, twist_onlyOn, true_or, or_true, if_true, ti, tj, pointVel] at hr
      simp at hr
      exact hr
    · obtain ⟨⟨h1, h2⟩, h3, h4⟩ := hoth q _ hq' hqk
      refine jointVel_out (S := fun q => q = i ∨ q = j) ?_ u r hr
      simp only [holds, decide_eq_true_eq, not_or, not_exists, not_and]
      exact ⟨⟨h1, h3⟩, fun k' hk' => ⟨fun hki => h2 (hki ▸ hk'), fun hki => h4 (hki ▸ hk')⟩⟩
  have hs : (Finset.range bs.length).filter (fun q => q = i ∨ q = j) = {i, j} := by
    ext q
    simp only [Finset.mem_filter, Finset.mem_range, Finset.mem_insert, Finset.mem_singleton]
    constructor
    · exact fun h => h.2
    · rintro (rfl | rfl)
      · exact ⟨hi, Or.inl rfl⟩
      · exact ⟨hj, Or.inr rfl⟩
  have hc0 : ∀ pt, contactPower cs pn pt (onlyOn (fun q => q = i ∨ q = j) u) = 0 := by
    intro pt
    unfold contactPower
    refine Finset.sum_eq_zero fun q hq => ?_
    have hq := Finset.mem_range.1 hq
    rw [List.getElem?_eq_getElem hq]
    have := hc cs[q] (List.getElem_mem hq)
    have ht : ¬ touches (fun q => q = i ∨ q = j) cs[q] = true := by
      simp only [touches, Bool.or_eq_true, decide_eq_true_eq]
      tauto
    simp [normalVel, slipVel, contactVel_out ht, Spec.inner]
  rw [hj0, hc0, momentumPower_onlyOn, momentumPower_onlyOn, forcePower_onlyOn, hs] at hd
  simp only [Finset.sum_pair hij, ti, tj, add_zero] at hd
  linarith

theorem weld_law {bs : List Body} {js : List Joint} {cs : List Contact} {f : ℕ → V3} {v v' l : Vec} {pn pt : ℕ → ℝ}
    (hdyn : ∀ u : Vec, momentumPower bs u v' = momentumPower bs u v + forcePower bs.length f u + jointPower js l u +
      contactPower cs pn pt u) (hjnt : ∀ r ∈ jointVels js v', r = 0) (i j k : ℕ) (hi : i < bs.length) (hj : j < bs.length) (hij : i ≠ j)
    (hp : WeldedBy js i j k) (hc : ∀ c ∈ cs, (c.i1 ≠ i ∧ c.i2 ≠ i) ∧ (c.i1 ≠ j ∧ c.i2 ≠ j))
    (hD : ∀ J, js[k]? = some J → J.pos1 = 0 ∧ J.pos2 = -offset bs i j)
    (hm : 0 < (bodyAt bs i).mass ∧ 0 < (bodyAt bs j).mass) :
    (twist v' j).r = (twist v' i).r ∧
    (twist v' j).x - (twist v' i).x = -((twist v' i).r * (offset bs i j).2) ∧
    (twist v' j).y - (twist v' i).y = (twist v' i).r * (offset bs i j).1 ∧
    (bodyAt bs i).mass * (twist v' i).x + (bodyAt bs j).mass * (twist v' j).x =
      (bodyAt bs i).mass * (twist v i).x + (bodyAt bs j).mass * (twist v j).x + ((f i).x + (f j).x) ∧
    (bodyAt bs i).mass * (twist v' i).y + (bodyAt bs j).mass * (twist v' j).y =
      (bodyAt bs i).mass * (twist v i).y + (bodyAt bs j).mass * (twist v j).y + ((f i).y + (f j).y) ∧
    pairInertia bs i j * (twist v' i).r = pairSpin bs v i j + ((f i).r + (f j).r) +
      ((offset bs i j).1 * ((bodyAt bs i).mass * (f j).y - (bodyAt bs j).mass * (f i).y) -
       (offset bs i j).2 * ((bodyAt bs i).mass * (f j).x - (bodyAt bs j).mass * (f i).x)) /
        ((bodyAt bs i).mass + (bodyAt bs j).mass) := by
  set D := offset bs i j with hDdef
  have hrel : ((twist v' i).x = (twist v' j).x + (twist v' j).r * D.2) ∧ ((twist v' i).y = (twist v' j).y - (twist v' j).r * D.1) ∧
      (twist v' j).r = (twist v' i).r := by
    obtain ⟨⟨J, hJ, hkind, hi1, hi2⟩, -⟩ := hp
    obtain ⟨hD1, hD2⟩ := hD J hJ
    have hmem : J ∈ js := List.mem_of_getElem? hJ
    have h1 : ∀ r ∈ jointVel J v', r = 0 := fun r hr => hjnt r (List.mem_flatMap.2 ⟨J, hmem, hr⟩)
    simp only [jointVel, hkind, hi1, hi2, hD1, hD2, List.mem_cons, List.not_mem_nil, or_false, forall_eq_or_imp, forall_eq] at h1
    simp [pointVel] at h1
    obtain ⟨a1, a2, a3⟩ := h1
    exact ⟨by linarith, by linarith, by linarith⟩
  obtain ⟨r1, r2, r3⟩ := hrel
  have tx := weld_test hdyn i j k hi hj hij hp hc hD 0 1 0
  have ty := weld_test hdyn i j k hi hj hij hp hc hD 0 0 1
  have tr := weld_test hdyn i j k hi hj hij hp hc hD 1 0 0
  simp only [mul_zero, mul_one, zero_mul, one_mul, sub_zero, add_zero, zero_add] at tx ty tr
  have e1 : (twist v' j).x - (twist v' i).x = -((twist v' i).r * D.2) := by rw [r1, ← r3]; ring
  have e2 : (twist v' j).y - (twist v' i).y = (twist v' i).r * D.1 := by rw [r2, ← r3]; ring
  refine ⟨r3, e1, e2, by linarith, by linarith, ?_⟩
  obtain ⟨hm1, hm2⟩ := hm
  unfold pairInertia pairSpin reducedMass gapSq
  rw [← hDdef]
  set m1 := (bodyAt bs i).mass
  set m2 := (bodyAt bs j).mass
  have hM : m1 + m2 ≠ 0 := by positivity
  field_simp
  rw [r3] at tr
  have hx' : (twist v' j).x = (twist v' i).x - (twist v' i).r * D.2 := by linarith
  have hy' : (twist v' j).y = (twist v' i).y + (twist v' i).r * D.1 := by linarith
  rw [hx'] at tx
  rw [hy'] at ty
  rw [hx', hy'] at tr
  linear_combination (m1 + m2) * tr + m2 * D.2 * tx - m2 * D.1 * ty

theorem welded_wiring {js js' : List Joint} (h : js'.map Joint.wiring = js.map Joint.wiring) {i j k : ℕ}
    (hp : WeldedBy js i j k) : WeldedBy js' i j k := by
  have key : ∀ (q : ℕ) (j' : Joint), js'[q]? = some j' → ∃ j : Joint, js[q]? = some j ∧ j.wiring = j'.wiring := by
    intro q j' hq
    have := congrArg (fun l => l[q]?) h
    simp only [List.getElem?_map, hq, Option.map_some] at this
    cases hj : js[q]? with
    | none => rw [hj] at this; simp at this
    | some j => rw [hj] at this; simp at this; exact ⟨j, rfl, this.symm⟩
  have key' : ∀ (q : ℕ) (j : Joint), js[q]? = some j → ∃ j' : Joint, js'[q]? = some j' ∧ j.wiring = j'.wiring := by
    intro q j hq
    have := congrArg (fun l => l[q]?) h
    simp only [List.getElem?_map, hq, Option.map_some] at this
    cases hj : js'[q]? with
    | none => rw [hj] at this; simp at this
    | some j => rw [hj] at this; simp at this; exact ⟨j, rfl, this.symm⟩
  obtain ⟨⟨J, hJ, h1, h2, h3⟩, ho⟩ := hp
  refine ⟨?_, ?_⟩
  · obtain ⟨J', hJ', hw⟩ := key' k J hJ
    simp only [Joint.wiring, Prod.mk.injEq] at hw
    exact ⟨J', hJ', by rw [← hw.1]; exact h1, by rw [← hw.2.1]; exact h2, by rw [← hw.2.2]; exact h3⟩
  · intro q J' hq hne
    obtain ⟨J, hJ, hw⟩ := key q J' hq
    simp only [Joint.wiring, Prod.mk.injEq] at hw
    have := ho q J hJ hne
    rw [hw.2.1, hw.2.2] at this
    exact this

theorem weld_offsets {w : World (Option Mat) φ} (hg : w.Good) {i j k : ℕ} (hp : WeldedBy w.joints i j k) :
    ∀ J, w.joints[k]? = some J → J.pos1 = 0 ∧ J.pos2 = -offset w.bodies i j := by
  intro J hJ
  obtain ⟨⟨J0, hJ0, h1, h2, h3⟩, -⟩ := hp
  rw [hJ] at hJ0
  have := Option.some.inj hJ0
  subst this
  have hf := hg.fix J (List.mem_of_getElem? hJ)
  rw [← hf]
  simp [Joint.update_pos, h1, h2, h3, offset]

/-- C106: the step of two bodies fixed to each other. They leave it with the velocities of one rigid body, with the momenta
that the forces give; then each is moved along its own velocity, so that the offset between them gains
`d ω'` times its own perpendicular. -/
theorem C106_step (H : ForceHeap) (lcp : LcpSolver) (hx : Exact lcp) (mi : ℕ)
    (collide : ℝ → φ → List Body → Except Err (φ × List Contact)) (w w' : World (Option Mat) φ) (hw : EngineInv w)
    (hps : w.post_stab = false) (fuel : ℕ) (dt : ℝ) (h : w.step_dt (pdipmEnv 2 H lcp mi collide) fuel dt = .done w')
    (i j k : ℕ) (hi : i < w.bodies.length) (hj : j < w.bodies.length) (hij : i ≠ j) (hp : WeldedBy w.joints i j k)
    (hc : ∀ c ∈ w.contacts, (c.i1 ≠ i ∧ c.i2 ≠ i) ∧ (c.i1 ≠ j ∧ c.i2 ≠ j))
    (hm : 0 < (bodyAt w.bodies i).mass ∧ 0 < (bodyAt w.bodies j).mass) :
    ∃ (fl : List V3) (q : ℕ), forceCat H w.t w.bodies.length = .ok fl ∧ w'.t = w.t + dt / 2 ^ q ∧
      spinOf w' j = spinOf w' i ∧
      (let M := (bodyAt w.bodies i).mass + (bodyAt w.bodies j).mass
       let D := offset w.bodies i j
       pairInertia w.bodies i j * spinOf w' i = pairSpin w.bodies w.v i j + dt * ((fl.getD i 0).r + (fl.getD j 0).r +
        (D.1 * ((bodyAt w.bodies i).mass * (fl.getD j 0).y - (bodyAt w.bodies j).mass * (fl.getD i 0).y) -
         D.2 * ((bodyAt w.bodies i).mass * (fl.getD j 0).x - (bodyAt w.bodies j).mass * (fl.getD i 0).x)) / M)) ∧
      (bodyAt w.bodies i).mass * (twist w'.v i).x + (bodyAt w.bodies j).mass * (twist w'.v j).x =
        (bodyAt w.bodies i).mass * (twist w.v i).x + (bodyAt w.bodies j).mass * (twist w.v j).x +
          dt * ((fl.getD i 0).x + (fl.getD j 0).x) ∧
      (bodyAt w.bodies i).mass * (twist w'.v i).y + (bodyAt w.bodies j).mass * (twist w'.v j).y =
        (bodyAt w.bodies i).mass * (twist w.v i).y + (bodyAt w.bodies j).mass * (twist w.v j).y +
          dt * ((fl.getD i 0).y + (fl.getD j 0).y) ∧
      offset w'.bodies i j = offset w.bodies i j +
        ((w'.t - w.t) * spinOf w' i) • (-(offset w.bodies i j).2, (offset w.bodies i j).1) ∧
      gapSq w'.bodies i j = gapSq w.bodies i j * (1 + ((w'.t - w.t) * spinOf w' i) ^ 2) ∧
      pairSpin w'.bodies w'.v i j = pairInertia w.bodies i j * spinOf w' i ∧
      (bodyAt w'.bodies j).p.r - (bodyAt w'.bodies i).p.r = (bodyAt w.bodies j).p.r - (bodyAt w.bodies i).p.r ∧
      WeldedBy w'.joints i j k := by
  have hst := step_dt_statics hw.good h
  have hp' := welded_wiring hst.2 hp
  have hcon := posed_step hw.good h
  obtain ⟨c1, c2⟩ := posed_consts hcon hi
  obtain ⟨c3, c4⟩ := posed_consts hcon hj
  obtain ⟨e, v, q, w1, w2, hsol, -, rfl, -, ⟨fk, f', cs, -, -, rfl⟩, -, hend⟩ := step_dt_done hw.good h
  obtain ⟨fl, l, pn, a, b, gs, hfl, law⟩ :=
    C38_engine_contact_law H lcp mi w dt e v hw.joints hw.contacts hw.cache.ok hx hsol
  obtain ⟨l1, l2, l3, l4, l5, l6⟩ := weld_law law.dynamics law.joints i j k hi hj hij hp hc (weld_offsets hw.good hp) hm
  rcases hend with ⟨-, hw'⟩ | ⟨hp', -⟩
  swap
  · rw [hps] at hp'; cases hp'
  have ht : w'.t = w.t + dt / 2 ^ q := by rw [hw']
  have hv' : ∀ i, twist w'.v i = twist v i := by intro i; rw [hw']; rfl
  have hbp : ∀ i < w.bodies.length, (bodyAt w'.bodies i).p = (bodyAt w.bodies i).p + (w'.t - w.t) • twist v i := by
    intro i hi
    rw [ht, add_sub_cancel_left, hw']
    show (bodyAt (((({ w with eng := e } : World (Option Mat) φ).set_v v).bodies).map fun b => b.move (dt / 2 ^ q)) i).p =
      (bodyAt w.bodies i).p + (dt / 2 ^ q) • twist v i
    rw [bodyAt_map _ _ _ (by rw [set_v_length]; exact hi), move_p,
      set_v_at ({ w with eng := e } : World (Option Mat) φ) v i hi]
  have hspin : ∀ i, spinOf w' i = (twist v i).r := by intro i; unfold spinOf; rw [hv']
  set d := w'.t - w.t with hd
  set D := offset w.bodies i j with hDd
  have hoff : offset w'.bodies i j = D + (d * (twist v i).r) • (-D.2, D.1) := by
    have d1 : D.1 = (bodyAt w.bodies j).p.x - (bodyAt w.bodies i).p.x := rfl
    have d2 : D.2 = (bodyAt w.bodies j).p.y - (bodyAt w.bodies i).p.y := rfl
    have o1 : (offset w'.bodies i j).1 = (bodyAt w'.bodies j).p.x - (bodyAt w'.bodies i).p.x := rfl
    have o2 : (offset w'.bodies i j).2 = (bodyAt w'.bodies j).p.y - (bodyAt w'.bodies i).p.y := rfl
    apply Prod.ext
    · rw [o1, hbp i hi, hbp j hj]
      simp only [V3.add_x, V3.smul_x, Prod.fst_add, Prod.smul_fst, smul_eq_mul]
      linear_combination d * l2 - d1
    · rw [o2, hbp i hi, hbp j hj]
      simp only [V3.add_y, V3.smul_y, Prod.snd_add, Prod.smul_snd, smul_eq_mul]
      linear_combination d * l3 - d2
  refine ⟨fl, q, hfl, ht, by rw [hspin, hspin, l1], ?_, ?_, ?_, by rw [hspin]; exact hoff, ?_, ?_, ?_, hp'⟩
  · simp only
    rw [hspin, l6]
    simp only [impulse, V3.smul_r, V3.smul_x, V3.smul_y]
    ring
  · rw [hv', hv', l4]
    simp only [impulse, V3.smul_x]
    ring
  · rw [hv', hv', l5]
    simp only [impulse, V3.smul_y]
    ring
  · unfold gapSq
    rw [hoff, hspin, ← hDd]
    simp only [Prod.fst_add, Prod.snd_add, Prod.smul_fst, Prod.smul_snd, smul_eq_mul]
    ring
  · unfold pairSpin pairInertia reducedMass gapSq
    rw [hoff, hspin, hv', hv', c1, c2, c3, c4, l1, l2, l3, ← hDd]
    simp only [Prod.fst_add, Prod.snd_add, Prod.smul_fst, Prod.smul_snd, smul_eq_mul]
    ring
  · rw [hbp i hi, hbp j hj]
    simp only [V3.add_r, V3.smul_r]
    rw [l1]; ring

/-! ## Many steps without forces -/

/-- A run of two bodies fixed to each other. -/
structure WeldRun (H : ForceHeap) (lcp : LcpSolver) (mi : ℕ) (collide : ℝ → φ → List Body → Except Err (φ × List Contact))
    (dt : ℝ) (n : ℕ) (ws : ℕ → World (Option Mat) φ) (i j k : ℕ) : Prop where
  finder : FinderOk collide
  steps : Steps (pdipmEnv 2 H lcp mi collide) dt n ws
  inv : EngineInv (ws 0)
  post : (ws 0).post_stab = false
  first : i < (ws 0).bodies.length
  second : j < (ws 0).bodies.length
  two : i ≠ j
  welded : WeldedBy (ws 0).joints i j k
  clear : ∀ q < n, ∀ c ∈ (ws q).contacts, (c.i1 ≠ i ∧ c.i2 ≠ i) ∧ (c.i1 ≠ j ∧ c.i2 ≠ j)
  heavy : 0 < (bodyAt (ws 0).bodies i).mass ∧ 0 < (bodyAt (ws 0).bodies j).mass

variable {H : ForceHeap} {lcp : LcpSolver} {mi : ℕ} {collide : ℝ → φ → List Body → Except Err (φ × List Contact)}
  {dt : ℝ} {n : ℕ} {ws : ℕ → World (Option Mat) φ} {i j k : ℕ}

theorem WeldRun.at (h : WeldRun H lcp mi collide dt n ws i j k) :
    ∀ q ≤ n, EngineInv (ws q) ∧ (ws q).post_stab = false ∧ (ws q).bodies.length = (ws 0).bodies.length ∧
      WeldedBy (ws q).joints i j k ∧ (bodyAt (ws q).bodies i).mass = (bodyAt (ws 0).bodies i).mass ∧
      (bodyAt (ws q).bodies j).mass = (bodyAt (ws 0).bodies j).mass ∧
      (bodyAt (ws q).bodies i).ang_inertia = (bodyAt (ws 0).bodies i).ang_inertia ∧
      (bodyAt (ws q).bodies j).ang_inertia = (bodyAt (ws 0).bodies j).ang_inertia := by
  intro q
  induction q with
  | zero => intro _; exact ⟨h.inv, h.post, rfl, h.welded, rfl, rfl, rfl, rfl⟩
  | succ q ih =>
    intro hq
    obtain ⟨i1, i2, i3, i4, i5, i6, i7, i8⟩ := ih (by omega)
    obtain ⟨fuel, hs⟩ := h.steps q (by omega)
    have hpar := step_dt_params i1.good hs
    have hc1 := posed_consts (posed_step i1.good hs) (i := i) (by rw [i3]; exact h.first)
    have hc2 := posed_consts (posed_step i1.good hs) (i := j) (by rw [i3]; exact h.second)
    refine ⟨step_inv h.finder i1 hs, by rw [hpar.2.2.2.1]; exact i2, by rw [hpar.2.2.2.2.2.1]; exact i3,
      welded_wiring (step_dt_statics i1.good hs).2 i4, hc1.1.trans i5, hc2.1.trans i6, hc1.2.trans i7, hc2.2.trans i8⟩

/-- C106: without forces the angular momentum of the pair is conserved, and the square of the distance is multiplied in every
step by `1 + δ²`, where `δ` is the angle turned. -/
theorem C106_separates (H : ForceHeap) (lcp : LcpSolver) (hx : Exact lcp) (mi : ℕ)
    (collide : ℝ → φ → List Body → Except Err (φ × List Contact)) (dt : ℝ) (n : ℕ) (ws : ℕ → World (Option Mat) φ) (i j k : ℕ)
    (h : WeldRun H lcp mi collide dt n ws i j k) (hfi : ForceFree H (ws 0).bodies.length i)
    (hfj : ForceFree H (ws 0).bodies.length j) :
    ∀ q < n, pairSpin (ws (q + 1)).bodies (ws (q + 1)).v i j = pairSpin (ws 0).bodies (ws 0).v i j ∧
      pairInertia (ws q).bodies i j * spinOf (ws (q + 1)) i = pairSpin (ws 0).bodies (ws 0).v i j ∧
      spinOf (ws (q + 1)) j = spinOf (ws (q + 1)) i ∧
      gapSq (ws (q + 1)).bodies i j = gapSq (ws q).bodies i j * (1 + (spinOf (ws (q + 1)) i * ((ws (q + 1)).t - (ws q).t)) ^ 2) := by
  intro q
  induction q with
  | zero =>
    intro hq
    obtain ⟨i1, i2, i3, i4, i5, i6, -, -⟩ := h.at 0 (by omega)
    obtain ⟨fuel, hs⟩ := h.steps 0 hq
    obtain ⟨fl, e, hfl, -, hsp, hω, -, -, -, hgap, hL, -⟩ := C106_step H lcp hx mi collide _ _ i1 i2 fuel dt hs i j k
      h.first h.second h.two i4 (h.clear 0 hq) h.heavy
    simp only [hfi _ _ hfl, hfj _ _ hfl, V3.zero_r, V3.zero_x, V3.zero_y, mul_zero, sub_zero, zero_div, add_zero] at hω
    exact ⟨hL.trans hω, hω, hsp, by rw [hgap, mul_comm (spinOf _ _)]⟩
  | succ q ih =>
    intro hq
    obtain ⟨j1, -⟩ := ih (by omega)
    obtain ⟨i1, i2, i3, i4, i5, i6, -, -⟩ := h.at (q + 1) (by omega)
    obtain ⟨fuel, hs⟩ := h.steps (q + 1) hq
    obtain ⟨fl, e, hfl, -, hsp, hω, -, -, -, hgap, hL, -⟩ := C106_step H lcp hx mi collide _ _ i1 i2 fuel dt hs i j k
      (by rw [i3]; exact h.first) (by rw [i3]; exact h.second) h.two i4 (h.clear (q + 1) hq) (by rw [i5, i6]; exact h.heavy)
    rw [i3] at hfl
    simp only [hfi _ _ hfl, hfj _ _ hfl, V3.zero_r, V3.zero_x, V3.zero_y, mul_zero, sub_zero, zero_div, add_zero] at hω
    rw [j1] at hω
    exact ⟨hL.trans hω, hω, hsp, by rw [hgap, mul_comm (spinOf _ _)]⟩

theorem WeldRun.inertia (h : WeldRun H lcp mi collide dt n ws i j k) {q : ℕ} (hq : q ≤ n) :
    pairInertia (ws q).bodies i j = (bodyAt (ws 0).bodies i).ang_inertia + (bodyAt (ws 0).bodies j).ang_inertia +
      reducedMass (ws 0).bodies i j * gapSq (ws q).bodies i j := by
  obtain ⟨-, -, -, -, i5, i6, i7, i8⟩ := h.at q hq
  unfold pairInertia reducedMass
  rw [i5, i6, i7, i8]

/-- C106: after `n` steps of full length the distance is at least `(1 + 2 n δ²)^(1/4)` times that at the start, where `δ` is
the angle turned in the first step. -/
theorem C106_distance (H : ForceHeap) (lcp : LcpSolver) (hx : Exact lcp) (mi : ℕ)
    (collide : ℝ → φ → List Body → Except Err (φ × List Contact)) (dt : ℝ) (n : ℕ) (ws : ℕ → World (Option Mat) φ) (i j k : ℕ)
    (h : WeldRun H lcp mi collide dt n ws i j k) (hfi : ForceFree H (ws 0).bodies.length i)
    (hfj : ForceFree H (ws 0).bodies.length j)
    (hI : 0 < (bodyAt (ws 0).bodies i).ang_inertia ∧ 0 < (bodyAt (ws 0).bodies j).ang_inertia)
    (ht : ∀ q < n, (ws (q + 1)).t = (ws q).t + dt) (hg : 0 < gapSq (ws 0).bodies i j) (hn : 0 < n) :
    gapSq (ws 0).bodies i j ^ 2 * (1 + 2 * n * (spinOf (ws 1) i * dt) ^ 2) ≤ gapSq (ws n).bodies i j ^ 2 := by
  have hsep := C106_separates H lcp hx mi collide dt n ws i j k h hfi hfj
  have hμ : 0 < reducedMass (ws 0).bodies i j := by
    obtain ⟨h1, h2⟩ := h.heavy
    unfold reducedMass; positivity
  have key := (weld_far (L := pairSpin (ws 0).bodies (ws 0).v i j) (d := dt) (add_pos hI.1 hI.2) hμ
    (R := fun q => gapSq (ws q).bodies i j) (ω := fun q => spinOf (ws q) i) (N := n) hg
    (fun q hq => by rw [← h.inertia hq.le]; exact (hsep q hq).2.1)
    (fun q hq => by
      have := (hsep q hq).2.2.2
      rw [ht q hq, add_sub_cancel_left] at this
      exact this) n le_rfl).2
  have e := (hsep 0 hn).2.1
  rw [h.inertia (by omega)] at e
  have hpos : 0 < (bodyAt (ws 0).bodies i).ang_inertia + (bodyAt (ws 0).bodies j).ang_inertia +
      reducedMass (ws 0).bodies i j * gapSq (ws 0).bodies i j := add_pos (add_pos hI.1 hI.2) (mul_pos hμ hg)
  rw [← e, mul_div_cancel_left₀ _ hpos.ne'] at key
  exact key

/-- C106: two turning bodies that are fixed to each other drift apart beyond all bounds, and stop turning. -/
theorem C106_apart (H : ForceHeap) (lcp : LcpSolver) (hx : Exact lcp) (mi : ℕ)
    (collide : ℝ → φ → List Body → Except Err (φ × List Contact)) (dt : ℝ) (hdt : 0 < dt) (ws : ℕ → World (Option Mat) φ)
    (i j k : ℕ) (h : ∀ n, WeldRun H lcp mi collide dt n ws i j k) (hfi : ForceFree H (ws 0).bodies.length i)
    (hfj : ForceFree H (ws 0).bodies.length j)
    (hI : 0 < (bodyAt (ws 0).bodies i).ang_inertia ∧ 0 < (bodyAt (ws 0).bodies j).ang_inertia)
    (ht : ∀ q, (ws (q + 1)).t = (ws q).t + dt) (hg : 0 < gapSq (ws 0).bodies i j)
    (hL : pairSpin (ws 0).bodies (ws 0).v i j ≠ 0) :
    Tendsto (fun n => gapSq (ws n).bodies i j) atTop atTop ∧ Tendsto (fun n => spinOf (ws n) i) atTop (𝓝 0) := by
  have hsep := fun q => C106_separates H lcp hx mi collide dt (q + 1) ws i j k (h _) hfi hfj q (by omega)
  have hμ : 0 < reducedMass (ws 0).bodies i j := by
    obtain ⟨h1, h2⟩ := (h 0).heavy
    unfold reducedMass; positivity
  exact weld_limits (L := pairSpin (ws 0).bodies (ws 0).v i j) (add_pos hI.1 hI.2) hμ hL hdt
    (R := fun q => gapSq (ws q).bodies i j) (ω := fun q => spinOf (ws q) i) hg
    (fun q => by rw [← (h q).inertia le_rfl]; exact (hsep q).2.1)
    (fun q => by
      have := (hsep q).2.2.2
      rw [ht q, add_sub_cancel_left] at this
      exact this)

/-! ## The library's world -/

/-- C106: the run exists, for as long as one likes, in steps of full length: two bodies fixed to each other, which were told to
ignore each other's touch. -/
theorem C106_runs (H : ForceHeap) (hH : ∀ t, ∃ fl, forceCat H t 2 = .ok fl) (lcp : LcpSolver) (mi cfuel : ℕ) (nc : ℕ → List ℕ)
    (h0 : 0 ∈ nc 1) (h1 : 1 ∈ nc 0) (pairs : List Body → List (ℕ × ℕ))
    (hpv : ∀ bs, ∀ p ∈ pairs bs, p.1 < bs.length ∧ p.2 < bs.length ∧ p.1 ≠ p.2) (fnd : Finder) (b1 b2 : Body)
    (hb : b1.RectForm ∧ b2.RectForm) (hm1 : 0 < b1.mass ∧ 0 < b1.ang_inertia) (hm2 : 0 < b2.mass ∧ 0 < b2.ang_inertia)
    (dt eps tol : ℝ) (strict : Bool) :
    ∃ ws : ℕ → World (Option Mat) Finder,
      mkWorld (loneEnv H lcp mi cfuel nc pairs) none fnd [b1, b2] [mkFixedJoint [b1, b2] 0 1] dt eps tol false strict =
        .done (ws 0) ∧
      (∀ n, WeldRun H lcp mi (rejectNan (diffCollide cfuel nc pairs)) dt n ws 0 1 0) ∧
      (∀ n, (ws (n + 1)).t = (ws n).t + dt) ∧ (ws 0).bodies = [b1, b2] ∧ (ws 0).v = cat3 [b1.v, b2.v] := by
  have hbs : ∀ i < 2, bodyAt [b1, b2] i = if i = 0 then b1 else b2 := by
    intro i hi
    rcases (by omega : i = 0 ∨ i = 1) with rfl | rfl <;> rfl
  obtain ⟨ws, q1, q2, q3, q4, -, q6⟩ := quiet_runs (H := H) (lcp := lcp) (mi := mi) (C12_finder_ok cfuel nc pairs hpv) fnd
    [b1, b2] hH (by simp) (by simpa using hb) (fun eps f bs hl => pair_silent cfuel h0 h1 hpv eps f bs hl)
    (by
      intro i hi
      rw [hbs i (by simpa using hi)]
      split_ifs
      · exact hm1
      · exact hm2) [mkFixedJoint [b1, b2] 0 1]
    (by
      intro j hj
      rw [List.mem_singleton] at hj
      subst hj
      exact (C28_constructors_fix [b1, b2] 0 none 1 0).2.1)
    (by
      intro j hj
      rw [List.mem_singleton] at hj
      subst hj
      simp [mkFixedJoint])
    (by
      intro j hj
      rw [List.mem_singleton] at hj
      subst hj
      simp [mkFixedJoint])
    (by
      intro k hk
      have : k = 0 := by simpa using hk
      subst this
      exact ⟨_, Or.inl rfl, fun c _ k' hk' => absurd hk' (by omega)⟩) dt eps tol strict
  refine ⟨ws, q1, fun n => ⟨C12_finder_ok cfuel nc pairs hpv, fun q _ => ⟨1, (q6 q).1⟩, (q6 0).2.1.inv, (q6 0).2.1.post,
    by rw [q2]; simp, by rw [q2]; simp, by norm_num, ?_, fun q _ c hc => ?_, by rw [q2]; exact ⟨hm1.1, hm2.1⟩⟩,
    fun n => (q6 n).2.2, q2, q4⟩
  · rw [q3]
    refine ⟨⟨_, rfl, rfl, rfl, rfl⟩, ?_⟩
    intro q J hq hne
    rcases q with _ | q
    · exact absurd rfl hne
    · simp at hq
  · rw [(q6 q).2.1.clear] at hc; simp at hc

/-- C106: two bodies of the library, fixed to each other and turning, without any force: the distance of their centres exceeds
every bound, and the rotation dies out. -/
theorem C106_spinner (lcp : LcpSolver) (hx : Exact lcp) (mi cfuel : ℕ) (nc : ℕ → List ℕ)
    (h0 : 0 ∈ nc 1) (h1 : 1 ∈ nc 0) (pairs : List Body → List (ℕ × ℕ))
    (hpv : ∀ bs, ∀ p ∈ pairs bs, p.1 < bs.length ∧ p.2 < bs.length ∧ p.1 ≠ p.2) (fnd : Finder) (b1 b2 : Body)
    (hb : b1.RectForm ∧ b2.RectForm) (hm1 : 0 < b1.mass ∧ 0 < b1.ang_inertia) (hm2 : 0 < b2.mass ∧ 0 < b2.ang_inertia)
    (hne : b1.pos ≠ b2.pos) (hL : pairSpin [b1, b2] (cat3 [b1.v, b2.v]) 0 1 ≠ 0) (dt eps tol : ℝ) (hdt : 0 < dt) (strict : Bool) :
    ∃ ws : ℕ → World (Option Mat) Finder,
      mkWorld (loneEnv noForces lcp mi cfuel nc pairs) none fnd [b1, b2] [mkFixedJoint [b1, b2] 0 1] dt eps tol false strict =
        .done (ws 0) ∧
      (∀ n, Steps (loneEnv noForces lcp mi cfuel nc pairs) dt n ws) ∧
      (∀ n, pairInertia (ws n).bodies 0 1 * spinOf (ws (n + 1)) 0 = pairSpin [b1, b2] (cat3 [b1.v, b2.v]) 0 1) ∧
      (∀ n, gapSq (ws (n + 1)).bodies 0 1 = gapSq (ws n).bodies 0 1 * (1 + (spinOf (ws (n + 1)) 0 * dt) ^ 2)) ∧
      (∀ n : ℕ, 0 < n → gapSq (ws 0).bodies 0 1 ^ 2 * (1 + 2 * n * (spinOf (ws 1) 0 * dt) ^ 2) ≤ gapSq (ws n).bodies 0 1 ^ 2) ∧
      Tendsto (fun n => gapSq (ws n).bodies 0 1) atTop atTop ∧ Tendsto (fun n => spinOf (ws n) 0) atTop (𝓝 0) := by
  obtain ⟨ws, e1, e2, e3, e4, e5⟩ := C106_runs noForces (fun t => ⟨_, noForces_cat t 2⟩) lcp mi cfuel nc h0 h1 pairs hpv fnd b1 b2
    hb hm1 hm2 dt eps tol strict
  have hff : ∀ i, ForceFree noForces (ws 0).bodies.length i := by
    intro i t fl hfl
    rw [noForces_cat] at hfl
    injection hfl with hfl
    rw [← hfl, e4]
    rcases i with _ | _ | i <;> simp
  have hI : 0 < (bodyAt (ws 0).bodies 0).ang_inertia ∧ 0 < (bodyAt (ws 0).bodies 1).ang_inertia := by
    rw [e4]; exact ⟨hm1.2, hm2.2⟩
  have hg : 0 < gapSq (ws 0).bodies 0 1 := by
    rw [e4]
    unfold gapSq
    have hD : offset [b1, b2] 0 1 ≠ 0 := sub_ne_zero.2 hne.symm
    refine lt_of_le_of_ne (by positivity) fun hcon => hD ?_
    exact Prod.ext (squares_zero.1 hcon.symm).1 (squares_zero.1 hcon.symm).2
  have hsep := fun n => C106_separates noForces lcp hx mi _ dt (n + 1) ws 0 1 0 (e2 _) (hff 0) (hff 1) n (by omega)
  have hap := C106_apart noForces lcp hx mi _ dt hdt ws 0 1 0 e2 (hff 0) (hff 1) hI e3 hg (by rw [e4, e5]; exact hL)
  refine ⟨ws, e1, fun n => (e2 n).steps, fun n => ?_, fun n => ?_, fun n hn => ?_, hap.1, hap.2⟩
  · rw [(hsep n).2.1, e4, e5]
  · have := (hsep n).2.2.2
    rwa [e3 n, add_sub_cancel_left] at this
  · exact C106_distance noForces lcp hx mi _ dt n ws 0 1 0 (e2 n) (hff 0) (hff 1) hI (fun q _ => e3 q) hg hn

/-! ## Examples -/

/-- The squares of demos/fixed_joint_demo.py:21-27, turning about their common centre. -/
def weldLeft : Body := rectBase (.two (120, 100)) (60, 60) { vel := .three ⟨1, 0, -20⟩ }

/-- The other square. -/
def weldRight : Body := rectBase (.two (160, 100)) (60, 60) { vel := .three ⟨1, 0, 20⟩ }

example : mkRect (.two (120, 100)) (60, 60) { vel := .three ⟨1, 0, -20⟩ } = .ok weldLeft ∧
    mkRect (.two (160, 100)) (60, 60) { vel := .three ⟨1, 0, 20⟩ } = .ok weldRight :=
  ⟨mkRect_eq _ _ _ (by norm_num), mkRect_eq _ _ _ (by norm_num)⟩

/-- Two squares that turn once in 2π seconds, in steps of a thirtieth of a second, each having called `add_no_contact`: the
hypotheses of the step, of the recursion, of the bound and of the limits hold. -/
example (mi cfuel : ℕ) (fnd : Finder) :
    ∃ ws : ℕ → World (Option Mat) Finder,
      mkWorld (loneEnv noForces exactLcp mi cfuel (addNoContact (fun _ => []) 1 0) (bouncePairs true)) none fnd [weldLeft, weldRight]
        [mkFixedJoint [weldLeft, weldRight] 0 1] (1 / 30) (1 / 10) (1 / 1000) false true = .done (ws 0) ∧
      spinOf (ws 1) 0 = 1 ∧ gapSq (ws 0).bodies 0 1 = 1600 ∧ gapSq (ws 1).bodies 0 1 = 1600 * (1 + 1 / 900) ∧
      (∀ n : ℕ, 0 < n → 1600 ^ 2 * (1 + n / 450) ≤ gapSq (ws n).bodies 0 1 ^ 2) ∧
      Tendsto (fun n => gapSq (ws n).bodies 0 1) atTop atTop ∧ Tendsto (fun n => spinOf (ws n) 0) atTop (𝓝 0) := by
  have hL : pairSpin [weldLeft, weldRight] (cat3 [weldLeft.v, weldRight.v]) 0 1 = 2000 := by
    have t0 : twist (cat3 [weldLeft.v, weldRight.v]) 0 = weldLeft.v := by
      simpa [twist, slice3] using cat3_slice [weldLeft.v, weldRight.v] 0 (by simp)
    have t1 : twist (cat3 [weldLeft.v, weldRight.v]) 1 = weldRight.v := by
      simpa [twist, slice3] using cat3_slice [weldLeft.v, weldRight.v] 1 (by simp)
    unfold pairSpin
    rw [t0, t1]
    norm_num [bodyAt, offset, reducedMass, weldLeft, weldRight, rectBase, rectInertia, Body.pos, Arg.toV3, V3.xy]
  have hm : ∀ b ∈ [weldLeft, weldRight], 0 < b.mass ∧ 0 < b.ang_inertia := by
    intro b hb
    simp only [List.mem_cons, List.not_mem_nil, or_false] at hb
    rcases hb with rfl | rfl <;> norm_num [weldLeft, weldRight, rectBase, rectInertia]
  obtain ⟨ws, e1, e2, e3, e4, e5, e6, e7⟩ := C106_spinner exactLcp exactLcp_exact mi cfuel (addNoContact (fun _ => []) 1 0)
    (by simp [addNoContact]) (by simp [addNoContact]) (bouncePairs true) (bouncePairs_valid true) fnd weldLeft weldRight
    ⟨rectBase_rectForm _ _ _, rectBase_rectForm _ _ _⟩
    (hm _ (by simp)) (hm _ (by simp))
    (by norm_num [weldLeft, weldRight, rectBase, Body.pos, Arg.toV3, V3.xy]) (by rw [hL]; norm_num) (1 / 30) (1 / 10) (1 / 1000)
    (by norm_num) true
  have hbs : (ws 0).bodies = [weldLeft, weldRight] := by
    exact (mkWorld_done (C12_finder_ok cfuel _ _ (bouncePairs_valid true)) (by
      intro b hb
      simp only [List.mem_cons, List.not_mem_nil, or_false] at hb
      rcases hb with rfl | rfl <;> exact rectBase_rectForm _ _ _) (by
      intro j hj
      rw [List.mem_singleton] at hj
      subst hj
      exact (C28_constructors_fix [weldLeft, weldRight] 0 none 1 0).2.1) (by
      intro j hj
      rw [List.mem_singleton] at hj
      subst hj
      simp [mkFixedJoint]) e1).2.1
  have hg : gapSq (ws 0).bodies 0 1 = 1600 := by
    rw [hbs]
    norm_num [gapSq, bodyAt, offset, weldLeft, weldRight, rectBase, Body.pos, Arg.toV3, V3.xy]
  have hω : spinOf (ws 1) 0 = 1 := by
    have := e3 0
    rw [hL] at this
    unfold pairInertia at this
    rw [hg, hbs] at this
    norm_num [bodyAt, reducedMass, weldLeft, weldRight, rectBase, rectInertia] at this
    linarith
  refine ⟨ws, e1, hω, hg, ?_, fun n hn => ?_, e6, e7⟩
  · rw [e4 0, hg, hω]; norm_num
  · have := e5 n hn
    rw [hg, hω] at this
    calc (1600 : ℝ) ^ 2 * (1 + n / 450) = 1600 ^ 2 * (1 + 2 * n * (1 * (1 / 30)) ^ 2) := by ring
      _ ≤ _ := this

end LcpPhysics
