import Verif.Props.Weld
import Verif.Props.InferenceRun
import Verif.Lemmas.HalfStab

/-!
# C111: why the stabilisation applies one half of its displacement

`World.step_dt` divides the displacement of `post_stabilization` by two before it moves the bodies along it ("XXX Why 1/2
factor?", world.py:109-110). For a body on a pivot the half turns the step into the trapezoidal rule, which leaves a drift of the
third order; every other part of the displacement leaves one of the second order, as the step without stabilisation does.
-/

noncomputable section

namespace LcpPhysics
open Spec Filter Topology

variable {φ : Type}

/-! ## One step with the stabilisation -/

/-- The contact search, among `N` bodies, never reports a contact of body `i`. -/
def NeverTouched (collide : ℝ → φ → List Body → Except Err (φ × List Contact)) (N i : ℕ) : Prop :=
  ∀ eps f bs f' cs, bs.length = N → collide eps f bs = .ok (f', cs) → ∀ c ∈ cs, c.i1 ≠ i ∧ c.i2 ≠ i

theorem momentumPower_add_right (bs : List Body) (u v w : Vec) :
    momentumPower bs u (v + w) = momentumPower bs u v + momentumPower bs u w := by
  unfold momentumPower
  rw [← Finset.sum_add_distrib]
  refine Finset.sum_congr rfl fun i _ => ?_
  simp only [twist, Pi.add_apply]
  ring

theorem forcePower_none (n : ℕ) (u : Vec) : forcePower n (fun _ => 0) u = 0 := by
  unfold forcePower
  refine Finset.sum_eq_zero fun i _ => ?_
  simp

/-- What the two solves of a step with stabilisation say. -/
theorem stab_step_laws {H : ForceHeap} {lcp : LcpSolver} (hx : Exact lcp) {mi : ℕ}
    {collide : ℝ → φ → List Body → Except Err (φ × List Contact)} (hf : FinderOk collide) {w w' : World (Option Mat) φ}
    (hw : EngineInv w) (hp : w.post_stab = true) {fuel : ℕ} {dt : ℝ}
    (h : w.step_dt (pdipmEnv 2 H lcp mi collide) fuel dt = .done w') :
    ∃ (fl : List V3) (e : Option Mat) (v dp : Vec) (q : ℕ) (s : ℝ) (fk f' : φ) (cs : List Contact) (l l2 : Vec)
      (pn a b g pn2 : ℕ → ℝ),
      forceCat H w.t w.bodies.length = .ok fl ∧ w'.t = w.t + dt / 2 ^ q ∧ w'.v = v ∧
      ContactLaw w.bodies w.joints w.contacts (impulse fl dt) w.v v l pn a b g ∧
      (let w2 := (({ w with eng := e } : World (Option Mat) φ).set_v v).accepted (dt / 2 ^ q) s f' cs
       w2.Good ∧ collide w.eps fk w2.bodies = .ok (f', cs) ∧
       (∀ u, momentumPower w2.bodies u (dp + v) = momentumPower w2.bodies u v + forcePower w2.bodies.length (fun _ => 0) u +
        jointPower w2.joints l2 u + contactPower cs pn2 (fun _ => 0) u) ∧
       (∀ r ∈ jointVels w2.joints (dp + v), r = 0) ∧
       (∀ i < w.bodies.length, (bodyAt w2.bodies i).p = (bodyAt w.bodies i).p + (dt / 2 ^ q) • twist v i) ∧
       (∀ i < w.bodies.length, (bodyAt w2.bodies i).mass = (bodyAt w.bodies i).mass ∧
        (bodyAt w2.bodies i).ang_inertia = (bodyAt w.bodies i).ang_inertia) ∧
       w2.bodies.length = w.bodies.length ∧ w2.joints.map Joint.wiring = w.joints.map Joint.wiring ∧
       ∀ i < w.bodies.length, (bodyAt w'.bodies i).p = (bodyAt w2.bodies i).p + (dt / 2 ^ q / 2) • twist dp i) := by
  obtain ⟨e, v, q, w1, w2, hsol, -, hw1, hg1, ⟨fk, f', cs, hcs, -, hw2⟩, -, hend⟩ := step_dt_done hw.good h
  obtain ⟨fl, l, pn, a, b, gs, hfl, law⟩ :=
    C38_engine_contact_law H lcp mi w dt e v hw.joints hw.contacts hw.cache.ok hx hsol
  rcases hend with ⟨hp', -⟩ | ⟨-, dp, f2, cs2, hdp, w3, hw3, -, hw'⟩
  · rw [hp] at hp'; cases hp'
  have hs2 : SameStatics w w2 := by
    rw [hw2, hw1]
    exact (sameStatics_set_v w v e).trans (sameStatics_accepted _ _ _ _ _)
  have hj2 : JointsOk w2 := jointsOk_congr hs2 hw.joints
  have hc2 : ContactsOk w2 := by
    intro c hc
    subst hw2
    exact hf _ _ _ _ _ hcs c hc
  have he2 : w2.eng = e := by rw [hw2, hw1]; rfl
  have hv2 : w2.v = v := by rw [hw2, hw1]; rfl
  have hcs2 : w2.contacts = cs := by rw [hw2]; rfl
  have hcache2 : CacheInv w2 := by
    apply solve_cacheInv hs2 hw.cache
    rw [he2]; exact hsol
  obtain ⟨l2, pn2, hlaw2⟩ := C62_post_stab_law lcp w2 dp hj2 hc2 hcache2.ok hx hdp
  rw [hv2, hcs2] at hlaw2
  have hg2 : w2.Good := by rw [hw2]; exact good_accepted hg1 _ _ _ _
  have hlen2 : w2.bodies.length = w.bodies.length := by
    rw [hw2, hw1]; simp [World.accepted, World.set_v]
  have hb2 : ∀ i < w.bodies.length, bodyAt w2.bodies i = ({ bodyAt w.bodies i with v := twist v i } : Body).move (dt / 2 ^ q) := by
    intro i hi
    rw [hw2, hw1, accepted_at _ _ _ _ _ _ (by rw [set_v_length]; exact hi),
      set_v_at ({ w with eng := e } : World (Option Mat) φ) v i hi]
  refine ⟨fl, e, v, dp, q, 2 * (dt - dt / 2 ^ q), fk, f', cs, l, l2, pn, a, b, gs, pn2, hfl, by rw [hw'], by rw [hw', hw3]; rfl, law, ?_⟩
  intro w2'
  have e2 : w2' = w2 := by rw [hw2, hw1]
  rw [e2]
  refine ⟨hg2, ?_, fun u => ?_, hlaw2.joints, fun i hi => ?_, fun i hi => ?_, hlen2, hs2.2, fun i hi => ?_⟩
  · rw [hw2]; exact hcs
  · rw [momentumPower_add_right, forcePower_none, hlaw2.dynamics u]; ring
  · rw [hb2 i hi, move_p]
  · rw [hb2 i hi]
    have := move_consts ({ bodyAt w.bodies i with v := twist v i } : Body) (dt / 2 ^ q)
    simp only [Body.consts, Prod.mk.injEq] at this
    exact ⟨this.1, this.2.1⟩
  · have hst : w3 = w2.stabbed v dp (dt / 2 ^ q) := hw3
    have : w'.bodies = (w2.stabbed v dp (dt / 2 ^ q)).bodies := by rw [hw', hst]
    rw [this, stabbed_at _ _ _ _ _ (by rw [hlen2]; exact hi)]
    have hh : twist (fun k => dp k / 2) i = (1 / 2 : ℝ) • twist dp i := by
      apply V3.ext <;> simp [twist] <;> ring
    simp only [move_p]
    rw [hh]
    apply V3.ext <;> simp <;> ring

/-- The arm of a pivot turns with the body. -/
theorem arm_turned {w w2 : World (Option Mat) φ} (hg : w.Good) (hg2 : w2.Good) {i k : ℕ} (hpin : PinnedBy w.joints i k)
    (hk : k < w.joints.length) (hk2 : k < w2.joints.length)
    (hsa : SameAnchor w.bodies w2.bodies w.joints[k] w2.joints[k]) (hpin2 : PinnedBy w2.joints i k) :
    armOf w2 i k = rot ((bodyAt w2.bodies i).p.r - (bodyAt w.bodies i).p.r) (armOf w i k) := by
  rw [← arm_pos1 hg2 hpin2 _ (List.getElem?_eq_getElem hk2), ← arm_pos1 hg hpin _ (List.getElem?_eq_getElem hk)]
  obtain ⟨⟨j, hj, hkind, hi1, hi2⟩, -⟩ := hpin
  rw [List.getElem?_eq_getElem hk] at hj
  injection hj with hj
  rw [← hj] at hkind hi1
  have f := hg.fix _ (List.getElem_mem hk)
  have f' := hg2.fix _ (List.getElem_mem hk2)
  have key : ∀ (j : Joint) (bs : List Body), j.kind = .revolute → j.update_pos bs = j → j.pos1 = polar_to_cart j.r1 j.rot1 := by
    intro j bs hk hf
    rw [← hf]
    simp [Joint.update_pos, hk]
  have a1 := key _ _ hkind f
  have b1 := key _ _ (by rw [hsa.kind]; exact hkind) f'
  have hrot := hsa.rot (Or.inl hkind)
  rw [hi1] at hrot
  rw [b1, a1, hsa.r1, ← polar_shift]
  congr 1; linarith

theorem sameAnchor_accepted {w : World (Option Mat) φ} (hg : w.Good) (e : Option Mat) (v : Vec) (d s : ℝ) (f : φ)
    (cs : List Contact) (k : ℕ) (hk : k < w.joints.length) :
    ∃ hk2 : k < ((({ w with eng := e } : World (Option Mat) φ).set_v v).accepted d s f cs).joints.length,
      SameAnchor w.bodies ((({ w with eng := e } : World (Option Mat) φ).set_v v).accepted d s f cs).bodies w.joints[k]
        ((({ w with eng := e } : World (Option Mat) φ).set_v v).accepted d s f cs).joints[k] := by
  set w1 := ({ w with eng := e } : World (Option Mat) φ).set_v v with hw1
  have hk2 : k < (w1.accepted d s f cs).joints.length := by simpa [World.accepted, World.set_v, hw1] using hk
  refine ⟨hk2, ?_⟩
  have hval := hg.valid _ (List.getElem_mem hk)
  have hlen : w1.bodies.length = w.bodies.length := by rw [hw1]; exact set_v_length _ _
  have e1 : SameAnchor w.bodies w1.bodies w.joints[k] (w.joints[k].drift w1.bodies s) := by
    obtain ⟨a1, a2, a3, a4, a5⟩ := drift_static_fields w.joints[k] w1.bodies s
    refine ⟨a1, a2, a3, a4, fun _ => ?_⟩
    rw [a5, hw1]
    exact congrArg (fun p : V3 => w.joints[k].rot1 - p.r) (bodyAt_set_v_p _ v _)
  refine e1.trans ?_
  have hj : (w1.accepted d s f cs).joints[k] = ((w.joints[k]).drift w1.bodies s).move (w1.bodies.map fun b => b.move d) d := by
    simp only [World.accepted, List.getElem_map]
    rfl
  have hb : (w1.accepted d s f cs).bodies = w1.bodies.map fun b => b.move d := rfl
  rw [hj, hb]
  apply sameAnchor_move
  rw [(drift_idx _ _ _).1, hlen]
  exact hval.1

/-- C111: the step with stabilisation of a body on a pivot. The velocity is that of the step without it; the body is moved
along the mean of that velocity and of the one that turns it about the pivot where the first move has put it. -/
theorem C111_step (H : ForceHeap) (lcp : LcpSolver) (hx : Exact lcp) (mi : ℕ)
    (collide : ℝ → φ → List Body → Except Err (φ × List Contact)) (hf : FinderOk collide) (w w' : World (Option Mat) φ)
    (hw : EngineInv w) (hp : w.post_stab = true) (fuel : ℕ) (dt : ℝ)
    (h : w.step_dt (pdipmEnv 2 H lcp mi collide) fuel dt = .done w') (i k : ℕ) (hi : i < w.bodies.length)
    (hpin : PinnedBy w.joints i k) (hc : ∀ c ∈ w.contacts, c.i1 ≠ i ∧ c.i2 ≠ i) (hn : NeverTouched collide w.bodies.length i)
    (hm : 0 < (bodyAt w.bodies i).mass ∧ 0 < (bodyAt w.bodies i).ang_inertia) :
    ∃ (fl : List V3) (q : ℕ) (ω' : ℝ), forceCat H w.t w.bodies.length = .ok fl ∧ w'.t = w.t + dt / 2 ^ q ∧
      (let A := armOf w i k
       let κ := pivotShare (bodyAt w.bodies i).mass (bodyAt w.bodies i).ang_inertia A
       let δ := ω' * (w'.t - w.t)
       ((bodyAt w.bodies i).ang_inertia + (bodyAt w.bodies i).mass * (A.1 ^ 2 + A.2 ^ 2)) * ω' =
        (bodyAt w.bodies i).ang_inertia * (twist w.v i).r +
        (bodyAt w.bodies i).mass * (A.2 * (twist w.v i).x - A.1 * (twist w.v i).y) +
        dt * ((fl.getD i 0).r + A.2 * (fl.getD i 0).x - A.1 * (fl.getD i 0).y) ∧
       twist w'.v i = turnAbout A ω' ∧
       armOf w' i k = rot (stabTurn κ (1 / 2) δ) A ∧
       pivotAt w' k - pivotAt w k = (stabDrift κ (1 / 2) δ).1 • A + (stabDrift κ (1 / 2) δ).2 • (-A.2, A.1) ∧
       PinnedBy w'.joints i k) := by
  have hst := step_dt_statics hw.good h
  have hreach : Reaches (pdipmEnv 2 H lcp mi collide) w w' := Relation.ReflTransGen.single ⟨fuel, dt, h⟩
  have hpin' := pinned_wiring hst.2 hpin
  obtain ⟨fl, e, v, dp, q, s, fk, f', cs, l, l2, pn, a, b, g, pn2, hfl, ht, hv, law, hg2, hcol, hdyn2, hjnt2, hp2, hcons2, hlen2,
    hwir2, hp'⟩ := stab_step_laws hx hf hw hp h
  set w2 := (({ w with eng := e } : World (Option Mat) φ).set_v v).accepted (dt / 2 ^ q) s f' cs with hw2
  have hvel := pivot_law law.dynamics law.joints i k hi hpin hc (arm_pos1 hw.good hpin) hm
  have hpin2 := pinned_wiring hwir2 hpin
  have hvel2 := pivot_law hdyn2 hjnt2 i k (by rw [hlen2]; exact hi) hpin2 (hn _ _ _ _ _ hlen2 hcol) (arm_pos1 hg2 hpin2)
    (by rw [(hcons2 i hi).1, (hcons2 i hi).2]; exact hm)
  rw [(hcons2 i hi).1, (hcons2 i hi).2] at hvel2
  have hklt : k < w.joints.length := by
    obtain ⟨⟨j, hj, -⟩, -⟩ := hpin
    exact (List.getElem?_eq_some_iff.1 hj).1
  obtain ⟨hk2, hsa⟩ := sameAnchor_accepted hw.good e v (dt / 2 ^ q) s f' cs k hklt
  have harm2 := arm_turned hw.good hg2 hpin hklt hk2 hsa hpin2
  obtain ⟨hk', hsa'⟩ := reaches_sameAnchor hw.good hreach k hklt
  have harm' := arm_turned hw.good (C30_good_invariant _ w w' hw.good hreach) hpin hklt hk' hsa' hpin'
  have hd : w'.t - w.t = dt / 2 ^ q := by rw [ht]; ring
  set A := armOf w i k with hA
  set m := (bodyAt w.bodies i).mass with hmd
  set I := (bodyAt w.bodies i).ang_inertia with hId
  obtain ⟨hm0, hI0⟩ := hm
  have hden : 0 < I + m * (A.1 ^ 2 + A.2 ^ 2) := by positivity
  set ω' := (I * (twist w.v i).r + m * (A.2 * (twist w.v i).x - A.1 * (twist w.v i).y) +
      ((impulse fl dt i).r + A.2 * (impulse fl dt i).x - A.1 * (impulse fl dt i).y)) / (I + m * (A.1 ^ 2 + A.2 ^ 2)) with hω
  set d := dt / 2 ^ q with hdd
  -- the arm after the first move
  have hr2 : (bodyAt w2.bodies i).p.r - (bodyAt w.bodies i).p.r = ω' * d := by
    rw [hp2 i hi, hvel]; simp [turnAbout]; ring
  rw [hr2] at harm2
  -- the velocity that the stabilisation asks for
  set ω1 := ω' * (1 - pivotShare m I A * (1 - Real.cos (ω' * d))) with hω1
  have hvel3 : twist (dp + v) i = turnAbout (rot (ω' * d) A) ω1 := by
    rw [hvel2, harm2]
    congr 1
    rw [rot_length, hvel, div_eq_iff hden.ne', hω1]
    unfold pivotShare
    simp only [turnAbout, rot]
    field_simp
    ring_nf
    simp
  have hdp : twist dp i = turnAbout (rot (ω' * d) A) ω1 - turnAbout A ω' := by
    rw [← hvel3, ← hvel]
    apply V3.ext <;> simp [twist]
  have hpos : (bodyAt w'.bodies i).p = (bodyAt w.bodies i).p + (d / 2) • (turnAbout A ω' + turnAbout (rot (ω' * d) A) ω1) := by
    rw [hp' i hi, hp2 i hi, hvel, hdp]
    apply V3.ext <;> simp <;> ring
  have hturn : (bodyAt w'.bodies i).p.r - (bodyAt w.bodies i).p.r = stabTurn (pivotShare m I A) (1 / 2) (ω' * d) := by
    rw [hpos, hω1]
    simp only [stabTurn, stabAngle, turnAbout, V3.add_r, V3.smul_r]
    ring
  rw [hturn] at harm'
  refine ⟨fl, q, ω', hfl, ht, ?_⟩
  intro A' κ δ
  have hδ : δ = ω' * d := by show ω' * (w'.t - w.t) = _; rw [hd]
  refine ⟨?_, by rw [hv]; exact hvel, by rw [hδ]; exact harm', ?_, hpin'⟩
  · show (I + m * (A.1 ^ 2 + A.2 ^ 2)) * ω' = I * (twist w.v i).r + m * (A.2 * (twist w.v i).x - A.1 * (twist w.v i).y) + _
    rw [hω, mul_div_cancel₀ _ hden.ne']
    simp only [impulse, V3.smul_r, V3.smul_x, V3.smul_y]
    show _ = _ + _ + dt * ((fl.getD i 0).r + A.2 * (fl.getD i 0).x - A.1 * (fl.getD i 0).y)
    ring
  · have hpv : pivotAt w' k = armOf w' i k + (bodyAt w'.bodies i).pos := by unfold armOf; abel
    have hpv0 : pivotAt w k = A + (bodyAt w.bodies i).pos := by rw [hA]; unfold armOf; abel
    have hpos2 : (bodyAt w'.bodies i).pos = (bodyAt w.bodies i).pos +
        (d / 2) • ((turnAbout A ω').xy + (turnAbout (rot (ω' * d) A) ω1).xy) := by
      unfold Body.pos
      rw [hpos]
      ext <;> simp [V3.xy]
    rw [hpv, hpv0, hpos2, harm', hδ]
    show _ = (stabDrift (pivotShare m I A) (1 / 2) (ω' * d)).1 • A + (stabDrift (pivotShare m I A) (1 / 2) (ω' * d)).2 • (-A.2, A.1)
    have hang : d * ω1 = stabAngle (pivotShare m I A) (ω' * d) := by
      rw [hω1]; unfold stabAngle; ring
    simp only [stabDrift, ← hang]
    generalize stabTurn (pivotShare m I A) (1 / 2) (ω' * d) = ψ
    ext
    · simp [turnAbout, rot, V3.xy]; ring
    · simp [turnAbout, rot, V3.xy]; ring

/-- C111: the step without stabilisation moves the pivot as if the part 0 of the displacement were applied. -/
theorem C111_without (H : ForceHeap) (lcp : LcpSolver) (hx : Exact lcp) (mi : ℕ)
    (collide : ℝ → φ → List Body → Except Err (φ × List Contact)) (w w' : World (Option Mat) φ) (hw : EngineInv w)
    (hp : w.post_stab = false) (fuel : ℕ) (dt : ℝ) (h : w.step_dt (pdipmEnv 2 H lcp mi collide) fuel dt = .done w')
    (i k : ℕ) (hi : i < w.bodies.length) (hpin : PinnedBy w.joints i k) (hc : ∀ c ∈ w.contacts, c.i1 ≠ i ∧ c.i2 ≠ i)
    (hm : 0 < (bodyAt w.bodies i).mass ∧ 0 < (bodyAt w.bodies i).ang_inertia) (κ : ℝ) :
    let A := armOf w i k
    let δ := spinOf w' i * (w'.t - w.t)
    pivotAt w' k - pivotAt w k = (stabDrift κ 0 δ).1 • A + (stabDrift κ 0 δ).2 • (-A.2, A.1) := by
  intro A δ
  obtain ⟨fl, q, ω', -, -, -, hv, -, hpiv, -⟩ := C105_step H lcp hx mi collide w w' hw hp fuel dt h i k hi hpin hc hm
  have e : spinOf w' i = ω' := by unfold spinOf; rw [hv]; rfl
  rw [hpiv]
  show _ = (stabDrift κ 0 (spinOf w' i * (w'.t - w.t))).1 • armOf w i k +
    (stabDrift κ 0 (spinOf w' i * (w'.t - w.t))).2 • (-(armOf w i k).2, (armOf w i k).1)
  rw [e]
  simp only [stabDrift, stabTurn]
  ext
  · simp [rot]; ring
  · simp [rot]; ring

/-- C111: the part of the displacement decides the order of the drift. For an arm of length one and a step that turns the body
by the small angle `δ`, the drift is `|lam - 1/2| δ²` when the part `lam` is applied; with one half it is at most `|δ|³/3`. -/
theorem C111_factor (κ lam : ℝ) (hk0 : 0 ≤ κ) (hk1 : κ ≤ 1) (hl0 : 0 ≤ lam) (hl1 : lam ≤ 1) :
    Tendsto (fun δ => len (stabDrift κ lam δ) / δ ^ 2) (𝓝[≠] 0) (𝓝 |lam - 1 / 2|) ∧
    (∀ δ, |δ| ≤ 1 → len (stabDrift κ (1 / 2) δ) ≤ |δ| ^ 3 / 3) ∧
    ((∃ C, ∀ᶠ δ in 𝓝[≠] 0, len (stabDrift κ lam δ) ≤ C * |δ| ^ 3) ↔ lam = 1 / 2) := by
  have hlim : Tendsto (fun δ => len (stabDrift κ lam δ) / δ ^ 2) (𝓝[≠] 0) (𝓝 |lam - 1 / 2|) := by
    have := (Real.continuous_sqrt.tendsto _).comp (stabDrift_limit hk0 hk1 hl0 hl1)
    rw [Real.sqrt_sq_eq_abs] at this
    refine this.congr fun δ => ?_
    simp only [Function.comp, len]
    rw [Real.sqrt_div (by positivity), show δ ^ 4 = (δ ^ 2) ^ 2 by ring, Real.sqrt_sq (sq_nonneg δ)]
  have hhalf : ∀ δ, |δ| ≤ 1 → len (stabDrift κ (1 / 2) δ) ≤ |δ| ^ 3 / 3 := fun δ h =>
    Real.sqrt_le_iff.2 ⟨by positivity, stabDrift_half hk0 hk1 h⟩
  have hsmall : ∀ᶠ δ : ℝ in 𝓝[≠] 0, |δ| ≤ 1 ∧ δ ≠ 0 := by
    refine (Filter.Eventually.and ?_ self_mem_nhdsWithin)
    refine nhdsWithin_le_nhds ?_
    have : Tendsto (fun δ : ℝ => |δ|) (𝓝 0) (𝓝 0) := by simpa using (continuous_abs.tendsto (0 : ℝ))
    exact (this.eventually (gt_mem_nhds one_pos)).mono fun _ h => h.le
  refine ⟨hlim, hhalf, ?_, ?_⟩
  · rintro ⟨C, hC⟩
    have hz : Tendsto (fun δ => len (stabDrift κ lam δ) / δ ^ 2) (𝓝[≠] 0) (𝓝 0) := by
      have hb : Tendsto (fun δ : ℝ => C * |δ|) (𝓝[≠] 0) (𝓝 0) := by
        have : Tendsto (fun δ : ℝ => C * |δ|) (𝓝 0) (𝓝 (C * |0|)) := ((continuous_const.mul continuous_abs).tendsto 0)
        simpa using this.mono_left nhdsWithin_le_nhds
      refine squeeze_zero' (Eventually.of_forall fun δ => div_nonneg (len_nonneg _) (sq_nonneg δ)) ?_ hb
      refine (hC.and hsmall).mono fun δ h => ?_
      have : 0 < δ ^ 2 := by have := h.2.2; positivity
      rw [div_le_iff₀ this]
      calc _ ≤ C * |δ| ^ 3 := h.1
        _ = C * |δ| * |δ| ^ 2 := by ring
        _ = _ := by rw [sq_abs]
    have := tendsto_nhds_unique hlim hz
    linarith [abs_eq_zero.1 this]
  · rintro rfl
    refine ⟨1 / 3, hsmall.mono fun δ h => ?_⟩
    have := hhalf δ h.1
    linarith

/-! ## Many steps -/

/-- A run of a body on a pivot with the stabilisation. -/
structure StabRun (H : ForceHeap) (lcp : LcpSolver) (mi : ℕ) (collide : ℝ → φ → List Body → Except Err (φ × List Contact))
    (dt : ℝ) (n : ℕ) (ws : ℕ → World (Option Mat) φ) (i k : ℕ) : Prop where
  finder : FinderOk collide
  steps : Steps (pdipmEnv 2 H lcp mi collide) dt n ws
  inv : EngineInv (ws 0)
  post : (ws 0).post_stab = true
  body : i < (ws 0).bodies.length
  pinned : PinnedBy (ws 0).joints i k
  clear : ∀ c ∈ (ws 0).contacts, c.i1 ≠ i ∧ c.i2 ≠ i
  never : NeverTouched collide (ws 0).bodies.length i
  heavy : 0 < (bodyAt (ws 0).bodies i).mass ∧ 0 < (bodyAt (ws 0).bodies i).ang_inertia

theorem untouched_step {H : ForceHeap} {lcp : LcpSolver} {mi : ℕ} {collide : ℝ → φ → List Body → Except Err (φ × List Contact)}
    {w w' : World (Option Mat) φ} (hw : EngineInv w) {fuel : ℕ} {dt : ℝ}
    (h : w.step_dt (pdipmEnv 2 H lcp mi collide) fuel dt = .done w') {i : ℕ} (hn : NeverTouched collide w.bodies.length i) :
    ∀ c ∈ w'.contacts, c.i1 ≠ i ∧ c.i2 ≠ i := by
  obtain ⟨e, v, q, w1, w2, -, -, hw1, -, ⟨fk, f', cs, hcs, -, hw2⟩, -, hend⟩ := step_dt_done hw.good h
  rcases hend with ⟨-, hw'⟩ | ⟨-, dp, f2, cs2, -, w3, hw3, hc2, hw'⟩
  · rw [hw', hw2]; exact hn _ _ _ _ _ (by rw [hw1]; simp [set_v_length]) hcs
  · rw [hw']; exact hn _ _ _ _ _ (by rw [hw3, hw2, hw1]; simp [World.moveJoints, World.moveBodies, World.accepted, World.set_v]) hc2

theorem StabRun.at {H : ForceHeap} {lcp : LcpSolver} {mi : ℕ} {collide : ℝ → φ → List Body → Except Err (φ × List Contact)}
    {dt : ℝ} {n : ℕ} {ws : ℕ → World (Option Mat) φ} {i k : ℕ} (h : StabRun H lcp mi collide dt n ws i k) (hx : Exact lcp) :
    ∀ q ≤ n, EngineInv (ws q) ∧ (ws q).post_stab = true ∧ (ws q).bodies.length = (ws 0).bodies.length ∧
      PinnedBy (ws q).joints i k ∧ (bodyAt (ws q).bodies i).mass = (bodyAt (ws 0).bodies i).mass ∧
      (bodyAt (ws q).bodies i).ang_inertia = (bodyAt (ws 0).bodies i).ang_inertia ∧
      (armOf (ws q) i k).1 ^ 2 + (armOf (ws q) i k).2 ^ 2 = (armOf (ws 0) i k).1 ^ 2 + (armOf (ws 0) i k).2 ^ 2 ∧
      ∀ c ∈ (ws q).contacts, c.i1 ≠ i ∧ c.i2 ≠ i := by
  intro q
  induction q with
  | zero => intro _; exact ⟨h.inv, h.post, rfl, h.pinned, rfl, rfl, rfl, h.clear⟩
  | succ q ih =>
    intro hq
    obtain ⟨i1, i2, i3, i4, i5, i6, i7, i8⟩ := ih (by omega)
    obtain ⟨fuel, hs⟩ := h.steps q (by omega)
    have hpar := step_dt_params i1.good hs
    have hcon := posed_consts (posed_step i1.good hs) (i := i) (by rw [i3]; exact h.body)
    obtain ⟨fl, e, ω', -, -, -, -, harm, -, hpin⟩ := C111_step H lcp hx mi collide h.finder _ _ i1 i2 fuel dt hs i k
      (by rw [i3]; exact h.body) i4 i8 (by rw [i3]; exact h.never) (by rw [i5, i6]; exact h.heavy)
    refine ⟨step_inv h.finder i1 hs, by rw [hpar.2.2.2.1]; exact i2, by rw [hpar.2.2.2.2.2.1]; exact i3, hpin,
      hcon.1.trans i5, hcon.2.trans i6, ?_, untouched_step i1 hs (by rw [i3]; exact h.never)⟩
    rw [harm, rot_length, i7]

/-- C111: without forces the stabilised rotation is slowed like the other, by the angle that the body has really turned. -/
theorem C111_slows (H : ForceHeap) (lcp : LcpSolver) (hx : Exact lcp) (mi : ℕ)
    (collide : ℝ → φ → List Body → Except Err (φ × List Contact)) (dt : ℝ) (n : ℕ) (ws : ℕ → World (Option Mat) φ) (i k : ℕ)
    (h : StabRun H lcp mi collide dt n ws i k) (hff : ForceFree H (ws 0).bodies.length i) :
    let κ := pivotShare (bodyAt (ws 0).bodies i).mass (bodyAt (ws 0).bodies i).ang_inertia (armOf (ws 0) i k)
    (∀ q < n, twist (ws (q + 1)).v i = turnAbout (armOf (ws q) i k) (spinOf (ws (q + 1)) i)) ∧
    (∀ q, q + 1 < n → spinOf (ws (q + 2)) i = spinOf (ws (q + 1)) i *
      (1 - κ * (1 - Real.cos (stabTurn κ (1 / 2) (spinOf (ws (q + 1)) i * ((ws (q + 1)).t - (ws q).t)))))) ∧
    (0 < n → twist (ws 0).v i = turnAbout (armOf (ws 0) i k) (spinOf (ws 0) i) → spinOf (ws 1) i = spinOf (ws 0) i) := by
  intro κ
  have hat := h.at hx
  have hone : ∀ q < n, ∃ ω' : ℝ,
      ((bodyAt (ws 0).bodies i).ang_inertia + (bodyAt (ws 0).bodies i).mass *
        ((armOf (ws 0) i k).1 ^ 2 + (armOf (ws 0) i k).2 ^ 2)) * ω' =
        (bodyAt (ws 0).bodies i).ang_inertia * (twist (ws q).v i).r +
        (bodyAt (ws 0).bodies i).mass * ((armOf (ws q) i k).2 * (twist (ws q).v i).x - (armOf (ws q) i k).1 * (twist (ws q).v i).y) ∧
      twist (ws (q + 1)).v i = turnAbout (armOf (ws q) i k) ω' ∧
      armOf (ws (q + 1)) i k = rot (stabTurn κ (1 / 2) (ω' * ((ws (q + 1)).t - (ws q).t))) (armOf (ws q) i k) := by
    intro q hq
    obtain ⟨i1, i2, i3, i4, i5, i6, i7, i8⟩ := hat q hq.le
    obtain ⟨fuel, hs⟩ := h.steps q hq
    obtain ⟨fl, e, ω', hfl, -, hω, hv, harm, -, -⟩ := C111_step H lcp hx mi collide h.finder _ _ i1 i2 fuel dt hs i k
      (by rw [i3]; exact h.body) i4 i8 (by rw [i3]; exact h.never) (by rw [i5, i6]; exact h.heavy)
    rw [i3] at hfl
    rw [hff _ _ hfl, i5, i6, i7] at hω
    refine ⟨ω', ?_, hv, ?_⟩
    · rw [hω]; simp
    · rw [harm, i5, i6]
      unfold pivotShare
      rw [i7]
      rfl
  have hden : 0 < (bodyAt (ws 0).bodies i).ang_inertia + (bodyAt (ws 0).bodies i).mass *
      ((armOf (ws 0) i k).1 ^ 2 + (armOf (ws 0) i k).2 ^ 2) := by
    obtain ⟨h1, h2⟩ := h.heavy
    positivity
  have hfirst : ∀ q < n, twist (ws (q + 1)).v i = turnAbout (armOf (ws q) i k) (spinOf (ws (q + 1)) i) := by
    intro q hq
    obtain ⟨ω', -, hv, -⟩ := hone q hq
    have : spinOf (ws (q + 1)) i = ω' := by unfold spinOf; rw [hv]; rfl
    rw [this]; exact hv
  refine ⟨hfirst, fun q hq => ?_, fun hn h0 => ?_⟩
  · obtain ⟨ω', -, hv, harm⟩ := hone q (by omega)
    obtain ⟨ω'', hω, hv', -⟩ := hone (q + 1) hq
    obtain ⟨-, -, -, -, -, -, i7, -⟩ := hat q (by omega)
    have e1 : spinOf (ws (q + 1)) i = ω' := by unfold spinOf; rw [hv]; rfl
    have e2 : spinOf (ws (q + 2)) i = ω'' := by unfold spinOf; rw [hv']; rfl
    rw [e1, e2]
    rw [hv, harm] at hω
    generalize stabTurn κ (1 / 2) (ω' * ((ws (q + 1)).t - (ws q).t)) = θ at hω ⊢
    apply mul_left_cancel₀ hden.ne'
    rw [hω]
    show _ = _ * (ω' * (1 - pivotShare (bodyAt (ws 0).bodies i).mass (bodyAt (ws 0).bodies i).ang_inertia (armOf (ws 0) i k) *
      (1 - Real.cos θ)))
    unfold pivotShare
    rw [← i7] at hden ⊢
    set A := armOf (ws q) i k
    simp only [turnAbout, rot]
    field_simp
    ring
  · obtain ⟨ω', hω, hv, -⟩ := hone 0 hn
    have e1 : spinOf (ws 1) i = ω' := by unfold spinOf; rw [hv]; rfl
    rw [e1]
    apply mul_left_cancel₀ hden.ne'
    rw [hω, h0]
    simp only [turnAbout]
    ring

/-- C111: in a step that turns the body by `δ`, at most one, the pivot moves by at most a third of `|δ|³` arms. -/
theorem C111_drift (H : ForceHeap) (lcp : LcpSolver) (hx : Exact lcp) (mi : ℕ)
    (collide : ℝ → φ → List Body → Except Err (φ × List Contact)) (dt : ℝ) (n : ℕ) (ws : ℕ → World (Option Mat) φ) (i k : ℕ)
    (h : StabRun H lcp mi collide dt n ws i k) (q : ℕ) (hq : q < n)
    (hδ : |spinOf (ws (q + 1)) i * ((ws (q + 1)).t - (ws q).t)| ≤ 1) :
    Spec.dist (pivotAt (ws (q + 1)) k) (pivotAt (ws q) k) ≤
      len (armOf (ws 0) i k) * (|spinOf (ws (q + 1)) i * ((ws (q + 1)).t - (ws q).t)| ^ 3 / 3) := by
  obtain ⟨i1, i2, i3, i4, i5, i6, i7, i8⟩ := h.at hx q hq.le
  obtain ⟨fuel, hs⟩ := h.steps q hq
  obtain ⟨fl, e, ω', hfl, -, -, hv, harm, hpiv, -⟩ := C111_step H lcp hx mi collide h.finder _ _ i1 i2 fuel dt hs i k
    (by rw [i3]; exact h.body) i4 i8 (by rw [i3]; exact h.never) (by rw [i5, i6]; exact h.heavy)
  have e1 : spinOf (ws (q + 1)) i = ω' := by unfold spinOf; rw [hv]; rfl
  rw [e1] at hδ ⊢
  set δ := ω' * ((ws (q + 1)).t - (ws q).t)
  set A := armOf (ws q) i k
  have hk : 0 ≤ pivotShare (bodyAt (ws q).bodies i).mass (bodyAt (ws q).bodies i).ang_inertia A ∧
      pivotShare (bodyAt (ws q).bodies i).mass (bodyAt (ws q).bodies i).ang_inertia A ≤ 1 := by
    rw [i5, i6]
    obtain ⟨h1, h2⟩ := h.heavy
    unfold pivotShare
    exact ⟨by positivity, (div_le_one (by positivity)).2 (by linarith)⟩
  have hs := (C111_factor _ 0 hk.1 hk.2 le_rfl zero_le_one).2.1 δ hδ
  have hlen : Spec.dist (pivotAt (ws (q + 1)) k) (pivotAt (ws q) k) = len A *
      len (stabDrift (pivotShare (bodyAt (ws q).bodies i).mass (bodyAt (ws q).bodies i).ang_inertia A) (1 / 2) δ) := by
    unfold Spec.dist
    rw [hpiv]
    unfold len
    rw [← Real.sqrt_mul (by positivity)]
    congr 1
    simp only [Prod.fst_add, Prod.snd_add, Prod.smul_fst, Prod.smul_snd, smul_eq_mul]
    ring
  have hA : len A = len (armOf (ws 0) i k) := by unfold len; rw [i7]
  rw [hlen, hA]
  exact mul_le_mul_of_nonneg_left hs (len_nonneg _)

/-- C111: over a run without forces the pivot stays within the second order in the step length of where it was: `n` steps of at
most `dt` move it by at most `n a (|ω| dt)³ / 3`, where `ω` is the angular velocity of the first step. -/
theorem C111_total (H : ForceHeap) (lcp : LcpSolver) (hx : Exact lcp) (mi : ℕ)
    (collide : ℝ → φ → List Body → Except Err (φ × List Contact)) (dt : ℝ) (n : ℕ) (ws : ℕ → World (Option Mat) φ) (i k : ℕ)
    (h : StabRun H lcp mi collide dt n ws i k) (hff : ForceFree H (ws 0).bodies.length i)
    (ht : ∀ q < n, |(ws (q + 1)).t - (ws q).t| ≤ dt) (hs : |spinOf (ws 1) i| * dt ≤ 1) :
    (∀ q < n, |spinOf (ws (q + 1)) i| ≤ |spinOf (ws 1) i|) ∧
    ∀ q ≤ n, Spec.dist (pivotAt (ws q) k) (pivotAt (ws 0) k) ≤
      q * (len (armOf (ws 0) i k) * ((|spinOf (ws 1) i| * dt) ^ 3 / 3)) := by
  have hsl := (C111_slows H lcp hx mi collide dt n ws i k h hff).2.1
  have hk : 0 ≤ pivotShare (bodyAt (ws 0).bodies i).mass (bodyAt (ws 0).bodies i).ang_inertia (armOf (ws 0) i k) ∧
      pivotShare (bodyAt (ws 0).bodies i).mass (bodyAt (ws 0).bodies i).ang_inertia (armOf (ws 0) i k) < 1 := by
    obtain ⟨h1, h2⟩ := h.heavy
    unfold pivotShare
    exact ⟨by positivity, (div_lt_one (by positivity)).2 (by linarith)⟩
  have hspin : ∀ q < n, |spinOf (ws (q + 1)) i| ≤ |spinOf (ws 1) i| := by
    intro q
    induction q with
    | zero => intro _; exact le_rfl
    | succ q ih =>
      intro hq
      refine le_trans ?_ (ih (by omega))
      rw [hsl q hq, abs_mul]
      exact mul_le_of_le_one_right (abs_nonneg _) (spinFactor_abs hk.1 hk.2)
  refine ⟨hspin, fun q => ?_⟩
  induction q with
  | zero => intro _; simp [Spec.dist_self]
  | succ q ih =>
    intro hq
    have hsm : |spinOf (ws (q + 1)) i * ((ws (q + 1)).t - (ws q).t)| ≤ |spinOf (ws 1) i| * dt := by
      rw [abs_mul]
      exact mul_le_mul (hspin q hq) (ht q hq) (abs_nonneg _) (abs_nonneg _)
    have h1 := C111_drift H lcp hx mi collide dt n ws i k h q hq (hsm.trans hs)
    have h2 := ih (by omega)
    have h3 := Spec.dist_triangle (pivotAt (ws (q + 1)) k) (pivotAt (ws q) k) (pivotAt (ws 0) k)
    have h4 : |spinOf (ws (q + 1)) i * ((ws (q + 1)).t - (ws q).t)| ^ 3 ≤ (|spinOf (ws 1) i| * dt) ^ 3 :=
      pow_le_pow_left₀ (abs_nonneg _) hsm 3
    have h5 : len (armOf (ws 0) i k) * (|spinOf (ws (q + 1)) i * ((ws (q + 1)).t - (ws q).t)| ^ 3 / 3) ≤
        len (armOf (ws 0) i k) * ((|spinOf (ws 1) i| * dt) ^ 3 / 3) := mul_le_mul_of_nonneg_left (by linarith) (len_nonneg _)
    push_cast
    linarith

/-- C111: the stabilised body comes to rest as well. -/
theorem C111_stops (H : ForceHeap) (lcp : LcpSolver) (hx : Exact lcp) (mi : ℕ)
    (collide : ℝ → φ → List Body → Except Err (φ × List Contact)) (dt : ℝ) (hdt : 0 < dt) (ws : ℕ → World (Option Mat) φ)
    (i k : ℕ) (h : ∀ n, StabRun H lcp mi collide dt n ws i k) (hff : ForceFree H (ws 0).bodies.length i)
    (ha : armOf (ws 0) i k ≠ 0) (ht : ∀ q, (ws (q + 1)).t = (ws q).t + dt) (hs : |spinOf (ws 1) i| * dt < 2 * Real.pi) :
    Tendsto (fun n => spinOf (ws n) i) atTop (𝓝 0) := by
  obtain ⟨k0, k1⟩ := pivotShare_bounds (h 0).heavy.1 (h 0).heavy.2 ha
  have h1 : Tendsto (fun n => spinOf (ws (n + 1)) i) atTop (𝓝 0) := by
    refine stab_stops k0 k1 hdt (fun q => ?_) hs
    have := (C111_slows H lcp hx mi collide dt (q + 2) ws i k (h _) hff).2.1 q (by omega)
    rw [ht q, add_sub_cancel_left] at this
    exact this
  exact (tendsto_add_atTop_iff_nat (f := fun n => spinOf (ws n) i) 1).1 h1

/-! ## Two bodies fixed to each other -/

theorem weld_gap {I μ R ω ω1 d : ℝ} (hI : 0 ≤ I) (hμ : 0 < μ) (hR : 0 < R) (h : (I + μ * (R * (1 + (d * ω) ^ 2))) * ω1 = (I + μ * R) * ω) :
    0 ≤ (d * ω) * (d * ω1) ∧ |d * ω1| ≤ |d * ω| ∧
    (d * ω - d * ω1) ^ 2 + (d * ω * (d * ω1)) ^ 2 ≤ (d * ω) ^ 4 * (1 + (d * ω) ^ 2) := by
  set s := (I + μ * R) / (I + μ * (R * (1 + (d * ω) ^ 2))) with hs
  have h1 : 0 < I + μ * R := by positivity
  have h2 : 0 < I + μ * (R * (1 + (d * ω) ^ 2)) := by positivity
  have e : ω1 = ω * s := by
    rw [hs, mul_div_assoc', eq_div_iff h2.ne']; linarith
  have s0 : 0 < s := div_pos h1 h2
  have s1 : s ≤ 1 := by
    rw [hs, div_le_one h2]
    have : 0 ≤ μ * R * (d * ω) ^ 2 := by positivity
    nlinarith
  have s2 : 1 - s ≤ (d * ω) ^ 2 := by
    have : (1 - s) * (I + μ * (R * (1 + (d * ω) ^ 2))) = μ * R * (d * ω) ^ 2 := by
      rw [hs]; field_simp; ring
    have h3 : (1 - s) * (I + μ * R) ≤ μ * R * (d * ω) ^ 2 := by
      rw [← this]
      refine mul_le_mul_of_nonneg_left ?_ (by linarith)
      have : 0 ≤ μ * R * (d * ω) ^ 2 := by positivity
      nlinarith
    have h4 : (1 - s) * (μ * R) ≤ (1 - s) * (I + μ * R) := mul_le_mul_of_nonneg_left (by linarith) (by linarith)
    have h5 : (1 - s) * (μ * R) ≤ (d * ω) ^ 2 * (μ * R) := by linarith
    exact le_of_mul_le_mul_right h5 (by positivity)
  have e1 : d * ω1 = d * ω * s := by rw [e]; ring
  rw [e1]
  generalize d * ω = x at *
  refine ⟨by nlinarith [sq_nonneg x, mul_nonneg (sq_nonneg x) s0.le], ?_, ?_⟩
  · rw [abs_mul, abs_of_pos s0]
    exact mul_le_of_le_one_right (abs_nonneg _) s1
  · have a1 : (x - x * s) ^ 2 ≤ x ^ 2 * (x ^ 2) ^ 2 := by
      have : (1 - s) ^ 2 ≤ (x ^ 2) ^ 2 := pow_le_pow_left₀ (by linarith) s2 2
      have := mul_le_mul_of_nonneg_left this (sq_nonneg x)
      nlinarith
    have a2 : (x * (x * s)) ^ 2 ≤ x ^ 4 := by
      have : s ^ 2 ≤ 1 := by nlinarith
      have := mul_le_mul_of_nonneg_left this (by positivity : 0 ≤ x ^ 4)
      nlinarith
    nlinarith

/-- C111: the step with stabilisation of two bodies fixed to each other. In a step that turns them by `δ` the square of their
distance grows by at most `δ⁴ (1 + δ²) / 4` of itself, instead of `δ²` without the stabilisation; but the angular momentum, which
the step without it conserves, gets smaller. -/
theorem C111_weld (H : ForceHeap) (lcp : LcpSolver) (hx : Exact lcp) (mi : ℕ)
    (collide : ℝ → φ → List Body → Except Err (φ × List Contact)) (hf : FinderOk collide) (w w' : World (Option Mat) φ)
    (hw : EngineInv w) (hps : w.post_stab = true) (fuel : ℕ) (dt : ℝ)
    (h : w.step_dt (pdipmEnv 2 H lcp mi collide) fuel dt = .done w')
    (i j k : ℕ) (hi : i < w.bodies.length) (hj : j < w.bodies.length) (hij : i ≠ j) (hp : WeldedBy w.joints i j k)
    (hc : ∀ c ∈ w.contacts, (c.i1 ≠ i ∧ c.i2 ≠ i) ∧ (c.i1 ≠ j ∧ c.i2 ≠ j)) (hni : NeverTouched collide w.bodies.length i)
    (hnj : NeverTouched collide w.bodies.length j) (hm : 0 < (bodyAt w.bodies i).mass ∧ 0 < (bodyAt w.bodies j).mass)
    (hI : 0 < (bodyAt w.bodies i).ang_inertia ∧ 0 < (bodyAt w.bodies j).ang_inertia) (hg : 0 < gapSq w.bodies i j)
    (hfi : ForceFree H w.bodies.length i) (hfj : ForceFree H w.bodies.length j) :
    ∃ δ₁, (let δ := (w'.t - w.t) * spinOf w' i
      let R := gapSq w.bodies i j
      let D := offset w.bodies i j
      spinOf w' j = spinOf w' i ∧
      pairInertia w.bodies i j * spinOf w' i = pairSpin w.bodies w.v i j ∧
      (pairInertia w.bodies i j + reducedMass w.bodies i j * (R * δ ^ 2)) * δ₁ = pairInertia w.bodies i j * δ ∧
      0 ≤ δ * δ₁ ∧ |δ₁| ≤ |δ| ∧
      offset w'.bodies i j = (1 - δ * δ₁ / 2) • D + ((δ + δ₁) / 2) • (-D.2, D.1) ∧
      gapSq w'.bodies i j = R * (1 + ((δ - δ₁) ^ 2 + (δ * δ₁) ^ 2) / 4) ∧
      R ≤ gapSq w'.bodies i j ∧ gapSq w'.bodies i j ≤ R * (1 + δ ^ 4 * (1 + δ ^ 2) / 4) ∧
      pairSpin w'.bodies w'.v i j = pairSpin w.bodies w.v i j - reducedMass w.bodies i j * R * (δ * δ₁ / 2) * spinOf w' i ∧
      WeldedBy w'.joints i j k) := by
  have hst := step_dt_statics hw.good h
  have hp' := welded_wiring hst.2 hp
  have hcon := posed_step hw.good h
  obtain ⟨c1, c2⟩ := posed_consts hcon hi
  obtain ⟨c3, c4⟩ := posed_consts hcon hj
  obtain ⟨fl, e, v, dp, q, s, fk, f', cs, l, l2, pn, a, b, g, pn2, hfl, ht, hv, law, hg2, hcol, hdyn2, hjnt2, hp2, hcons2, hlen2,
    hwir2, hpp⟩ := stab_step_laws hx hf hw hps h
  set w2 := (({ w with eng := e } : World (Option Mat) φ).set_v v).accepted (dt / 2 ^ q) s f' cs with hw2
  obtain ⟨l1, l2', l3, -, -, l6⟩ := weld_law law.dynamics law.joints i j k hi hj hij hp hc (weld_offsets hw.good hp) hm
  have hwel2 := welded_wiring hwir2 hp
  obtain ⟨n1, n2, n3, -, -, n6⟩ := weld_law hdyn2 hjnt2 i j k (by rw [hlen2]; exact hi) (by rw [hlen2]; exact hj) hij hwel2
    (fun c hc => ⟨hni _ _ _ _ _ hlen2 hcol c hc, hnj _ _ _ _ _ hlen2 hcol c hc⟩) (weld_offsets hg2 hwel2)
    (by rw [(hcons2 i hi).1, (hcons2 j hj).1]; exact hm)
  have hd : w'.t - w.t = dt / 2 ^ q := by rw [ht]; ring
  set d := dt / 2 ^ q with hdd
  set D := offset w.bodies i j with hD
  set ω := (twist v i).r with hω
  set ω1 := (twist (dp + v) i).r with hω1
  have hspin : ∀ i, spinOf w' i = (twist v i).r := by intro i; unfold spinOf; rw [hv]
  have himp : impulse fl dt i = 0 ∧ impulse fl dt j = 0 := by
    unfold impulse
    rw [hfi _ _ hfl, hfj _ _ hfl]
    constructor <;> apply V3.ext <;> simp
  have d1 : D.1 = (bodyAt w.bodies j).p.x - (bodyAt w.bodies i).p.x := rfl
  have d2 : D.2 = (bodyAt w.bodies j).p.y - (bodyAt w.bodies i).p.y := rfl
  have hoff2 : offset w2.bodies i j = D + (d * ω) • (-D.2, D.1) := by
    have o1 : (offset w2.bodies i j).1 = (bodyAt w2.bodies j).p.x - (bodyAt w2.bodies i).p.x := rfl
    have o2 : (offset w2.bodies i j).2 = (bodyAt w2.bodies j).p.y - (bodyAt w2.bodies i).p.y := rfl
    apply Prod.ext
    · rw [o1, hp2 i hi, hp2 j hj]
      simp only [V3.add_x, V3.smul_x, Prod.fst_add, Prod.smul_fst, smul_eq_mul]
      linear_combination d * l2' - d1
    · rw [o2, hp2 i hi, hp2 j hj]
      simp only [V3.add_y, V3.smul_y, Prod.snd_add, Prod.smul_snd, smul_eq_mul]
      linear_combination d * l3 - d2
  set D2 := offset w2.bodies i j with hD2
  have tdp : ∀ m, twist dp m = twist (dp + v) m - twist v m := by
    intro m; apply V3.ext <;> simp [twist]
  have hoff : offset w'.bodies i j = (1 - (d * ω) * (d * ω1) / 2) • D + ((d * ω + d * ω1) / 2) • (-D.2, D.1) := by
    have o1 : (offset w'.bodies i j).1 = (bodyAt w'.bodies j).p.x - (bodyAt w'.bodies i).p.x := rfl
    have o2 : (offset w'.bodies i j).2 = (bodyAt w'.bodies j).p.y - (bodyAt w'.bodies i).p.y := rfl
    have p1 : D2.1 = (bodyAt w2.bodies j).p.x - (bodyAt w2.bodies i).p.x := rfl
    have p2 : D2.2 = (bodyAt w2.bodies j).p.y - (bodyAt w2.bodies i).p.y := rfl
    have q1 := congrArg Prod.fst hoff2
    have q2 := congrArg Prod.snd hoff2
    simp only [Prod.fst_add, Prod.snd_add, Prod.smul_fst, Prod.smul_snd, smul_eq_mul] at q1 q2
    apply Prod.ext
    · rw [o1, hpp i hi, hpp j hj, tdp i, tdp j]
      simp only [V3.add_x, V3.smul_x, V3.sub_x, Prod.fst_add, Prod.smul_fst, smul_eq_mul]
      linear_combination d / 2 * n2 - d / 2 * l2' - p1 + q1 - d / 2 * ω1 * q2
    · rw [o2, hpp i hi, hpp j hj, tdp i, tdp j]
      simp only [V3.add_y, V3.smul_y, V3.sub_y, Prod.snd_add, Prod.smul_snd, smul_eq_mul]
      linear_combination d / 2 * n3 - d / 2 * l3 - p2 + q2 + d / 2 * ω1 * q1
  have hμ : 0 < reducedMass w.bodies i j := by
    obtain ⟨h1, h2⟩ := hm
    unfold reducedMass; positivity
  set R := gapSq w.bodies i j with hR
  have hRD : R = D.1 ^ 2 + D.2 ^ 2 := rfl
  have hP : pairInertia w.bodies i j = (bodyAt w.bodies i).ang_inertia + (bodyAt w.bodies j).ang_inertia +
    reducedMass w.bodies i j * R := rfl
  have hred2 : reducedMass w2.bodies i j = reducedMass w.bodies i j := by
    unfold reducedMass; rw [(hcons2 i hi).1, (hcons2 j hj).1]
  have hgap2 : gapSq w2.bodies i j = R * (1 + (d * ω) ^ 2) := by
    unfold gapSq
    rw [← hD2, hoff2, hRD]
    simp only [Prod.fst_add, Prod.snd_add, Prod.smul_fst, Prod.smul_snd, smul_eq_mul]
    ring
  have hproj : (((bodyAt w.bodies i).ang_inertia + (bodyAt w.bodies j).ang_inertia) +
      reducedMass w.bodies i j * (R * (1 + (d * ω) ^ 2))) * ω1 =
      (((bodyAt w.bodies i).ang_inertia + (bodyAt w.bodies j).ang_inertia) + reducedMass w.bodies i j * R) * ω := by
    have : pairInertia w2.bodies i j * ω1 = pairSpin w2.bodies v i j := by
      rw [n6]; simp
    unfold pairInertia pairSpin at this
    rw [hred2, hgap2, (hcons2 i hi).2, (hcons2 j hj).2, ← hD2, l1, l2', l3, hoff2] at this
    simp only [Prod.fst_add, Prod.snd_add, Prod.smul_fst, Prod.smul_snd, smul_eq_mul] at this
    rw [this, hRD]
    ring
  obtain ⟨g1, g2, g3⟩ := weld_gap (d := d) (add_pos hI.1 hI.2).le hμ hg hproj
  have hgap : gapSq w'.bodies i j = R * (1 + ((d * ω - d * ω1) ^ 2 + (d * ω * (d * ω1)) ^ 2) / 4) := by
    unfold gapSq
    rw [hoff, hRD]
    simp only [Prod.fst_add, Prod.snd_add, Prod.smul_fst, Prod.smul_snd, smul_eq_mul]
    ring
  have hmom : pairInertia w.bodies i j * ω = pairSpin w.bodies w.v i j := by
    rw [l6, himp.1, himp.2]; simp
  refine ⟨d * ω1, ?_⟩
  simp only [hd, hspin]
  refine ⟨l1, hmom, ?_, g1, g2, hoff, hgap, ?_, ?_, ?_, hp'⟩
  · rw [hP]; linear_combination d * hproj
  · rw [hgap]
    have : 0 ≤ R * (((d * ω - d * ω1) ^ 2 + (d * ω * (d * ω1)) ^ 2) / 4) := by positivity
    linarith
  · rw [hgap]
    exact mul_le_mul_of_nonneg_left (by linarith) hg.le
  · rw [← hmom, hP]
    unfold pairSpin reducedMass
    rw [hoff, hv, c1, c2, c3, c4, l1, l2', l3, hRD]
    simp only [Prod.fst_add, Prod.snd_add, Prod.smul_fst, Prod.smul_snd, smul_eq_mul]
    ring

end LcpPhysics
