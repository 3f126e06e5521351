import Verif.Spec.Lone
import Verif.Props.HalfStab

/-!
# C115: a body that nothing touches

Whatever happens elsewhere in the scene (impacts, friction, steps cut short, the position correction), a body without forces and
constraints that no contact search reports keeps its velocity, and its pose is the closed form at every time the program shows.
The circle called `clock` in the demos is such a body: its angle is the time of the world.
-/

noncomputable section

namespace LcpPhysics
open Spec

variable {σ φ : Type}

/-! ## Runs in which nothing touches the body -/

theorem watched_ok {i : ℕ} {collide : ℝ → φ → List Body → Except Err (φ × List Contact)} {eps : ℝ} {f : φ} {bs : List Body}
    {r : φ × List Contact} : watched i collide eps f bs = .ok r ↔ collide eps f bs = .ok r ∧ Untouched r.2 i := by
  unfold watched
  cases h : collide eps f bs with
  | error e => simp
  | ok q =>
    by_cases hu : Untouched q.2 i
    · simp only [if_pos hu]
      constructor
      · rintro h'
        injection h' with h'
        subst h'
        exact ⟨rfl, hu⟩
      · exact fun h' => h'.1
    · simp only [if_neg hu]
      constructor
      · intro h'; cases h'
      · rintro ⟨h', h2⟩
        injection h' with h'
        subst h'
        exact absurd h2 hu

theorem watched_finderOk {i : ℕ} {collide : ℝ → φ → List Body → Except Err (φ × List Contact)} (h : FinderOk collide) :
    FinderOk (watched i collide) := fun eps f bs f' cs hc => h eps f bs f' cs (watched_ok.1 hc).1

theorem watched_find {i : ℕ} {env : Env σ φ} {w w' : World σ φ} (h : w.find_contacts (watchedEnv i env) = .done w') :
    w.find_contacts env = .done w' ∧ Untouched w'.contacts i := by
  unfold World.find_contacts at h ⊢
  cases hc : (watchedEnv i env).collide w.eps w.fnd w.bodies with
  | error e => rw [hc] at h; cases h
  | ok r =>
    rw [hc] at h
    obtain ⟨h1, h2⟩ := watched_ok.1 (show watched i env.collide w.eps w.fnd w.bodies = .ok r from hc)
    rw [h1]
    injection h with h
    exact ⟨by rw [← h], by rw [← h]; exact h2⟩

theorem watched_loop {i : ℕ} {env : Env σ φ} (sp : Vec) (sr : List (ℝ × ℝ)) : ∀ (fuel : ℕ) (w : World σ φ) (dt : ℝ)
    (r : World σ φ × ℝ), stepLoop (watchedEnv i env) sp sr fuel w dt = .done r → stepLoop env sp sr fuel w dt = .done r := by
  intro fuel
  induction fuel with
  | zero => intro w dt r h; cases h
  | succ fuel ih =>
    intro w dt r h
    unfold stepLoop at h ⊢
    rw [Run.bind_eq_done] at h ⊢
    obtain ⟨w1, h1, h2⟩ := h
    refine ⟨w1, (watched_find h1).1, ?_⟩
    split_ifs at h2 ⊢ with c1 c2
    · exact h2
    · exact h2
    · exact ih _ _ _ h2

/-- C115: a step of the watched program that returns is a step of the program, and leaves the body untouched. -/
theorem C115_watched_step (i : ℕ) (env : Env σ φ) (fuel : ℕ) (w w' : World σ φ) (dt : ℝ)
    (h : w.step_dt (watchedEnv i env) fuel dt = .done w') : w.step_dt env fuel dt = .done w' := by
  unfold World.step_dt at h ⊢
  rw [Run.bind_eq_done] at h ⊢
  obtain ⟨r, h1, h⟩ := h
  refine ⟨r, h1, ?_⟩
  rw [Run.bind_eq_done] at h ⊢
  obtain ⟨q, h2, h⟩ := h
  refine ⟨q, watched_loop _ _ _ _ _ _ h2, ?_⟩
  rw [Run.bind_eq_done] at h ⊢
  obtain ⟨w3, h3, h⟩ := h
  refine ⟨w3, ?_, h⟩
  split_ifs at h3 ⊢ with c
  · unfold postStab at h3 ⊢
    rw [Run.bind_eq_done] at h3 ⊢
    obtain ⟨dp, h4, h5⟩ := h3
    exact ⟨dp, h4, (watched_find h5).1⟩
  · exact h3

/-! ## One step -/

/-- A body without contacts and constraints in a balance of powers. -/
theorem lone_balance (bs : List Body) (js : List Joint) (cs : List Contact) (v v' l : Vec) (pn q : ℕ → ℝ) (f : ℕ → V3)
    (h : ∀ u, momentumPower bs u v' = momentumPower bs u v + forcePower bs.length f u + jointPower js l u +
      contactPower cs pn q u) (i : ℕ) (hi : i < bs.length) (hj : ∀ j ∈ js, j.i1 ≠ i ∧ i ∉ j.i2) (hc : Untouched cs i)
    (hm : 0 < (bodyAt bs i).mass) (hI : 0 < (bodyAt bs i).ang_inertia) (hf : f i = 0) : twist v' i = twist v i := by
  have key : ∀ u : Vec, (bodyAt bs i).ang_inertia * v' (3 * i) * u (3 * i) +
      (bodyAt bs i).mass * (v' (3 * i + 1) * u (3 * i + 1) + v' (3 * i + 2) * u (3 * i + 2)) =
      (bodyAt bs i).ang_inertia * v (3 * i) * u (3 * i) +
      (bodyAt bs i).mass * (v (3 * i + 1) * u (3 * i + 1) + v (3 * i + 2) * u (3 * i + 2)) := by
    intro u
    have hd := h (onlyOn (· = i) u)
    have hj0 : jointPower js l (onlyOn (· = i) u) = 0 := by
      apply jointPower_zero
      intro x hx
      obtain ⟨j, hjm, hx⟩ := List.mem_flatMap.1 hx
      refine jointVel_out (S := (· = i)) ?_ u x hx
      simp only [holds, decide_eq_true_eq, not_or, not_exists, not_and]
      exact ⟨(hj j hjm).1, fun k hk hki => (hj j hjm).2 (hki ▸ hk)⟩
    have hc0 : contactPower cs pn q (onlyOn (· = i) u) = 0 := by
      unfold contactPower
      refine Finset.sum_eq_zero fun k hk => ?_
      have hk := Finset.mem_range.1 hk
      rw [List.getElem?_eq_getElem hk]
      have := hc _ (List.getElem_mem hk)
      have ht : ¬ touches (· = i) cs[k] = true := by simpa [touches] using this
      simp [normalVel, slipVel, contactVel_out ht, Spec.inner]
    have hs : (Finset.range bs.length).filter (· = i) = {i} := by
      ext k
      simp only [Finset.mem_filter, Finset.mem_range, Finset.mem_singleton]
      constructor
      · exact fun h => h.2
      · rintro rfl; exact ⟨hi, rfl⟩
    rw [hj0, hc0, momentumPower_onlyOn, momentumPower_onlyOn, forcePower_onlyOn, hs] at hd
    simp only [Finset.sum_singleton, twist, add_zero, hf, V3.zero_r, V3.zero_x, V3.zero_y, zero_mul] at hd
    exact hd
  have k1 := key fun k => if k = 3 * i then 1 else 0
  have k2 := key fun k => if k = 3 * i + 1 then 1 else 0
  have k3 := key fun k => if k = 3 * i + 2 then 1 else 0
  have q1 : 3 * i + 1 ≠ 3 * i := by omega
  have q2 : 3 * i + 2 ≠ 3 * i := by omega
  have q3 : 3 * i ≠ 3 * i + 1 := by omega
  have q4 : 3 * i + 2 ≠ 3 * i + 1 := by omega
  have q5 : 3 * i ≠ 3 * i + 2 := by omega
  have q6 : 3 * i + 1 ≠ 3 * i + 2 := by omega
  simp only [if_true, if_neg q1, if_neg q2, if_neg q3, if_neg q4, if_neg q5, if_neg q6, mul_one, mul_zero, add_zero,
    zero_add] at k1 k2 k3
  apply V3.ext
  · exact mul_left_cancel₀ hI.ne' k1
  · exact mul_left_cancel₀ hm.ne' k2
  · exact mul_left_cancel₀ hm.ne' k3

/-- C115: one step, with or without the position correction. -/
theorem C115_step {H : ForceHeap} {lcp : LcpSolver} (hx : Exact lcp) {mi : ℕ}
    {collide : ℝ → φ → List Body → Except Err (φ × List Contact)} (hf : FinderOk collide) {w w' : World (Option Mat) φ}
    (hw : EngineInv w) {fuel : ℕ} {dt : ℝ} (i : ℕ) (hi : i < w.bodies.length)
    (hj : ∀ j ∈ w.joints, j.i1 ≠ i ∧ i ∉ j.i2) (hc : Untouched w.contacts i)
    (hm : 0 < (bodyAt w.bodies i).mass) (hI : 0 < (bodyAt w.bodies i).ang_inertia) (hH : H.attached i = [])
    (h : w.step_dt (watchedEnv i (pdipmEnv 2 H lcp mi collide)) fuel dt = .done w') :
    coasts w i w'.t (bodyAt w'.bodies i) ∧ Untouched w'.contacts i := by
  have henv : watchedEnv i (pdipmEnv 2 H lcp mi collide) = pdipmEnv 2 H lcp mi (watched i collide) := rfl
  rw [henv] at h
  obtain ⟨e, v, q, w1, w2, hsol, -, hw1, hg1, ⟨fk, f', cs, hcs, -, hw2⟩, -, hend⟩ := step_dt_done hw.good h
  obtain ⟨fl, l, pn, a, b, gs, hfl, law⟩ :=
    C38_engine_contact_law H lcp mi w dt e v hw.joints hw.contacts hw.cache.ok hx hsol
  have hF : impulse fl dt i = 0 := by
    obtain ⟨h1, h2⟩ := forceCat_length hfl
    have := h2 i hi (by omega)
    unfold ForceHeap.apply_forces at this
    rw [hH] at this
    simp only [List.length_nil, if_true, Option.some.injEq] at this
    unfold impulse
    rw [List.getD_eq_getElem?_getD, List.getElem?_eq_getElem (by omega), Option.getD_some, ← this]
    apply V3.ext <;> simp
  have hvi : twist v i = twist w.v i := lone_balance _ _ _ _ _ _ _ _ _ law.dynamics i hi hj hc hm hI hF
  have hv0 : twist w.v i = (bodyAt w.bodies i).v := by
    rw [← slice3_twist]; exact (good_bodyAt_v hw.good i hi).symm
  have hlen1 : w1.bodies.length = w.bodies.length := by rw [hw1, set_v_length]
  have hb2 : bodyAt w2.bodies i = ({ bodyAt w.bodies i with v := twist v i } : Body).move (dt / 2 ^ q) := by
    rw [hw2, hw1, accepted_at _ _ _ _ _ _ (by rw [set_v_length]; exact hi),
      set_v_at ({ w with eng := e } : World (Option Mat) φ) v i hi]
  have hlen2 : w2.bodies.length = w.bodies.length := by
    rw [hw2, hw1]; simp [World.accepted, World.set_v]
  have hu2 : Untouched w2.contacts i := by
    rw [hw2]; exact (watched_ok.1 hcs).2
  rcases hend with ⟨-, hw'⟩ | ⟨-, dp, f2, cs2, hdp, w3, hw3, hcs2, hw'⟩
  · refine ⟨⟨?_, ?_⟩, ?_⟩
    · rw [hw']
      show (bodyAt w2.bodies i).v = _
      rw [hb2, move_v, hvi, hv0]
    · rw [hw']
      show (bodyAt w2.bodies i).p = _ + (w.t + dt / 2 ^ q - w.t) • _
      rw [hb2, move_p, hvi, hv0, add_sub_cancel_left]
    · rw [hw']; exact hu2
  · have hs2 : SameStatics w w2 := by
      rw [hw2, hw1]
      exact (sameStatics_set_v w v e).trans (sameStatics_accepted _ _ _ _ _)
    have hj2 : JointsOk w2 := jointsOk_congr hs2 hw.joints
    have hc2 : ContactsOk w2 := by
      intro c hc
      subst hw2
      exact hf _ _ _ _ _ (watched_ok.1 hcs).1 c hc
    have he2 : w2.eng = e := by rw [hw2, hw1]; rfl
    have hcache2 : CacheInv w2 := by
      apply solve_cacheInv hs2 hw.cache
      rw [he2]; exact hsol
    obtain ⟨l2, pn2, hlaw2⟩ := C62_post_stab_law lcp w2 dp hj2 hc2 hcache2.ok hx hdp
    have hcons := sameStatics_bodyAt hs2 i
    simp only [Body.consts, Prod.mk.injEq] at hcons
    have hjw : ∀ j ∈ w2.joints, j.i1 ≠ i ∧ i ∉ j.i2 := by
      intro j hjm
      have : j.wiring ∈ w.joints.map Joint.wiring := hs2.2 ▸ List.mem_map.2 ⟨j, hjm, rfl⟩
      obtain ⟨j0, hj0, hw⟩ := List.mem_map.1 this
      simp only [Joint.wiring, Prod.mk.injEq] at hw
      rw [← hw.2.1, ← hw.2.2]
      exact hj j0 hj0
    have hdpi : twist dp i = twist (fun _ => 0) i := by
      refine lone_balance w2.bodies w2.joints w2.contacts (fun _ => 0) dp l2 pn2 (fun _ => 0) (fun _ => 0) (fun u => ?_) i
        (by omega) hjw hu2 (by rw [hcons.1]; exact hm) (by rw [hcons.2.1]; exact hI) rfl
      rw [hlaw2.dynamics u, forcePower_none]
      have : momentumPower w2.bodies u (fun _ => 0) = 0 := by
        unfold momentumPower
        refine Finset.sum_eq_zero fun k _ => ?_
        simp [twist]
      rw [this]; ring
    have hh : twist (fun k => dp k / 2) i = 0 := by
      simp only [twist, V3.mk.injEq] at hdpi
      apply V3.ext <;> simp [twist, hdpi.1, hdpi.2.1, hdpi.2.2]
    have hst : w3 = w2.stabbed v dp (dt / 2 ^ q) := hw3
    have hb3 : bodyAt w'.bodies i = { ({ bodyAt w2.bodies i with v := twist (fun k => dp k / 2) i } : Body).move (dt / 2 ^ q)
        with v := twist v i } := by
      have : w'.bodies = (w2.stabbed v dp (dt / 2 ^ q)).bodies := by rw [hw', hst]
      rw [this, stabbed_at _ _ _ _ _ (by rw [hlen2]; exact hi)]
    refine ⟨⟨?_, ?_⟩, ?_⟩
    · rw [hb3]; exact hvi.trans hv0
    · rw [hb3]
      show (({ bodyAt w2.bodies i with v := twist (fun k => dp k / 2) i } : Body).move (dt / 2 ^ q)).p = _
      rw [move_p, hh]
      show (bodyAt w2.bodies i).p + _ = _
      rw [hb2, move_p, hw', hvi, hv0]
      show _ = _ + (w.t + dt / 2 ^ q - w.t) • _
      rw [add_sub_cancel_left]
      apply V3.ext <;> simp
    · rw [hw']; exact (watched_ok.1 hcs2).2

/-! ## Whole runs -/

/-- C115: along a whole run in which nothing touches it, a body without forces and constraints keeps its velocity, and its pose
is the closed form at the time the world shows, whatever the other bodies do. -/
theorem C115_run (H : ForceHeap) (lcp : LcpSolver) (hx : Exact lcp) (mi : ℕ)
    (collide : ℝ → φ → List Body → Except Err (φ × List Contact)) (hf : FinderOk collide) (w0 w : World (Option Mat) φ)
    (h0 : EngineInv w0) (i : ℕ) (hi : i < w0.bodies.length) (hj : ∀ j ∈ w0.joints, j.i1 ≠ i ∧ i ∉ j.i2)
    (hc : Untouched w0.contacts i) (hm : 0 < (bodyAt w0.bodies i).mass) (hI : 0 < (bodyAt w0.bodies i).ang_inertia)
    (hH : H.attached i = []) (h : Reaches (watchedEnv i (pdipmEnv 2 H lcp mi collide)) w0 w) :
    coasts w0 i w.t (bodyAt w.bodies i) ∧ Reaches (pdipmEnv 2 H lcp mi collide) w0 w := by
  have key : EngineInv w ∧ SameStatics w0 w ∧ Untouched w.contacts i ∧ coasts w0 i w.t (bodyAt w.bodies i) ∧
      Reaches (pdipmEnv 2 H lcp mi collide) w0 w := by
    induction h with
    | refl =>
      refine ⟨h0, ⟨rfl, rfl⟩, hc, ⟨rfl, ?_⟩, .refl⟩
      apply V3.ext <;> simp
    | @tail wa wb hab hstep ih =>
      obtain ⟨hinv, hst, hu, hco, hr⟩ := ih
      obtain ⟨fuel, dt, hs⟩ := hstep
      have hl := sameStatics_length hst
      have hcons := sameStatics_bodyAt hst i
      simp only [Body.consts, Prod.mk.injEq] at hcons
      have hjw : ∀ j ∈ wa.joints, j.i1 ≠ i ∧ i ∉ j.i2 := by
        intro j hjm
        have : j.wiring ∈ w0.joints.map Joint.wiring := hst.2 ▸ List.mem_map.2 ⟨j, hjm, rfl⟩
        obtain ⟨j0, hj0, hw⟩ := List.mem_map.1 this
        simp only [Joint.wiring, Prod.mk.injEq] at hw
        rw [← hw.2.1, ← hw.2.2]
        exact hj j0 hj0
      obtain ⟨⟨c1, c2⟩, c3⟩ := C115_step hx hf hinv i (by omega) hjw hu (by rw [hcons.1]; exact hm)
        (by rw [hcons.2.1]; exact hI) hH hs
      have hs' := C115_watched_step _ _ _ _ _ _ hs
      refine ⟨step_inv hf hinv hs', hst.trans (step_dt_statics hinv.good hs'), c3, ⟨c1.trans hco.1, ?_⟩,
        hr.tail ⟨fuel, dt, hs'⟩⟩
      rw [c2, hco.2, hco.1]
      apply V3.ext <;> simp <;> ring
  exact key.2.2.2

end LcpPhysics
