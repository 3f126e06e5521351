import Verif.Props.BreakoutWorld
import Verif.Props.LibraryRun

/-!
# C93: the engine in the Breakout game
-/

noncomputable section

namespace LcpPhysics
open Spec Breakout

variable {φ : Type}

theorem breakout_tree (bs : List Body) : JointTree (breakoutJoints bs) := by
  intro k hk
  have e : ∀ (q : ℕ) (hq : q < (breakoutJoints bs).length), (breakoutJoints bs)[q] = mkTotal bs (q + 2) := by
    intro q hq
    simp [breakoutJoints]
  refine ⟨_, Or.inl rfl, ?_⟩
  intro c hc k' hk'
  rw [e k hk] at hc
  rw [e k' (by omega)]
  simp only [mkTotal, held, touched, coords, List.mem_cons, List.not_mem_nil, or_false] at hc ⊢
  omega

/-- C93: the world of `make_world` is frictionless, has positive masses and its constraints are independent. -/
theorem C93_made_regular (lcp : LcpSolver) (mi : ℕ) (collide : ℝ → φ → List Body → Except Err (φ × List Contact))
    (fnd : φ) (paddle : BoxParams) (blocks : List BoxParams) (ball : BallParams) (vel : V2)
    (w : World (Option Mat) φ) (hr : ball.rad ≠ 0) (hf : GameFinder blocks.length collide)
    (h : make_world lcp mi collide fnd paddle blocks ball vel = .done w) : Regular w := by
  obtain ⟨hg, -, -, -, -⟩ := C76_constructed lcp mi collide fnd paddle blocks ball vel w hr hf h
  have hco : ∀ b ∈ w.bodies, b.mass = 1 ∧ b.fric_coeff = 0 ∧ 0 < b.ang_inertia := by
    intro b hb
    obtain ⟨i, hi, rfl⟩ := List.getElem_of_mem hb
    have := hg.coeff i (by rw [← hg.len]; exact hi)
    have e : bodyAt w.bodies i = w.bodies[i] := by simp [bodyAt, List.getD_eq_getElem?_getD, hi]
    rw [e] at this
    exact ⟨this.1, this.2.1, this.2.2.2⟩
  refine ⟨hg.inv, ?_, fun b hb => ⟨by rw [(hco b hb).1]; norm_num, (hco b hb).2.2⟩, fun b hb => (hco b hb).2.1⟩
  unfold make_world at h
  cases hb : breakoutBodies paddle blocks ball vel with
  | error e => rw [hb] at h; cases h
  | ok bs =>
    rw [hb] at h
    simp only at h
    unfold mkWorld at h
    split_ifs at h with c1 c2
    rw [Run.bind_eq_done] at h
    obtain ⟨w1, h1, h2⟩ := h
    split_ifs at h2 with hpen
    injection h2 with h2
    subst h2
    unfold World.find_contacts at h1
    split at h1
    · cases h1
    · injection h1 with h1
      rw [← h1]
      exact breakout_tree bs
    · exact absurd rfl ‹¬ true = true›

theorem regular_set_v {w : World (Option Mat) φ} (h : Regular w) (v : Vec) : Regular (w.set_v v) := by
  have hst : SameStatics w (w.set_v v) := sameStatics_set_v w v w.eng
  obtain ⟨h1, h2⟩ := bodies_congr hst h.pos h.smooth
  refine ⟨⟨good_set_v h.inv.good v w.eng, jointsOk_congr hst h.inv.joints, ?_, ?_⟩, tree_congr hst h.tree, h1, h2⟩
  · intro c hc
    rw [sameStatics_length hst]
    exact h.inv.contacts c hc
  · exact cacheInv_congr hst h.inv.cache

/-- C93: so are all worlds of the game, whatever the player does and whatever the LCP solver returns. -/
theorem C93_game_regular (lcp : LcpSolver) (mi : ℕ) (collide : ℝ → φ → List Body → Except Err (φ × List Contact))
    (fnd : φ) (paddle : BoxParams) (blocks : List BoxParams) (ball : BallParams) (vel : V2) (hr : ball.rad ≠ 0)
    (hf : GameFinder blocks.length collide) (w0 w : World (Option Mat) φ)
    (h : make_world lcp mi collide fnd paddle blocks ball vel = .done w0)
    (hp : Play (breakoutEnv lcp mi collide) 1 (fun _ => True) w0 w) : Regular w ∧ SameStatics w0 w := by
  have h0 := C93_made_regular lcp mi collide fnd paddle blocks ball vel w0 hr hf h
  induction hp with
  | refl => exact ⟨h0, rfl, rfl⟩
  | tail _ hs ih =>
    obtain ⟨ih, ih2⟩ := ih
    rcases hs with ⟨-, fuel, dt, hs⟩ | ⟨v, -, rfl⟩
    · have hst := step_dt_statics ih.inv.good hs
      obtain ⟨h1, h2⟩ := bodies_congr hst ih.pos ih.smooth
      exact ⟨⟨step_inv hf.ok ih.inv hs, tree_congr hst ih.tree, h1, h2⟩, ih2.trans hst⟩
    · exact ⟨regular_set_v ih v, ih2.trans (sameStatics_set_v _ v _)⟩

/-- C93: with the library's LCP solver the engine never raises in the game: in every world reached, with any contacts,
`solve_dynamics` returns. -/
theorem C93_library_engine_returns (f : Btrifact) (hb : BtrifactOk f) (eps : ℝ) (lim mi : ℕ) (hm : mi ≠ 0)
    (collide : ℝ → φ → List Body → Except Err (φ × List Contact)) (fnd : φ) (paddle : BoxParams)
    (blocks : List BoxParams) (ball : BallParams) (vel : V2) (hr : ball.rad ≠ 0)
    (hf : GameFinder blocks.length collide) (w0 w : World (Option Mat) φ)
    (h : make_world (libraryLcp f eps lim) mi collide fnd paddle blocks ball vel = .done w0)
    (hp : Play (breakoutEnv (libraryLcp f eps lim) mi collide) 1 (fun _ => True) w0 w) (dt : ℝ) :
    ∃ r, (breakoutEnv (libraryLcp f eps lim) mi collide).solve_dynamics w dt = .ok r := by
  have hr := (C93_game_regular _ _ _ _ _ _ _ _ hr hf w0 w h hp).1
  exact C71_frictionless_returns f hb eps lim breakoutForces mi hm w dt hr.inv.joints hr.pos
    (C71_tree_independent w hr.inv.joints hr.tree) (regular_smooth hr) _ (breakoutForces_cat _ _)

/-- C93: hence a step of the game raises only if the contact search does, for the bodies of this game in some pose. -/
theorem C93_step_raises (f : Btrifact) (hb : BtrifactOk f) (eps : ℝ) (lim mi : ℕ) (hm : mi ≠ 0)
    (collide : ℝ → φ → List Body → Except Err (φ × List Contact)) (fnd : φ) (paddle : BoxParams)
    (blocks : List BoxParams) (ball : BallParams) (vel : V2) (hr : ball.rad ≠ 0)
    (hf : GameFinder blocks.length collide) (w0 w : World (Option Mat) φ)
    (h : make_world (libraryLcp f eps lim) mi collide fnd paddle blocks ball vel = .done w0)
    (hp : Play (breakoutEnv (libraryLcp f eps lim) mi collide) 1 (fun _ => True) w0 w) (fuel : ℕ) (dt : ℝ) (e : Err)
    (he : w.step_dt (breakoutEnv (libraryLcp f eps lim) mi collide) fuel dt = .raised e) :
    ∃ f' bs, Posed w.bodies bs ∧ collide w.eps f' bs = .error e :=
  (regular_step (eps := eps) (lim := lim) hb hm hf.ok (C93_game_regular _ _ _ _ _ _ _ _ hr hf w0 w h hp).1
    (fun _ => ⟨_, breakoutForces_cat _ _⟩) fuel dt).1 e he

/-- C93: a step without contacts never raises in the engine, whatever the LCP solver. -/
theorem C93_free_engine_returns (lcp : LcpSolver) (mi : ℕ)
    (collide : ℝ → φ → List Body → Except Err (φ × List Contact)) (w : World (Option Mat) φ) (hr : Regular w)
    (hnc : w.contacts = []) (dt : ℝ) : ∃ r, (breakoutEnv lcp mi collide).solve_dynamics w dt = .ok r :=
  C35_no_contact_succeeds 2 breakoutForces lcp mi w dt hr.inv.joints hr.pos
    (C71_tree_independent w hr.inv.joints hr.tree) hnc _ (breakoutForces_cat _ _)

end LcpPhysics
