import Verif.Model.BreakoutSim
import Verif.Props.Breakout
import Verif.Props.BreakoutWorld
import Verif.Props.Court
import Verif.Spec.During

/-!
# C89, C90: one simulated step of the controller's model, and its cost
-/

noncomputable section

namespace LcpPhysics
open Spec Breakout

/-! ## C89 -/

/-- Position and dimensions of a rectangle of the world. -/
def boxOf (b : Body) : BoxParams := ⟨b.pos.1, b.pos.2, (bodyDims b).1, (bodyDims b).2⟩

/-- Position and radius of the ball. -/
def ballOf (b : Body) : BallParams := ⟨b.pos.1, b.pos.2, b.rad⟩

/-- The body with its angle set to zero, everything else (vertices and geometry included) untouched. -/
def unturned (b : Body) : Body := { b with p := ⟨0, b.p.x, b.p.y⟩ }

theorem putBox_self (b : Body) : putBox b ([(boxOf b).px, (boxOf b).py], [(boxOf b).w, (boxOf b).h]) = unturned b := by
  unfold putBox unturned boxOf bodyDims Body.pos V3.xy
  cases hs : b.shape <;> simp

theorem putBall_self (b : Body) : putBall b ([(ballOf b).px, (ballOf b).py], (ballOf b).rad) = unturned b := by
  unfold putBall unturned ballOf Body.rad Body.pos V3.xy
  cases hs : b.shape <;> simp

theorem putBox_same (b c : Body) (h : c = b) :
    putBox b ([(boxOf c).px, (boxOf c).py], [(boxOf c).w, (boxOf c).h]) = unturned b := by
  subst h; exact putBox_self c

theorem putBall_same (b c : Body) (h : c = b) :
    putBall b ([(ballOf c).px, (ballOf c).py], (ballOf c).rad) = unturned b := by
  subst h; exact putBall_self c

theorem unturned_eq (b : Body) (h : b.rot = 0) : unturned b = b := by
  unfold unturned
  have : b.p.r = 0 := h
  have e : (⟨0, b.p.x, b.p.y⟩ : V3) = b.p := V3.ext this.symm rfl rfl
  rw [e]

/-- C89: `simulate_breakout` makes the step, returns the state vector of the world reached, and leaves this world, with
the angles of ball, paddle and blocks set to zero (their vertices are not turned back).  It raises if there are no
blocks. -/
theorem C89_simulate {σ φ : Type} (env : Env σ φ) (fuel sub : ℕ) (w w' : World σ φ) (a vx vy : ℝ) (sn : List ℝ) :
    simulate_breakout env fuel sub w a vx vy = .done (w', sn) ↔
      ∃ w1, step_breakout env fuel sub w a vx vy = .done w1 ∧ 7 < w1.bodies.length ∧
        sn = to_vector (boxOf (bodyAt w1.bodies 1)) ((w1.bodies.drop 7).map boxOf) (ballOf (bodyAt w1.bodies 0)) ∧
        w' = { w1 with bodies := w1.bodies.mapIdx fun i b => if i = 0 ∨ i = 1 ∨ 7 ≤ i then unturned b else b } := by
  have hvec : ∀ w1 : World σ φ, 7 < w1.bodies.length →
      boxState (bodyAt w1.bodies 1) ++ (w1.bodies.drop 7).flatMap boxState ++ ballState (bodyAt w1.bodies 0) =
      to_vector (boxOf (bodyAt w1.bodies 1)) ((w1.bodies.drop 7).map boxOf) (ballOf (bodyAt w1.bodies 0)) := by
    intro w1 h7
    have hne : (w1.bodies.drop 7).map boxOf ≠ [] := by
      simpa using h7
    unfold to_vector
    simp only [if_pos hne, List.flatMap_map]
    rfl
  have hwb : ∀ w1 : World σ φ, 7 < w1.bodies.length →
      writeBack w1.bodies (([(boxOf (bodyAt w1.bodies 1)).px, (boxOf (bodyAt w1.bodies 1)).py],
        [(boxOf (bodyAt w1.bodies 1)).w, (boxOf (bodyAt w1.bodies 1)).h]),
        ((w1.bodies.drop 7).map boxOf).map (fun b => ([b.px, b.py], [b.w, b.h])),
        ([(ballOf (bodyAt w1.bodies 0)).px, (ballOf (bodyAt w1.bodies 0)).py], (ballOf (bodyAt w1.bodies 0)).rad)) =
      w1.bodies.mapIdx fun i b => if i = 0 ∨ i = 1 ∨ 7 ≤ i then unturned b else b := by
    intro w1 h7
    unfold writeBack
    apply List.ext_getElem
    · simp
    · intro i h1 h2
      simp only [List.length_mapIdx] at h1
      have hb : ∀ (k : ℕ) (hk : k < w1.bodies.length), bodyAt w1.bodies k = w1.bodies[k] := by
        intro k hk
        simp [bodyAt, List.getD_eq_getElem?_getD, hk]
      have hb0 := hb 0 (by omega)
      have hb1 := hb 1 (by omega)
      simp only [List.getElem_mapIdx]
      split_ifs with c1 c2 c3 c4 c5 c6
      · subst c1
        exact putBall_same _ _ hb0
      · omega
      · subst c3
        exact putBox_same _ _ hb1
      · omega
      · have : (((w1.bodies.drop 7).map boxOf).map (fun b => (([b.px, b.py] : List ℝ), ([b.w, b.h] : List ℝ))))[i - 7]? =
            some ([(boxOf w1.bodies[i]).px, (boxOf w1.bodies[i]).py], [(boxOf w1.bodies[i]).w, (boxOf w1.bodies[i]).h]) := by
          have e : 7 + (i - 7) = i := by omega
          have e' : w1.bodies[7 + (i - 7)]? = some w1.bodies[i] := by rw [e]; exact List.getElem?_eq_getElem h1
          simp [e']
        rw [this]
        exact putBox_self _
      · omega
      · omega
      · rfl
  have key : ∀ w1 : World σ φ, (if (w1.bodies.drop 7).isEmpty then
        (.raised (.raised "RuntimeError: torch.cat of no tensors") : Run (World σ φ × List ℝ))
      else match from_vector (boxState (bodyAt w1.bodies 1) ++ (w1.bodies.drop 7).flatMap boxState ++
          ballState (bodyAt w1.bodies 0)) with
        | none => .raised (.raised "IndexError")
        | some q => .done ({ w1 with bodies := writeBack w1.bodies q }, boxState (bodyAt w1.bodies 1) ++
            (w1.bodies.drop 7).flatMap boxState ++ ballState (bodyAt w1.bodies 0))) = .done (w', sn) ↔
      7 < w1.bodies.length ∧
        sn = to_vector (boxOf (bodyAt w1.bodies 1)) ((w1.bodies.drop 7).map boxOf) (ballOf (bodyAt w1.bodies 0)) ∧
        w' = { w1 with bodies := w1.bodies.mapIdx fun i b => if i = 0 ∨ i = 1 ∨ 7 ≤ i then unturned b else b } := by
    intro w1
    by_cases h7 : 7 < w1.bodies.length
    · have hne : (w1.bodies.drop 7).isEmpty = false := by
        rw [List.isEmpty_eq_false_iff]
        intro h
        have := List.drop_eq_nil_iff.1 h
        omega
      have hne' : (w1.bodies.drop 7).map boxOf ≠ [] := by simpa using h7
      rw [hvec w1 h7, C59_round_trip, if_neg hne']
      simp only [hne, Bool.false_eq_true, if_false, hwb w1 h7, Run.done.injEq, Prod.mk.injEq, h7, true_and]
      constructor
      · rintro ⟨h1, h2⟩; exact ⟨h2.symm, h1.symm⟩
      · rintro ⟨h1, h2⟩; exact ⟨h2.symm, h1.symm⟩
    · have he : (w1.bodies.drop 7).isEmpty = true := by
        rw [List.isEmpty_iff]
        exact List.drop_eq_nil_iff.2 (by omega)
      simp [he, h7]
  unfold simulate_breakout
  cases hs : step_breakout env fuel sub w a vx vy with
  | running => simp [Run.bind]
  | raised e => simp [Run.bind]
  | done w1 =>
    simp only [Run.bind, Run.done.injEq, exists_eq_left']
    exact key w1


/-! ## The state vector and the world -/

/-- The shape attributes `dims` and `rad`. -/
def sizes (b : Body) : V2 × ℝ := (bodyDims b, b.rad)

theorem sizes_move (b : Body) (d : ℝ) : sizes (b.move d) = sizes b := by
  unfold sizes bodyDims Body.rad Body.move Body.set_p Body.baseSetP
  cases hs : b.shape <;> simp [hs]

theorem sizes_vel (b : Body) (v : V3) : sizes { b with v := v } = sizes b := rfl

theorem loop_keeps {n : ℕ} {φ : Type} {lcp : LcpSolver} {mi : ℕ}
    {collide : ℝ → φ → List Body → Except Err (φ × List Contact)} (hf : GameFinder n collide) (hx : Exact lcp)
    {fuel : ℕ} {T : ℝ} : ∀ (sub : ℕ) (w w' : World (Option Mat) φ), GameInv n w →
      fixedLoop (breakoutEnv lcp mi collide) fuel T sub w = .done w' →
      GameInv n w' ∧ w'.dt = w.dt ∧ w'.bodies.map sizes = w.bodies.map sizes ∧ w'.v 0 = w.v 0 ∧
        (bodyAt w'.bodies 0).p.r = (bodyAt w.bodies 0).p.r + (w'.t - w.t) * w.v 0 ∧
        (∀ i, 2 ≤ i → i < 7 + n → (bodyAt w'.bodies i).p = (bodyAt w.bodies i).p) ∧
        ((∀ x, During (breakoutEnv lcp mi collide) fuel T w x → x.t < T →
            Untouched x.contacts 0 ∧ Untouched x.contacts 1) →
          ∀ i < 2, twist w'.v i = twist w.v i ∧
            (bodyAt w'.bodies i).p = (bodyAt w.bodies i).p + (w'.t - w.t) • twist w.v i) := by
  intro sub
  induction sub with
  | zero =>
    intro w w' hg h
    unfold fixedLoop at h
    split_ifs at h
    injection h with h
    subst h
    refine ⟨hg, rfl, rfl, rfl, by simp, fun _ _ _ => rfl, fun _ i _ => ⟨rfl, ?_⟩⟩
    apply V3.ext <;> simp
  | succ q ih =>
    intro w w' hg h
    unfold fixedLoop at h
    split_ifs at h with hlt
    · rw [Run.bind_eq_done] at h
      obtain ⟨w1, h1, h2⟩ := h
      have hg1 := game_step hf hx hg h1
      obtain ⟨g', d', s', v', r', p', f'⟩ := ih w1 w' hg1 h2
      obtain ⟨l, pn, a, b, g, hlaw⟩ := game_law hx hg.inv h1
      have hs := ball_spin hg hlaw
      refine ⟨g', d'.trans (step_dt_params hg.inv.good h1).1,
        s'.trans (step_dt_keeps sizes sizes_move sizes_vel hg.inv.good h1), v'.trans hs, ?_, ?_, ?_⟩
      · rw [r', game_pose hg h1 0 (by omega)]
        simp [twist, hs]
        ring
      · intro i h2 hi
        rw [p' i h2 hi, game_pose hg h1 i hi, hg1.rest i h2 hi]
        apply V3.ext <;> simp
      · intro hfree i hi
        have hc := hg.coeff i (by omega)
        have hun : ∀ c ∈ w.contacts, c.i1 ≠ i ∧ c.i2 ≠ i := by
          have := hfree w .refl hlt
          interval_cases i
          · exact this.1
          · exact this.2
        have hiso := C78_isolated_body _ _ _ _ _ _ _ _ _ _ _ hlaw i (by rw [hg.len]; omega)
          (free_of_joints hg i hi) hun (by rw [hc.1]; norm_num) hc.2.2.2
        have ht : twist w1.v i = twist w.v i := by
          simp only [twist]
          apply V3.ext
          · simpa using hiso.1
          · simpa using hiso.2.1
          · simpa using hiso.2.2
        obtain ⟨e1, e2⟩ := f' (fun x hx => hfree x (.head ⟨hlt, h1⟩ hx)) i hi
        refine ⟨e1.trans ht, ?_⟩
        rw [e2, game_pose hg h1 i (by omega), ht]
        apply V3.ext <;> simp <;> ring
    · injection h with h
      subst h
      refine ⟨hg, rfl, rfl, rfl, by simp, fun _ _ _ => rfl, fun _ i _ => ⟨rfl, ?_⟩⟩
      apply V3.ext <;> simp

/-- A world of the game in which paddle, blocks and ball are where the state vector says, unturned, the ball flies with
velocity `vel` and neither ball nor paddle spins. -/
structure Shot {φ : Type} (paddle : BoxParams) (blocks : List BoxParams) (ball : BallParams) (vel : V2)
    (w : World (Option Mat) φ) : Prop where
  inv : GameInv blocks.length w
  dt : w.dt = 1
  atPaddle : boxOf (bodyAt w.bodies 1) = paddle
  atBlocks : (w.bodies.drop 7).map boxOf = blocks
  atBall : ballOf (bodyAt w.bodies 0) = ball
  flat : ∀ i < 7 + blocks.length, (bodyAt w.bodies i).p.r = 0
  flies : twist w.v 0 = ⟨0, vel.1, vel.2⟩
  spin : w.v 3 = 0

/-- C89: the world of `make_world` matches the state vector it was made from. -/
theorem C89_world_made {φ : Type} (lcp : LcpSolver) (mi : ℕ)
    (collide : ℝ → φ → List Body → Except Err (φ × List Contact)) (fnd : φ) (paddle : BoxParams)
    (blocks : List BoxParams) (ball : BallParams) (vel : V2) (hr : ball.rad ≠ 0) (hf : GameFinder blocks.length collide)
    (w : World (Option Mat) φ) (h : make_world lcp mi collide fnd paddle blocks ball vel = .done w) :
    Shot paddle blocks ball vel w := by
  obtain ⟨hg, -, hdt, -, hb⟩ := C76_constructed lcp mi collide fnd paddle blocks ball vel w hr hf h
  have hv := fun i hi => bodyAt_vel hg.inv.good i hi
  have hbox : ∀ e b, boxOf (plate e b) = b := by
    intro e b
    simp [boxOf, plate, rectBase, Body.pos, V3.xy, bodyDims, Arg.toV3]
  refine ⟨hg, hdt, ?_, ?_, ?_, ?_, ?_, ?_⟩
  · rw [hb]; exact hbox _ _
  · rw [hb]
    simp only [gameBodies, List.drop_append_of_le_length, List.length_cons, List.length_nil, le_refl,
      List.drop_succ_cons, List.drop_zero, List.nil_append, List.map_map]
    simp [Function.comp_def, hbox]
  · rw [hb]
    simp [bodyAt, gameBodies, ballBody, ballOf, mkCircle, Body.pos, V3.xy, Body.rad, Arg.toV3]
  · intro i hi
    rw [hb]
    have hi' : i < (gameBodies paddle blocks ball vel).length := by rw [game_length]; exact hi
    have hm : bodyAt (gameBodies paddle blocks ball vel) i ∈ gameBodies paddle blocks ball vel := by
      simp only [bodyAt, List.getD_eq_getElem?_getD, List.getElem?_eq_getElem hi', Option.getD_some]
      exact List.getElem_mem hi'
    generalize bodyAt (gameBodies paddle blocks ball vel) i = x at hm ⊢
    have hpl : ∀ e b, (plate e b).p.r = 0 := by intro e b; simp [plate, rectBase]
    simp only [gameBodies, List.mem_append, List.mem_cons, List.not_mem_nil, or_false, List.mem_map] at hm
    rcases hm with (h | h | h | h | h | h | h) | ⟨x, hx, h⟩
    · rw [h]; simp [ballBody, mkCircle, Arg.toV3]
    all_goals first | (rw [h]; exact hpl _ _) | (rw [← h]; exact hpl _ _)
  · rw [← hv 0 (by rw [hg.len]; omega), hb]; rfl
  · have := hv 1 (by rw [hg.len]; omega)
    rw [hb] at this
    exact (congrArg V3.r this).symm

/-- The box moved by `(x, y)`. -/
def shiftBox (b : BoxParams) (x y : ℝ) : BoxParams := { b with px := b.px + x, py := b.py + y }

/-- The ball moved by `(x, y)`. -/
def shiftBall (b : BallParams) (x y : ℝ) : BallParams := { b with px := b.px + x, py := b.py + y }

theorem sizes_eq {bs bs' : List Body} (h : bs'.map sizes = bs.map sizes) (i : ℕ) :
    bodyDims (bodyAt bs' i) = bodyDims (bodyAt bs i) ∧ (bodyAt bs' i).rad = (bodyAt bs i).rad := by
  have := bodyAt_of_map h i
  exact ⟨congrArg Prod.fst this, congrArg Prod.snd this⟩

theorem blocks_same {n : ℕ} {bs bs' : List Body} (hl : bs.length = 7 + n) (hl' : bs'.length = 7 + n)
    (hs : bs'.map sizes = bs.map sizes)
    (hp : ∀ i, 2 ≤ i → i < 7 + n → (bodyAt bs' i).p = (bodyAt bs i).p) :
    (bs'.drop 7).map boxOf = (bs.drop 7).map boxOf := by
  apply List.ext_getElem
  · simp [hl, hl']
  · intro i h1 h2
    have hi : 7 + i < 7 + n := by simp [hl'] at h1; omega
    have e : bodyAt bs (7 + i) = bs[7 + i]'(by omega) := by
      simp [bodyAt, List.getD_eq_getElem?_getD, show 7 + i < bs.length by omega]
    have e' : bodyAt bs' (7 + i) = bs'[7 + i]'(by omega) := by
      simp [bodyAt, List.getD_eq_getElem?_getD, show 7 + i < bs'.length by omega]
    have h3 := hp (7 + i) (by omega) hi
    have h4 := (sizes_eq hs (7 + i)).1
    simp only [List.getElem_map, List.getElem_drop, ← e, ← e', boxOf, Body.pos, h3, h4]

/-- What one simulated step does to the world, before the state is written back. -/
theorem shot_step {φ : Type} {paddle : BoxParams} {blocks : List BoxParams} {ball : BallParams} {vel : V2}
    {lcp : LcpSolver} {mi : ℕ} {collide : ℝ → φ → List Body → Except Err (φ × List Contact)}
    (hf : GameFinder blocks.length collide) (hx : Exact lcp) {fuel sub : ℕ} {w w1 : World (Option Mat) φ} {a vx vy : ℝ}
    (hs : Shot paddle blocks ball vel w) (h : step_breakout (breakoutEnv lcp mi collide) fuel sub w a vx vy = .done w1) :
    GameInv blocks.length w1 ∧ w1.dt = 1 ∧ w1.t = w.t + 1 ∧ (w1.bodies.drop 7).map boxOf = blocks ∧
      (boxOf (bodyAt w1.bodies 1)).w = paddle.w ∧ (boxOf (bodyAt w1.bodies 1)).h = paddle.h ∧
      (ballOf (bodyAt w1.bodies 0)).rad = ball.rad ∧
      (∀ i < 7 + blocks.length, i ≠ 1 → (bodyAt w1.bodies i).p.r = 0) ∧
      (FreeTurn (breakoutEnv lcp mi collide) fuel a vx vy w →
        Shot (shiftBox paddle (a * vx) (a * vy)) blocks (shiftBall ball vel.1 vel.2) vel w1) := by
  have ht := (C76_step_breakout _ _ _ _ _ _ _ _ hs.inv.inv.good (by rw [hs.dt]; norm_num) h).choose_spec.2.2.2.1
  rw [hs.dt] at ht
  unfold step_breakout World.step at h
  simp only [if_true] at h
  set v1 : Vec := Function.update (Function.update w.v (1 * 3 + 1) (vx * a)) (1 * 3 + 2) (vy * a) with hv1
  have hv1' : v1 = fun k => if k = 4 then a * vx else if k = 5 then a * vy else w.v k := by
    funext k
    simp only [hv1, Function.update_apply]
    by_cases h5 : k = 5
    · simp [h5, mul_comm]
    · by_cases h4 : k = 4 <;> simp [h4, h5, mul_comm]
  have hother : ∀ k, k / 3 ≠ 1 → v1 k = w.v k := by
    intro k hk
    have h4 : k ≠ 4 := by rintro rfl; exact hk rfl
    have h5 : k ≠ 5 := by rintro rfl; exact hk rfl
    simp [hv1', h4, h5]
  have hg0 := game_set_v hs.inv v1 hother
  have hsz0 : (w.set_v v1).bodies.map sizes = w.bodies.map sizes := by
    apply List.ext_getElem
    · simp [World.set_v]
    · intro i h1 h2
      simp [World.set_v, sizes, bodyDims, Body.rad]
  have hp0 : ∀ i, (bodyAt (w.set_v v1).bodies i).p = (bodyAt w.bodies i).p := fun i => bodyAt_of_map (set_v_poses w v1) i
  obtain ⟨hg, hdt, hsz, -, hr, hp, hfree⟩ := loop_keeps hf hx sub _ _ hg0 h
  have hsz' := hsz.trans hsz0
  have hball := sizes_eq hsz' 0
  have hpad := sizes_eq hsz' 1
  have hpos : ∀ i, 2 ≤ i → i < 7 + blocks.length → (bodyAt w1.bodies i).p = (bodyAt w.bodies i).p := by
    intro i h2 hi
    rw [hp i h2 hi, hp0]
  have hbl : (w1.bodies.drop 7).map boxOf = blocks := (blocks_same hs.inv.len hg.len hsz' hpos).trans hs.atBlocks
  have hv0 : w.v 0 = 0 := by
    have := congrArg V3.r hs.flies
    simpa [twist] using this
  have hflat : ∀ i < 7 + blocks.length, i ≠ 1 → (bodyAt w1.bodies i).p.r = 0 := by
    intro i hi h1
    rcases Nat.lt_or_ge i 2 with h2 | h2
    · obtain rfl : i = 0 := by omega
      rw [hr, hp0, hs.flat 0 hi, show (w.set_v v1).v 0 = w.v 0 from hother 0 (by norm_num), hv0]
      simp
    · rw [hpos i h2 hi]; exact hs.flat i hi
  refine ⟨hg, hdt.trans hs.dt, ht, hbl, ?_, ?_, ?_, hflat, ?_⟩
  · rw [← hs.atPaddle]; simp [boxOf, hpad.1]
  · rw [← hs.atPaddle]; simp [boxOf, hpad.1]
  · rw [← hs.atBall]; simp [ballOf, hball.2]
  · intro hft
    have hfr := hfree (by
      intro x hx hlt
      refine hft x ?_ hlt
      rw [← hv1']
      exact hx)
    have e0 := hfr 0 (by omega)
    have e1 := hfr 1 (by omega)
    have t0 : twist (w.set_v v1).v 0 = ⟨0, vel.1, vel.2⟩ := by
      rw [← hs.flies]
      have : (w.set_v v1).v = v1 := rfl
      rw [this]
      apply V3.ext
      · exact hother 0 (by norm_num)
      · exact hother 1 (by norm_num)
      · exact hother 2 (by norm_num)
    have t1 : twist (w.set_v v1).v 1 = ⟨0, a * vx, a * vy⟩ := by
      have : (w.set_v v1).v = v1 := rfl
      rw [this, hv1']
      apply V3.ext <;> simp [twist, hs.spin]
    have hdT : w1.t - (w.set_v v1).t = 1 := by
      have : (w.set_v v1).t = w.t := rfl
      rw [this, ht]; ring
    rw [t0, hdT, hp0] at e0
    rw [t1, hdT, hp0] at e1
    refine ⟨hg, hdt.trans hs.dt, ?_, hbl, ?_, ?_, e0.1, ?_⟩
    · rw [← hs.atPaddle]
      simp [boxOf, shiftBox, Body.pos, V3.xy, e1.2, hpad.1]
    · rw [← hs.atBall]
      simp [ballOf, shiftBall, Body.pos, V3.xy, e0.2, hball.2]
    · intro i hi
      by_cases h1 : i = 1
      · subst h1
        rw [e1.2]
        simp [hs.flat 1 hi]
      · exact hflat i hi h1
    · have := congrArg V3.r e1.1
      simpa [twist] using this

/-- C89: whatever happens during the step, the state vector returned describes the same blocks, a paddle of the same
size and a ball of the same radius, and the clock advances by exactly one. -/
theorem C89_simulated_state {φ : Type} (paddle : BoxParams) (blocks : List BoxParams) (ball : BallParams) (vel : V2)
    (lcp : LcpSolver) (mi : ℕ) (collide : ℝ → φ → List Body → Except Err (φ × List Contact))
    (hf : GameFinder blocks.length collide) (hx : Exact lcp) (fuel sub : ℕ) (w w' : World (Option Mat) φ) (a vx vy : ℝ)
    (sn : List ℝ) (hs : Shot paddle blocks ball vel w)
    (h : simulate_breakout (breakoutEnv lcp mi collide) fuel sub w a vx vy = .done (w', sn)) :
    w'.t = w.t + 1 ∧ ∃ px py bx bY, sn = to_vector ⟨px, py, paddle.w, paddle.h⟩ blocks ⟨bx, bY, ball.rad⟩ := by
  obtain ⟨w1, h1, -, h2, h3⟩ := (C89_simulate _ _ _ _ _ _ _ _ _).1 h
  obtain ⟨-, -, ht, hb, hw, hh, hr, -⟩ := shot_step hf hx hs h1
  refine ⟨?_, (boxOf (bodyAt w1.bodies 1)).px, (boxOf (bodyAt w1.bodies 1)).py, (ballOf (bodyAt w1.bodies 0)).px,
    (ballOf (bodyAt w1.bodies 0)).py, ?_⟩
  · rw [h3]; exact ht
  · rw [h2, hb, ← hw, ← hh, ← hr]

/-- C89: of the angles only the paddle's is overwritten; the world left differs from the one stepped to in nothing
else. -/
theorem C89_only_paddle_angle {φ : Type} (paddle : BoxParams) (blocks : List BoxParams) (ball : BallParams) (vel : V2)
    (lcp : LcpSolver) (mi : ℕ) (collide : ℝ → φ → List Body → Except Err (φ × List Contact))
    (hf : GameFinder blocks.length collide) (hx : Exact lcp) (fuel sub : ℕ) (w w' : World (Option Mat) φ) (a vx vy : ℝ)
    (sn : List ℝ) (hs : Shot paddle blocks ball vel w)
    (h : simulate_breakout (breakoutEnv lcp mi collide) fuel sub w a vx vy = .done (w', sn)) :
    ∃ w1, step_breakout (breakoutEnv lcp mi collide) fuel sub w a vx vy = .done w1 ∧
      w' = { w1 with bodies := w1.bodies.modify 1 unturned } ∧
      ((bodyAt w1.bodies 1).rot = 0 → w' = w1) := by
  obtain ⟨w1, h1, h7, -, h3⟩ := (C89_simulate _ _ _ _ _ _ _ _ _).1 h
  obtain ⟨hg, -, -, -, -, -, -, hflat, -⟩ := shot_step hf hx hs h1
  have e : (w1.bodies.mapIdx fun i b => if i = 0 ∨ i = 1 ∨ 7 ≤ i then unturned b else b) =
      w1.bodies.modify 1 unturned := by
    apply List.ext_getElem
    · simp
    · intro i hi1 hi2
      simp only [List.length_mapIdx] at hi1
      have hb : bodyAt w1.bodies i = w1.bodies[i] := by simp [bodyAt, List.getD_eq_getElem?_getD, hi1]
      simp only [List.getElem_mapIdx, List.getElem_modify]
      by_cases h1 : i = 1
      · subst h1; simp
      · rw [if_neg (Ne.symm h1)]
        split_ifs
        · refine unturned_eq _ ?_
          rw [← hb]
          exact hflat i (by rw [← hg.len]; exact hi1) h1
        · rfl
  refine ⟨w1, h1, by rw [h3, e], ?_⟩
  intro hrot
  rw [h3, e]
  have : w1.bodies.modify 1 unturned = w1.bodies := by
    apply List.ext_getElem
    · simp
    · intro i hi1 hi2
      simp only [List.getElem_modify]
      split_ifs with h
      · subst h
        refine unturned_eq _ ?_
        have hb : bodyAt w1.bodies 1 = w1.bodies[1] := by simp [bodyAt, List.getD_eq_getElem?_getD, hi2]
        rw [← hb]; exact hrot
      · rfl
  rw [this]

/-! ## C90: what the controller predicts -/

/-- C90: a step in which ball and paddle touch nothing: the paddle goes by `a * (vx, vy)`, the ball by its velocity, and
the world is again one that matches the state vector. -/
theorem C90_free_step {φ : Type} (paddle : BoxParams) (blocks : List BoxParams) (ball : BallParams) (vel : V2)
    (lcp : LcpSolver) (mi : ℕ) (collide : ℝ → φ → List Body → Except Err (φ × List Contact))
    (hf : GameFinder blocks.length collide) (hx : Exact lcp) (fuel sub : ℕ) (w w' : World (Option Mat) φ) (a vx vy : ℝ)
    (sn : List ℝ) (hs : Shot paddle blocks ball vel w) (hfree : FreeTurn (breakoutEnv lcp mi collide) fuel a vx vy w)
    (h : simulate_breakout (breakoutEnv lcp mi collide) fuel sub w a vx vy = .done (w', sn)) :
    sn = to_vector (shiftBox paddle (a * vx) (a * vy)) blocks (shiftBall ball vel.1 vel.2) ∧
      Shot (shiftBox paddle (a * vx) (a * vy)) blocks (shiftBall ball vel.1 vel.2) vel w' := by
  obtain ⟨w1, h1, h2, h3⟩ := C89_only_paddle_angle paddle blocks ball vel lcp mi collide hf hx fuel sub w w' a vx vy sn hs h
  obtain ⟨-, -, -, -, -, -, -, -, hsh⟩ := shot_step hf hx hs h1
  have hsh := hsh hfree
  have : w' = w1 := h3 (hsh.flat 1 (by omega))
  subst this
  obtain ⟨w1', h1', -, h2', -⟩ := (C89_simulate _ _ _ _ _ _ _ _ _).1 h
  have e : w1' = w' := by
    rw [h1] at h1'
    injection h1' with h1'
    exact h1'.symm
  subst e
  refine ⟨?_, hsh⟩
  rw [h2', hsh.atPaddle, hsh.atBlocks, hsh.atBall]

theorem toBox_pair (b : BoxParams) : toBox ([b.px, b.py], [b.w, b.h]) = b := rfl

/-- Unfolding of the dynamics on a state vector with blocks. -/
theorem dynamics_eq {φ : Type} (lcp : LcpSolver) (mi : ℕ)
    (collide : ℝ → φ → List Body → Except Err (φ × List Contact)) (fnd : φ) (fuel sub : ℕ) (vel : V2) (pvx pvy : ℝ)
    (paddle : BoxParams) (blocks : List BoxParams) (ball : BallParams) (hb : blocks ≠ []) (u : ℝ) :
    dynamics lcp mi collide fnd fuel sub vel pvx pvy (to_vector paddle blocks ball) u =
      (make_world lcp mi collide fnd paddle blocks ball vel).bind fun w =>
        (simulate_breakout (breakoutEnv lcp mi collide) fuel sub w u pvx pvy).bind fun r => .done r.2 := by
  have hmap : (blocks.map fun b => (([b.px, b.py] : List ℝ), ([b.w, b.h] : List ℝ))).map toBox = blocks := by
    rw [List.map_map]
    exact List.map_id'' toBox_pair blocks
  unfold dynamics
  rw [C59_round_trip, if_neg hb]
  simp only
  rw [if_pos, hmap]
  · rfl
  · refine ⟨?_, rfl⟩
    intro r hr
    rcases List.mem_cons.1 hr with rfl | hr
    · exact ⟨rfl, rfl⟩
    · obtain ⟨b, -, rfl⟩ := List.mem_map.1 hr
      exact ⟨rfl, rfl⟩

/-- Paddle, blocks and ball as `from_vector` reads them off a list of numbers, one block for every four numbers after the
first four. -/
def readPaddle (x : List ℝ) : BoxParams := ⟨x.getD 0 0, x.getD 1 0, x.getD 2 0, x.getD 3 0⟩

def readBlocks (x : List ℝ) : List BoxParams := (List.range ((x.length - 4) / 4)).map fun k =>
  ⟨x.getD (4 * k + 4) 0, x.getD (4 * k + 5) 0, x.getD (4 * k + 6) 0, x.getD (4 * k + 7) 0⟩

def readBall (x : List ℝ) : BallParams := ⟨x.getD (x.length - 3) 0, x.getD (x.length - 2) 0, x.getD (x.length - 1) 0⟩

/-- C90: the controller's model on lists of any length. Fewer than four numbers raise; from four to seven a world is built
but no state is ever returned; from eight on a length that fits no state is not noticed, the prediction is that for the
state with one more block, and is longer than the list given. -/
theorem C90_any_length {φ : Type} (lcp : LcpSolver) (mi : ℕ)
    (collide : ℝ → φ → List Body → Except Err (φ × List Contact)) (fnd : φ) (fuel sub : ℕ) (vel : V2) (pvx pvy : ℝ)
    (x : List ℝ) (u : ℝ) :
    (x.length < 4 → ∃ e, dynamics lcp mi collide fnd fuel sub vel pvx pvy x u = .raised e) ∧
    (4 ≤ x.length → x.length < 8 → x.getD (x.length - 1) 0 ≠ 0 → GameFinder 0 collide → Exact lcp →
      ∀ x', dynamics lcp mi collide fnd fuel sub vel pvx pvy x u ≠ .done x') ∧
    (8 ≤ x.length → dynamics lcp mi collide fnd fuel sub vel pvx pvy x u =
      dynamics lcp mi collide fnd fuel sub vel pvx pvy (to_vector (readPaddle x) (readBlocks x) (readBall x)) u ∧
      (to_vector (readPaddle x) (readBlocks x) (readBall x)).length = 7 + 4 * ((x.length - 4) / 4)) := by
  have hdyn : 4 ≤ x.length → dynamics lcp mi collide fnd fuel sub vel pvx pvy x u =
      (make_world lcp mi collide fnd (readPaddle x) (readBlocks x) (readBall x) vel).bind fun w =>
        (simulate_breakout (breakoutEnv lcp mi collide) fuel sub w u pvx pvy).bind fun r => .done r.2 := by
    intro h4
    unfold dynamics
    rw [C59_any_length x h4]
    simp only
    rw [if_pos, List.map_map]
    · rfl
    · refine ⟨?_, rfl⟩
      intro r hr
      rcases List.mem_cons.1 hr with rfl | hr
      · exact ⟨rfl, rfl⟩
      · obtain ⟨b, -, rfl⟩ := List.mem_map.1 hr
        exact ⟨rfl, rfl⟩
  have hbl : (readBlocks x).length = (x.length - 4) / 4 := by simp [readBlocks]
  refine ⟨?_, ?_, ?_⟩
  · intro h4
    unfold dynamics from_vector
    simp only
    cases hl : x.getLast? with
    | none => exact ⟨_, rfl⟩
    | some a =>
      simp only
      rw [if_neg]
      · exact ⟨_, rfl⟩
      · rintro ⟨h, -⟩
        have := (h _ (List.mem_cons_self ..)).2
        simp [slice] at this
        omega
  · intro h4 h8 hr hf hx x' h
    rw [hdyn h4, Run.bind_eq_done] at h
    obtain ⟨w, hw, h⟩ := h
    rw [Run.bind_eq_done] at h
    obtain ⟨⟨w', sn⟩, hs, -⟩ := h
    have hnil : readBlocks x = [] := List.length_eq_zero_iff.1 (by omega)
    rw [hnil] at hw
    have hshot := C89_world_made lcp mi collide fnd _ [] _ vel hr hf w hw
    obtain ⟨w1, h1, h7, -⟩ := (C89_simulate _ _ _ _ _ _ _ _ _).1 hs
    have := (shot_step (blocks := []) hf hx hshot h1).1.len
    simp at this
    omega
  · intro h8
    have hne : readBlocks x ≠ [] := by
      intro h
      rw [h] at hbl
      simp at hbl
      omega
    refine ⟨?_, ?_⟩
    · rw [hdyn (by omega), dynamics_eq _ _ _ _ _ _ _ _ _ _ _ _ hne]
    · unfold to_vector
      simp only [hne, ne_eq, not_false_eq_true, if_true, List.length_append, flatMap_toList_length, hbl]
      simp [BoxParams.toList]
      omega

/-- A list of eight numbers is taken for a state with one block; that state has eleven numbers. -/
example : readBlocks [1, 2, 3, 4, 5, 6, 7, 8] = [⟨5, 6, 7, 8⟩] ∧ readBall [1, 2, 3, 4, 5, 6, 7, 8] = ⟨6, 7, 8⟩ ∧
    (to_vector (readPaddle [1, 2, 3, 4, 5, 6, 7, 8]) (readBlocks [1, 2, 3, 4, 5, 6, 7, 8])
      (readBall [1, 2, 3, 4, 5, 6, 7, 8])).length = 11 := by
  refine ⟨by simp [readBlocks], by simp [readBall], ?_⟩
  simp [readBlocks, to_vector, BoxParams.toList]

/-- C90: the controller's model of one step: the blocks and all sizes stay, whatever is hit; if nothing is hit, the paddle
moves by `u * (pvx, pvy)` and the ball by `vel`. -/
theorem C90_dynamics {φ : Type} (lcp : LcpSolver) (mi : ℕ)
    (collide : ℝ → φ → List Body → Except Err (φ × List Contact)) (fnd : φ) (fuel sub : ℕ) (vel : V2) (pvx pvy : ℝ)
    (paddle : BoxParams) (blocks : List BoxParams) (ball : BallParams) (hb : blocks ≠ []) (hr : ball.rad ≠ 0)
    (hf : GameFinder blocks.length collide) (hx : Exact lcp) (u : ℝ) (x' : List ℝ)
    (h : dynamics lcp mi collide fnd fuel sub vel pvx pvy (to_vector paddle blocks ball) u = .done x') :
    (∃ px py bx bY, x' = to_vector ⟨px, py, paddle.w, paddle.h⟩ blocks ⟨bx, bY, ball.rad⟩) ∧
    ((∀ w, make_world lcp mi collide fnd paddle blocks ball vel = .done w →
        FreeTurn (breakoutEnv lcp mi collide) fuel u pvx pvy w) →
      x' = to_vector (shiftBox paddle (u * pvx) (u * pvy)) blocks (shiftBall ball vel.1 vel.2)) := by
  rw [dynamics_eq lcp mi collide fnd fuel sub vel pvx pvy paddle blocks ball hb, Run.bind_eq_done] at h
  obtain ⟨w, hw, h⟩ := h
  rw [Run.bind_eq_done] at h
  obtain ⟨⟨w', sn⟩, hs, h⟩ := h
  injection h with h
  subst h
  have hshot := C89_world_made lcp mi collide fnd paddle blocks ball vel hr hf w hw
  refine ⟨(C89_simulated_state paddle blocks ball vel lcp mi collide hf hx fuel sub w w' u pvx pvy sn hshot hs).2, ?_⟩
  intro hfree
  exact (C90_free_step paddle blocks ball vel lcp mi collide hf hx fuel sub w w' u pvx pvy sn hshot (hfree w hw) hs).1

/-- Along the predicted way nothing is hit. -/
def FreeWay {φ : Type} (lcp : LcpSolver) (mi : ℕ) (collide : ℝ → φ → List Body → Except Err (φ × List Contact))
    (fuel : ℕ) (vel : V2) (pvx pvy : ℝ) (blocks : List BoxParams) : List (φ × ℝ) → BoxParams → BallParams → Prop
  | [], _, _ => True
  | (f, u) :: us, P, B => (∀ w, make_world lcp mi collide f P blocks B vel = .done w →
      FreeTurn (breakoutEnv lcp mi collide) fuel u pvx pvy w) ∧
      FreeWay lcp mi collide fuel vel pvx pvy blocks us (shiftBox P (u * pvx) (u * pvy)) (shiftBall B vel.1 vel.2)

/-- C90: as long as nothing is hit, the predicted state is linear in the actions: the paddle has moved by their sum times
`(pvx, pvy)`, the ball by the number of steps times `vel`. -/
theorem C90_prediction {φ : Type} (lcp : LcpSolver) (mi : ℕ)
    (collide : ℝ → φ → List Body → Except Err (φ × List Contact)) (fuel sub : ℕ) (vel : V2) (pvx pvy : ℝ)
    (blocks : List BoxParams) (hb : blocks ≠ []) (hf : GameFinder blocks.length collide) (hx : Exact lcp) :
    ∀ (us : List (φ × ℝ)) (paddle : BoxParams) (ball : BallParams) (x : List ℝ), ball.rad ≠ 0 →
      FreeWay lcp mi collide fuel vel pvx pvy blocks us paddle ball →
      predict lcp mi collide fuel sub vel pvx pvy us (to_vector paddle blocks ball) = .done x →
      x = to_vector (shiftBox paddle ((us.map Prod.snd).sum * pvx) ((us.map Prod.snd).sum * pvy)) blocks
        (shiftBall ball (us.length * vel.1) (us.length * vel.2)) := by
  intro us
  induction us with
  | nil =>
    intro paddle ball x _ _ h
    simp only [predict] at h
    injection h with h
    subst h
    simp [shiftBox, shiftBall]
  | cons p us ih =>
    obtain ⟨f, u⟩ := p
    intro paddle ball x hr hfw h
    simp only [predict, Run.bind_eq_done] at h
    obtain ⟨x1, h1, h2⟩ := h
    have e := (C90_dynamics lcp mi collide f fuel sub vel pvx pvy paddle blocks ball hb hr hf hx u x1 h1).2 hfw.1
    subst e
    have := ih _ _ x (show (shiftBall ball vel.1 vel.2).rad ≠ 0 from hr) hfw.2 h2
    rw [this]
    simp only [shiftBox, shiftBall, List.map_cons, List.sum_cons, List.length_cons, Nat.cast_add, Nat.cast_one]
    congr 2 <;> ring

/-- C90: bounces are forgotten.  `w1` is the world one step after the state the controller starts from, `w2` the world
one free step later.  In the world the ball goes on with the velocity it has after the bounce; in the prediction it goes
on with the velocity it had before. -/
theorem C90_bounce_forgotten {φ : Type} (lcp : LcpSolver) (mi : ℕ)
    (collide : ℝ → φ → List Body → Except Err (φ × List Contact)) (f1 f2 : φ) (fuel sub : ℕ) (vel : V2) (pvx pvy : ℝ)
    (paddle : BoxParams) (blocks : List BoxParams) (ball : BallParams) (hb : blocks ≠ []) (hr : ball.rad ≠ 0)
    (hf : GameFinder blocks.length collide) (hx : Exact lcp) (u1 u2 : ℝ) (w0 w1 w2 : World (Option Mat) φ) (x2 : List ℝ)
    (h0 : make_world lcp mi collide f1 paddle blocks ball vel = .done w0)
    (h1 : step_breakout (breakoutEnv lcp mi collide) fuel sub w0 u1 pvx pvy = .done w1)
    (h2 : step_breakout (breakoutEnv lcp mi collide) fuel sub w1 u2 pvx pvy = .done w2)
    (hfree : FreeTurn (breakoutEnv lcp mi collide) fuel u2 pvx pvy w1)
    (hx2 : predict lcp mi collide fuel sub vel pvx pvy [(f1, u1), (f2, u2)] (to_vector paddle blocks ball) = .done x2)
    (hfree2 : ∀ w, make_world lcp mi collide f2 (boxOf (bodyAt w1.bodies 1)) blocks (ballOf (bodyAt w1.bodies 0)) vel =
      .done w → FreeTurn (breakoutEnv lcp mi collide) fuel u2 pvx pvy w) :
    ∃ P, x2 = to_vector P blocks (shiftBall (ballOf (bodyAt w1.bodies 0)) vel.1 vel.2) ∧
      ballOf (bodyAt w2.bodies 0) = shiftBall (ballOf (bodyAt w1.bodies 0)) (w1.v 1) (w1.v 2) := by
  have hshot := C89_world_made lcp mi collide f1 paddle blocks ball vel hr hf w0 h0
  obtain ⟨hg1, hdt1, -, hbl, -, -, hrad, -⟩ := shot_step hf hx hshot h1
  simp only [predict, Run.bind_eq_done] at hx2
  obtain ⟨x1, hx1, x2', hx2, hdone⟩ := hx2
  injection hdone with hdone
  subst hdone
  rw [dynamics_eq lcp mi collide f1 fuel sub vel pvx pvy paddle blocks ball hb, Run.bind_eq_done] at hx1
  obtain ⟨w0', h0', hx1⟩ := hx1
  rw [h0] at h0'
  injection h0' with h0'
  subst h0'
  rw [Run.bind_eq_done] at hx1
  obtain ⟨⟨w1', sn⟩, hs1, hx1⟩ := hx1
  injection hx1 with hx1
  subst hx1
  obtain ⟨w1'', h1', -, hsn, -⟩ := (C89_simulate _ _ _ _ _ _ _ _ _).1 hs1
  rw [h1] at h1'
  injection h1' with h1'
  subst h1'
  simp only at hx2
  rw [hsn, hbl] at hx2
  have hr' : (ballOf (bodyAt w1.bodies 0)).rad ≠ 0 := by rw [hrad]; exact hr
  refine ⟨_, (C90_dynamics lcp mi collide f2 fuel sub vel pvx pvy _ blocks _ hb hr' hf hx u2 x2' hx2).2 hfree2, ?_⟩
  have ht := (C76_step_breakout _ _ _ _ _ _ _ _ hg1.inv.good (by rw [hdt1]; norm_num) h2).choose_spec.2.2.2.1
  rw [hdt1] at ht
  unfold step_breakout World.step at h2
  simp only [if_true] at h2
  set v1 : Vec := Function.update (Function.update w1.v (1 * 3 + 1) (pvx * u2)) (1 * 3 + 2) (pvy * u2) with hv1
  have hv1' : v1 = fun k => if k = 4 then u2 * pvx else if k = 5 then u2 * pvy else w1.v k := by
    funext k
    simp only [hv1, Function.update_apply]
    by_cases h5 : k = 5
    · simp [h5, mul_comm]
    · by_cases h4 : k = 4 <;> simp [h4, h5, mul_comm]
  have hother : ∀ k, k / 3 ≠ 1 → v1 k = w1.v k := by
    intro k hk
    have h4 : k ≠ 4 := by rintro rfl; exact hk rfl
    have h5 : k ≠ 5 := by rintro rfl; exact hk rfl
    simp [hv1', h4, h5]
  have hg0 := game_set_v hg1 v1 hother
  obtain ⟨-, -, hsz, -, -, -, hfr⟩ := loop_keeps hf hx sub _ _ hg0 h2
  have e0 := (hfr (by
      intro x hx hlt
      refine hfree x ?_ hlt
      rw [← hv1']
      exact hx) 0 (by omega)).2
  have hdT : w2.t - (w1.set_v v1).t = 1 := by
    have : (w1.set_v v1).t = w1.t := rfl
    rw [this, ht]; ring
  have hsz0 : (w1.set_v v1).bodies.map sizes = w1.bodies.map sizes := by
    apply List.ext_getElem
    · simp [World.set_v]
    · intro i h1 h2
      simp [World.set_v, sizes, bodyDims, Body.rad]
  have hp0 : (bodyAt (w1.set_v v1).bodies 0).p = (bodyAt w1.bodies 0).p := bodyAt_of_map (set_v_poses w1 v1) 0
  have hrad2 := (sizes_eq (hsz.trans hsz0) 0).2
  have k1 : (w1.set_v v1).v 1 = w1.v 1 := hother 1 (by norm_num)
  have k2 : (w1.set_v v1).v 2 = w1.v 2 := hother 2 (by norm_num)
  rw [hdT, hp0] at e0
  simp [ballOf, shiftBall, Body.pos, V3.xy, e0, hrad2, twist, k1, k2]

/-! ## C92: learning the paddle's speed -/

/-- In every turn of the simulated game ball and paddle touch nothing. -/
def FreeGame {φ : Type} (env : Env (Option Mat) φ) (fuel sub : ℕ) (vx vy : ℝ) :
    List ℝ → World (Option Mat) φ → Prop
  | [], _ => True
  | a :: as, w => FreeTurn env fuel a vx vy w ∧
      ∀ w' sn, simulate_breakout env fuel sub w a vx vy = .done (w', sn) → FreeGame env fuel sub vx vy as w'

/-- The paddle's part of the state after each prefix of the actions, if it moves by `a * (vx, vy)` per action. -/
def straight (P : BoxParams) (vx vy : ℝ) : List ℝ → List (List ℝ)
  | [] => []
  | a :: as => (shiftBox P (a * vx) (a * vy)).toList :: straight (shiftBox P (a * vx) (a * vy)) vx vy as

/-- C92: without contacts the simulated states the learner compares with the screen are those of a paddle moving by
`a * (vx, vy)` per action. -/
theorem C92_learned_states {φ : Type} (blocks : List BoxParams) (vel : V2)
    (lcp : LcpSolver) (mi : ℕ) (collide : ℝ → φ → List Body → Except Err (φ × List Contact))
    (hf : GameFinder blocks.length collide) (hx : Exact lcp) (fuel sub : ℕ) (vx vy : ℝ) :
    ∀ (as : List ℝ) (paddle : BoxParams) (ball : BallParams) (w : World (Option Mat) φ) (l : List (List ℝ)),
      Shot paddle blocks ball vel w → FreeGame (breakoutEnv lcp mi collide) fuel sub vx vy as w →
      learnStates (breakoutEnv lcp mi collide) fuel sub vx vy as w = .done l → l = straight paddle vx vy as := by
  intro as
  induction as with
  | nil =>
    intro paddle ball w l _ _ h
    simp only [learnStates] at h
    injection h with h
    exact h.symm
  | cons a as ih =>
    intro paddle ball w l hs hfree h
    simp only [learnStates, Run.bind_eq_done] at h
    obtain ⟨⟨w', sn⟩, h1, l', h2, h3⟩ := h
    injection h3 with h3
    subst h3
    obtain ⟨hsn, hs'⟩ := C90_free_step paddle blocks ball vel lcp mi collide hf hx fuel sub w w' a vx vy sn hs hfree.1 h1
    rw [ih _ _ w' l' hs' (hfree.2 w' sn h1) h2]
    simp only [straight, hsn]
    rfl

theorem straight_length (vx vy : ℝ) : ∀ (as : List ℝ) (P : BoxParams), (straight P vx vy as).flatten.length = 4 * as.length := by
  intro as
  induction as with
  | nil => intro P; rfl
  | cons a as ih =>
    intro P
    simp only [straight, List.flatten_cons, List.length_append, ih, List.length_cons]
    simp [BoxParams.toList]
    ring

/-- The sum of the squares of the partial sums of the actions, starting from `s`. -/
def spread (s : ℝ) : List ℝ → ℝ
  | [] => 0
  | a :: as => (s + a) ^ 2 + spread (s + a) as

theorem spread_nonneg : ∀ (as : List ℝ) (s : ℝ), 0 ≤ spread s as := by
  intro as
  induction as with
  | nil => intro s; simp [spread]
  | cons a as ih => intro s; have := ih (s + a); simp only [spread]; positivity

theorem spread_pos : ∀ as : List ℝ, (∃ a ∈ as, a ≠ 0) → 0 < spread 0 as := by
  intro as
  induction as with
  | nil => rintro ⟨a, ha, -⟩; cases ha
  | cons a as ih =>
    rintro ⟨b, hb, hb0⟩
    by_cases ha : a = 0
    · subst ha
      have : 0 < spread 0 as := ih ⟨b, by
        rcases List.mem_cons.1 hb with h | h
        · exact absurd h hb0
        · exact h, hb0⟩
      simpa [spread] using this
    · have := spread_nonneg as (0 + a)
      have h2 : 0 < (0 + a) ^ 2 := by rw [zero_add]; positivity
      simp only [spread]
      linarith

theorem straight_diff (vx vy ux uy : ℝ) : ∀ (as : List ℝ) (s : ℝ) (P Q : BoxParams), P.w = Q.w → P.h = Q.h →
    P.px - Q.px = s * (vx - ux) → P.py - Q.py = s * (vy - uy) →
    (List.zipWith (fun a b => (a - b) ^ 2) (straight P vx vy as).flatten (straight Q ux uy as).flatten).sum =
      spread s as * ((vx - ux) ^ 2 + (vy - uy) ^ 2) := by
  intro as
  induction as with
  | nil => intro s P Q _ _ _ _; simp [straight, spread]
  | cons a as ih =>
    intro s P Q hw hh h1 h2
    have := ih (s + a) (shiftBox P (a * vx) (a * vy)) (shiftBox Q (a * ux) (a * uy)) hw hh
      (by simp only [shiftBox]; linear_combination h1) (by simp only [shiftBox]; linear_combination h2)
    simp only [straight, List.flatten_cons, BoxParams.toList, List.cons_append, List.nil_append, List.zipWith_cons_cons,
      List.sum_cons, this, spread]
    simp only [shiftBox, hw, hh]
    have e1 : P.px + a * vx - (Q.px + a * ux) = (s + a) * (vx - ux) := by linear_combination h1
    have e2 : P.py + a * vy - (Q.py + a * uy) = (s + a) * (vy - uy) := by linear_combination h2
    rw [e1, e2]
    ring

/-- C92: if the paddle on the screen moves by `a * (ux, uy)` per action, the loss is a fixed multiple of the squared
distance of the guessed speed from the true one, so it vanishes only at the true speed as soon as one action differs from
zero. -/
theorem C92_loss (P : BoxParams) (vx vy ux uy : ℝ) (as : List ℝ) :
    mseLoss (straight P vx vy as) (straight P ux uy as) =
      spread 0 as / (4 * as.length) * ((vx - ux) ^ 2 + (vy - uy) ^ 2) ∧
    ((∃ a ∈ as, a ≠ 0) → (mseLoss (straight P vx vy as) (straight P ux uy as) = 0 ↔ vx = ux ∧ vy = uy)) := by
  have e : mseLoss (straight P vx vy as) (straight P ux uy as) =
      spread 0 as / (4 * as.length) * ((vx - ux) ^ 2 + (vy - uy) ^ 2) := by
    unfold mseLoss
    rw [straight_diff vx vy ux uy as 0 P P rfl rfl (by simp) (by simp), straight_length]
    push_cast
    ring
  refine ⟨e, ?_⟩
  intro hex
  have hs := spread_pos as hex
  have hl : 0 < (as.length : ℝ) := by
    obtain ⟨a, ha, -⟩ := hex
    exact_mod_cast List.length_pos_of_mem ha
  rw [e]
  constructor
  · intro h0
    have hc : spread 0 as / (4 * as.length) ≠ 0 := by positivity
    have := (mul_eq_zero.1 h0).resolve_left hc
    constructor <;> nlinarith [sq_nonneg (vx - ux), sq_nonneg (vy - uy)]
  · rintro ⟨rfl, rfl⟩
    simp

/-! ## C91: the cost -/

/-- The quadratic form of the first `n` rows and columns of `Q`. -/
def quadForm (n : ℕ) (Q : ℕ → ℕ → ℝ) (z : ℕ → ℝ) : ℝ :=
  ∑ i ∈ Finset.range n, ∑ j ∈ Finset.range n, z i * Q i j * z j

theorem quadForm_setEntry (n : ℕ) (Q : ℕ → ℕ → ℝ) (z : ℕ → ℝ) (a b : ℕ) (ha : a < n) (hb : b < n) (x : ℝ) :
    quadForm n (setEntry Q a b x) z = quadForm n Q z + (x - Q a b) * z a * z b := by
  unfold quadForm
  have e : ∀ i j, z i * setEntry Q a b x i j * z j = z i * Q i j * z j +
      (if i = a then if j = b then (x - Q a b) * z a * z b else 0 else 0) := by
    intro i j
    unfold setEntry
    by_cases hi : i = a <;> by_cases hj : j = b <;> simp [hi, hj]
    ring
  simp only [e, Finset.sum_add_distrib]
  congr 1
  rw [Finset.sum_eq_single a]
  · simp [hb]
  · intro i _ hi; simp [hi]
  · intro h; exact absurd (Finset.mem_range.2 ha) h

theorem quadForm_diag (n ns : ℕ) (lam : ℝ) (z : ℕ → ℝ) (h : ns ≤ n) :
    quadForm n (costDiag ns lam) z = lam * ∑ k ∈ Finset.range (n - ns), z (ns + k) ^ 2 := by
  unfold quadForm costDiag
  have e : ∀ i ∈ Finset.range n, (∑ j ∈ Finset.range n, z i * (if i = j then (if i < ns then 0 else lam) else 0) * z j) =
      if i < ns then 0 else lam * z i ^ 2 := by
    intro i hi
    rw [Finset.sum_eq_single i]
    · by_cases h : i < ns <;> simp [h]; ring
    · intro j _ hj; simp [Ne.symm hj]
    · intro h; exact absurd hi h
  rw [Finset.sum_congr rfl e]
  obtain ⟨m, rfl⟩ := Nat.exists_eq_add_of_le h
  rw [Finset.sum_range_add, Nat.add_sub_cancel_left, Finset.mul_sum]
  have z0 : ∑ x ∈ Finset.range ns, (if x < ns then (0 : ℝ) else lam * z x ^ 2) = 0 :=
    Finset.sum_eq_zero fun i hi => by simp [Finset.mem_range.1 hi]
  rw [z0, zero_add]
  exact Finset.sum_congr rfl fun k _ => by simp

theorem quadForm_track (n ns : ℕ) (Q : ℕ → ℕ → ℝ) (z : ℕ → ℝ) (h4 : 4 ≤ ns) (h : ns ≤ n)
    (h0 : Q (ns - 3) (ns - 3) = 0 ∧ Q (ns - 3) 0 = 0 ∧ Q 0 0 = 0 ∧ Q 0 (ns - 3) = 0) :
    quadForm n (costTrack ns Q) z = quadForm n Q z + (z (ns - 3) - z 0) ^ 2 := by
  unfold costTrack
  simp only
  rw [quadForm_setEntry _ _ _ _ _ (by omega) (by omega), quadForm_setEntry _ _ _ _ _ (by omega) (by omega),
    quadForm_setEntry _ _ _ _ _ (by omega) (by omega), quadForm_setEntry _ _ _ _ _ (by omega) (by omega)]
  have n0 : ns - 3 ≠ 0 := by omega
  simp only [setEntry, n0, Ne.symm n0, and_true, and_false, false_and, if_false, h0.1, h0.2.1, h0.2.2.1, h0.2.2.2]
  ring

theorem sum_range_getD : ∀ us : List ℝ, ∑ k ∈ Finset.range us.length, us.getD k 0 ^ 2 = (us.map fun u => u ^ 2).sum := by
  intro us
  induction us with
  | nil => simp
  | cons a l ih =>
    rw [List.length_cons, Finset.sum_range_succ', List.map_cons, List.sum_cons, ← ih, add_comm]
    simp

/-- The tracking cost is switched on at time `t`. -/
def Tracks (paddleY ballY ballVelY : ℝ) (centering : Bool) (t : ℕ) : Prop :=
  (0 < ballVelY ∧ (t : ℤ) ≤ pyInt ((paddleY - ballY) / ballVelY) + 1) ∨
  (ballVelY ≤ 0 ∧ centering = true ∧ 1000 < ballY)

open Classical in
/-- C91: the cost the controller minimises at time `t`, written out: the squared horizontal distance of ball and paddle
while it tracks, ten times the squared height of the ball if `vert_cost` is set, and `lam` times the squared actions. -/
theorem C91_cost (paddle : BoxParams) (blocks : List BoxParams) (ball : BallParams) (bvy lam : ℝ) (vert centering : Bool)
    (t na : ℕ) (P : BoxParams) (bl : List BoxParams) (B : BallParams) (us : List ℝ) (hus : us.length = na)
    (hbl : (to_vector P bl B).length = (to_vector paddle blocks ball).length) :
    quadForm ((to_vector paddle blocks ball).length + na)
      (mpcCost (to_vector paddle blocks ball) bvy lam vert centering t)
      (fun i => (to_vector P bl B ++ us).getD i 0) =
    (if Tracks paddle.py ball.py bvy centering t then (B.px - P.px) ^ 2 else 0) +
      (if vert = true then 10 * B.py ^ 2 else 0) + lam * (us.map fun u => u ^ 2).sum := by
  set ns := (to_vector paddle blocks ball).length with hns
  have hlen : ∀ (P : BoxParams) (bl : List BoxParams) (B : BallParams), ∃ m : List ℝ,
      to_vector P bl B = P.toList ++ m ++ [B.px, B.py, B.rad] ∧ (to_vector P bl B).length = 4 + m.length + 3 := by
    intro P bl B
    refine ⟨_, rfl, ?_⟩
    simp [to_vector, BoxParams.toList]
    ring
  obtain ⟨m, hm, hml⟩ := hlen P bl B
  obtain ⟨m', hm', hml'⟩ := hlen paddle blocks ball
  have h7 : 7 ≤ ns := by omega
  have hmm : m.length = m'.length := by omega
  have hget : ∀ (P : BoxParams) (m : List ℝ) (B : BallParams) (us : List ℝ),
      (P.toList ++ m ++ [B.px, B.py, B.rad] ++ us).getD 0 0 = P.px ∧
      (P.toList ++ m ++ [B.px, B.py, B.rad] ++ us).getD 1 0 = P.py ∧
      (P.toList ++ m ++ [B.px, B.py, B.rad] ++ us).getD (4 + m.length) 0 = B.px ∧
      (P.toList ++ m ++ [B.px, B.py, B.rad] ++ us).getD (4 + m.length + 1) 0 = B.py ∧
      ∀ k, (P.toList ++ m ++ [B.px, B.py, B.rad] ++ us).getD (4 + m.length + 3 + k) 0 = us.getD k 0 := by
    intro P m B us
    refine ⟨rfl, rfl, ?_, ?_, ?_⟩
    · simp [BoxParams.toList, List.getD_eq_getElem?_getD, List.getElem?_append, Nat.add_comm 4]
    · simp [BoxParams.toList, List.getD_eq_getElem?_getD, List.getElem?_append, Nat.add_comm 4, Nat.add_right_comm]
    · intro k
      rw [List.getD_eq_getElem?_getD, List.getD_eq_getElem?_getD, List.getElem?_append_right]
      · congr 2
        simp [BoxParams.toList]
        omega
      · simp [BoxParams.toList]
        omega
  obtain ⟨z0, -, z3, z2, zu⟩ := hget P m B us
  obtain ⟨-, s1, -, s2, -⟩ := hget paddle m' ball []
  simp only [List.append_nil] at s1 s2
  rw [← hm] at z0 z3 z2 zu
  rw [← hm'] at s1 s2
  have i3 : ns - 3 = 4 + m.length := by omega
  have i2 : ns - 2 = 4 + m.length + 1 := by omega
  have i2' : ns - 2 = 4 + m'.length + 1 := by omega
  set z : ℕ → ℝ := fun i => (to_vector P bl B ++ us).getD i 0 with hz
  have hsum : ∑ k ∈ Finset.range (ns + na - ns), z (ns + k) ^ 2 = (us.map fun u => u ^ 2).sum := by
    rw [Nat.add_sub_cancel_left]
    have e : ∀ k ∈ Finset.range na, z (ns + k) ^ 2 = us.getD k 0 ^ 2 := by
      intro k _
      have : ns + k = 4 + m.length + 3 + k := by omega
      rw [this]
      simp only [hz, zu]
    rw [Finset.sum_congr rfl e, ← hus]
    exact sum_range_getD us
  have hz0 : z 0 = P.px := z0
  have hz3 : z (ns - 3) = B.px := by rw [i3]; exact z3
  have hz2 : z (ns - 2) = B.py := by rw [i2]; exact z2
  set Q1 : ℕ → ℕ → ℝ := if vert = true then setEntry (costDiag ns lam) (ns - 2) (ns - 2) 10 else costDiag ns lam with hQ1
  have hd : ∀ i j, i < ns → costDiag ns lam i j = 0 := by
    intro i j hi
    unfold costDiag
    by_cases h : i = j <;> simp [h, hi]
    intro h'; omega
  have hv : quadForm (ns + na) Q1 z = (if vert = true then 10 * B.py ^ 2 else 0) + lam * (us.map fun u => u ^ 2).sum := by
    rw [hQ1]
    split_ifs
    · rw [quadForm_setEntry _ _ _ _ _ (by omega) (by omega), quadForm_diag _ _ _ _ (by omega), hsum, hz2,
        hd _ _ (by omega)]
      ring
    · rw [quadForm_diag _ _ _ _ (by omega), hsum]
      ring
  have hzero : ∀ i j, i < ns → i ≠ ns - 2 → Q1 i j = 0 := by
    intro i j hi h2
    rw [hQ1]
    split_ifs
    · simp only [setEntry, h2, false_and, if_false]; exact hd i j hi
    · exact hd i j hi
  have ht : quadForm (ns + na) (costTrack ns Q1) z = (B.px - P.px) ^ 2 +
      (if vert = true then 10 * B.py ^ 2 else 0) + lam * (us.map fun u => u ^ 2).sum := by
    rw [quadForm_track _ _ _ _ (by omega) (by omega) ⟨hzero _ _ (by omega) (by omega), hzero _ _ (by omega) (by omega),
      hzero _ _ (by omega) (by omega), hzero _ _ (by omega) (by omega)⟩, hv, hz0, hz3]
    ring
  rw [← i2'] at s2
  unfold mpcCost
  simp only [← hns, s1, s2, div_one]
  rw [← hQ1]
  by_cases hb : bvy > 0
  · rw [if_pos hb]
    by_cases hc : pyInt ((paddle.py - ball.py) / bvy) + 1 ≥ (t : ℤ)
    · have hT : Tracks paddle.py ball.py bvy centering t := Or.inl ⟨hb, hc⟩
      rw [if_pos hc, if_pos hT, ht]
    · have hT : ¬ Tracks paddle.py ball.py bvy centering t := by
        rintro (⟨-, h⟩ | ⟨h, -⟩)
        · exact hc h
        · linarith
      rw [if_neg hc, if_neg hT, hv, zero_add]
  · rw [if_neg hb]
    by_cases hc : centering = true ∧ ball.py > 1000
    · have hT : Tracks paddle.py ball.py bvy centering t := Or.inr ⟨not_lt.1 hb, hc⟩
      rw [if_pos hc, if_pos hT, ht]
    · have hT : ¬ Tracks paddle.py ball.py bvy centering t := by
        rintro (⟨h, -⟩ | ⟨-, h⟩)
        · exact hb h
        · exact hc h
      rw [if_neg hc, if_neg hT, hv, zero_add]

end LcpPhysics
