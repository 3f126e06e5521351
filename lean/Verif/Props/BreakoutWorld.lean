import Verif.Model.BreakoutWorld
import Verif.Props.Impact
import Verif.Props.Support
import Verif.Props.Breakout
import Verif.Spec.Play

/-!
# C76: the simulated Breakout world

Bodies: 0 ball, 1 paddle, 2 and 3 walls, 4 roof, 5 and 6 stoppers, 7.. blocks.
-/

noncomputable section

namespace LcpPhysics
open Spec Breakout

/-! ## The bodies -/

/-- A rectangle of the world. -/
def plate (e : ℝ) (b : BoxParams) : Body :=
  rectBase (.two (b.px, b.py)) (b.w, b.h) { restitution := e, fric_coeff := 0 }

theorem boxBody_ok (e : ℝ) (b : BoxParams) (h : 0 < b.w * b.h) : Breakout.boxBody e b = .ok (plate e b) := by
  unfold Breakout.boxBody
  rw [mkRect_eq _ _ _ h]
  rfl

theorem boxBody_err (e : ℝ) (b : BoxParams) (h : ¬ 0 < b.w * b.h) : Breakout.boxBody e b = .error .assertion := by
  unfold Breakout.boxBody
  rw [mkRect_err _ _ _ h]

/-- A block the world accepts. -/
def GoodBlock (b : BoxParams) : Prop := (-6 ≤ blockLevel b ∧ blockLevel b < 6) ∧ 0 < b.w * b.h

theorem blockBodies_ok : ∀ bl : List BoxParams, (∀ b ∈ bl, GoodBlock b) → blockBodies bl = .ok (bl.map (plate 1))
  | [], _ => rfl
  | b :: bl, h => by
    have hb := h b (by simp)
    unfold blockBodies blockBody
    rw [if_pos hb.1, boxBody_ok _ _ hb.2, blockBodies_ok bl fun b hb => h b (by simp [hb])]
    rfl

theorem blockBodies_good : ∀ (bl : List BoxParams) (bs : List Body), blockBodies bl = .ok bs → ∀ b ∈ bl, GoodBlock b
  | [], _, _ => by simp
  | b :: bl, bs, h => by
    unfold blockBodies blockBody at h
    by_cases hl : -6 ≤ blockLevel b ∧ blockLevel b < 6
    · rw [if_pos hl] at h
      by_cases hp : 0 < b.w * b.h
      · rw [boxBody_ok _ _ hp] at h
        simp only [Except.bind] at h
        cases hb : blockBodies bl with
        | error e => rw [hb] at h; cases h
        | ok bs' =>
          intro x hx
          rcases List.mem_cons.1 hx with rfl | hx
          · exact ⟨hl, hp⟩
          · exact blockBodies_good bl bs' hb x hx
      · rw [boxBody_err _ _ hp] at h; cases h
    · rw [if_neg hl] at h; cases h

/-- The bodies of the world. -/
def gameBodies (paddle : BoxParams) (blocks : List BoxParams) (ball : BallParams) (vel : V2) : List Body :=
  [ballBody ball vel, plate 1 paddle, plate 1 leftWall, plate 1 rightWall, plate 1 roof, plate (-1) leftStopper,
    plate (-1) rightStopper] ++ blocks.map (plate 1)

/-- C76: the bodies of the world can be built exactly if paddle and blocks have positive area (dimensions of one sign)
and every block lies in one of the six rows (or, for Python's negative indices, up to six rows above). -/
theorem C76_bodies (paddle : BoxParams) (blocks : List BoxParams) (ball : BallParams) (vel : V2) (bs : List Body) :
    breakoutBodies paddle blocks ball vel = .ok bs ↔
      (0 < paddle.w * paddle.h ∧ (∀ b ∈ blocks, GoodBlock b)) ∧ bs = gameBodies paddle blocks ball vel := by
  have o2 : Breakout.boxBody 1 leftWall = .ok (plate 1 leftWall) := boxBody_ok _ _ (by norm_num [leftWall])
  have o3 : Breakout.boxBody 1 rightWall = .ok (plate 1 rightWall) := boxBody_ok _ _ (by norm_num [rightWall])
  have o4 : Breakout.boxBody 1 roof = .ok (plate 1 roof) := boxBody_ok _ _ (by norm_num [roof])
  have o5 : Breakout.boxBody (-1) leftStopper = .ok (plate (-1) leftStopper) :=
    boxBody_ok _ _ (by norm_num [leftStopper])
  have o6 : Breakout.boxBody (-1) rightStopper = .ok (plate (-1) rightStopper) :=
    boxBody_ok _ _ (by norm_num [rightStopper])
  unfold breakoutBodies
  constructor
  · intro h
    by_cases hp : 0 < paddle.w * paddle.h
    · rw [boxBody_ok 1 paddle hp, o2, o3, o4, o5, o6] at h
      simp only [Except.bind] at h
      cases hb : blockBodies blocks with
      | error e => rw [hb] at h; cases h
      | ok bl =>
        have hg := blockBodies_good blocks bl hb
        rw [blockBodies_ok blocks hg] at h
        injection h with h
        exact ⟨⟨hp, hg⟩, h.symm⟩
    · rw [boxBody_err 1 paddle hp] at h; cases h
  · rintro ⟨⟨hp, hg⟩, rfl⟩
    rw [boxBody_ok 1 paddle hp, o2, o3, o4, o5, o6, blockBodies_ok blocks hg]
    rfl

theorem game_length (paddle : BoxParams) (blocks : List BoxParams) (ball : BallParams) (vel : V2) :
    (gameBodies paddle blocks ball vel).length = 7 + blocks.length := by
  simp [gameBodies]; omega

theorem game_block (paddle : BoxParams) (blocks : List BoxParams) (ball : BallParams) (vel : V2) (k : ℕ)
    (hk : k < blocks.length) : bodyAt (gameBodies paddle blocks ball vel) (7 + k) = plate 1 blocks[k] := by
  rw [Nat.add_comm]
  simp [bodyAt, gameBodies, hk]

/-- The restitution coefficients: minus one for the stoppers, one for everything else. -/
def gameRestitution (i : ℕ) : ℝ := if i = 5 ∨ i = 6 then -1 else 1

/-- C76: coefficients and velocities: no friction, masses one, restitution one except for the stoppers; everything
but the ball rests at first. -/
theorem C76_coefficients (paddle : BoxParams) (blocks : List BoxParams) (ball : BallParams) (vel : V2) (i : ℕ)
    (hi : i < 7 + blocks.length) :
    let b := bodyAt (gameBodies paddle blocks ball vel) i
    b.fric_coeff = 0 ∧ b.mass = 1 ∧ b.restitution = gameRestitution i ∧ (i ≠ 0 → b.v = 0) := by
  by_cases h7 : i < 7
  · interval_cases i <;> simp [bodyAt, gameBodies, ballBody, mkCircle, plate, rectBase, gameRestitution, Arg.toV3]
  · obtain ⟨k, rfl⟩ := Nat.exists_eq_add_of_le (not_lt.1 h7)
    have hk : k < blocks.length := by omega
    simp only
    rw [game_block _ _ _ _ k hk]
    have h5 : ¬ (7 + k = 5 ∨ 7 + k = 6) := by omega
    simp [plate, rectBase, gameRestitution, Arg.toV3, h5]

/-! ## Who may touch whom -/

/-- The pairs that never collide, in one order: the paddle with the walls and the roof, the roof with the walls, each
stopper with its wall and with the ball, blocks with the walls and with each other. -/
def NoTouch (n i j : ℕ) : Prop :=
  (i = 1 ∧ (j = 2 ∨ j = 3 ∨ j = 4)) ∨ (i = 4 ∧ (j = 2 ∨ j = 3)) ∨ (i = 5 ∧ (j = 2 ∨ j = 0)) ∨
  (i = 6 ∧ (j = 3 ∨ j = 0)) ∨
  (7 ≤ i ∧ i < 7 + n ∧ (j = 2 ∨ j = 3)) ∨ (7 ≤ i ∧ i < 7 + n ∧ 7 ≤ j ∧ j < 7 + n ∧ i ≠ j)

/-- C76: the exclusion sets `make_world` builds are exactly these pairs. -/
theorem C76_excluded_pairs (n i j : ℕ) : i ∈ breakoutNc n j ↔ NoTouch n i j ∨ NoTouch n j i := by
  have h : i ∈ breakoutNc n j ↔ requested (noContactCalls n) i j := C10_exactly_requested _ i j
  rw [h]
  have key : ∀ i j, (i, j) ∈ noContactCalls n ↔
      (i = 2 ∧ j = 1) ∨ (i = 1 ∧ j = 3) ∨ (i = 4 ∧ j = 1) ∨ (i = 4 ∧ j = 2) ∨ (i = 4 ∧ j = 3) ∨ (i = 5 ∧ j = 2) ∨
      (i = 5 ∧ j = 0) ∨ (i = 6 ∧ j = 3) ∨ (i = 6 ∧ j = 0) ∨
      (7 ≤ i ∧ i < 7 + n ∧ (j = 2 ∨ j = 3 ∨ (7 ≤ j ∧ j < i))) := by
    intro i j
    simp only [noContactCalls, List.mem_append, List.mem_cons, Prod.mk.injEq, List.not_mem_nil, or_false,
      List.mem_flatMap, List.mem_range, List.mem_map]
    have : (∃ k, k < n ∧ ((i = 7 + k ∧ j = 2 ∨ i = 7 + k ∧ j = 3) ∨ ∃ a, a < k ∧ 7 + k = i ∧ 7 + a = j)) ↔
        (7 ≤ i ∧ i < 7 + n ∧ (j = 2 ∨ j = 3 ∨ (7 ≤ j ∧ j < i))) := by
      constructor
      · rintro ⟨k, hk, (⟨h1, h2⟩ | ⟨h1, h2⟩) | ⟨a, ha, h1, h2⟩⟩ <;> omega
      · rintro ⟨h1, h2, h3⟩
        refine ⟨i - 7, by omega, ?_⟩
        rcases h3 with h3 | h3 | ⟨h3, h4⟩
        · left; left; omega
        · left; right; omega
        · right; exact ⟨j - 7, by omega, by omega, by omega⟩
    rw [this]
    simp only [or_assoc]
  have fwd : ∀ i j, (i, j) ∈ noContactCalls n → NoTouch n i j ∨ NoTouch n j i := by
    intro i j h
    rw [key] at h
    unfold NoTouch
    rcases h with h | h | h | h | h | h | h | h | h | ⟨h1, h2, h | h | h⟩
    · right; left; omega
    · left; left; omega
    · right; left; omega
    · left; right; left; omega
    · left; right; left; omega
    · left; right; right; left; omega
    · left; right; right; left; omega
    · left; right; right; right; left; omega
    · left; right; right; right; left; omega
    · left; right; right; right; right; left; omega
    · left; right; right; right; right; left; omega
    · left; right; right; right; right; right; omega
  have bwd : ∀ i j, NoTouch n i j → (i, j) ∈ noContactCalls n ∨ (j, i) ∈ noContactCalls n := by
    intro i j h
    rw [key, key]
    unfold NoTouch at h
    rcases h with ⟨rfl, rfl | rfl | rfl⟩ | ⟨rfl, rfl | rfl⟩ | ⟨rfl, rfl | rfl⟩ | ⟨rfl, rfl | rfl⟩ |
      ⟨h1, h2, rfl | rfl⟩ | ⟨h1, h2, h3, h4, h5⟩
    · simp
    · simp
    · simp
    · simp
    · simp
    · simp
    · simp
    · simp
    · simp
    · left; simp [h1, h2]
    · left; simp [h1, h2]
    · rcases Nat.lt_or_gt_of_ne h5 with h | h
      · right; simp [h3, h4, h1, h]
      · left; simp [h1, h2, h3, h]
  unfold requested
  constructor
  · rintro (h | h)
    · exact fwd i j h
    · exact (fwd j i h).symm
  · rintro (h | h)
    · exact bwd i j h
    · exact (bwd j i h).symm

/-- What is assumed of the contact search. -/
structure GameFinder {φ : Type} (n : ℕ) (collide : ℝ → φ → List Body → Except Err (φ × List Contact)) : Prop where
  ok : FinderOk collide
  central : ∀ eps f bs f' cs, collide eps f bs = .ok (f', cs) → CentralContacts bs cs
  allowed : ∀ eps f bs f' cs, collide eps f bs = .ok (f', cs) → ∀ c ∈ cs,
    ¬ (NoTouch n c.i1 c.i2 ∨ NoTouch n c.i2 c.i1) ∧ Spec.inner c.normal c.normal = 1

/-- C76: the library's contact search with the exclusion sets of `make_world` is like that. -/
theorem C76_library_search (fuel n : ℕ) (pairs : List Body → List (ℕ × ℕ))
    (hp : ∀ bs, ∀ p ∈ pairs bs, p.1 < bs.length ∧ p.2 < bs.length ∧ p.1 ≠ p.2) :
    GameFinder n (rejectNan (diffCollide fuel (breakoutNc n) pairs)) := by
  refine ⟨C12_finder_ok fuel _ pairs hp, fun eps f bs f' cs h => C79_search_central fuel _ pairs eps f f' bs cs h, ?_⟩
  intro eps f bs f' cs h c hc
  have hnan := (C12_finder_ok fuel _ pairs hp eps f bs f' cs h c hc).2.2.2
  unfold rejectNan at h
  cases hd : diffCollide fuel (breakoutNc n) pairs eps f bs with
  | error e => rw [hd] at h; cases h
  | ok r =>
    rw [hd] at h
    simp only at h
    split at h
    · injection h with h
      subst h
      obtain ⟨-, hx, -, hn, -⟩ := C12_contacts_wellformed fuel _ pairs eps f f' bs cs hd c hc
      refine ⟨fun hh => hx ((C76_excluded_pairs n _ _).2 hh), ?_⟩
      have := hn hnan
      have h2 : len c.normal ^ 2 = Spec.inner c.normal c.normal := by
        unfold len Spec.inner
        rw [Real.sq_sqrt (by positivity)]
        ring
      rw [← h2, this]; norm_num
    · cases h

/-! ## The invariant -/

variable {φ : Type}

/-- What holds at every moment of a game. -/
structure GameInv (n : ℕ) (w : World (Option Mat) φ) : Prop where
  inv : EngineInv w
  len : w.bodies.length = 7 + n
  total : ∀ j ∈ w.joints, j.kind = .total ∧ j.i2 = none ∧ 2 ≤ j.i1
  held : ∀ i, 2 ≤ i → i < 7 + n → ∃ j ∈ w.joints, j.i1 = i
  coeff : ∀ i, i < 7 + n → (bodyAt w.bodies i).mass = 1 ∧ (bodyAt w.bodies i).fric_coeff = 0 ∧
    (bodyAt w.bodies i).restitution = gameRestitution i ∧ 0 < (bodyAt w.bodies i).ang_inertia
  circle : (bodyAt w.bodies 0).isCircle = true
  rest : ∀ i, 2 ≤ i → i < 7 + n → twist w.v i = 0
  central : CentralContacts w.bodies w.contacts
  allowed : ∀ c ∈ w.contacts, ¬ (NoTouch n c.i1 c.i2 ∨ NoTouch n c.i2 c.i1) ∧ Spec.inner c.normal c.normal = 1
  noPost : w.post_stab = false

theorem breakoutForces_cat (t : ℝ) (n : ℕ) : forceCat breakoutForces t n = .ok (List.replicate n 0) := by
  induction n with
  | zero => rfl
  | succ n ih =>
    have h : breakoutForces.apply_forces n t = some 0 := by simp [ForceHeap.apply_forces, breakoutForces]
    simp [forceCat, ih, h, List.replicate_succ']

theorem game_impulse (n : ℕ) (dt : ℝ) : impulse (List.replicate n (0 : V3)) dt = fun _ => 0 := by
  funext i
  unfold impulse
  have : (List.replicate n (0 : V3)).getD i 0 = 0 := by
    rw [List.getD_eq_getElem?_getD]
    by_cases h : i < n <;> simp [h]
  rw [this]
  apply V3.ext <;> simp

/-- The contact law in a step of the game. -/
theorem game_law {lcp : LcpSolver} {mi : ℕ} {collide : ℝ → φ → List Body → Except Err (φ × List Contact)}
    (hx : Exact lcp) {w w' : World (Option Mat) φ} {fuel : ℕ} {dt : ℝ} (hw : EngineInv w)
    (h : w.step_dt (breakoutEnv lcp mi collide) fuel dt = .done w') :
    ∃ l pn a b g, ContactLaw w.bodies w.joints w.contacts (fun _ => 0) w.v w'.v l pn a b g := by
  obtain ⟨fl, l, pn, a, b, g, hfl, hlaw⟩ := step_law hx hw h
  rw [breakoutForces_cat] at hfl
  injection hfl with hfl
  subst hfl
  rw [game_impulse] at hlaw
  exact ⟨l, pn, a, b, g, hlaw⟩

theorem total_rest {j : Joint} (hk : j.kind = .total) {v : Vec} (h : ∀ x ∈ jointVel j v, x = 0) : twist v j.i1 = 0 := by
  unfold jointVel at h
  simp only [hk, List.mem_cons, List.not_mem_nil, or_false, forall_eq_or_imp, forall_eq] at h
  exact V3.ext h.1 h.2.1 h.2.2

/-- The scenery rests after a step as well. -/
theorem law_rest {n : ℕ} {w : World (Option Mat) φ} (hg : GameInv n w) {f : ℕ → V3} {v' l : Vec} {pn a b g : ℕ → ℝ}
    (h : ContactLaw w.bodies w.joints w.contacts f w.v v' l pn a b g) (i : ℕ) (h2 : 2 ≤ i) (hi : i < 7 + n) :
    twist v' i = 0 := by
  obtain ⟨j, hj, rfl⟩ := hg.held i h2 hi
  refine total_rest (hg.total j hj).1 fun x hx => h.joints x ?_
  exact List.mem_flatMap.2 ⟨j, hj, hx⟩

theorem game_wiring {n : ℕ} {w w' : World (Option Mat) φ} (hg : GameInv n w) (hst : SameStatics w w') :
    (∀ j ∈ w'.joints, j.kind = .total ∧ j.i2 = none ∧ 2 ≤ j.i1) ∧
    (∀ i, 2 ≤ i → i < 7 + n → ∃ j ∈ w'.joints, j.i1 = i) := by
  constructor
  · intro j hj
    have : j.wiring ∈ w.joints.map Joint.wiring := hst.2 ▸ List.mem_map.2 ⟨j, hj, rfl⟩
    obtain ⟨j0, hj0, hw⟩ := List.mem_map.1 this
    simp only [Joint.wiring, Prod.mk.injEq] at hw
    rw [← hw.1, ← hw.2.1, ← hw.2.2]
    exact hg.total j0 hj0
  · intro i h2 hi
    obtain ⟨j, hj, rfl⟩ := hg.held i h2 hi
    have : j.wiring ∈ w'.joints.map Joint.wiring := hst.2.symm ▸ List.mem_map.2 ⟨j, hj, rfl⟩
    obtain ⟨j0, hj0, hw⟩ := List.mem_map.1 this
    simp only [Joint.wiring, Prod.mk.injEq] at hw
    exact ⟨j0, hj0, hw.2.1⟩

theorem game_coeff {n : ℕ} {w w' : World (Option Mat) φ} (hg : GameInv n w) (hst : SameStatics w w') (i : ℕ)
    (hi : i < 7 + n) : (bodyAt w'.bodies i).mass = 1 ∧ (bodyAt w'.bodies i).fric_coeff = 0 ∧
    (bodyAt w'.bodies i).restitution = gameRestitution i ∧ 0 < (bodyAt w'.bodies i).ang_inertia := by
  have := sameStatics_bodyAt hst i
  simp only [Body.consts, Prod.mk.injEq] at this
  rw [this.1, this.2.1, this.2.2.1, this.2.2.2]
  exact hg.coeff i hi

theorem game_step {n : ℕ} {lcp : LcpSolver} {mi : ℕ} {collide : ℝ → φ → List Body → Except Err (φ × List Contact)}
    (hf : GameFinder n collide) (hx : Exact lcp) {w w' : World (Option Mat) φ} {fuel : ℕ} {dt : ℝ} (hg : GameInv n w)
    (h : w.step_dt (breakoutEnv lcp mi collide) fuel dt = .done w') : GameInv n w' := by
  have hst := step_dt_statics hg.inv.good h
  have hw := game_wiring hg hst
  obtain ⟨l, pn, a, b, g, hlaw⟩ := game_law hx hg.inv h
  obtain ⟨f, f', hcs⟩ := step_contacts hg.inv.good h
  refine ⟨step_inv hf.ok hg.inv h, (sameStatics_length hst).trans hg.len, hw.1, hw.2, game_coeff hg hst, ?_,
    law_rest hg hlaw, hf.central _ _ _ _ _ hcs, hf.allowed _ _ _ _ _ hcs, ?_⟩
  · rw [bodyAt_of_map (step_dt_keeps Body.isCircle isCircle_move (fun _ _ => rfl) hg.inv.good h) 0]
    exact hg.circle
  · rw [(step_dt_params hg.inv.good h).2.2.2.1]; exact hg.noPost

theorem game_set_v {n : ℕ} {w : World (Option Mat) φ} (hg : GameInv n w) (v : Vec)
    (hv : ∀ k, k / 3 ≠ 1 → v k = w.v k) : GameInv n (w.set_v v) := by
  have hst : SameStatics w (w.set_v v) := sameStatics_set_v w v w.eng
  have hw := game_wiring hg hst
  have hlen : (w.set_v v).bodies.length = w.bodies.length := sameStatics_length hst
  have hcirc : ∀ i, (bodyAt (w.set_v v).bodies i).isCircle = (bodyAt w.bodies i).isCircle := by
    intro i
    apply bodyAt_of_map
    apply List.ext_getElem
    · simp [World.set_v]
    · intro k h1 h2
      simp [World.set_v, Body.isCircle]
  refine ⟨⟨good_set_v hg.inv.good v w.eng, jointsOk_congr hst hg.inv.joints, ?_, ?_⟩, hlen.trans hg.len, hw.1, hw.2,
    game_coeff hg hst, ?_, ?_, ?_, hg.allowed, hg.noPost⟩
  · intro c hc
    rw [hlen]
    exact hg.inv.contacts c hc
  · exact cacheInv_congr hst hg.inv.cache
  · rw [hcirc]; exact hg.circle
  · intro i h2 hi
    have h0 := hg.rest i h2 hi
    have e0 : v (3 * i) = w.v (3 * i) := hv _ (by omega)
    have e1 : v (3 * i + 1) = w.v (3 * i + 1) := hv _ (by omega)
    have e2 : v (3 * i + 2) = w.v (3 * i + 2) := hv _ (by omega)
    rw [← h0]
    show twist v i = _
    simp only [twist, e0, e1, e2]
  · intro c hc
    rw [hcirc, hcirc]
    exact hg.central c hc

theorem mkTotal_fix (bs bs' : List Body) (i : ℕ) (h : (bodyAt bs' i).pos = (bodyAt bs i).pos) :
    (mkTotal bs i).update_pos bs' = mkTotal bs i := by
  simp [mkTotal, Joint.update_pos, cart_to_polar, polar_to_cart, nrm, h]

theorem plate_inertia (e : ℝ) (b : BoxParams) (h : 0 < b.w * b.h) : 0 < (plate e b).ang_inertia := by
  have hw : b.w ≠ 0 := by rintro h0; rw [h0] at h; simp at h
  simp only [plate, rectBase, rectInertia]
  have : 0 < b.w ^ 2 := by positivity
  have : 0 ≤ b.h ^ 2 := by positivity
  norm_num
  nlinarith

theorem game_mem {paddle : BoxParams} {blocks : List BoxParams} {ball : BallParams} {vel : V2} {b : Body}
    (h : b ∈ gameBodies paddle blocks ball vel) (hp : 0 < paddle.w * paddle.h) (hb : ∀ b ∈ blocks, GoodBlock b) :
    b = ballBody ball vel ∨ ∃ e x, b = plate e x ∧ 0 < x.w * x.h := by
  simp only [gameBodies, List.mem_append, List.mem_cons, List.not_mem_nil, or_false, List.mem_map] at h
  rcases h with (h | h | h | h | h | h | h) | ⟨x, hx, h⟩
  · exact Or.inl h
  · exact Or.inr ⟨_, _, h, hp⟩
  · exact Or.inr ⟨_, _, h, by norm_num [leftWall]⟩
  · exact Or.inr ⟨_, _, h, by norm_num [rightWall]⟩
  · exact Or.inr ⟨_, _, h, by norm_num [roof]⟩
  · exact Or.inr ⟨_, _, h, by norm_num [leftStopper]⟩
  · exact Or.inr ⟨_, _, h, by norm_num [rightStopper]⟩
  · exact Or.inr ⟨_, _, h.symm, (hb x hx).2⟩

theorem bodyAt_mem {bs : List Body} {i : ℕ} (h : i < bs.length) : bodyAt bs i ∈ bs := by
  have : bodyAt bs i = bs[i] := by simp [bodyAt, List.getD_eq_getElem?_getD, h]
  rw [this]; exact List.getElem_mem h

/-- C76: what `make_world` returns: the bodies at their places, at time zero, with steps of length one, and the
invariant of the game. -/
theorem C76_constructed (lcp : LcpSolver) (mi : ℕ) (collide : ℝ → φ → List Body → Except Err (φ × List Contact))
    (fnd : φ) (paddle : BoxParams) (blocks : List BoxParams) (ball : BallParams) (vel : V2)
    (w : World (Option Mat) φ) (hr : ball.rad ≠ 0) (hf : GameFinder blocks.length collide)
    (h : make_world lcp mi collide fnd paddle blocks ball vel = .done w) :
    GameInv blocks.length w ∧ w.t = 0 ∧ w.dt = 1 ∧ (∀ c ∈ w.contacts, c.pen ≤ 1 / 1000000) ∧
    w.bodies = gameBodies paddle blocks ball vel := by
  unfold make_world at h
  cases hb : breakoutBodies paddle blocks ball vel with
  | error e => rw [hb] at h; cases h
  | ok bs =>
    rw [hb] at h
    simp only at h
    obtain ⟨⟨hp, hbl⟩, hbs⟩ := (C76_bodies _ _ _ _ _).1 hb
    have hlen : bs.length = 7 + blocks.length := by rw [hbs, game_length]
    have hmem : ∀ b ∈ bs, b = ballBody ball vel ∨ ∃ e x, b = plate e x ∧ 0 < x.w * x.h := by
      intro b hb; rw [hbs] at hb; exact game_mem hb hp hbl
    have hjm : ∀ j ∈ breakoutJoints bs, ∃ i, 2 ≤ i ∧ i < bs.length ∧ j = mkTotal bs i := by
      intro j hj
      obtain ⟨k, hk, rfl⟩ := List.mem_map.1 hj
      have := List.mem_range.1 hk
      exact ⟨k + 2, by omega, by omega, rfl⟩
    have hgood : w.Good := by
      refine C30_mkWorld_good _ _ _ _ _ _ _ _ _ _ w ?_ ?_ h
      · intro b hbm
        rcases hmem b hbm with rfl | ⟨e, x, rfl, hx⟩
        · exact trivial
        · exact mkRect_rectForm (pos := .two (x.px, x.py)) (dims := (x.w, x.h))
            (a := { restitution := e, fric_coeff := 0 }) (by rw [mkRect_eq _ _ _ hx]; rfl)
      · intro j hj
        obtain ⟨i, -, -, rfl⟩ := hjm j hj
        exact mkTotal_fix bs bs i rfl
    have hvel : (initWorld (none : Option Mat) fnd bs (breakoutJoints bs) 1 (1 / 10) (1 / 1000000) false true).bodies = bs := by
      apply List.ext_getElem
      · simp [initWorld, World.set_v]
      · intro i h1 h2
        simp only [initWorld, World.set_v, List.getElem_map, List.getElem_zipIdx]
        rw [Nat.zero_add, cat3_slice _ i (by simpa using h2), List.getElem_map]
    unfold mkWorld at h
    rw [if_neg (by omega)] at h
    rw [if_pos (by
      intro j hj
      obtain ⟨i, -, hi, rfl⟩ := hjm j hj
      exact ⟨hi, by simp [mkTotal]⟩)] at h
    rw [Run.bind_eq_done] at h
    obtain ⟨w1, h1, h2⟩ := h
    simp only [if_true] at h2
    split_ifs at h2 with hpen
    injection h2 with h2
    subst h2
    unfold World.find_contacts at h1
    generalize hcol : (breakoutEnv lcp mi collide).collide _ _ _ = r at h1
    cases r with
    | error e => cases h1
    | ok r =>
      obtain ⟨f', cs⟩ := r
      simp only at h1
      injection h1 with h1
      subst h1
      rw [hvel] at hcol
      change collide _ _ _ = _ at hcol
      have hco : ∀ i, i < 7 + blocks.length → (bodyAt bs i).mass = 1 ∧ (bodyAt bs i).fric_coeff = 0 ∧
          (bodyAt bs i).restitution = gameRestitution i ∧ 0 < (bodyAt bs i).ang_inertia := by
        intro i hi
        have hc := C76_coefficients paddle blocks ball vel i hi
        simp only [← hbs] at hc
        refine ⟨hc.2.1, hc.1, hc.2.2.1, ?_⟩
        rcases hmem _ (bodyAt_mem (i := i) (by omega)) with he | ⟨e, x, he, hx⟩
        · rw [he]
          have : 0 < ball.rad * ball.rad := mul_self_pos.2 hr
          simp only [ballBody, mkCircle, circleInertia]
          nlinarith
        · rw [he]; exact plate_inertia e x hx
      have hb' : ({ initWorld (none : Option Mat) fnd bs (breakoutJoints bs) 1 (1 / 10) (1 / 1000000) false true with
          contacts := cs, fnd := f' } : World (Option Mat) φ).bodies = bs := hvel
      refine ⟨⟨⟨hgood, ?_, ?_, ?_⟩, ?_, ?_, ?_, ?_, ?_, ?_, ?_, ?_, rfl⟩, rfl, rfl, hpen, hb'.trans hbs⟩
      · intro j hj
        obtain ⟨i, -, hi, rfl⟩ := hjm j hj
        rw [hb']
        exact ⟨hi, by simp [mkTotal]⟩
      · intro c hc
        rw [hb']
        exact hf.ok _ _ _ _ _ hcol c hc
      · intro inv hi; cases hi
      · rw [hb', hlen]
      · intro j hj
        obtain ⟨i, h2, -, rfl⟩ := hjm j hj
        exact ⟨rfl, rfl, h2⟩
      · intro i h2 hi
        refine ⟨mkTotal bs i, List.mem_map.2 ⟨i - 2, List.mem_range.2 (by omega), ?_⟩, rfl⟩
        rw [Nat.sub_add_cancel h2]
      · rw [hb']; exact hco
      · rw [hb', hbs]; rfl
      · intro i h2 hi
        have hs : slice3 (cat3 (bs.map Body.v)) i = (bodyAt bs i).v := by
          rw [cat3_slice _ i (by simp; omega), List.getElem_map]
          congr 1
          simp [bodyAt, List.getD_eq_getElem?_getD, show i < bs.length by omega]
        have hz := (C76_coefficients paddle blocks ball vel i hi).2.2.2 (by omega)
        simp only [← hbs] at hz
        rw [hz] at hs
        show twist (cat3 (bs.map Body.v)) i = 0
        rw [← hs]
        simp only [twist, slice3, mul_comm]
      · rw [hb']; exact hf.central _ _ _ _ _ hcol
      · exact hf.allowed _ _ _ _ _ hcol

/-! ## Whole games -/

theorem play_inv {n : ℕ} {lcp : LcpSolver} {mi : ℕ} {collide : ℝ → φ → List Body → Except Err (φ × List Contact)}
    (hf : GameFinder n collide) (hx : Exact lcp) {ok : World (Option Mat) φ → Prop} {w0 w : World (Option Mat) φ}
    (h0 : GameInv n w0) (h : Play (breakoutEnv lcp mi collide) 1 ok w0 w) : GameInv n w := by
  induction h with
  | refl => exact h0
  | tail _ hs ih =>
    rcases hs with ⟨-, fuel, dt, hs⟩ | ⟨v, hv, rfl⟩
    · exact game_step hf hx ih hs
    · exact game_set_v ih v hv

theorem bodyAt_vel {w : World (Option Mat) φ} (hg : w.Good) (i : ℕ) (hi : i < w.bodies.length) :
    (bodyAt w.bodies i).v = twist w.v i := by
  have := hg.vel i hi
  simp only [bodyAt, List.getD_eq_getElem?_getD, List.getElem?_eq_getElem hi, Option.getD_some, this, slice3, twist,
    mul_comm]

/-- The pose of a body after a step. -/
theorem game_pose {n : ℕ} {lcp : LcpSolver} {mi : ℕ} {collide : ℝ → φ → List Body → Except Err (φ × List Contact)}
    {w w' : World (Option Mat) φ} {fuel : ℕ} {dt : ℝ} (hg : GameInv n w)
    (h : w.step_dt (breakoutEnv lcp mi collide) fuel dt = .done w') (i : ℕ) (hi : i < 7 + n) :
    (bodyAt w'.bodies i).p = (bodyAt w.bodies i).p + (w'.t - w.t) • twist w'.v i := by
  obtain ⟨e, v, k, -, -, ht, hv, -, hl, hb⟩ := C21_step_exact _ fuel w w' dt hg.inv.good hg.noPost h
  have h1 : i < w.bodies.length := by rw [hg.len]; exact hi
  have := (hb i h1 (by omega)).2.1
  have e1 : bodyAt w.bodies i = w.bodies[i] := by simp [bodyAt, List.getD_eq_getElem?_getD, h1]
  have e2 : bodyAt w'.bodies i = w'.bodies[i]'(by omega) := by
    simp [bodyAt, List.getD_eq_getElem?_getD, show i < w'.bodies.length by omega]
  rw [e1, e2, this, ht, hv, add_sub_cancel_left]
  simp only [slice3, twist, mul_comm]

/-- C76: walls, roof, stoppers and blocks never move, whatever the player does and whatever hits them. -/
theorem C76_scenery_rests (lcp : LcpSolver) (mi : ℕ) (collide : ℝ → φ → List Body → Except Err (φ × List Contact))
    (fnd : φ) (paddle : BoxParams) (blocks : List BoxParams) (ball : BallParams) (vel : V2) (hr : ball.rad ≠ 0)
    (hf : GameFinder blocks.length collide) (hx : Exact lcp) (w0 w : World (Option Mat) φ)
    (h : make_world lcp mi collide fnd paddle blocks ball vel = .done w0)
    (hp : Play (breakoutEnv lcp mi collide) 1 (fun _ => True) w0 w) (i : ℕ) (h2 : 2 ≤ i) (hi : i < 7 + blocks.length) :
    (bodyAt w.bodies i).p = (bodyAt (gameBodies paddle blocks ball vel) i).p ∧ (bodyAt w.bodies i).v = 0 := by
  obtain ⟨h0, -, -, -, hb⟩ := C76_constructed lcp mi collide fnd paddle blocks ball vel w0 hr hf h
  constructor
  · rw [← hb]
    induction hp with
    | refl => rfl
    | @tail wa wb hab hs ih =>
      have hg := play_inv hf hx h0 hab
      rcases hs with ⟨-, fuel, dt, hs⟩ | ⟨v, hv, rfl⟩
      · rw [game_pose hg hs i hi, (game_step hf hx hg hs).rest i h2 hi, ih]
        apply V3.ext <;> simp
      · rw [← ih]
        exact bodyAt_of_map (set_v_poses wa v) i
  · have hg := play_inv hf hx h0 hp
    rw [bodyAt_vel hg.inv.good i (by rw [hg.len]; exact hi)]
    exact hg.rest i h2 hi

/-! ## The ball -/

/-- A contact between ball and paddle. -/
def BallPaddle (c : Contact) : Prop := (c.i1 = 0 ∧ c.i2 = 1) ∨ (c.i1 = 1 ∧ c.i2 = 0)

/-- What the ball touches, other than the paddle, is scenery with restitution one. -/
theorem ball_partner {n : ℕ} {w : World (Option Mat) φ} (hg : GameInv n w) (hnb : ∀ c ∈ w.contacts, ¬ BallPaddle c)
    {c : Contact} (hc : c ∈ w.contacts) :
    (c.i1 = 0 → 2 ≤ c.i2 ∧ c.i2 < 7 + n ∧ meanRestitution w.bodies c = 1) ∧
    (c.i2 = 0 → 2 ≤ c.i1 ∧ c.i1 < 7 + n ∧ meanRestitution w.bodies c = 1) := by
  obtain ⟨h1, h2, h3, -⟩ := hg.inv.contacts c hc
  rw [hg.len] at h1 h2
  have ha := (hg.allowed c hc).1
  have hb := hnb c hc
  unfold BallPaddle at hb
  unfold NoTouch at ha
  have hres : ∀ i j : ℕ, i = 0 → j ≠ 5 → j ≠ 6 → j < 7 + n →
      (gameRestitution i + gameRestitution j) / 2 = 1 ∧ (gameRestitution j + gameRestitution i) / 2 = 1 := by
    intro i j hi h5 h6 _
    subst hi
    norm_num [gameRestitution, h5, h6]
  constructor
  · intro h
    refine ⟨by omega, h2, ?_⟩
    unfold meanRestitution
    rw [(hg.coeff _ h1).2.2.1, (hg.coeff _ h2).2.2.1]
    exact (hres _ _ h (by omega) (by omega) h2).1
  · intro h
    refine ⟨by omega, h1, ?_⟩
    unfold meanRestitution
    rw [(hg.coeff _ h1).2.2.1, (hg.coeff _ h2).2.2.1]
    exact (hres _ _ h (by omega) (by omega) h1).2

theorem game_friction {n : ℕ} {w : World (Option Mat) φ} (hg : GameInv n w) {c : Contact} (hc : c ∈ w.contacts) :
    meanFriction w.bodies c = 0 := by
  obtain ⟨h1, h2, -, -⟩ := hg.inv.contacts c hc
  rw [hg.len] at h1 h2
  simp [meanFriction, (hg.coeff _ h1).2.1, (hg.coeff _ h2).2.1]

theorem free_of_joints {n : ℕ} {w : World (Option Mat) φ} (hg : GameInv n w) (i : ℕ) (hi : i < 2) :
    ∀ j ∈ w.joints, j.i1 ≠ i ∧ i ∉ j.i2 := by
  intro j hj
  obtain ⟨-, h2, h3⟩ := hg.total j hj
  exact ⟨by omega, by simp [h2]⟩

theorem ball_spin {n : ℕ} {w : World (Option Mat) φ} (hg : GameInv n w) {v' l : Vec} {pn a b g : ℕ → ℝ}
    (h : ContactLaw w.bodies w.joints w.contacts (fun _ => 0) w.v v' l pn a b g) : v' 0 = w.v 0 := by
  have := C79_spin_kept _ _ _ _ _ _ _ _ _ _ _ h 0 (by rw [hg.len]; omega) (free_of_joints hg 0 (by omega))
    (fun c hc => ⟨fun e => (hg.central c hc).1 (by rw [e]; exact hg.circle),
      fun e => (hg.central c hc).2 (by rw [e]; exact hg.circle)⟩)
    (fun c hc _ => game_friction hg hc) (hg.coeff 0 (by omega)).2.2.2
  simpa using this

/-- C76: in a step that does not start with a contact of ball and paddle, the ball keeps its speed and its spin. -/
theorem C76_ball_step {n : ℕ} (lcp : LcpSolver) (mi : ℕ)
    (collide : ℝ → φ → List Body → Except Err (φ × List Contact)) (hx : Exact lcp) (w w' : World (Option Mat) φ)
    (hg : GameInv n w) (fuel : ℕ) (dt : ℝ) (h : w.step_dt (breakoutEnv lcp mi collide) fuel dt = .done w')
    (hnb : ∀ c ∈ w.contacts, ¬ BallPaddle c) :
    w'.v 1 ^ 2 + w'.v 2 ^ 2 = w.v 1 ^ 2 + w.v 2 ^ 2 ∧ w'.v 0 = w.v 0 := by
  obtain ⟨l, pn, a, b, g, hlaw⟩ := game_law hx hg.inv h
  have hspin := ball_spin hg hlaw
  refine ⟨?_, hspin⟩
  have hrest : ∀ i, 2 ≤ i → i < 7 + n → Rests w.v w'.v i := fun i h2 hi => ⟨hg.rest i h2 hi, law_rest hg hlaw i h2 hi⟩
  have hisl : Island (· = 0) w.joints w.contacts w.v w'.v := by
    constructor
    · intro j hj k hk
      rw [(hg.total j hj).2.1] at hk
      cases hk
    · intro c hc
      have := ball_partner hg hnb hc
      exact ⟨fun h0 => Or.inr (hrest _ (this.1 h0).1 (this.1 h0).2.1),
        fun h0 => Or.inr (hrest _ (this.2 h0).1 (this.2 h0).2.1)⟩
  have he := C78_island_energy (· = 0) _ _ _ _ _ _ _ _ _ _ _ 1 hlaw hisl (fun _ _ => rfl)
    (fun c hc _ => game_friction hg hc)
    (fun c hc ht => by
      have := ball_partner hg hnb hc
      simp only [touches, decide_eq_true_eq] at ht
      rcases ht with ht | ht
      · exact (this.1 ht).2.2
      · exact (this.2 ht).2.2)
    (fun j hj hh => by
      have := free_of_joints hg 0 (by omega) j hj
      simp only [holds, decide_eq_true_eq] at hh
      rcases hh with hh | ⟨k, hk, rfl⟩
      · exact absurd hh this.1
      · exact absurd hk this.2)
  have hs : (Finset.range w.bodies.length).filter (· = 0) = {0} := by
    ext k
    simp only [Finset.mem_filter, Finset.mem_range, Finset.mem_singleton, hg.len]
    omega
  have hE : ∀ v : Vec, energyOf (· = 0) w.bodies v =
      ((bodyAt w.bodies 0).ang_inertia * v 0 ^ 2 + (v 1 ^ 2 + v 2 ^ 2)) / 2 := by
    intro v
    unfold energyOf
    rw [hs, Finset.sum_singleton, (hg.coeff 0 (by omega)).1]
    simp only [twist, mul_zero, zero_add, one_mul]
  rw [hE w'.v, hE w.v, hspin] at he
  linarith

/-- C76: along a whole game, as long as no step starts with a contact of ball and paddle, the ball keeps its speed and
does not start to spin, whatever else it hits and whatever the player does. -/
theorem C76_ball_keeps_speed {n : ℕ} (lcp : LcpSolver) (mi : ℕ)
    (collide : ℝ → φ → List Body → Except Err (φ × List Contact)) (hf : GameFinder n collide) (hx : Exact lcp)
    (w0 w : World (Option Mat) φ) (h0 : GameInv n w0)
    (h : Play (breakoutEnv lcp mi collide) 1 (fun w => ∀ c ∈ w.contacts, ¬ BallPaddle c) w0 w) :
    w.v 1 ^ 2 + w.v 2 ^ 2 = w0.v 1 ^ 2 + w0.v 2 ^ 2 ∧ w.v 0 = w0.v 0 := by
  induction h with
  | refl => exact ⟨rfl, rfl⟩
  | @tail wa wb hab hs ih =>
    have hg := play_inv hf hx h0 hab
    rcases hs with ⟨hnb, fuel, dt, hs⟩ | ⟨v, hv, rfl⟩
    · have := C76_ball_step lcp mi collide hx wa wb hg fuel dt hs hnb
      exact ⟨this.1.trans ih.1, this.2.trans ih.2⟩
    · have e : (wa.set_v v).v = v := rfl
      rw [e, hv 0 (by norm_num), hv 1 (by norm_num), hv 2 (by norm_num)]
      exact ih

/-- C76: the ball never spins, paddle hits included. -/
theorem C76_ball_never_spins {n : ℕ} (lcp : LcpSolver) (mi : ℕ)
    (collide : ℝ → φ → List Body → Except Err (φ × List Contact)) (hf : GameFinder n collide) (hx : Exact lcp)
    (w0 w : World (Option Mat) φ) (h0 : GameInv n w0)
    (h : Play (breakoutEnv lcp mi collide) 1 (fun _ => True) w0 w) : w.v 0 = w0.v 0 := by
  induction h with
  | refl => rfl
  | @tail wa wb hab hs ih =>
    have hg := play_inv hf hx h0 hab
    rcases hs with ⟨-, fuel, dt, hs⟩ | ⟨v, hv, rfl⟩
    · obtain ⟨l, pn, a, b, g, hlaw⟩ := game_law hx hg.inv hs
      exact (ball_spin hg hlaw).trans ih
    · have e : (wa.set_v v).v = v := rfl
      rw [e, hv 0 (by norm_num)]
      exact ih

/-- C76: if the only contact of the ball is with a wall, the roof or a block, the ball is reflected as by a mirror (or
flies on, if it is leaving already); here the ball is listed first in the contact, so the normal points to it. -/
theorem C76_mirror {n : ℕ} (lcp : LcpSolver) (mi : ℕ)
    (collide : ℝ → φ → List Body → Except Err (φ × List Contact)) (hx : Exact lcp) (w w' : World (Option Mat) φ)
    (hg : GameInv n w) (fuel : ℕ) (dt : ℝ) (h : w.step_dt (breakoutEnv lcp mi collide) fuel dt = .done w')
    (k : ℕ) (hk : k < w.contacts.length) (hnb : ∀ c ∈ w.contacts, ¬ BallPaddle c)
    (honly : ∀ (q : ℕ) (hq : q < w.contacts.length), q ≠ k → w.contacts[q].i1 ≠ 0 ∧ w.contacts[q].i2 ≠ 0) :
    let m := w.contacts[k].normal
    let s := m.1 * w.v 1 + m.2 * w.v 2
    (w.contacts[k].i1 = 0 → w'.v 1 = w.v 1 - 2 * min 0 s * m.1 ∧ w'.v 2 = w.v 2 - 2 * min 0 s * m.2) ∧
    (w.contacts[k].i2 = 0 → w'.v 1 = w.v 1 - 2 * max 0 s * m.1 ∧ w'.v 2 = w.v 2 - 2 * max 0 s * m.2) := by
  obtain ⟨l, pn, a, b, g, hlaw⟩ := game_law hx hg.inv h
  have hm := List.getElem_mem hk
  have hp := ball_partner hg hnb hm
  obtain ⟨h1, h2, h3, -⟩ := hg.inv.contacts _ hm
  have hrest : ∀ i, 2 ≤ i → i < 7 + n → Rests w.v w'.v i := fun i h2 hi => ⟨hg.rest i h2 hi, law_rest hg hlaw i h2 hi⟩
  constructor
  · intro h0
    obtain ⟨p2, p3, pe⟩ := hp.1 h0
    have := C80_bounce _ _ _ _ _ _ _ _ _ _ _ hlaw k hk ⟨h1, h3⟩ (hrest _ p2 p3)
      (by rw [h0]; exact free_of_joints hg 0 (by omega)) (by rw [h0]; exact honly) (hg.allowed _ hm).2
      ((hg.central _ hm).1 (by rw [h0]; exact hg.circle)) (game_friction hg hm) (by rw [pe]; norm_num) rfl
      (by rw [h0, (hg.coeff 0 (by omega)).1]; exact ⟨one_pos, (hg.coeff 0 (by omega)).2.2.2⟩)
    simp only [h0, pe, twist, mul_zero, zero_add, V3.mk.injEq, Spec.inner] at this
    refine ⟨this.2.1.trans ?_, this.2.2.trans ?_⟩ <;> ring
  · intro h0
    obtain ⟨p2, p3, pe⟩ := hp.2 h0
    have := C80_bounce_flipped _ _ _ _ _ _ _ _ _ _ _ hlaw k hk ⟨h2, h3⟩ (hrest _ p2 p3)
      (by rw [h0]; exact free_of_joints hg 0 (by omega)) (by rw [h0]; exact honly) (hg.allowed _ hm).2
      ((hg.central _ hm).2 (by rw [h0]; exact hg.circle)) (game_friction hg hm) (by rw [pe]; norm_num) rfl
      (by rw [h0, (hg.coeff 0 (by omega)).1]; exact ⟨one_pos, (hg.coeff 0 (by omega)).2.2.2⟩)
    simp only [h0, pe, twist, mul_zero, zero_add, V3.mk.injEq, Spec.inner] at this
    refine ⟨this.2.1.trans ?_, this.2.2.trans ?_⟩ <;> ring

/-! ## The paddle -/

/-- C76: a paddle that touches nothing moves with exactly the velocity it was given. -/
theorem C76_paddle_obeys {n : ℕ} (lcp : LcpSolver) (mi : ℕ)
    (collide : ℝ → φ → List Body → Except Err (φ × List Contact)) (hx : Exact lcp) (w w' : World (Option Mat) φ)
    (hg : GameInv n w) (fuel : ℕ) (dt : ℝ) (h : w.step_dt (breakoutEnv lcp mi collide) fuel dt = .done w')
    (hfree : ∀ c ∈ w.contacts, c.i1 ≠ 1 ∧ c.i2 ≠ 1) :
    (bodyAt w'.bodies 1).v = (bodyAt w.bodies 1).v ∧
    (bodyAt w'.bodies 1).p = (bodyAt w.bodies 1).p + (w'.t - w.t) • (bodyAt w.bodies 1).v := by
  obtain ⟨l, pn, a, b, g, hlaw⟩ := game_law hx hg.inv h
  have hc := hg.coeff 1 (by omega)
  have := C78_isolated_body _ _ _ _ _ _ _ _ _ _ _ hlaw 1 (by rw [hg.len]; omega) (free_of_joints hg 1 (by omega)) hfree
    (by rw [hc.1]; norm_num) hc.2.2.2
  have ht : twist w'.v 1 = twist w.v 1 := by
    simp only [twist]
    apply V3.ext
    · simpa using this.1
    · simpa using this.2.1
    · simpa using this.2.2
  have hl := (step_dt_params hg.inv.good h).2.2.2.2.2.1
  have hv : (bodyAt w.bodies 1).v = twist w.v 1 := bodyAt_vel hg.inv.good 1 (by rw [hg.len]; omega)
  have hv' : (bodyAt w'.bodies 1).v = twist w'.v 1 :=
    bodyAt_vel (step_dt_good hg.inv.good h) 1 (by rw [hl, hg.len]; omega)
  rw [hv, hv', game_pose hg h 1 (by omega), ht]
  exact ⟨rfl, rfl⟩

/-- C76, a consequence of the paddle's mass and of its missing constraints (encoder.py:163-164 are commented out): a
ball that hits the middle of a resting paddle squarely does not bounce but stops, and the paddle flies off with the
ball's velocity. -/
theorem C76_square_hit_stops_the_ball {n : ℕ} (lcp : LcpSolver) (mi : ℕ)
    (collide : ℝ → φ → List Body → Except Err (φ × List Contact)) (hx : Exact lcp) (w w' : World (Option Mat) φ)
    (hg : GameInv n w) (fuel : ℕ) (dt : ℝ) (h : w.step_dt (breakoutEnv lcp mi collide) fuel dt = .done w')
    (k : ℕ) (hk : k < w.contacts.length) (h0 : w.contacts[k].i1 = 0 ∧ w.contacts[k].i2 = 1)
    (honly : ∀ (q : ℕ) (hq : q < w.contacts.length), q ≠ k →
      (w.contacts[q].i1 ≠ 0 ∧ w.contacts[q].i2 ≠ 0) ∧ w.contacts[q].i1 ≠ 1 ∧ w.contacts[q].i2 ≠ 1)
    (hmid : Spec.det w.contacts[k].p2 w.contacts[k].normal = 0) (hrest : (bodyAt w.bodies 1).v = 0) (s : ℝ)
    (hs : 0 ≤ s) (hsq : (w.v 1, w.v 2) = (-s) • w.contacts[k].normal) :
    w'.v 1 = 0 ∧ w'.v 2 = 0 ∧ (bodyAt w'.bodies 1).v = ⟨0, w.v 1, w.v 2⟩ := by
  obtain ⟨l, pn, a, b, g, hlaw⟩ := game_law hx hg.inv h
  have hm := List.getElem_mem hk
  obtain ⟨h1, h2, h3, -⟩ := hg.inv.contacts _ hm
  have c0 := hg.coeff 0 (by omega)
  have c1 := hg.coeff 1 (by omega)
  have hr1 : twist w.v 1 = 0 := by rw [← bodyAt_vel hg.inv.good 1 (by rw [hg.len]; omega)]; exact hrest
  have hun := (hg.allowed _ hm).2
  have hcen := (hg.central _ hm).1 (by rw [h0.1]; exact hg.circle)
  have hx1 : w.v 1 = -s * w.contacts[k].normal.1 := by simpa using congrArg Prod.fst hsq
  have hx2 : w.v 2 = -s * w.contacts[k].normal.2 := by simpa using congrArg Prod.snd hsq
  have hin : w.contacts[k].normal.1 * w.v 1 + w.contacts[k].normal.2 * w.v 2 = -s := by
    rw [hx1, hx2]
    simp only [Spec.inner] at hun
    linear_combination (-s) * hun
  have happ : normalVel w.contacts[k] w.v ≤ 0 := by
    unfold normalVel contactVel
    rw [h0.1, h0.2, hr1, pointVel_zero]
    simp only [Spec.inner, pointVel, twist, mul_zero, zero_add, sub_zero]
    simp only [Spec.det] at hcen
    have : w.contacts[k].normal.1 * (w.v 1 - w.v 0 * w.contacts[k].p1.2) +
        w.contacts[k].normal.2 * (w.v 2 + w.v 0 * w.contacts[k].p1.1) = -s := by
      linear_combination hin + w.v 0 * hcen
    linarith
  have := C80_equal_masses_exchange _ _ _ _ _ _ _ _ _ _ _ hlaw k hk ⟨h1, h2, h3⟩
    (by
      rw [h0.1, h0.2]
      exact fun j hj => ⟨free_of_joints hg 0 (by omega) j hj, free_of_joints hg 1 (by omega) j hj⟩)
    (by rw [h0.1, h0.2]; exact honly) hun ⟨hcen, hmid⟩ (game_friction hg hm)
    (by
      unfold meanRestitution
      rw [h0.1, h0.2, c0.2.2.1, c1.2.2.1]
      norm_num [gameRestitution])
    ⟨rfl, rfl⟩ (by rw [h0.1, h0.2, c0.1, c1.1]; exact ⟨one_pos, c0.2.2.2, rfl, c1.2.2.2⟩) happ
  simp only [h0.1, h0.2, hr1] at this
  have hl := (step_dt_params hg.inv.good h).2.2.2.2.2.1
  have hv' : (bodyAt w'.bodies 1).v = twist w'.v 1 :=
    bodyAt_vel (step_dt_good hg.inv.good h) 1 (by rw [hl, hg.len]; omega)
  have e0 : ∀ v : Vec, twist v 0 = ⟨v 0, v 1, v 2⟩ := fun v => by simp [twist]
  rw [e0, e0] at this
  simp only [Spec.inner, hin, V3.zero_r, V3.zero_x, V3.zero_y, mul_zero, add_zero, V3.mk.injEq] at this
  rw [hv', this.2]
  refine ⟨?_, ?_, ?_⟩
  · rw [this.1.2.1, hx1]; ring
  · rw [this.1.2.2, hx2]; ring
  · rw [hx1, hx2]; apply V3.ext <;> simp

/-! ## `run_breakout` and `step_breakout` -/

theorem fixedLoop_reaches {σ : Type} {env : Env σ φ} {fuel : ℕ} {end_t : ℝ} :
    ∀ (sub : ℕ) (w w' : World σ φ), fixedLoop env fuel end_t sub w = .done w' → Reaches env w w' := by
  intro sub
  induction sub with
  | zero =>
    intro w w' h
    unfold fixedLoop at h
    split_ifs at h
    injection h with h
    subst h
    exact .refl
  | succ n ih =>
    intro w w' h
    unfold fixedLoop at h
    split_ifs at h
    · rw [Run.bind_eq_done] at h
      obtain ⟨w1, h1, h2⟩ := h
      exact .head ⟨fuel, _, h1⟩ (ih w1 w' h2)
    · injection h with h
      subst h
      exact .refl

theorem reaches_play {σ : Type} {env : Env σ φ} {who : ℕ} {w w' : World σ φ} (h : Reaches env w w') :
    Play env who (fun _ => True) w w' := by
  induction h with
  | refl => exact .refl
  | tail _ hs ih => exact .tail ih (Or.inl ⟨trivial, hs⟩)

/-- One turn: the player sets the paddle's horizontal velocity, then the world runs for one `dt`. -/
def Turn {σ : Type} (env : Env σ φ) (fuel sub : ℕ) (speed action : ℝ) (w w' : World σ φ) : Prop :=
  (w.set_v fun k => if k = 4 then speed * action else w.v k).step env fuel sub true = .done w'

theorem turn_play {σ : Type} {env : Env σ φ} {fuel sub : ℕ} {speed action : ℝ} {w w' : World σ φ}
    (h : Turn env fuel sub speed action w w') : Play env 1 (fun _ => True) w w' := by
  unfold Turn World.step at h
  rw [if_pos rfl] at h
  refine .head (Or.inr ⟨_, ?_, rfl⟩) (reaches_play (fixedLoop_reaches _ _ _ h))
  intro k hk
  have : k ≠ 4 := by rintro rfl; exact hk rfl
  simp [this]

/-- C76: `run_breakout` plays turns: the actions of the list in order, then `-0.1`, until the end time is reached. -/
theorem C76_run_is_turns {σ : Type} (env : Env σ φ) (fuel sub : ℕ) (speed T : ℝ) :
    ∀ (n : ℕ) (actions : List ℝ) (w w' : World σ φ), run_breakout env fuel sub speed T n actions w = .done w' →
      ∃ (k : ℕ) (W : ℕ → World σ φ), k ≤ n ∧ W 0 = w ∧ W k = w' ∧ T ≤ w'.t ∧ ∀ m < k, (W m).t < T ∧
        Turn env fuel sub speed (actions.getD m (-(1 / 10))) (W m) (W (m + 1)) := by
  intro n
  induction n with
  | zero =>
    intro actions w w' h
    unfold run_breakout at h
    split_ifs at h with ht
    injection h with h
    subst h
    exact ⟨0, fun _ => w, le_rfl, rfl, rfl, not_lt.1 ht, by simp⟩
  | succ n ih =>
    intro actions w w' h
    unfold run_breakout at h
    split_ifs at h with ht
    · simp only at h
      rw [Run.bind_eq_done] at h
      obtain ⟨w1, h1, h2⟩ := h
      obtain ⟨k, W, hk, hW0, hWk, hT, hturn⟩ := ih _ w1 w' h2
      refine ⟨k + 1, fun m => if m = 0 then w else W (m - 1), by omega, rfl, by simpa using hWk, hT, ?_⟩
      intro m hm
      by_cases h0 : m = 0
      · subst h0
        refine ⟨ht, ?_⟩
        simp only [if_true, Nat.add_one_ne_zero, if_false, Nat.add_sub_cancel, hW0]
        unfold Turn
        rw [← h1]
        congr 2
        funext q
        cases actions <;> simp [Function.update_apply]
      · obtain ⟨m, rfl⟩ := Nat.exists_eq_succ_of_ne_zero h0
        have := hturn m (by omega)
        simp only [Nat.succ_eq_add_one, Nat.add_one_ne_zero, if_false, Nat.add_sub_cancel]
        refine ⟨this.1, ?_⟩
        cases actions with
        | nil => simpa using this.2
        | cons a as => simpa using this.2
    · injection h with h
      subst h
      exact ⟨0, fun _ => w, by omega, rfl, rfl, not_lt.1 ht, by simp⟩

theorem C76_run_is_play {σ : Type} (env : Env σ φ) (fuel sub : ℕ) (speed T : ℝ) (n : ℕ) (actions : List ℝ)
    (w w' : World σ φ) (h : run_breakout env fuel sub speed T n actions w = .done w') :
    Play env 1 (fun _ => True) w w' := by
  obtain ⟨k, W, -, h0, hk, -, ht⟩ := C76_run_is_turns env fuel sub speed T n actions w w' h
  have : ∀ m ≤ k, Play env 1 (fun _ => True) w (W m) := by
    intro m
    induction m with
    | zero => intro _; rw [h0]; exact .refl
    | succ m ih => intro hm; exact (ih (by omega)).trans (turn_play (ht m (by omega)).2)
  rw [← hk]
  exact this k le_rfl

theorem play_dt {n : ℕ} {lcp : LcpSolver} {mi : ℕ} {collide : ℝ → φ → List Body → Except Err (φ × List Contact)}
    (hf : GameFinder n collide) (hx : Exact lcp) {ok : World (Option Mat) φ → Prop} {w0 w : World (Option Mat) φ}
    (h0 : GameInv n w0) (h : Play (breakoutEnv lcp mi collide) 1 ok w0 w) : w.dt = w0.dt := by
  induction h with
  | refl => rfl
  | @tail wa wb hab hs ih =>
    rcases hs with ⟨-, fuel, dt, hs⟩ | ⟨v, hv, rfl⟩
    · exact (step_dt_params (play_inv hf hx h0 hab).inv.good hs).1.trans ih
    · exact ih

/-- C76: every turn takes exactly one unit of simulated time, so `run_breakout` started at time zero ends at the
smallest natural number that is at least the end time, after that many turns. -/
theorem C76_run_clock {n : ℕ} (lcp : LcpSolver) (mi : ℕ)
    (collide : ℝ → φ → List Body → Except Err (φ × List Contact)) (hf : GameFinder n collide) (hx : Exact lcp)
    (fuel sub N : ℕ) (speed T : ℝ) (actions : List ℝ) (w w' : World (Option Mat) φ) (hg : GameInv n w) (h0 : w.t = 0)
    (hd : w.dt = 1) (h : run_breakout (breakoutEnv lcp mi collide) fuel sub speed T N actions w = .done w') :
    w'.t = ⌈T⌉₊ := by
  obtain ⟨k, W, -, hW0, hWk, hT, ht⟩ := C76_run_is_turns _ fuel sub speed T N actions w w' h
  have key : ∀ m ≤ k, Play (breakoutEnv lcp mi collide) 1 (fun _ => True) w (W m) ∧ (W m).t = m := by
    intro m
    induction m with
    | zero => intro _; rw [hW0, h0]; exact ⟨.refl, by simp⟩
    | succ m ih =>
      intro hm
      obtain ⟨hp, htm⟩ := ih (by omega)
      have htu := (ht m (by omega)).2
      refine ⟨hp.trans (turn_play htu), ?_⟩
      have hgm := play_inv hf hx hg hp
      have hdm := play_dt hf hx hg hp
      have := C24_fixed_step_exact_time _ fuel sub _ _ (game_set_v hgm _ (fun q hq => by
        have : q ≠ 4 := by rintro rfl; exact hq rfl
        simp [this])).inv.good
        (by show 0 ≤ (W m).dt; rw [hdm, hd]; norm_num) htu
      rw [this]
      show (W m).t + (W m).dt = _
      rw [htm, hdm, hd]; push_cast; rfl
  have hk := (key k le_rfl).2
  rw [hWk] at hk
  rw [hk]
  congr 1
  symm
  apply le_antisymm
  · apply Nat.ceil_le.2; rw [← hk]; exact hT
  · by_contra hlt
    push Not at hlt
    obtain ⟨q, rfl⟩ := Nat.exists_eq_add_one_of_ne_zero (n := k) (by rintro rfl; simp at hlt)
    have h1 := (ht q (by omega)).1
    rw [(key q (by omega)).2] at h1
    have h2 : T ≤ q := (Nat.le_ceil T).trans (by exact_mod_cast (by omega : ⌈T⌉₊ ≤ q))
    linarith

/-! ## A game -/

/-- C76: with good parameters `make_world` returns as soon as the contact search does and finds no penetration. -/
theorem C76_make_world_returns (lcp : LcpSolver) (mi : ℕ)
    (collide : ℝ → φ → List Body → Except Err (φ × List Contact)) (fnd : φ) (paddle : BoxParams)
    (blocks : List BoxParams) (ball : BallParams) (vel : V2) (hp : 0 < paddle.w * paddle.h)
    (hb : ∀ b ∈ blocks, GoodBlock b) (f' : φ) (cs : List Contact)
    (hcol : collide (1 / 10) fnd (gameBodies paddle blocks ball vel) = .ok (f', cs))
    (hpen : ∀ c ∈ cs, c.pen ≤ 1 / 1000000) :
    ∃ w, make_world lcp mi collide fnd paddle blocks ball vel = .done w ∧ w.contacts = cs ∧
      w.v = cat3 ((gameBodies paddle blocks ball vel).map Body.v) ∧ w.fnd = f' ∧ w.eps = 1 / 10 ∧
      w.tol = 1 / 1000000 ∧ w.bodies = gameBodies paddle blocks ball vel ∧
      w.joints = breakoutJoints (gameBodies paddle blocks ball vel) ∧ w.eng = none := by
  have hbs := (C76_bodies paddle blocks ball vel _).2 ⟨⟨hp, hb⟩, rfl⟩
  set bs := gameBodies paddle blocks ball vel with hbsd
  have hlen : bs.length = 7 + blocks.length := game_length _ _ _ _
  have hvel : (initWorld (none : Option Mat) fnd bs (breakoutJoints bs) 1 (1 / 10) (1 / 1000000) false true).bodies = bs := by
    apply List.ext_getElem
    · simp [initWorld, World.set_v]
    · intro i h1 h2
      simp only [initWorld, World.set_v, List.getElem_map, List.getElem_zipIdx]
      rw [Nat.zero_add, cat3_slice _ i (by simpa using h2), List.getElem_map]
  refine ⟨{ initWorld (none : Option Mat) fnd bs (breakoutJoints bs) 1 (1 / 10) (1 / 1000000) false true with
    contacts := cs, fnd := f' }, ?_, rfl, rfl, rfl, rfl, rfl, hvel, rfl, rfl⟩
  unfold make_world
  rw [hbs]
  simp only
  unfold mkWorld
  rw [if_neg (by omega), if_pos (by
    intro j hj
    obtain ⟨k, hk, rfl⟩ := List.mem_map.1 hj
    have := List.mem_range.1 hk
    exact ⟨by show k + 2 < _; omega, by simp [mkTotal]⟩)]
  unfold World.find_contacts
  have : (breakoutEnv lcp mi collide).collide
      (initWorld (none : Option Mat) fnd bs (breakoutJoints bs) 1 (1 / 10) (1 / 1000000) false true).eps
      (initWorld (none : Option Mat) fnd bs (breakoutJoints bs) 1 (1 / 10) (1 / 1000000) false true).fnd
      (initWorld (none : Option Mat) fnd bs (breakoutJoints bs) 1 (1 / 10) (1 / 1000000) false true).bodies
      = .ok (f', cs) := by
    rw [hvel]; exact hcol
  rw [this]
  simp only [Run.bind, if_true]
  rw [if_pos]
  exact hpen

/-- C76: the exact engine returns in every state of the game in which the paddle touches no stopper. -/
theorem C76_engine_returns {n : ℕ} (mi : ℕ) (w : World (Option Mat) φ) (hg : GameInv n w) (hne : w.contacts ≠ [])
    (hst : ∀ c ∈ w.contacts, ¬ ((c.i1 = 5 ∨ c.i1 = 6) ∨ c.i2 = 5 ∨ c.i2 = 6)) (dt : ℝ) :
    ∃ r, pdipmSolve 2 breakoutForces exactLcp mi w dt = .ok r := by
  obtain ⟨v', l, pn, a, b, g, h, -⟩ := C74_common_restitution w hg.inv.joints hg.inv.contacts
    (by
      intro b hb
      obtain ⟨i, hi, rfl⟩ := List.getElem_of_mem hb
      have := hg.coeff i (by rw [← hg.len]; exact hi)
      have e : bodyAt w.bodies i = w.bodies[i] := by simp [bodyAt, List.getD_eq_getElem?_getD, hi]
      rw [e] at this
      exact ⟨by rw [this.1]; norm_num, this.2.2.2⟩)
    (fun c hc => game_friction hg hc) 1
    (by
      intro c hc
      obtain ⟨h1, h2, -, -⟩ := hg.inv.contacts c hc
      rw [hg.len] at h1 h2
      have := hst c hc
      unfold meanRestitution
      rw [(hg.coeff _ h1).2.2.1, (hg.coeff _ h2).2.2.1]
      unfold gameRestitution
      rw [if_neg (by tauto), if_neg (by tauto)]
      norm_num)
    (by
      intro r hr
      obtain ⟨j, hj, hr⟩ := List.mem_flatMap.1 hr
      obtain ⟨hk, -, h2⟩ := hg.total j hj
      have h0 := hg.rest j.i1 h2 (by rw [← hg.len]; exact (hg.inv.joints j hj).1)
      simp only [jointVel, hk, h0, List.mem_cons, List.not_mem_nil, or_false] at hr
      rcases hr with rfl | rfl | rfl <;> rfl)
    (impulse (List.replicate w.bodies.length 0) dt)
  exact (C74_exact_engine_returns breakoutForces mi w dt hg.inv.joints hg.inv.contacts hne _
    (breakoutForces_cat _ _) _ _ _ _ _ _ h).2

/-- The ball touching the middle of the paddle from above. -/
def paddleHit : Contact := { normal := (0, -1), p1 := (0, 1), p2 := (0, -2), pen := 0, i1 := 0, i2 := 1 }

/-- The ball touching the left wall. -/
def wallHit : Contact := { normal := (1, 0), p1 := (-1, 0), p2 := (4, 0), pen := 0, i1 := 0, i2 := 2 }

/-- A contact search that always finds the same contact. -/
def hitFinder (c : Contact) : ℝ → Unit → List Body → Except Err (Unit × List Contact) :=
  fun _ _ bs => .ok ((), if bs.length = 8 then [c] else [])

theorem hitFinder_game {c : Contact} (h : c = paddleHit ∨ c = wallHit) : GameFinder 1 (hitFinder c) := by
  have hm : ∀ eps f bs f' cs, hitFinder c eps f bs = .ok (f', cs) → ∀ d ∈ cs, d = c ∧ bs.length = 8 := by
    intro eps f bs f' cs hh d hd
    unfold hitFinder at hh
    injection hh with hh
    injection hh with h1 h2
    subst h2
    split at hd
    · exact ⟨by simpa using hd, ‹_›⟩
    · cases hd
  refine ⟨?_, ?_, ?_⟩
  · intro eps f bs f' cs hh d hd
    obtain ⟨rfl, hl⟩ := hm _ _ _ _ _ hh d hd
    rcases h with rfl | rfl <;> simp [paddleHit, wallHit, hl]
  · intro eps f bs f' cs hh d hd
    obtain ⟨rfl, hl⟩ := hm _ _ _ _ _ hh d hd
    rcases h with rfl | rfl <;> simp [paddleHit, wallHit, Spec.det]
  · intro eps f bs f' cs hh d hd
    obtain ⟨rfl, hl⟩ := hm _ _ _ _ _ hh d hd
    rcases h with rfl | rfl <;> simp [paddleHit, wallHit, NoTouch, Spec.inner]

/-- A block in the first row. -/
def topBlock : BoxParams := ⟨16, 60, 16, 6⟩

theorem topBlock_good : ∀ b ∈ [topBlock], GoodBlock b := by
  intro b hb
  simp only [List.mem_singleton] at hb
  subst hb
  norm_num [GoodBlock, blockLevel, pyInt, topBlock]

theorem hit_game {c : Contact} (h : c = paddleHit ∨ c = wallHit) (ball : BallParams) (vel : V2) (hr : ball.rad ≠ 0) :
    ∃ w w', make_world exactLcp 10 (hitFinder c) () ⟨80, 191, 16, 4⟩ [topBlock] ball vel = .done w ∧ GameInv 1 w ∧
      w.contacts = [c] ∧ w.v 1 = vel.1 ∧ w.v 2 = vel.2 ∧ twist w.v 1 = 0 ∧
      w.step_dt (breakoutEnv exactLcp 10 (hitFinder c)) 1 1 = .done w' := by
  have hpen : c.pen = 0 := by rcases h with rfl | rfl <;> rfl
  have h5 : ¬ ((c.i1 = 5 ∨ c.i1 = 6) ∨ c.i2 = 5 ∨ c.i2 = 6) := by
    rcases h with rfl | rfl <;> simp [paddleHit, wallHit]
  obtain ⟨w, hw, hcs, hv, -, heps, htol, -⟩ := C76_make_world_returns exactLcp 10 (hitFinder c) () ⟨80, 191, 16, 4⟩
    [topBlock] ball vel (by norm_num) topBlock_good () [c] (by simp [hitFinder, game_length])
    (by simp [hpen])
  obtain ⟨hg, -, -, -, hb⟩ := C76_constructed _ _ _ _ _ [topBlock] _ _ w hr (hitFinder_game h) hw
  obtain ⟨⟨e, v⟩, hs⟩ := C76_engine_returns 10 w hg (by simp [hcs]) (by simpa [hcs] using h5) 1
  refine ⟨w, _, hw, hg, hcs, ?_, ?_, ?_, step_first _ 0 w hg.inv.good 1 hg.noPost e v hs () [c] ?_ ?_⟩
  · rw [hv]; simp [cat3, gameBodies, ballBody, mkCircle, Arg.toV3]
  · rw [hv]; simp [cat3, gameBodies, ballBody, mkCircle, Arg.toV3]
  · rw [hv]; simp [cat3, gameBodies, plate, rectBase, twist, Arg.toV3]; rfl
  · show hitFinder c w.eps w.fnd _ = _
    have hl : w.bodies.length = 8 := hg.len
    simp [hitFinder, World.set_v, hl]
  · simp only [List.mem_singleton, forall_eq, hpen, htol]; norm_num

/-- The ball falls on the middle of the paddle, stops, and the paddle falls in its place. -/
example : ∃ w w', make_world exactLcp 10 (hitFinder paddleHit) () ⟨80, 191, 16, 4⟩ [topBlock] ⟨80, 188, 1⟩ (0, 3) = .done w ∧
    StepsTo (breakoutEnv exactLcp 10 (hitFinder paddleHit)) w w' ∧ w.v 2 = 3 ∧ w'.v 2 = 0 ∧
    (bodyAt w'.bodies 1).v = ⟨0, 0, 3⟩ := by
  obtain ⟨w, w', hw, hg, hcs, h1, h2, h3, hs⟩ := hit_game (c := paddleHit) (Or.inl rfl) ⟨80, 188, 1⟩ (0, 3) (by simp)
  have := C76_square_hit_stops_the_ball _ _ _ exactLcp_exact w w' hg 1 1 hs 0 (by simp [hcs]) (by simp [hcs, paddleHit])
    (by
      intro q hq h0
      rw [hcs] at hq
      simp at hq
      omega)
    (by simp [hcs, paddleHit, Spec.det])
    (by rw [bodyAt_vel hg.inv.good 1 (by rw [hg.len]; omega)]; exact h3) 3 (by norm_num)
    (by simp [hcs, h1, h2, paddleHit])
  refine ⟨w, w', hw, ⟨1, 1, hs⟩, by simp [h2], this.2.1, ?_⟩
  rw [this.2.2, h1, h2]

/-- The ball flies into the left wall and is reflected; the paddle goes where it was told. -/
example : ∃ w w', make_world exactLcp 10 (hitFinder wallHit) () ⟨80, 191, 16, 4⟩ [topBlock] ⟨9, 189 / 2, 1⟩ (-2, 1) = .done w ∧
    StepsTo (breakoutEnv exactLcp 10 (hitFinder wallHit)) w w' ∧ w'.v 1 = 2 ∧ w'.v 2 = 1 ∧
    (bodyAt w'.bodies 1).p = ⟨0, 80, 191⟩ ∧ (bodyAt w'.bodies 2).p = ⟨0, 4, 189 / 2⟩ := by
  obtain ⟨w, w', hw, hg, hcs, h1, h2, h3, hs⟩ := hit_game (c := wallHit) (Or.inr rfl) ⟨9, 189 / 2, 1⟩ (-2, 1) (by simp)
  have hm := C76_mirror _ _ _ exactLcp_exact w w' hg 1 1 hs 0 (by simp [hcs])
    (by simp [hcs, wallHit, BallPaddle])
    (by
      intro q hq h0
      rw [hcs] at hq
      simp at hq
      omega)
  have hm := hm.1 (by simp [hcs, wallHit])
  simp only [hcs, List.getElem_cons_zero, wallHit, h1, h2] at hm
  have hpd := C76_paddle_obeys _ _ _ exactLcp_exact w w' hg 1 1 hs (by simp [hcs, wallHit])
  have hsc := C76_scenery_rests _ _ _ _ _ [topBlock] _ _ (by simp) (hitFinder_game (Or.inr rfl)) exactLcp_exact w w' hw
    (.single (Or.inl ⟨trivial, 1, 1, hs⟩)) 2 le_rfl (by simp)
  have hb := (C76_constructed _ _ _ _ _ [topBlock] _ _ w (by simp) (hitFinder_game (Or.inr rfl)) hw).2.2.2.2
  refine ⟨w, w', hw, ⟨1, 1, hs⟩, ?_, ?_, ?_, ?_⟩
  · rw [hm.1]; norm_num
  · rw [hm.2]; norm_num
  · rw [hpd.2, bodyAt_vel hg.inv.good 1 (by rw [hg.len]; omega), h3, hb]
    apply V3.ext <;> simp [bodyAt, gameBodies, plate, rectBase, Arg.toV3]
  · rw [hsc.1]
    apply V3.ext <;> simp [bodyAt, gameBodies, plate, rectBase, Arg.toV3, leftWall]
    norm_num

/-- Example for `C76_ball_keeps_speed`: over the reflection the speed stays what it was. -/
example : ∃ w w', make_world exactLcp 10 (hitFinder wallHit) () ⟨80, 191, 16, 4⟩ [topBlock] ⟨9, 189 / 2, 1⟩ (-2, 1) = .done w ∧
    Play (breakoutEnv exactLcp 10 (hitFinder wallHit)) 1 (fun w => ∀ c ∈ w.contacts, ¬ BallPaddle c) w w' ∧
    w'.v 1 ^ 2 + w'.v 2 ^ 2 = 5 := by
  obtain ⟨w, w', hw, hg, hcs, h1, h2, h3, hs⟩ := hit_game (c := wallHit) (Or.inr rfl) ⟨9, 189 / 2, 1⟩ (-2, 1) (by simp)
  have hp : Play (breakoutEnv exactLcp 10 (hitFinder wallHit)) 1 (fun w => ∀ c ∈ w.contacts, ¬ BallPaddle c) w w' :=
    .single (Or.inl ⟨by simp [hcs, wallHit, BallPaddle], 1, 1, hs⟩)
  have := (C76_ball_keeps_speed exactLcp 10 (hitFinder wallHit) (hitFinder_game (Or.inr rfl)) exactLcp_exact w w' hg hp).1
  exact ⟨w, w', hw, hp, by rw [this, h1, h2]; norm_num⟩

/-- One turn of a game whose search always finds the same contact. -/
theorem hit_turn {c : Contact} (h : c = paddleHit ∨ c = wallHit) (w : World (Option Mat) Unit) (hg : GameInv 1 w) (hcs : w.contacts = [c])
    (htol : w.tol = 1 / 1000000) (hd : w.dt = 1) (v : Vec) (hv : ∀ k, k / 3 ≠ 1 → v k = w.v k) :
    ∃ w', (w.set_v v).step (breakoutEnv exactLcp 10 (hitFinder c)) 1 1 true = .done w' ∧ GameInv 1 w' ∧ w'.contacts = [c] ∧
      w'.tol = 1 / 1000000 ∧ w'.dt = 1 ∧ w'.t = w.t + 1 := by
  have hpen : c.pen = 0 := by rcases h with rfl | rfl <;> rfl
  have h5 : ¬ ((c.i1 = 5 ∨ c.i1 = 6) ∨ c.i2 = 5 ∨ c.i2 = 6) := by
    rcases h with rfl | rfl <;> simp [paddleHit, wallHit]
  have hgv := game_set_v hg v hv
  have hcv : (w.set_v v).contacts = [c] := hcs
  obtain ⟨⟨e, u⟩, hs⟩ := C76_engine_returns 10 (w.set_v v) hgv (by rw [hcv]; simp) (by simpa [hcv] using h5) 1
  have hst := step_first (breakoutEnv exactLcp 10 (hitFinder c)) 0 (w.set_v v) hgv.inv.good 1 hgv.noPost e u hs () [c]
    (by
      have hl : w.bodies.length = 8 := hg.len
      simp [breakoutEnv, pdipmEnv, hitFinder, World.set_v, hl])
    (by
      simp only [List.mem_singleton, forall_eq, hpen]
      show (0 : ℝ) ≤ w.tol
      rw [htol]; norm_num)
  obtain ⟨w', hst, q1, q2, q3, q4⟩ : ∃ w', (w.set_v v).step_dt (breakoutEnv exactLcp 10 (hitFinder c)) 1 1 = .done w' ∧ w'.contacts = [c] ∧
      w'.tol = 1 / 1000000 ∧ w'.dt = 1 ∧ w'.t = w.t + 1 := ⟨_, hst, rfl, htol, hd, rfl⟩
  refine ⟨w', ?_, play_inv (ok := fun _ => True) (hitFinder_game h) exactLcp_exact hgv (.single (Or.inl ⟨trivial, 1, 1, hst⟩)), q1, q2, q3, q4⟩
  have ht : (w.set_v v).t = w.t := rfl
  have hdv : (w.set_v v).dt = 1 := hd
  unfold World.step
  rw [if_pos rfl, hdv, ht]
  unfold fixedLoop
  rw [if_pos (by rw [ht]; linarith)]
  simp only
  rw [ht, show w.t + 1 - w.t = 1 by ring, hst]
  show fixedLoop _ _ _ _ _ = _
  unfold fixedLoop
  rw [if_neg (by rw [q4]; exact lt_irrefl _)]

/-- A whole game against the same contact returns. -/
theorem hit_run {c : Contact} (h : c = paddleHit ∨ c = wallHit) (speed T : ℝ) : ∀ (N : ℕ) (actions : List ℝ) (w : World (Option Mat) Unit),
    GameInv 1 w → w.contacts = [c] → w.tol = 1 / 1000000 → w.dt = 1 → T ≤ w.t + N →
    ∃ w', run_breakout (breakoutEnv exactLcp 10 (hitFinder c)) 1 1 speed T N actions w = .done w' := by
  intro N
  induction N with
  | zero =>
    intro actions w _ _ _ _ hT
    unfold run_breakout
    exact ⟨w, if_neg (by push_cast at hT; linarith)⟩
  | succ N ih =>
    intro actions w hg hcs htol hd hT
    unfold run_breakout
    by_cases hlt : w.t < T
    · rw [if_pos hlt]
      simp only
      have key : ∀ (a : ℝ) (as : List ℝ), ∃ w', (((w.set_v (Function.update w.v (1 * 3 + 1) (speed * a))).step
          (breakoutEnv exactLcp 10 (hitFinder c)) 1 1 true).bind fun w =>
            run_breakout (breakoutEnv exactLcp 10 (hitFinder c)) 1 1 speed T N as w) = .done w' := by
        intro a as
        obtain ⟨w1, h1, g1, g2, g3, g4, g5⟩ := hit_turn h w hg hcs htol hd (Function.update w.v (1 * 3 + 1) (speed * a)) (fun k hk => by
            have : k ≠ 1 * 3 + 1 := by rintro rfl; exact hk rfl
            simp [this])
        rw [h1]
        exact ih as w1 g1 g2 g3 g4 (by rw [g5]; push_cast at hT; linarith)
      cases actions with
      | nil => exact key _ _
      | cons a as => exact key a as
    · rw [if_neg hlt]
      exact ⟨w, rfl⟩

/-- Example for `C76_run_clock`: a game of length `5/2` ends at the time 3. -/
example : ∃ w w', make_world exactLcp 10 (hitFinder wallHit) () ⟨80, 191, 16, 4⟩ [topBlock] ⟨9, 189 / 2, 1⟩ (-2, 1) = .done w ∧
    run_breakout (breakoutEnv exactLcp 10 (hitFinder wallHit)) 1 1 2 (5 / 2) 3 [1, -1] w = .done w' ∧ w'.t = 3 := by
  obtain ⟨w, hw, hcs, -, -, -, htol, -⟩ := C76_make_world_returns exactLcp 10 (hitFinder wallHit) () ⟨80, 191, 16, 4⟩
    [topBlock] ⟨9, 189 / 2, 1⟩ (-2, 1) (by norm_num) topBlock_good () [wallHit] (by simp [hitFinder, game_length])
    (by simp [wallHit])
  obtain ⟨hg, h0, hd, -⟩ := C76_constructed _ _ _ _ _ [topBlock] _ _ w (by simp) (hitFinder_game (Or.inr rfl)) hw
  obtain ⟨w', hr⟩ := hit_run (Or.inr rfl) 2 (5 / 2) 3 [1, -1] w hg hcs htol hd (by rw [h0]; norm_num)
  refine ⟨w, w', hw, hr, ?_⟩
  rw [C76_run_clock exactLcp 10 _ (hitFinder_game (Or.inr rfl)) exactLcp_exact 1 1 3 2 (5 / 2) _ w w' hg h0 hd hr]
  have : ⌈(5 / 2 : ℝ)⌉₊ = 3 := by rw [Nat.ceil_eq_iff (by norm_num)]; norm_num
  rw [this]; norm_num

/-- Example for `C76_library_search`: the library's own search over neighbouring bodies. -/
example (fuel n : ℕ) : GameFinder n (rejectNan (diffCollide fuel (breakoutNc n) fun bs =>
    (List.range (bs.length - 1)).map fun i => (i, i + 1))) :=
  C76_library_search fuel n _ (by
    intro bs p hp
    simp only [List.mem_map, List.mem_range] at hp
    obtain ⟨i, hi, rfl⟩ := hp
    refine ⟨?_, ?_, ?_⟩ <;> simp only <;> omega)

end LcpPhysics
