import Verif.Model.Joints

/-!
# Model of `lcp_physics/physics/world.py`: state and stepping

The engine and the contact callback are parameters (`Env`): the theorems about stepping hold for
every engine and every contact finder.  Flat tensors (`World.v`, the concatenated poses) are
functions `ℕ → ℝ`; `torch.cat` of size-3 tensors is `cat3`, the slice `[3i : 3i+3]` is `slice3`
(`vec_len = 3` for every body, world.py:37).
-/

noncomputable section

namespace LcpPhysics

/-- Outcome of running code: still in a loop after the given fuel, raised, or returned. -/
inductive Run (α : Type) where
  | running
  | raised (e : Err)
  | done (a : α)

/-- Sequencing. -/
def Run.bind {α β : Type} : Run α → (α → Run β) → Run β
  | .running, _ => .running
  | .raised e, _ => .raised e
  | .done a, f => f a

instance : Monad Run where
  pure := Run.done
  bind := Run.bind

/-- A call that always terminates. -/
def Run.ofExcept {α : Type} : Except Err α → Run α
  | .ok a => .done a
  | .error e => .raised e

/-- A flat tensor (entries beyond its size are never read). -/
abbrev Vec := ℕ → ℝ

/-- `torch.cat` of size-3 tensors. -/
def cat3 : List V3 → Vec
  | [], _ => 0
  | a :: _, 0 => a.r
  | a :: _, 1 => a.x
  | a :: _, 2 => a.y
  | _ :: l, k + 3 => cat3 l k

/-- The slice `v[i*3 : (i+1)*3]`. -/
def slice3 (v : Vec) (i : ℕ) : V3 := ⟨v (i * 3), v (i * 3 + 1), v (i * 3 + 2)⟩

/-- A contact `((normal, p1, p2, penetration), i1, i2)` as appended by the contact callbacks
(contacts.py:203-204, 52-53).  `nan` records that `normal`, `p1`, `p2` are NaN tensors (their fields
are then meaningless); the penetration is always a number. -/
structure Contact where
  normal : V2
  p1 : V2
  p2 : V2
  pen : ℝ
  i1 : ℕ
  i2 : ℕ
  nan : Bool := false

/-- world.py:16-70: the attributes of a `World` that change or are read while stepping, plus the
state `σ` of the engine object and `φ` of the contact finder (cached SAT edges, random generator). -/
structure World (σ φ : Type) where
  t : ℝ
  dt : ℝ
  eps : ℝ
  tol : ℝ
  post_stab : Bool
  strict_no_pen : Bool
  bodies : List Body
  joints : List Joint
  v : Vec
  contacts : List Contact
  eng : σ
  fnd : φ

/-- The pluggable parts: `engine.solve_dynamics(world, dt)` and `engine.post_stabilization(world)`
(world.py:86, 111) and one broad+narrow phase pass over the bodies (world.py:139-142). -/
structure Env (σ φ : Type) where
  solve_dynamics : World σ φ → ℝ → Except Err (σ × Vec)
  post_stabilization : World σ φ → Except Err Vec
  collide : ℝ → φ → List Body → Except Err (φ × List Contact)

variable {σ φ : Type}

/-- world.py:127-130 `set_v`: body `i` gets the slice `[3i : 3i+3]`. -/
def World.set_v (w : World σ φ) (new_v : Vec) : World σ φ :=
  { w with
    v := new_v
    bodies := w.bodies.zipIdx.map fun bi => { bi.1 with v := slice3 new_v bi.2 } }

/-- world.py:132-134 `set_p`. -/
def World.set_p (w : World σ φ) (new_p : Vec) : World σ φ :=
  { w with bodies := w.bodies.zipIdx.map fun bi => bi.1.set_p (slice3 new_p bi.2) }

/-- world.py:90-91, 115-116: `for body in self.bodies: body.move(dt)`. -/
def World.moveBodies (w : World σ φ) (dt : ℝ) : World σ φ :=
  { w with bodies := w.bodies.map fun b => b.move dt }

/-- world.py:92-93, 117-118: `for joint in self.joints: joint[0].move(dt)`. -/
def World.moveJoints (w : World σ φ) (dt : ℝ) : World σ φ :=
  { w with joints := w.joints.map fun j => j.move w.bodies dt }

/-- world.py:139-142 `find_contacts`. -/
def World.find_contacts (env : Env σ φ) (w : World σ φ) : Run (World σ φ) :=
  match env.collide w.eps w.fnd w.bodies with
  | .error e => .raised e
  | .ok (f, cs) => .done { w with contacts := cs, fnd := f }

/-- world.py:69, 95: `all([c[0][3].item() <= self.tol for c in self.contacts])`. -/
def World.noPen (w : World σ φ) : Prop := ∀ c ∈ w.contacts, c.pen ≤ w.tol

/-- world.py:105-107: `for j, c in zip(self.joints, start_rot_joints)`: restore `rot1` (only), then
`update_pos()`. -/
def World.restoreJoints (w : World σ φ) (rots : List (ℝ × ℝ)) : World σ φ :=
  { w with joints := (w.joints.zip rots).map fun jc =>
      ({ jc.1 with rot1 := jc.2.1 }).update_pos w.bodies }

open Classical in
/-- world.py:88-107: the `while True` loop of `step_dt`; returns the world and the accepted `dt`. -/
def stepLoop (env : Env σ φ) (start_p : Vec) (start_rots : List (ℝ × ℝ)) :
    ℕ → World σ φ → ℝ → Run (World σ φ × ℝ)
  | 0, _, _ => .running
  | fuel + 1, w, dt =>
    (((w.moveBodies dt).moveJoints dt).find_contacts env).bind fun w =>
      if w.noPen then .done (w, dt)
      else if ¬ w.strict_no_pen ∧ dt < w.dt / 4 then .done (w, dt)
      else
        let dt := dt / 2
        let w := w.set_p start_p
        let w := w.restoreJoints start_rots
        stepLoop env start_p start_rots fuel w dt

/-- world.py:109-121: the post-stabilization block. -/
def postStab (env : Env σ φ) (w : World σ φ) (dt : ℝ) : Run (World σ φ) :=
  let tmp_v := w.v
  (Run.ofExcept (env.post_stabilization w)).bind fun dp =>
    let dp : Vec := fun k => dp k / 2
    let w := w.set_v dp
    let w := (w.moveBodies dt).moveJoints dt
    let w := w.set_v tmp_v
    w.find_contacts env

/-- world.py:83-122 `step_dt`. -/
def World.step_dt (env : Env σ φ) (fuel : ℕ) (w : World σ φ) (dt : ℝ) : Run (World σ φ) :=
  let start_p := cat3 (w.bodies.map Body.p)
  let start_rot_joints := w.joints.map fun j => (j.rot1, j.rot2)
  (Run.ofExcept (env.solve_dynamics w dt)).bind fun r =>
    let w := ({ w with eng := r.1 }).set_v r.2
    (stepLoop env start_p start_rot_joints fuel w dt).bind fun r =>
      (if r.1.post_stab then postStab env r.1 r.2 else .done r.1).bind fun w =>
        .done { w with t := w.t + r.2 }

open Classical in
/-- world.py:74-78: the `while self.t < end_t` loop of `step(fixed_dt=True)`; `sub` bounds the number
of sub-steps run, `fuel` the attempts within each. -/
def fixedLoop (env : Env σ φ) (fuel : ℕ) (end_t : ℝ) : ℕ → World σ φ → Run (World σ φ)
  | sub, w =>
    if w.t < end_t then
      match sub with
      | 0 => .running
      | sub + 1 => (w.step_dt env fuel (end_t - w.t)).bind fun w => fixedLoop env fuel end_t sub w
    else .done w

/-- world.py:72-80 `step`. -/
def World.step (env : Env σ φ) (fuel sub : ℕ) (fixed_dt : Bool) (w : World σ φ) : Run (World σ φ) :=
  if fixed_dt then fixedLoop env fuel (w.t + w.dt) sub w
  else w.step_dt env fuel w.dt

open Classical in
/-- world.py:266-267: the simulation loop of `run_world` (display code omitted: it does not touch
the world, and without a screen it is skipped). -/
def runWorld (env : Env σ φ) (fuel : ℕ) (run_time : ℝ) : ℕ → World σ φ → Run (World σ φ)
  | n, w =>
    if w.t < run_time then
      match n with
      | 0 => .running
      | n + 1 => (w.step env fuel 0 false).bind fun w => runWorld env fuel run_time n w
    else .done w

/-- world.py:20-66: the fields set by `World.__init__` before the first contact search, with the
velocities taken from the bodies (world.py:63-64). -/
def initWorld (eng : σ) (fnd : φ) (bodies : List Body) (joints : List Joint)
    (dt eps tol : ℝ) (post_stab strict : Bool) : World σ φ :=
  ({ t := 0, dt := dt, eps := eps, tol := tol, post_stab := post_stab,
     strict_no_pen := strict, bodies := bodies, joints := joints, v := fun _ => 0,
     contacts := [], eng := eng, fnd := fnd } : World σ φ).set_v (cat3 (bodies.map Body.v))

open Classical in
/-- world.py:19-70 `World.__init__`: indices of constraint bodies must be valid (world.py:50-51
`bodies.index` raises otherwise), the first body must exist (world.py:37), velocities are set from
the bodies, contacts are searched, and a strict world asserts that there is no penetration. -/
def mkWorld (env : Env σ φ) (eng : σ) (fnd : φ) (bodies : List Body) (joints : List Joint)
    (dt eps tol : ℝ) (post_stab strict : Bool) : Run (World σ φ) :=
  if bodies.length = 0 then .raised (.raised "IndexError")
  else if ∀ j ∈ joints, j.i1 < bodies.length ∧ (∀ k ∈ j.i2, k < bodies.length) then
    ((initWorld eng fnd bodies joints dt eps tol post_stab strict).find_contacts env).bind fun w =>
      if strict then (if w.noPen then .done w else .raised .assertion) else .done w
  else .raised (.raised "ValueError")

end LcpPhysics
