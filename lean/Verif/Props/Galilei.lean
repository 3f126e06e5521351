import Verif.Props.Frame

/-!
# C85: Galilean invariance
-/

noncomputable section

namespace LcpPhysics
open Spec

/-! ## The law of impact -/

/-- The same frame without the relative velocity. -/
def Frame.still (F : Frame) : Frame := { F with boost := 0 }

theorem pointVel_seen (F : Frame) (u : V3) (p : V2) :
    pointVel (F.vel u) (rot F.turn p) = rot F.turn (pointVel u p) + F.boost := by
  ext <;> simp [pointVel, Frame.vel, rot, V3.xy] <;> ring

theorem contactVel_seen {F : Frame} {n : ℕ} {v V : Vec} (hV : ∀ i < n, twist V i = F.vel (twist v i)) {c : Contact}
    (h1 : c.i1 < n) (h2 : c.i2 < n) : contactVel (F.contact c) V = rot F.turn (contactVel c v) := by
  have e1 : (F.contact c).i1 = c.i1 := rfl
  have e2 : (F.contact c).i2 = c.i2 := rfl
  have e3 : (F.contact c).p1 = rot F.turn c.p1 := rfl
  have e4 : (F.contact c).p2 = rot F.turn c.p2 := rfl
  unfold contactVel
  rw [e1, e2, e3, e4, hV _ h1, hV _ h2, pointVel_seen, pointVel_seen, rot_map_sub]
  abel

theorem normalVel_seen {F : Frame} {n : ℕ} {v V : Vec} (hV : ∀ i < n, twist V i = F.vel (twist v i)) {c : Contact}
    (h1 : c.i1 < n) (h2 : c.i2 < n) : normalVel (F.contact c) V = normalVel c v := by
  unfold normalVel
  rw [contactVel_seen hV h1 h2]
  exact rot_inner _ _ _

theorem tangent_rot (t : ℝ) (a : V2) : tangent (rot t a) = rot t (tangent a) := left_orthogonal_rot t a

theorem slipVel_seen {F : Frame} {n : ℕ} {v V : Vec} (hV : ∀ i < n, twist V i = F.vel (twist v i)) {c : Contact}
    (h1 : c.i1 < n) (h2 : c.i2 < n) : slipVel (F.contact c) V = slipVel c v := by
  unfold slipVel
  rw [contactVel_seen hV h1 h2]
  have e : (F.contact c).normal = rot F.turn c.normal := rfl
  rw [e, tangent_rot]
  exact rot_inner _ _ _

/-- A stacked velocity from the velocities of the bodies. -/
def stack (g : ℕ → V3) : Vec := fun k =>
  if k % 3 = 0 then (g (k / 3)).r else if k % 3 = 1 then (g (k / 3)).x else (g (k / 3)).y

theorem twist_stack (g : ℕ → V3) (i : ℕ) : twist (stack g) i = g i := by
  unfold twist stack
  have a0 : 3 * i % 3 = 0 := by omega
  have a1 : (3 * i + 1) % 3 = 1 := by omega
  have a2 : (3 * i + 2) % 3 = 2 := by omega
  have b0 : 3 * i / 3 = i := by omega
  have b1 : (3 * i + 1) / 3 = i := by omega
  have b2 : (3 * i + 2) / 3 = i := by omega
  rw [a0, a1, a2, b0, b1, b2]
  simp

/-- The virtual velocity in the original frame that the frame sees as `U`. -/
def unturn (F : Frame) (U : Vec) : Vec := stack fun i =>
  ⟨(twist U i).r, (rot (-F.turn) (twist U i).xy).1, (rot (-F.turn) (twist U i).xy).2⟩

theorem unturn_seen (F : Frame) (U : Vec) (i : ℕ) : twist U i = (Frame.still F).vel (twist (unturn F U) i) := by
  unfold unturn
  rw [twist_stack]
  have e : rot F.turn (rot (-F.turn) (twist U i).xy) = (twist U i).xy := by
    rw [rot_add, neg_add_cancel, rot_zero]
  apply V3.ext
  · rfl
  · change _ = (rot F.turn (rot (-F.turn) (twist U i).xy) + 0).1
    rw [e]; simp [V3.xy]
  · change _ = (rot F.turn (rot (-F.turn) (twist U i).xy) + 0).2
    rw [e]; simp [V3.xy]

theorem bodyAt_frame_consts (F : Frame) (t : ℝ) (bs : List Body) {i : ℕ} (h : i < bs.length) :
    (bodyAt (bs.map (F.body t)) i).mass = (bodyAt bs i).mass ∧
    (bodyAt (bs.map (F.body t)) i).ang_inertia = (bodyAt bs i).ang_inertia ∧
    (bodyAt (bs.map (F.body t)) i).restitution = (bodyAt bs i).restitution ∧
    (bodyAt (bs.map (F.body t)) i).fric_coeff = (bodyAt bs i).fric_coeff := by
  rw [bodyAt_frame F t bs h]
  exact ⟨rfl, rfl, rfl, rfl⟩

theorem momentum_seen (F : Frame) (t : ℝ) (bs : List Body) {v V : Vec}
    (hV : ∀ i < bs.length, twist V i = F.vel (twist v i)) (U : Vec) :
    momentumPower (bs.map (F.body t)) U V = momentumPower bs (unturn F U) v +
      ∑ i ∈ Finset.range bs.length,
        (bodyAt bs i).mass * (F.boost.1 * (twist U i).x + F.boost.2 * (twist U i).y) := by
  unfold momentumPower
  rw [List.length_map, ← Finset.sum_add_distrib]
  refine Finset.sum_congr rfl fun i hi => ?_
  have hi := Finset.mem_range.1 hi
  obtain ⟨h1, h2, -, -⟩ := bodyAt_frame_consts F t bs hi
  rw [h1, h2, hV i hi]
  have hu := unturn_seen F U i
  generalize twist (unturn F U) i = u at hu ⊢
  rw [hu]
  have key := rot_inner F.turn (twist v i).xy u.xy
  unfold Spec.inner at key
  simp only [Frame.vel, Frame.still, Prod.fst_add, Prod.snd_add, Prod.fst_zero, Prod.snd_zero, add_zero]
  simp only [V3.xy] at key ⊢
  linear_combination (bodyAt bs i).mass * key

theorem force_seen (F : Frame) (n : ℕ) (f : ℕ → V3) (U : Vec) :
    forcePower n (fun i => F.force (f i)) U = forcePower n f (unturn F U) := by
  unfold forcePower
  refine Finset.sum_congr rfl fun i _ => ?_
  have hu := unturn_seen F U i
  generalize twist (unturn F U) i = u at hu ⊢
  rw [hu]
  have key := rot_inner F.turn (f i).xy u.xy
  unfold Spec.inner at key
  simp only [Frame.force, Frame.vel, Frame.still, Prod.fst_add, Prod.snd_add, Prod.fst_zero, Prod.snd_zero, add_zero]
  simp only [V3.xy] at key ⊢
  linear_combination key

theorem contactPower_seen (F : Frame) {n : ℕ} (cs : List Contact) (hc : ∀ c ∈ cs, c.i1 < n ∧ c.i2 < n)
    (pn pt : ℕ → ℝ) (U : Vec) : contactPower (cs.map F.contact) pn pt U = contactPower cs pn pt (unturn F U) := by
  unfold contactPower
  rw [List.length_map]
  refine Finset.sum_congr rfl fun i hi => ?_
  have hi := Finset.mem_range.1 hi
  rw [List.getElem?_map, List.getElem?_eq_getElem hi]
  obtain ⟨h1, h2⟩ := hc _ (List.getElem_mem hi)
  have hU : ∀ i < n, twist U i = (Frame.still F).vel (twist (unturn F U) i) := fun i _ => unturn_seen F U i
  have e : F.contact = (Frame.still F).contact := rfl
  simp only [Option.map_some]
  rw [e, normalVel_seen hU h1 h2, slipVel_seen hU h1 h2]

/-- C85: the law of impact with restitution and friction holds in every inertial frame, with the same impulses. -/
theorem C85_law_seen (F : Frame) (t : ℝ) (bs : List Body) (cs : List Contact) (f : ℕ → V3) (v v' V V' l : Vec)
    (pn a b g : ℕ → ℝ) (h : ContactLaw bs [] cs f v v' l pn a b g)
    (hc : ∀ c ∈ cs, c.i1 < bs.length ∧ c.i2 < bs.length)
    (hV : ∀ i < bs.length, twist V i = F.vel (twist v i)) (hV' : ∀ i < bs.length, twist V' i = F.vel (twist v' i)) :
    ContactLaw (bs.map (F.body t)) [] (cs.map F.contact) (fun i => F.force (f i)) V V' l pn a b g := by
  have mean : ∀ c ∈ cs, meanRestitution (bs.map (F.body t)) (F.contact c) = meanRestitution bs c ∧
      meanFriction (bs.map (F.body t)) (F.contact c) = meanFriction bs c := by
    intro c hcm
    obtain ⟨h1, h2⟩ := hc c hcm
    have e1 : (F.contact c).i1 = c.i1 := rfl
    have e2 : (F.contact c).i2 = c.i2 := rfl
    unfold meanRestitution meanFriction
    rw [e1, e2, (bodyAt_frame_consts F t bs h1).2.2.1, (bodyAt_frame_consts F t bs h2).2.2.1,
      (bodyAt_frame_consts F t bs h1).2.2.2, (bodyAt_frame_consts F t bs h2).2.2.2]
    exact ⟨rfl, rfl⟩
  refine ⟨?_, ?_, ?_, ?_, ?_, ?_⟩
  · intro U
    have d := h.dynamics (unturn F U)
    rw [momentum_seen F t bs hV', momentum_seen F t bs hV, List.length_map, force_seen, contactPower_seen F cs hc, d]
    have z1 : jointPower [] l (unturn F U) = 0 := by simp [jointPower, jointVels]
    have z2 : jointPower [] l U = 0 := by simp [jointPower, jointVels]
    rw [z1, z2]
    ring
  · intro r hr; simp [jointVels] at hr
  · intro i hi
    rw [List.length_map] at hi
    exact h.nonneg i hi
  · intro i hi
    rw [List.length_map] at hi
    obtain ⟨h1, h2⟩ := hc _ (List.getElem_mem hi)
    rw [List.getElem_map, normalVel_seen hV' h1 h2, normalVel_seen hV h1 h2, (mean _ (List.getElem_mem hi)).1]
    exact h.restitution i hi
  · intro i hi
    rw [List.length_map] at hi
    obtain ⟨h1, h2⟩ := hc _ (List.getElem_mem hi)
    rw [List.getElem_map, slipVel_seen hV' h1 h2]
    exact h.slip i hi
  · intro i hi
    rw [List.length_map] at hi
    rw [List.getElem_map, (mean _ (List.getElem_mem hi)).2]
    exact h.cone i hi

/-- C85: the law of the post-stabilization in every inertial frame: the displacement only turns. -/
theorem C85_post_law_seen (F : Frame) (t : ℝ) (bs : List Body) (cs : List Contact) (v dp V DP l : Vec) (pn : ℕ → ℝ)
    (h : PostStabLaw bs [] cs v dp l pn) (hc : ∀ c ∈ cs, c.i1 < bs.length ∧ c.i2 < bs.length)
    (hV : ∀ i < bs.length, twist V i = F.vel (twist v i))
    (hD : ∀ i < bs.length, twist DP i = F.force (twist dp i)) :
    PostStabLaw (bs.map (F.body t)) [] (cs.map F.contact) V DP l pn := by
  have hD' : ∀ i < bs.length, twist DP i = (Frame.still F).vel (twist dp i) := by
    intro i hi
    rw [hD i hi]
    apply V3.ext <;> simp [Frame.force, Frame.vel, Frame.still]
  have mean : ∀ c ∈ cs, meanRestitution (bs.map (F.body t)) (F.contact c) = meanRestitution bs c := by
    intro c hcm
    obtain ⟨h1, h2⟩ := hc c hcm
    have e1 : (F.contact c).i1 = c.i1 := rfl
    have e2 : (F.contact c).i2 = c.i2 := rfl
    unfold meanRestitution
    rw [e1, e2, (bodyAt_frame_consts F t bs h1).2.2.1, (bodyAt_frame_consts F t bs h2).2.2.1]
  have eb : ∀ U W, momentumPower (bs.map (F.body t)) U W = momentumPower (bs.map ((Frame.still F).body t)) U W := by
    intro U W
    unfold momentumPower
    rw [List.length_map, List.length_map]
    refine Finset.sum_congr rfl fun i hi => ?_
    have hi := Finset.mem_range.1 hi
    rw [bodyAt_frame F t bs hi, bodyAt_frame (Frame.still F) t bs hi]
    rfl
  refine ⟨?_, ?_, ?_, ?_⟩
  · intro U
    have d := h.dynamics (unturn F U)
    have eu : unturn (Frame.still F) U = unturn F U := rfl
    rw [eb, momentum_seen (Frame.still F) t bs hD', contactPower_seen F cs hc, eu, d]
    have z1 : jointPower [] l (unturn F U) = 0 := by simp [jointPower, jointVels]
    have z2 : jointPower [] l U = 0 := by simp [jointPower, jointVels]
    rw [z1, z2]
    simp [Frame.still]
  · intro r hr; simp [jointVels] at hr
  · intro i hi
    rw [List.length_map] at hi
    exact h.nonneg i hi
  · intro i hi
    rw [List.length_map] at hi
    obtain ⟨h1, h2⟩ := hc _ (List.getElem_mem hi)
    have en : normalVel (F.contact cs[i]) DP = normalVel cs[i] dp := normalVel_seen (F := Frame.still F) hD' h1 h2
    rw [List.getElem_map, en, normalVel_seen hV h1 h2, mean _ (List.getElem_mem hi)]
    exact h.contacts i hi

/-! ## Runs -/

variable {φ : Type}

/-- Seen from the frame, with the bodies where they are seen at time `s`. -/
structure SeenAt (F : Frame) (s : ℝ) (w w' : World (Option Mat) φ) : Prop where
  t : w'.t = w.t
  dt : w'.dt = w.dt
  eps : w'.eps = w.eps
  tol : w'.tol = w.tol
  post_stab : w'.post_stab = w.post_stab
  strict : w'.strict_no_pen = w.strict_no_pen
  bodies : w'.bodies = w.bodies.map (F.body s)
  joints : w.joints = [] ∧ w'.joints = []
  contacts : w'.contacts = w.contacts.map F.contact
  v : ∀ i < w.bodies.length, twist w'.v i = F.vel (twist w.v i)
  fnd : w'.fnd = w.fnd

theorem slice3_twist (v : Vec) (i : ℕ) : slice3 v i = twist v i := by
  unfold slice3 twist
  rw [mul_comm i 3]

/-- New velocities, possibly as seen by another frame `G` that puts the bodies at the same places. -/
theorem seenAt_set_v {F G : Frame} {s r : ℝ} {w w' : World (Option Mat) φ} (h : SeenAt G r w w') (e e' : Option Mat)
    {v v' : Vec} (ht : F.turn = G.turn) (hp : ∀ x, F.point s x = G.point r x)
    (hv : ∀ i < w.bodies.length, twist v' i = F.vel (twist v i)) :
    SeenAt F s (({ w with eng := e } : World (Option Mat) φ).set_v v)
      (({ w' with eng := e' } : World (Option Mat) φ).set_v v') := by
  refine ⟨h.t, h.dt, h.eps, h.tol, h.post_stab, h.strict, ?_, h.joints, ?_, ?_, h.fnd⟩
  · simp only [World.set_v]
    rw [h.bodies]
    apply List.ext_getElem
    · simp
    · intro n h1 h2
      simp only [List.length_map, List.length_zipIdx] at h1
      simp only [List.getElem_map, List.getElem_zipIdx, Nat.zero_add, slice3_twist]
      rw [hv n h1]
      simp only [Frame.body, Frame.pose, Frame.shape, Frame.quat, hp, ht]
  · change w'.contacts = w.contacts.map F.contact
    rw [h.contacts]
    refine List.map_congr_left fun c _ => ?_
    simp only [Frame.contact, ht]
  · intro i hi
    rw [set_v_length] at hi
    exact hv i hi

theorem map_frame_move (F : Frame) (s d : ℝ) (bs : List Body) :
    ((bs.map (F.body s)).map fun b => b.move d) = (bs.map fun b => b.move d).map (F.body (s + d)) := by
  simp only [List.map_map, Function.comp_def, move_frame]

theorem seenAt_accepted {F : Frame} {s : ℝ} {w w' : World (Option Mat) φ} (h : SeenAt F s w w') (d q : ℝ) (f : φ)
    (cs : List Contact) : SeenAt F (s + d) (w.accepted d q f cs) (w'.accepted d q f (cs.map F.contact)) := by
  refine ⟨h.t, h.dt, h.eps, h.tol, h.post_stab, h.strict, ?_, ?_, rfl, ?_, rfl⟩
  · simp only [World.accepted]
    rw [h.bodies, map_frame_move]
  · simp only [World.accepted]
    rw [h.joints.1, h.joints.2]
    exact ⟨rfl, rfl⟩
  · intro i hi
    simp only [World.accepted, List.length_map] at hi
    exact h.v i hi

theorem seenAt_moved {F : Frame} {s : ℝ} {w w' : World (Option Mat) φ} (h : SeenAt F s w w') (d : ℝ) :
    SeenAt F (s + d) ((w.moveBodies d).moveJoints d) ((w'.moveBodies d).moveJoints d) := by
  refine ⟨h.t, h.dt, h.eps, h.tol, h.post_stab, h.strict, ?_, ?_, h.contacts, ?_, h.fnd⟩
  · simp only [World.moveBodies, World.moveJoints]
    rw [h.bodies, map_frame_move]
  · simp only [World.moveBodies, World.moveJoints]
    rw [h.joints.1, h.joints.2]
    exact ⟨rfl, rfl⟩
  · intro i hi
    simp only [World.moveBodies, World.moveJoints, List.length_map] at hi
    exact h.v i hi

/-- A contact search that gives the same contacts as seen from the frame. -/
def SeesContacts (F : Frame) (collide : ℝ → φ → List Body → Except Err (φ × List Contact)) : Prop :=
  ∀ s eps f bs, collide eps f (bs.map (F.body s)) = (collide eps f bs).map fun r => (r.1, r.2.map F.contact)

theorem seen_pen (F : Frame) (cs : List Contact) (tol : ℝ) :
    (∀ c ∈ cs.map F.contact, c.pen ≤ tol) ↔ ∀ c ∈ cs, c.pen ≤ tol := by
  constructor
  · intro h c hc
    exact h (F.contact c) (List.mem_map.2 ⟨c, hc, rfl⟩)
  · intro h c hc
    obtain ⟨c0, hc0, rfl⟩ := List.mem_map.1 hc
    exact h c0 hc0

theorem seen_specLoop {F : Frame} {s : ℝ} {env env' : Env (Option Mat) φ} {w w' : World (Option Mat) φ}
    (hcol : SeesContacts F env.collide) (hsame : env'.collide = env.collide) (hs : SeenAt F s w w') :
    ∀ (fuel : ℕ) (f : φ) (d q : ℝ) (r r'), specLoop env w fuel f d q = .done r →
    specLoop env' w' fuel f d q = .done r' → ∃ (d2 q2 : ℝ) (g : φ) (cs : List Contact),
      r = (w.accepted d2 q2 g cs, d2) ∧ r' = (w'.accepted d2 q2 g (cs.map F.contact), d2) ∧
      ∃ f0, env.collide w.eps f0 (w.bodies.map fun b => b.move d2) = .ok (g, cs)
  | 0, _, _, _, _, _, h, _ => by cases h
  | fuel + 1, f, d, q, r, r', h1, h2 => by
    unfold specLoop at h1 h2
    rw [hsame, hs.eps, hs.bodies, map_frame_move, hcol] at h2
    cases c1 : env.collide w.eps f (w.bodies.map fun b => b.move d) with
    | error e => rw [c1] at h1; cases h1
    | ok x =>
      obtain ⟨g, cs⟩ := x
      rw [c1] at h1 h2
      simp only [ok_map] at h1 h2
      have hacc : w'.accepts d (cs.map F.contact) ↔ w.accepts d cs := by
        unfold World.accepts
        rw [hs.tol, hs.strict, hs.dt, seen_pen]
      by_cases ha : w.accepts d cs
      · rw [if_pos ha] at h1
        rw [if_pos (hacc.2 ha)] at h2
        injection h1 with h1
        injection h2 with h2
        exact ⟨d, q, g, cs, h1.symm, h2.symm, f, c1⟩
      · rw [if_neg ha] at h1
        rw [if_neg fun hh => ha (hacc.1 hh)] at h2
        exact seen_specLoop hcol hsame hs fuel g (d / 2) (q + d) r r' h1 h2

/-- The invariant of the pair of runs. -/
structure SeenRun (F : Frame) (w w' : World (Option Mat) φ) : Prop where
  seen : SeenAt F w.t w w'
  inv : EngineInv w
  inv' : EngineInv w'
  pos : ∀ b ∈ w.bodies, 0 < b.mass ∧ 0 < b.ang_inertia
  slick : ∀ b ∈ w.bodies, b.fric_coeff = 0

theorem frame_vec_eq {n : ℕ} {V W : Vec} (h : ∀ k < 3 * n, W k = V k) : ∀ i < n, twist W i = twist V i :=
  fun _ hi => twist_congr h hi

theorem seen_solve {F : Frame} {H H' : ForceHeap} {lcp lcp' : LcpSolver} {mi mi' : ℕ} (hx : Exact lcp)
    (hx' : Exact lcp') {w w' : World (Option Mat) φ} (h : SeenRun F w w')
    (hH : ∀ t fl fl', forceCat H t w.bodies.length = .ok fl → forceCat H' t w.bodies.length = .ok fl' →
      fl' = fl.map F.force)
    {dt : ℝ} {e e' : Option Mat} {v v' : Vec} (h1 : pdipmSolve 2 H lcp mi w dt = .ok (e, v))
    (h2 : pdipmSolve 2 H' lcp' mi' w' dt = .ok (e', v')) :
    ∀ i < w.bodies.length, twist v' i = F.vel (twist v i) := by
  obtain ⟨fl, l, pn, a, b, g, hf, law⟩ := C38_engine_contact_law H lcp mi w dt e v h.inv.joints h.inv.contacts
    h.inv.cache.ok hx h1
  obtain ⟨fl', l', pn', a', b', g', hf', law'⟩ := C38_engine_contact_law H' lcp' mi' w' dt e' v' h.inv'.joints
    h.inv'.contacts h.inv'.cache.ok hx' h2
  have sn := h.seen
  have hlen : w'.bodies.length = w.bodies.length := by rw [sn.bodies, List.length_map]
  rw [sn.t, hlen] at hf'
  have hfl := hH _ _ _ hf hf'
  have hci : ∀ c ∈ w.contacts, c.i1 < w.bodies.length ∧ c.i2 < w.bodies.length :=
    fun c hc => ⟨(h.inv.contacts c hc).1, (h.inv.contacts c hc).2.1⟩
  rw [sn.joints.1] at law
  rw [sn.joints.2] at law'
  set V' : Vec := stack fun i => F.vel (twist v i) with hV'
  have hVV : ∀ i < w.bodies.length, twist V' i = F.vel (twist v i) := fun i _ => twist_stack _ i
  have law2 := C85_law_seen F w.t w.bodies w.contacts _ w.v v w'.v V' l pn a b g law hci sn.v hVV
  rw [sn.contacts, sn.bodies] at law'
  have slick : ∀ b ∈ w.bodies.map (F.body w.t), b.fric_coeff = 0 := by
    intro b hb
    obtain ⟨b0, hb0, rfl⟩ := List.mem_map.1 hb
    exact h.slick b0 hb0
  have mu : ∀ c ∈ w.contacts.map F.contact, meanFriction (w.bodies.map (F.body w.t)) c = 0 := by
    intro c hc
    obtain ⟨c0, hc0, rfl⟩ := List.mem_map.1 hc
    obtain ⟨q1, q2⟩ := hci c0 hc0
    have z1 := slick _ (bodyAt_mem' (bs := w.bodies.map (F.body w.t)) (by rw [List.length_map]; exact q1))
    have z2 := slick _ (bodyAt_mem' (bs := w.bodies.map (F.body w.t)) (by rw [List.length_map]; exact q2))
    have e1 : (F.contact c0).i1 = c0.i1 := rfl
    have e2 : (F.contact c0).i2 = c0.i2 := rfl
    unfold meanFriction
    rw [e1, e2, z1, z2]
    norm_num
  have same := C82_same_impact 1 one_pos (w.bodies.map (F.body w.t)) (w.bodies.map (F.body w.t)) [] []
    (w.contacts.map F.contact) (w.contacts.map F.contact) _ _ w'.v V' w'.v v' l l' pn a b g pn' a' b' g' law2 law' rfl
    (fun i _ => ⟨by ring, by ring, rfl⟩) (by
      intro i hi
      rw [List.length_map] at hi
      obtain ⟨m1, m2, -, -⟩ := bodyAt_frame_consts F w.t w.bodies hi
      rw [m1, m2]
      exact h.pos _ (bodyAt_mem' hi)) (by
      intro i hi
      subst hfl
      unfold impulse
      simp only [List.getD_eq_getElem?_getD, List.getElem?_map]
      cases fl[i]? with
      | none => apply V3.ext <;> simp [Frame.force, V3.xy, rot]
      | some x => apply V3.ext <;> simp [Frame.force, V3.xy, rot] <;> ring) (fun _ _ => rfl) (fun _ => Iff.rfl)
    (sameContacts_refl _) (by
      intro c hc
      obtain ⟨c0, hc0, rfl⟩ := List.mem_map.1 hc
      rw [List.length_map]
      exact hci c0 hc0) mu mu
  rw [List.length_map] at same
  intro i hi
  rw [twist_congr same hi, hVV i hi]

theorem seen_postStab {F : Frame} {s : ℝ} {lcp lcp' : LcpSolver} (hx : Exact lcp) (hx' : Exact lcp')
    {w w' : World (Option Mat) φ} (sn : SeenAt F s w w') (hj : JointsOk w) (hc : ContactsOk w) (hcc : CacheInv w)
    (hj' : JointsOk w') (hc' : ContactsOk w') (hcc' : CacheInv w')
    (pos : ∀ b ∈ w.bodies, 0 < b.mass ∧ 0 < b.ang_inertia)
    {dp dp' : Vec} (h1 : pdipmPostStab lcp w = .ok dp) (h2 : pdipmPostStab lcp' w' = .ok dp') :
    ∀ i < w.bodies.length, twist dp' i = F.force (twist dp i) := by
  obtain ⟨l, pn, law⟩ := C62_post_stab_law lcp w dp hj hc hcc.ok hx h1
  obtain ⟨l', pn', law'⟩ := C62_post_stab_law lcp' w' dp' hj' hc' hcc'.ok hx' h2
  have hci : ∀ c ∈ w.contacts, c.i1 < w.bodies.length ∧ c.i2 < w.bodies.length :=
    fun c hcm => ⟨(hc c hcm).1, (hc c hcm).2.1⟩
  rw [sn.joints.1] at law
  rw [sn.joints.2] at law'
  set D : Vec := stack fun i => F.force (twist dp i) with hD
  have hDD : ∀ i < w.bodies.length, twist D i = F.force (twist dp i) := fun i _ => twist_stack _ i
  have law2 := C85_post_law_seen F s w.bodies w.contacts w.v dp w'.v D l pn law hci sn.v hDD
  rw [sn.contacts, sn.bodies] at law'
  have same := C82_same_correction 1 one_pos (w.bodies.map (F.body s)) (w.bodies.map (F.body s)) [] []
    (w.contacts.map F.contact) (w.contacts.map F.contact) w'.v w'.v D dp' l l' pn pn' law2 law' rfl
    (fun i _ => ⟨by ring, by ring, rfl⟩) (by
      intro i hi
      rw [List.length_map] at hi
      obtain ⟨m1, m2, -, -⟩ := bodyAt_frame_consts F s w.bodies hi
      rw [m1, m2]
      exact pos _ (bodyAt_mem' hi)) (fun _ _ => rfl) (fun _ => Iff.rfl) (by simp) (sameContacts_refl _) (by
      intro c hc
      obtain ⟨c0, hc0, rfl⟩ := List.mem_map.1 hc
      rw [List.length_map]
      exact hci c0 hc0)
  rw [List.length_map] at same
  intro i hi
  rw [twist_congr same hi, hDD i hi]

/-- The frame at a fixed instant. -/
def Frame.frozen (F : Frame) (s : ℝ) : Frame := ⟨F.turn, F.shift + s • F.boost, 0⟩

theorem frozen_point (F : Frame) (s r : ℝ) (x : V2) : (Frame.frozen F s).point r x = F.point s x := by
  unfold Frame.frozen Frame.point
  simp only [smul_zero, add_zero]
  abel

theorem half_twist (dp : Vec) (i : ℕ) : twist (fun k => dp k / 2) i = (1 / 2 : ℝ) • twist dp i := by
  apply V3.ext <;> simp [twist] <;> ring

theorem seen_postBlock {F : Frame} {s : ℝ} {H H' : ForceHeap} {lcp lcp' : LcpSolver} {mi mi' : ℕ} (hx : Exact lcp)
    (hx' : Exact lcp') {collide : ℝ → φ → List Body → Except Err (φ × List Contact)} (hcol : SeesContacts F collide)
    {w w' : World (Option Mat) φ} (sn : SeenAt F s w w') (hj : JointsOk w) (hc : ContactsOk w) (hcc : CacheInv w)
    (hj' : JointsOk w') (hc' : ContactsOk w') (hcc' : CacheInv w')
    (pos : ∀ b ∈ w.bodies, 0 < b.mass ∧ 0 < b.ang_inertia) {d : ℝ} {u u' : World (Option Mat) φ}
    (h1 : postStab (pdipmEnv 2 H lcp mi collide) w d = .done u)
    (h2 : postStab (pdipmEnv 2 H' lcp' mi' collide) w' d = .done u') : SeenAt F s u u' := by
  unfold postStab at h1 h2
  simp only at h1 h2
  rw [Run.bind_eq_done] at h1 h2
  obtain ⟨dp, p1, h1⟩ := h1
  obtain ⟨dp', p2, h2⟩ := h2
  have p1 : pdipmPostStab lcp w = .ok dp := by
    change Run.ofExcept (pdipmPostStab lcp _) = _ at p1
    cases hq : pdipmPostStab lcp w with
    | error z => rw [hq] at p1; cases p1
    | ok z => rw [hq] at p1; injection p1 with p1; rw [p1]
  have p2 : pdipmPostStab lcp' w' = .ok dp' := by
    change Run.ofExcept (pdipmPostStab lcp' _) = _ at p2
    cases hq : pdipmPostStab lcp' w' with
    | error z => rw [hq] at p2; cases p2
    | ok z => rw [hq] at p2; injection p2 with p2; rw [p2]
  have hdp := seen_postStab hx hx' sn hj hc hcc hj' hc' hcc' pos p1 p2
  have s3 : SeenAt (Frame.frozen F s) 0 (w.set_v fun k => dp k / 2) (w'.set_v fun k => dp' k / 2) :=
    seenAt_set_v sn w.eng w'.eng rfl (fun x => frozen_point F s 0 x) (by
      intro i hi
      rw [half_twist, half_twist, hdp i hi]
      apply V3.ext <;> simp [Frame.force, Frame.vel, Frame.frozen, V3.xy, rot] <;> ring)
  have s4 := seenAt_moved s3 d
  have s5 : SeenAt F s ((((w.set_v fun k => dp k / 2).moveBodies d).moveJoints d).set_v w.v)
      ((((w'.set_v fun k => dp' k / 2).moveBodies d).moveJoints d).set_v w'.v) :=
    seenAt_set_v s4 w.eng w'.eng rfl (fun x => (frozen_point F s _ x).symm) (by
      intro i hi
      simp only [World.moveBodies, World.moveJoints, List.length_map, set_v_length] at hi
      exact sn.v i hi)
  generalize (((w.set_v fun k => dp k / 2).moveBodies d).moveJoints d).set_v w.v = z at *
  generalize (((w'.set_v fun k => dp' k / 2).moveBodies d).moveJoints d).set_v w'.v = z' at *
  unfold World.find_contacts at h1 h2
  change (match collide z.eps z.fnd z.bodies with
    | .error e => .raised e
    | .ok (f, cs) => .done { z with contacts := cs, fnd := f } : Run (World (Option Mat) φ)) = _ at h1
  change (match collide z'.eps z'.fnd z'.bodies with
    | .error e => .raised e
    | .ok (f, cs) => .done { z' with contacts := cs, fnd := f } : Run (World (Option Mat) φ)) = _ at h2
  have k2 : collide z'.eps z'.fnd z'.bodies = (collide z.eps z.fnd z.bodies).map fun r => (r.1, r.2.map F.contact) := by
    rw [s5.eps, s5.fnd, s5.bodies, hcol]
  rw [k2] at h2
  cases c1 : collide z.eps z.fnd z.bodies with
  | error er => rw [c1] at h1; cases h1
  | ok o =>
    rw [c1] at h1 h2
    simp only [ok_map] at h1 h2
    injection h1 with h1
    injection h2 with h2
    subst h1 h2
    exact ⟨s5.t, s5.dt, s5.eps, s5.tol, s5.post_stab, s5.strict, s5.bodies, s5.joints, rfl, s5.v, rfl⟩

theorem seen_step {F : Frame} {H H' : ForceHeap} {lcp lcp' : LcpSolver} {mi mi' : ℕ} (hx : Exact lcp)
    (hx' : Exact lcp') {collide : ℝ → φ → List Body → Except Err (φ × List Contact)} (hfo : FinderOk collide)
    (hcol : SeesContacts F collide) {w w' : World (Option Mat) φ} (h : SeenRun F w w')
    (hH : ∀ t fl fl', forceCat H t w.bodies.length = .ok fl → forceCat H' t w.bodies.length = .ok fl' →
      fl' = fl.map F.force)
    {fuel : ℕ} {dt : ℝ} {u u' : World (Option Mat) φ}
    (h1 : w.step_dt (pdipmEnv 2 H lcp mi collide) fuel dt = .done u)
    (h2 : w'.step_dt (pdipmEnv 2 H' lcp' mi' collide) fuel dt = .done u') : SeenRun F u u' := by
  have i1 := step_inv hfo h.inv h1
  have i2 := step_inv hfo h.inv' h2
  have hst := step_dt_statics h.inv.good h1
  have core : SeenAt F u.t u u' := by
    rw [step_dt_eq _ fuel w h.inv.good dt, Run.bind_eq_done] at h1
    rw [step_dt_eq _ fuel w' h.inv'.good dt, Run.bind_eq_done] at h2
    obtain ⟨⟨e, v⟩, s1, h1⟩ := h1
    obtain ⟨⟨e', v'⟩, s2, h2⟩ := h2
    have s1 : pdipmSolve 2 H lcp mi w dt = .ok (e, v) := by
      change Run.ofExcept (pdipmSolve 2 H lcp mi w dt) = _ at s1
      cases hq : pdipmSolve 2 H lcp mi w dt with
      | error x => rw [hq] at s1; cases s1
      | ok x => rw [hq] at s1; injection s1 with s1; rw [s1]
    have s2 : pdipmSolve 2 H' lcp' mi' w' dt = .ok (e', v') := by
      change Run.ofExcept (pdipmSolve 2 H' lcp' mi' w' dt) = _ at s2
      cases hq : pdipmSolve 2 H' lcp' mi' w' dt with
      | error x => rw [hq] at s2; cases s2
      | ok x => rw [hq] at s2; injection s2 with s2; rw [s2]
    have hv := seen_solve hx hx' h hH s1 s2
    have sn1 : SeenAt F w.t (({ w with eng := e } : World (Option Mat) φ).set_v v)
        (({ w' with eng := e' } : World (Option Mat) φ).set_v v') :=
      seenAt_set_v h.seen e e' rfl (fun _ => rfl) hv
    simp only at h1 h2
    rw [Run.bind_eq_done] at h1 h2
    obtain ⟨r, l1, h1⟩ := h1
    obtain ⟨r', l2, h2⟩ := h2
    have l2 : specLoop (pdipmEnv 2 H' lcp' mi' collide) (({ w' with eng := e' } : World (Option Mat) φ).set_v v') fuel
        w.fnd dt 0 = .done r' := by
      have := l2
      generalize ({ w' with eng := e' } : World (Option Mat) φ).set_v v' = q at this ⊢
      rw [h.seen.fnd] at this
      exact this
    obtain ⟨d, q, g, cs, rfl, rfl, f0, k1⟩ := seen_specLoop (env := pdipmEnv 2 H lcp mi collide)
      (env' := pdipmEnv 2 H' lcp' mi' collide) hcol rfl sn1 fuel _ _ _ _ _ l1 l2
    have sn2 := seenAt_accepted sn1 d q g cs
    simp only at h1 h2
    set x := ({ w with eng := e } : World (Option Mat) φ).set_v v with hxdef
    set x' := ({ w' with eng := e' } : World (Option Mat) φ).set_v v' with hx'def
    by_cases hp : w.post_stab = true
    · have hp' : w'.post_stab = true := by rw [h.seen.post_stab]; exact hp
      have hpa : (x.accepted d q g cs).post_stab = true := hp
      have hpa' : (x'.accepted d q g (cs.map F.contact)).post_stab = true := hp'
      rw [if_pos hpa, Run.bind_eq_done] at h1
      rw [if_pos hpa', Run.bind_eq_done] at h2
      obtain ⟨y, h1, hy⟩ := h1
      obtain ⟨y', h2, hy'⟩ := h2
      have ss : SameStatics w (x.accepted d q g cs) :=
        (sameStatics_set_v w v e).trans (sameStatics_accepted _ _ _ _ _)
      have ss' : SameStatics w' (x'.accepted d q g (cs.map F.contact)) :=
        (sameStatics_set_v w' v' e').trans (sameStatics_accepted _ _ _ _ _)
      have pos2 : ∀ b ∈ (x.accepted d q g cs).bodies, 0 < b.mass ∧ 0 < b.ang_inertia := by
        intro b hb
        have : b.consts ∈ w.bodies.map Body.consts := ss.1 ▸ List.mem_map.2 ⟨b, hb, rfl⟩
        obtain ⟨b0, hb0, he⟩ := List.mem_map.1 this
        have hq := h.pos b0 hb0
        simp only [Body.consts, Prod.mk.injEq] at he
        rw [← he.1, ← he.2.1]
        exact hq
      have hcs : ContactsOk (x.accepted d q g cs) := fun c hc => hfo _ _ _ _ _ k1 c hc
      have hcs' : ContactsOk (x'.accepted d q g (cs.map F.contact)) := by
        have k2 : collide x.eps f0 (x'.bodies.map fun b => b.move d) = .ok (g, cs.map F.contact) := by
          rw [sn1.bodies, map_frame_move, hcol]
          change collide x.eps f0 (x.bodies.map fun b => b.move d) = .ok (g, cs) at k1
          rw [k1]
          rfl
        exact fun c hc => hfo _ _ _ _ _ k2 c hc
      have ty := seen_postBlock (mi := mi) (mi' := mi') (H := H) (H' := H') hx hx' hcol sn2
        (jointsOk_congr ss h.inv.joints) hcs (solve_cacheInv ss h.inv.cache s1)
        (jointsOk_congr ss' h.inv'.joints) hcs'
        (solve_cacheInv ss' h.inv'.cache s2) pos2 h1 h2
      have yt : y.t = w.t := by
        rw [postStab] at h1
        simp only at h1
        rw [Run.bind_eq_done] at h1
        obtain ⟨dp, -, h1⟩ := h1
        unfold World.find_contacts at h1
        split at h1
        · cases h1
        · injection h1 with h1; rw [← h1]; rfl
      injection hy with hy
      injection hy' with hy'
      subst hy hy'
      have e1 : ({ y with t := y.t + d } : World (Option Mat) φ).t = w.t + d := by rw [← yt]
      rw [e1]
      refine ⟨?_, ty.dt, ty.eps, ty.tol, ty.post_stab, ty.strict, ty.bodies, ty.joints, ty.contacts, ty.v, ty.fnd⟩
      change y'.t + d = y.t + d
      rw [ty.t]
    · have hp' : ¬ w'.post_stab = true := by rw [h.seen.post_stab]; exact hp
      have hpa : ¬ (x.accepted d q g cs).post_stab = true := hp
      have hpa' : ¬ (x'.accepted d q g (cs.map F.contact)).post_stab = true := hp'
      rw [if_neg hpa] at h1
      rw [if_neg hpa'] at h2
      simp only [Run.bind] at h1 h2
      injection h1 with h1
      injection h2 with h2
      subst h1 h2
      refine ⟨?_, sn2.dt, sn2.eps, sn2.tol, sn2.post_stab, sn2.strict, sn2.bodies, sn2.joints, sn2.contacts, sn2.v,
        sn2.fnd⟩
      change w'.t + d = w.t + d
      rw [h.seen.t]
  have hcons : ∀ (Q : ℝ × ℝ × ℝ × ℝ → Prop), (∀ b ∈ w.bodies, Q b.consts) → ∀ b ∈ u.bodies, Q b.consts := by
    intro Q hQ b hb
    have : b.consts ∈ w.bodies.map Body.consts := hst.1 ▸ List.mem_map.2 ⟨b, hb, rfl⟩
    obtain ⟨b0, hb0, he⟩ := List.mem_map.1 this
    rw [← he]
    exact hQ b0 hb0
  exact ⟨core, i1, i2, hcons (fun c => 0 < c.1 ∧ 0 < c.2.1) h.pos, hcons (fun c => c.2.2.2 = 0) h.slick⟩

theorem seen_run {F : Frame} {H H' : ForceHeap} {lcp lcp' : LcpSolver} {mi mi' : ℕ} (hx : Exact lcp)
    (hx' : Exact lcp') {collide : ℝ → φ → List Body → Except Err (φ × List Contact)} (hfo : FinderOk collide)
    (hcol : SeesContacts F collide) {N : ℕ}
    (hH : ∀ t fl fl', forceCat H t N = .ok fl → forceCat H' t N = .ok fl' → fl' = fl.map F.force)
    {fuel : ℕ} {T : ℝ} : ∀ (n : ℕ) {w w' : World (Option Mat) φ},
    w.bodies.length = N → SeenRun F w w' → ∀ {u u' : World (Option Mat) φ},
    runWorld (pdipmEnv 2 H lcp mi collide) fuel T n w = .done u →
    runWorld (pdipmEnv 2 H' lcp' mi' collide) fuel T n w' = .done u' → SeenRun F u u' := by
  intro n
  induction n with
  | zero =>
    intro w w' hN h u u' h1 h2
    unfold runWorld at h1 h2
    by_cases ht : w.t < T
    · rw [if_pos ht] at h1; cases h1
    · rw [if_neg ht] at h1
      rw [if_neg (by rw [h.seen.t]; exact ht)] at h2
      injection h1 with h1
      injection h2 with h2
      subst h1 h2
      exact h
  | succ n ih =>
    intro w w' hN h u u' h1 h2
    unfold runWorld at h1 h2
    by_cases ht : w.t < T
    · rw [if_pos ht] at h1
      rw [if_pos (by rw [h.seen.t]; exact ht)] at h2
      simp only at h1 h2
      rw [Run.bind_eq_done] at h1 h2
      obtain ⟨x, a1, b1⟩ := h1
      obtain ⟨x', a2, b2⟩ := h2
      simp only [World.step, Bool.false_eq_true, if_false] at a1 a2
      rw [h.seen.dt] at a2
      have hx2 := seen_step hx hx' hfo hcol h (by rw [hN]; exact hH) a1 a2
      exact ih ((sameStatics_length (step_dt_statics h.inv.good a1)).trans hN) hx2 b1 b2
    · rw [if_neg ht] at h1
      rw [if_neg (by rw [h.seen.t]; exact ht)] at h2
      injection h1 with h1
      injection h2 with h2
      subst h1 h2
      exact h

theorem forceCat_seen {F : Frame} {H H' : ForceHeap} (t : ℝ) : ∀ (N : ℕ) (fl fl' : List V3),
    (∀ i < N, ∀ t, H'.apply_forces i t = (H.apply_forces i t).map F.force) →
    forceCat H t N = .ok fl → forceCat H' t N = .ok fl' → fl' = fl.map F.force
  | 0, fl, fl', _, h1, h2 => by
    unfold forceCat at h1 h2
    injection h1 with h1
    injection h2 with h2
    subst h1 h2
    rfl
  | N + 1, fl, fl', hobj, h1, h2 => by
    unfold forceCat at h1 h2
    cases c1 : forceCat H t N with
    | error e => rw [c1] at h1; cases h1
    | ok l =>
      cases c2 : forceCat H' t N with
      | error e => rw [c2] at h2; cases h2
      | ok l' =>
        rw [c1] at h1
        rw [c2] at h2
        have ih := forceCat_seen t N l l' (fun i hi => hobj i (by omega)) c1 c2
        rw [hobj N (by omega)] at h2
        cases ha : H.apply_forces N t with
        | none => rw [ha] at h1; cases h1
        | some x =>
          rw [ha] at h1 h2
          simp only [Option.map_some] at h1 h2
          injection h1 with h1
          injection h2 with h2
          subst h1 h2 ih
          simp

theorem rejectNan_sees {F : Frame} (gas : ℕ) (nc : ℕ → List ℕ) (pairs : List Body → List (ℕ × ℕ))
    (hp : ∀ s bs, pairs (bs.map (F.body s)) = pairs bs)
    (hi : ∀ bs, ∀ p ∈ pairs bs, p.1 < bs.length ∧ p.2 < bs.length ∧ p.1 ≠ p.2) :
    SeesContacts F (rejectNan (diffCollide gas nc pairs)) := by
  intro s eps f bs
  unfold rejectNan
  rw [C84_contacts_seen F s gas nc pairs eps f bs (hp s bs) fun p hpm => ⟨(hi bs p hpm).1, (hi bs p hpm).2.1⟩]
  cases diffCollide gas nc pairs eps f bs with
  | error e => rfl
  | ok r =>
    simp only [ok_map]
    have e : (r.2.map F.contact).all (fun c => !c.nan) = r.2.all fun c => !c.nan := by
      rw [List.all_map]; rfl
    rw [e]
    split <;> rfl

/-- C85: Galilean invariance of whole runs. Two worlds that show the same frictionless scene of free bodies (of any
shapes), the second from a turned, shifted and uniformly moving frame, keep showing the same scene: same clock (so
the same step sizes), bodies and contacts as seen from the frame at that time. -/
theorem C85_galilean_run (F : Frame) (H H' : ForceHeap) (lcp lcp' : LcpSolver) (hx : Exact lcp) (hx' : Exact lcp')
    (mi mi' gas : ℕ) (nc : ℕ → List ℕ) (pairs : List Body → List (ℕ × ℕ))
    (hp : ∀ s bs, pairs (bs.map (F.body s)) = pairs bs)
    (hi : ∀ bs, ∀ p ∈ pairs bs, p.1 < bs.length ∧ p.2 < bs.length ∧ p.1 ≠ p.2)
    (w w' : World (Option Mat) Finder) (hw : EngineInv w) (hw' : EngineInv w') (hs : SeenFrom F w w')
    (hf : w'.fnd = w.fnd) (hj : w.joints = [] ∧ w'.joints = [])
    (hpos : ∀ b ∈ w.bodies, 0 < b.mass ∧ 0 < b.ang_inertia) (hmu : ∀ b ∈ w.bodies, b.fric_coeff = 0)
    (hH : ∀ i < w.bodies.length, ∀ t, H'.apply_forces i t = (H.apply_forces i t).map F.force)
    (fuel n : ℕ) (T : ℝ) (u u' : World (Option Mat) Finder)
    (h1 : runWorld (pdipmEnv 2 H lcp mi (rejectNan (diffCollide gas nc pairs))) fuel T n w = .done u)
    (h2 : runWorld (pdipmEnv 2 H' lcp' mi' (rejectNan (diffCollide gas nc pairs))) fuel T n w' = .done u') :
    SeenFrom F u u' := by
  have r := seen_run hx hx' (C12_finder_ok gas nc pairs hi) (rejectNan_sees gas nc pairs hp hi)
    (N := w.bodies.length) (H := H) (H' := H') (fun t fl fl' a b => forceCat_seen t _ fl fl' hH a b) n rfl
    ⟨⟨hs.t, hs.dt, hs.eps, hs.tol, hs.post_stab, hs.strict, hs.bodies, hj, hs.contacts, hs.v, hf⟩, hw, hw', hpos, hmu⟩
    h1 h2
  exact ⟨r.seen.t, r.seen.dt, r.seen.eps, r.seen.tol, r.seen.post_stab, r.seen.strict, r.seen.bodies,
    r.seen.contacts, r.seen.v⟩

/-! ## The moved run returns -/

/-- The exact engine answers the post-stabilization whenever the law has a solution. -/
theorem exact_postStab_returns (w : World (Option Mat) φ) (hj : JointsOk w) (hc : ContactsOk w)
    (hne : w.contacts ≠ []) (dp l : Vec) (pn : ℕ → ℝ)
    (h : PostStabLaw w.bodies w.joints w.contacts w.v dp l pn) : ∃ r, pdipmPostStab exactLcp w = .ok r := by
  set n := 3 * w.bodies.length with hn
  have hr : ∀ (i : ℕ) (hi : i < w.contacts.length),
      w.restitutions i = meanRestitution w.bodies w.contacts[i] := fun i hi => by
    unfold World.restitutions meanRestitution World.body
    rw [List.getElem?_eq_getElem hi]
  let s : Vec := fun i => mv w.Jc n w.v i + mv w.Jc n w.v i * -w.restitutions i - mv w.Jc n (fun k => -dp k) i
  have hs : ∀ (i : ℕ) (hi : i < w.contacts.length), s i = normalVel w.contacts[i] dp +
      (1 - meanRestitution w.bodies w.contacts[i]) * normalVel w.contacts[i] w.v := by
    intro i hi
    show mv w.Jc n w.v i + mv w.Jc n w.v i * -w.restitutions i - mv w.Jc n (fun k => -dp k) i = _
    rw [C33_normal_jacobian w hc _ i hi, C33_normal_jacobian w hc _ i hi, hr i hi, normalVel_neg]
    ring
  have hm : IsMlcp n w.num_constraints w.contacts.length w.M (fun _ => 0) w.Jc
      (fun i => mv w.Jc n w.v i + mv w.Jc n w.v i * -w.restitutions i) w.Je (mv w.Je n w.v) (fun _ _ => 0)
      (fun k => -dp k) s pn l := by
    refine ⟨?_, ?_, ?_, ?_, ?_, ?_⟩
    · intro k hk
      have d := h.dynamics (fun j => if j = k then 1 else 0)
      rw [← sum_mv_M w, ← sum_Je w hj, ← sum_Jc w hc] at d
      have pick : ∀ g : ℕ → ℝ, ∑ j ∈ Finset.range n, (if j = k then (1 : ℝ) else 0) * g j = g k := by
        intro g
        rw [Finset.sum_eq_single k]
        · simp
        · intro j _ hjk; rw [if_neg hjk, zero_mul]
        · intro hq; exact absurd (Finset.mem_range.2 hk) hq
      rw [pick, pick, pick] at d
      rw [mv_neg, d]
      ring
    · intro i _
      have h0 : mv (fun _ _ => (0 : ℝ)) w.contacts.length pn i = 0 := by simp [mv]
      rw [h0]
      show _ + (mv w.Jc n w.v i + mv w.Jc n w.v i * -w.restitutions i - mv w.Jc n (fun k => -dp k) i) = _
      ring
    · intro r hr
      have := (C32_kernel w hj (dp + w.v)).2
        (fun j hj' x hx => h.joints x (List.mem_flatMap.2 ⟨j, hj', hx⟩)) r hr
      rw [mv_add] at this
      rw [mv_neg]; linarith
    · intro i hi; rw [hs i hi]; exact (h.contacts i hi).1
    · intro i hi; exact h.nonneg i hi
    · intro i hi; rw [hs i hi, mul_comm]; exact (h.contacts i hi).2
  unfold pdipmPostStab
  simp only [hne, if_false]
  unfold exactLcp
  rw [dif_pos ⟨_, _, _, _, hm⟩]
  exact ⟨_, rfl⟩

theorem independent_nil {σ : Type} {w : World σ φ} (h : w.joints = []) : Independent w := by
  intro l _ r hr
  simp [World.num_constraints, h] at hr

theorem seen_pos {F : Frame} {s : ℝ} {w w' : World (Option Mat) φ} (sn : SeenAt F s w w')
    (pos : ∀ b ∈ w.bodies, 0 < b.mass ∧ 0 < b.ang_inertia) : ∀ b ∈ w'.bodies, 0 < b.mass ∧ 0 < b.ang_inertia := by
  intro b hb
  rw [sn.bodies] at hb
  obtain ⟨b0, hb0, rfl⟩ := List.mem_map.1 hb
  exact pos b0 hb0

theorem seen_solve_returns {F : Frame} {H H' : ForceHeap} {lcp : LcpSolver} {mi mi' : ℕ} (hx : Exact lcp)
    {w w' : World (Option Mat) φ} (h : SeenRun F w w')
    (hH : ∀ t fl, forceCat H t w.bodies.length = .ok fl → forceCat H' t w.bodies.length = .ok (fl.map F.force))
    {dt : ℝ} {r : Option Mat × Vec} (h1 : pdipmSolve 2 H lcp mi w dt = .ok r) :
    ∃ r', pdipmSolve 2 H' exactLcp mi' w' dt = .ok r' := by
  obtain ⟨e, v⟩ := r
  obtain ⟨fl, l, pn, a, b, g, hf, law⟩ := C38_engine_contact_law H lcp mi w dt e v h.inv.joints h.inv.contacts
    h.inv.cache.ok hx h1
  have sn := h.seen
  have hlen : w'.bodies.length = w.bodies.length := by rw [sn.bodies, List.length_map]
  have hf' : forceCat H' w'.t w'.bodies.length = .ok (fl.map F.force) := by
    rw [sn.t, hlen]; exact hH _ _ hf
  by_cases hne : w'.contacts = []
  · exact C35_no_contact_succeeds 2 H' exactLcp mi' w' dt h.inv'.joints (seen_pos sn h.pos)
      (independent_nil sn.joints.2) hne _ hf'
  · have hci : ∀ c ∈ w.contacts, c.i1 < w.bodies.length ∧ c.i2 < w.bodies.length :=
      fun c hc => ⟨(h.inv.contacts c hc).1, (h.inv.contacts c hc).2.1⟩
    rw [sn.joints.1] at law
    have law2 := C85_law_seen F w.t w.bodies w.contacts _ w.v v w'.v (stack fun i => F.vel (twist v i)) l pn a b g law
      hci sn.v (fun i _ => twist_stack _ i)
    refine (C74_exact_engine_returns H' mi' w' dt h.inv'.joints h.inv'.contacts hne _ hf'
      (stack fun i => F.vel (twist v i)) l pn a b g ?_).2
    rw [sn.joints.2, sn.bodies, sn.contacts]
    have ef : impulse (fl.map F.force) dt = fun i => F.force (impulse fl dt i) := by
      funext i
      unfold impulse
      simp only [List.getD_eq_getElem?_getD, List.getElem?_map]
      cases fl[i]? with
      | none => apply V3.ext <;> simp [Frame.force, V3.xy, rot]
      | some x => apply V3.ext <;> simp [Frame.force, V3.xy, rot] <;> ring
    rw [ef]
    exact law2

theorem seen_postStab_returns {F : Frame} {s : ℝ} {lcp : LcpSolver} (hx : Exact lcp)
    {w w' : World (Option Mat) φ} (sn : SeenAt F s w w') (hj : JointsOk w) (hc : ContactsOk w) (hcc : CacheInv w)
    (hj' : JointsOk w') (hc' : ContactsOk w')
    (pos : ∀ b ∈ w.bodies, 0 < b.mass ∧ 0 < b.ang_inertia)
    {dp : Vec} (h1 : pdipmPostStab lcp w = .ok dp) : ∃ dp', pdipmPostStab exactLcp w' = .ok dp' := by
  by_cases hne : w'.contacts = []
  · unfold pdipmPostStab
    simp only [hne, if_true]
    cases w'.eng with
    | some inv => exact ⟨_, rfl⟩
    | none =>
      obtain ⟨inv, hi⟩ := system_invertible w' hj' (seen_pos sn pos) (independent_nil sn.joints.2)
      simp only [hi]
      exact ⟨_, rfl⟩
  · obtain ⟨l, pn, law⟩ := C62_post_stab_law lcp w dp hj hc hcc.ok hx h1
    have hci : ∀ c ∈ w.contacts, c.i1 < w.bodies.length ∧ c.i2 < w.bodies.length :=
      fun c hcm => ⟨(hc c hcm).1, (hc c hcm).2.1⟩
    rw [sn.joints.1] at law
    have law2 := C85_post_law_seen F s w.bodies w.contacts w.v dp w'.v (stack fun i => F.force (twist dp i)) l pn law
      hci sn.v (fun i _ => twist_stack _ i)
    refine exact_postStab_returns w' hj' hc' hne (stack fun i => F.force (twist dp i)) l pn ?_
    rw [sn.joints.2, sn.bodies, sn.contacts]
    exact law2

theorem seen_specLoop_returns {F : Frame} {s : ℝ} {env env' : Env (Option Mat) φ} {w w' : World (Option Mat) φ}
    (hcol : SeesContacts F env.collide) (hsame : env'.collide = env.collide) (hs : SeenAt F s w w') :
    ∀ (fuel : ℕ) (f : φ) (d q : ℝ) (r), specLoop env w fuel f d q = .done r →
    ∃ r', specLoop env' w' fuel f d q = .done r'
  | 0, _, _, _, _, h => by cases h
  | fuel + 1, f, d, q, r, h1 => by
    unfold specLoop at h1 ⊢
    rw [hsame, hs.eps, hs.bodies, map_frame_move, hcol]
    cases c1 : env.collide w.eps f (w.bodies.map fun b => b.move d) with
    | error e => rw [c1] at h1; cases h1
    | ok x =>
      obtain ⟨g, cs⟩ := x
      rw [c1] at h1
      simp only [ok_map] at h1 ⊢
      have hacc : w'.accepts d (cs.map F.contact) ↔ w.accepts d cs := by
        unfold World.accepts
        rw [hs.tol, hs.strict, hs.dt, seen_pen]
      by_cases ha : w.accepts d cs
      · rw [if_pos (hacc.2 ha)]
        exact ⟨_, rfl⟩
      · rw [if_neg ha] at h1
        rw [if_neg fun hh => ha (hacc.1 hh)]
        exact seen_specLoop_returns hcol hsame hs fuel g (d / 2) (q + d) r h1

theorem seen_postBlock_returns {F : Frame} {s : ℝ} {H H' : ForceHeap} {lcp : LcpSolver} {mi mi' : ℕ} (hx : Exact lcp)
    {collide : ℝ → φ → List Body → Except Err (φ × List Contact)} (hcol : SeesContacts F collide)
    {w w' : World (Option Mat) φ} (sn : SeenAt F s w w') (hj : JointsOk w) (hc : ContactsOk w) (hcc : CacheInv w)
    (hj' : JointsOk w') (hc' : ContactsOk w') (hcc' : CacheInv w')
    (pos : ∀ b ∈ w.bodies, 0 < b.mass ∧ 0 < b.ang_inertia) {d : ℝ} {u : World (Option Mat) φ}
    (h1 : postStab (pdipmEnv 2 H lcp mi collide) w d = .done u) :
    ∃ u', postStab (pdipmEnv 2 H' exactLcp mi' collide) w' d = .done u' := by
  unfold postStab at h1 ⊢
  simp only at h1 ⊢
  rw [Run.bind_eq_done] at h1
  obtain ⟨dp, p1, h1⟩ := h1
  have p1 : pdipmPostStab lcp w = .ok dp := by
    change Run.ofExcept (pdipmPostStab lcp _) = _ at p1
    cases hq : pdipmPostStab lcp w with
    | error z => rw [hq] at p1; cases p1
    | ok z => rw [hq] at p1; injection p1 with p1; rw [p1]
  obtain ⟨dp', p2⟩ := seen_postStab_returns hx sn hj hc hcc hj' hc' pos p1
  have p3 : Run.ofExcept ((pdipmEnv 2 H' exactLcp mi' collide).post_stabilization w') = .done dp' := by
    change Run.ofExcept (pdipmPostStab exactLcp w') = _
    rw [p2]; rfl
  rw [p3, Run.bind_done]
  have hdp := seen_postStab hx exactLcp_exact sn hj hc hcc hj' hc' hcc' pos p1 p2
  have s3 : SeenAt (Frame.frozen F s) 0 (w.set_v fun k => dp k / 2) (w'.set_v fun k => dp' k / 2) :=
    seenAt_set_v sn w.eng w'.eng rfl (fun x => frozen_point F s 0 x) (by
      intro i hi
      rw [half_twist, half_twist, hdp i hi]
      apply V3.ext <;> simp [Frame.force, Frame.vel, Frame.frozen, V3.xy, rot] <;> ring)
  have s4 := seenAt_moved s3 d
  have s5 : SeenAt F s ((((w.set_v fun k => dp k / 2).moveBodies d).moveJoints d).set_v w.v)
      ((((w'.set_v fun k => dp' k / 2).moveBodies d).moveJoints d).set_v w'.v) :=
    seenAt_set_v s4 w.eng w'.eng rfl (fun x => (frozen_point F s _ x).symm) (by
      intro i hi
      simp only [World.moveBodies, World.moveJoints, List.length_map, set_v_length] at hi
      exact sn.v i hi)
  generalize (((w.set_v fun k => dp k / 2).moveBodies d).moveJoints d).set_v w.v = z at *
  generalize (((w'.set_v fun k => dp' k / 2).moveBodies d).moveJoints d).set_v w'.v = z' at *
  unfold World.find_contacts at h1 ⊢
  change (match collide z.eps z.fnd z.bodies with
    | .error e => .raised e
    | .ok (f, cs) => .done { z with contacts := cs, fnd := f } : Run (World (Option Mat) φ)) = _ at h1
  change ∃ u', (match collide z'.eps z'.fnd z'.bodies with
    | .error e => .raised e
    | .ok (f, cs) => .done { z' with contacts := cs, fnd := f } : Run (World (Option Mat) φ)) = _
  have k2 : collide z'.eps z'.fnd z'.bodies = (collide z.eps z.fnd z.bodies).map fun r => (r.1, r.2.map F.contact) := by
    rw [s5.eps, s5.fnd, s5.bodies, hcol]
  rw [k2]
  cases c1 : collide z.eps z.fnd z.bodies with
  | error er => rw [c1] at h1; cases h1
  | ok o => exact ⟨_, rfl⟩

theorem seen_step_returns {F : Frame} {H H' : ForceHeap} {lcp : LcpSolver} {mi mi' : ℕ} (hx : Exact lcp)
    {collide : ℝ → φ → List Body → Except Err (φ × List Contact)} (hfo : FinderOk collide)
    (hcol : SeesContacts F collide) {w w' : World (Option Mat) φ} (h : SeenRun F w w')
    (hH : ∀ t fl, forceCat H t w.bodies.length = .ok fl → forceCat H' t w.bodies.length = .ok (fl.map F.force))
    {fuel : ℕ} {dt : ℝ} {u : World (Option Mat) φ}
    (h1 : w.step_dt (pdipmEnv 2 H lcp mi collide) fuel dt = .done u) :
    ∃ u', w'.step_dt (pdipmEnv 2 H' exactLcp mi' collide) fuel dt = .done u' := by
  have hH2 : ∀ t fl fl', forceCat H t w.bodies.length = .ok fl → forceCat H' t w.bodies.length = .ok fl' →
      fl' = fl.map F.force := by
    intro t fl fl' a b
    have := hH t fl a
    rw [b] at this
    injection this
  rw [step_dt_eq _ fuel w h.inv.good dt, Run.bind_eq_done] at h1
  rw [step_dt_eq _ fuel w' h.inv'.good dt]
  obtain ⟨⟨e, v⟩, s1, h1⟩ := h1
  have s1 : pdipmSolve 2 H lcp mi w dt = .ok (e, v) := by
    change Run.ofExcept (pdipmSolve 2 H lcp mi w dt) = _ at s1
    cases hq : pdipmSolve 2 H lcp mi w dt with
    | error x => rw [hq] at s1; cases s1
    | ok x => rw [hq] at s1; injection s1 with s1; rw [s1]
  obtain ⟨⟨e', v'⟩, s2⟩ := seen_solve_returns (mi' := mi') hx h hH s1
  have s3 : Run.ofExcept ((pdipmEnv 2 H' exactLcp mi' collide).solve_dynamics w' dt) = .done (e', v') := by
    change Run.ofExcept (pdipmSolve 2 H' exactLcp mi' w' dt) = _
    rw [s2]; rfl
  rw [s3, Run.bind_done]
  have hv := seen_solve hx exactLcp_exact h hH2 s1 s2
  have sn1 : SeenAt F w.t (({ w with eng := e } : World (Option Mat) φ).set_v v)
      (({ w' with eng := e' } : World (Option Mat) φ).set_v v') :=
    seenAt_set_v h.seen e e' rfl (fun _ => rfl) hv
  simp only at h1 ⊢
  rw [Run.bind_eq_done] at h1
  obtain ⟨r, l1, h1⟩ := h1
  obtain ⟨r', l2'⟩ := seen_specLoop_returns (env := pdipmEnv 2 H lcp mi collide)
    (env' := pdipmEnv 2 H' exactLcp mi' collide) hcol rfl sn1 fuel _ _ _ _ l1
  have l2 : specLoop (pdipmEnv 2 H' exactLcp mi' collide) (({ w' with eng := e' } : World (Option Mat) φ).set_v v') fuel
      w'.fnd dt 0 = .done r' := by
    have := l2'
    generalize ({ w' with eng := e' } : World (Option Mat) φ).set_v v' = q at this ⊢
    rw [h.seen.fnd]
    exact this
  obtain ⟨d, q, g, cs, rfl, rfl, f0, k1⟩ := seen_specLoop (env := pdipmEnv 2 H lcp mi collide)
    (env' := pdipmEnv 2 H' exactLcp mi' collide) hcol rfl sn1 fuel _ _ _ _ _ l1 l2'
  rw [l2, Run.bind_done]
  have sn2 := seenAt_accepted sn1 d q g cs
  simp only at h1 ⊢
  set x := ({ w with eng := e } : World (Option Mat) φ).set_v v with hxdef
  set x' := ({ w' with eng := e' } : World (Option Mat) φ).set_v v' with hx'def
  by_cases hp : w.post_stab = true
  · have hp' : w'.post_stab = true := by rw [h.seen.post_stab]; exact hp
    have hpa : (x.accepted d q g cs).post_stab = true := hp
    have hpa' : (x'.accepted d q g (cs.map F.contact)).post_stab = true := hp'
    rw [if_pos hpa, Run.bind_eq_done] at h1
    rw [if_pos hpa']
    obtain ⟨y, h1, hy⟩ := h1
    have ss : SameStatics w (x.accepted d q g cs) :=
      (sameStatics_set_v w v e).trans (sameStatics_accepted _ _ _ _ _)
    have ss' : SameStatics w' (x'.accepted d q g (cs.map F.contact)) :=
      (sameStatics_set_v w' v' e').trans (sameStatics_accepted _ _ _ _ _)
    have pos2 : ∀ b ∈ (x.accepted d q g cs).bodies, 0 < b.mass ∧ 0 < b.ang_inertia := by
      intro b hb
      have : b.consts ∈ w.bodies.map Body.consts := ss.1 ▸ List.mem_map.2 ⟨b, hb, rfl⟩
      obtain ⟨b0, hb0, he⟩ := List.mem_map.1 this
      have hq := h.pos b0 hb0
      simp only [Body.consts, Prod.mk.injEq] at he
      rw [← he.1, ← he.2.1]
      exact hq
    have hcs : ContactsOk (x.accepted d q g cs) := fun c hc => hfo _ _ _ _ _ k1 c hc
    have hcs' : ContactsOk (x'.accepted d q g (cs.map F.contact)) := by
      have k2 : collide x.eps f0 (x'.bodies.map fun b => b.move d) = .ok (g, cs.map F.contact) := by
        rw [sn1.bodies, map_frame_move, hcol]
        change collide x.eps f0 (x.bodies.map fun b => b.move d) = .ok (g, cs) at k1
        rw [k1]
        rfl
      exact fun c hc => hfo _ _ _ _ _ k2 c hc
    obtain ⟨y', hy2⟩ := seen_postBlock_returns (mi := mi) (mi' := mi') (H := H) (H' := H') hx hcol sn2
      (jointsOk_congr ss h.inv.joints) hcs (solve_cacheInv ss h.inv.cache s1)
      (jointsOk_congr ss' h.inv'.joints) hcs'
      (solve_cacheInv ss' h.inv'.cache s2) pos2 h1
    rw [hy2, Run.bind_done]
    exact ⟨_, rfl⟩
  · have hp' : ¬ w'.post_stab = true := by rw [h.seen.post_stab]; exact hp
    have hpa' : ¬ (x'.accepted d q g (cs.map F.contact)).post_stab = true := hp'
    rw [if_neg hpa']
    exact ⟨_, rfl⟩

theorem seen_run_returns {F : Frame} {H H' : ForceHeap} {lcp : LcpSolver} {mi mi' : ℕ} (hx : Exact lcp)
    {collide : ℝ → φ → List Body → Except Err (φ × List Contact)} (hfo : FinderOk collide)
    (hcol : SeesContacts F collide) {N : ℕ}
    (hH : ∀ t fl, forceCat H t N = .ok fl → forceCat H' t N = .ok (fl.map F.force))
    {fuel : ℕ} {T : ℝ} : ∀ (n : ℕ) {w w' : World (Option Mat) φ},
    w.bodies.length = N → SeenRun F w w' → ∀ {u : World (Option Mat) φ},
    runWorld (pdipmEnv 2 H lcp mi collide) fuel T n w = .done u →
    ∃ u', runWorld (pdipmEnv 2 H' exactLcp mi' collide) fuel T n w' = .done u' := by
  intro n
  induction n with
  | zero =>
    intro w w' hN h u h1
    unfold runWorld at h1 ⊢
    by_cases ht : w.t < T
    · rw [if_pos ht] at h1; cases h1
    · rw [if_neg (by rw [h.seen.t]; exact ht)]
      exact ⟨_, rfl⟩
  | succ n ih =>
    intro w w' hN h u h1
    unfold runWorld at h1 ⊢
    by_cases ht : w.t < T
    · rw [if_pos ht] at h1
      rw [if_pos (by rw [h.seen.t]; exact ht)]
      simp only at h1 ⊢
      rw [Run.bind_eq_done] at h1
      obtain ⟨x, a1, b1⟩ := h1
      simp only [World.step, Bool.false_eq_true, if_false] at a1 ⊢
      rw [h.seen.dt]
      obtain ⟨x', a2⟩ := seen_step_returns (mi' := mi') (H' := H') hx hfo hcol h (by rw [hN]; exact hH) a1
      rw [a2, Run.bind_done]
      have hx2 := seen_step hx exactLcp_exact hfo hcol h (by
        rw [hN]
        intro t fl fl' a b
        have := hH t fl a
        rw [b] at this
        injection this) a1 a2
      exact ih ((sameStatics_length (step_dt_statics h.inv.good a1)).trans hN) hx2 b1
    · rw [if_neg (by rw [h.seen.t]; exact ht)]
      exact ⟨_, rfl⟩

theorem forceCat_seen_ok {F : Frame} {H H' : ForceHeap} (t : ℝ) : ∀ (N : ℕ) (fl : List V3),
    (∀ i < N, ∀ t, H'.apply_forces i t = (H.apply_forces i t).map F.force) →
    forceCat H t N = .ok fl → forceCat H' t N = .ok (fl.map F.force)
  | 0, fl, _, h1 => by
    unfold forceCat at h1 ⊢
    injection h1 with h1
    subst h1
    rfl
  | N + 1, fl, hobj, h1 => by
    unfold forceCat at h1 ⊢
    cases c1 : forceCat H t N with
    | error e => rw [c1] at h1; cases h1
    | ok l =>
      rw [c1] at h1
      rw [forceCat_seen_ok t N l (fun i hi => hobj i (by omega)) c1, hobj N (by omega)]
      cases ha : H.apply_forces N t with
      | none => rw [ha] at h1; cases h1
      | some x =>
        rw [ha] at h1
        simp only [Option.map_some] at h1 ⊢
        injection h1 with h1
        subst h1
        simp

/-- C85: when the run of the first world returns, so does the run of the seen world with an exact solver that answers
every solvable problem, and it shows the same scene. -/
theorem C85_galilean_returns (F : Frame) (H H' : ForceHeap) (lcp : LcpSolver) (hx : Exact lcp)
    (mi mi' gas : ℕ) (nc : ℕ → List ℕ) (pairs : List Body → List (ℕ × ℕ))
    (hp : ∀ s bs, pairs (bs.map (F.body s)) = pairs bs)
    (hi : ∀ bs, ∀ p ∈ pairs bs, p.1 < bs.length ∧ p.2 < bs.length ∧ p.1 ≠ p.2)
    (w w' : World (Option Mat) Finder) (hw : EngineInv w) (hw' : EngineInv w') (hs : SeenFrom F w w')
    (hf : w'.fnd = w.fnd) (hj : w.joints = [] ∧ w'.joints = [])
    (hpos : ∀ b ∈ w.bodies, 0 < b.mass ∧ 0 < b.ang_inertia) (hmu : ∀ b ∈ w.bodies, b.fric_coeff = 0)
    (hH : ∀ i < w.bodies.length, ∀ t, H'.apply_forces i t = (H.apply_forces i t).map F.force)
    (fuel n : ℕ) (T : ℝ) (u : World (Option Mat) Finder)
    (h1 : runWorld (pdipmEnv 2 H lcp mi (rejectNan (diffCollide gas nc pairs))) fuel T n w = .done u) :
    ∃ u', runWorld (pdipmEnv 2 H' exactLcp mi' (rejectNan (diffCollide gas nc pairs))) fuel T n w' = .done u' ∧
      SeenFrom F u u' := by
  obtain ⟨u', h2⟩ := seen_run_returns (mi' := mi') (H' := H') hx (C12_finder_ok gas nc pairs hi)
    (rejectNan_sees gas nc pairs hp hi)
    (N := w.bodies.length) (H := H) (fun t fl a => forceCat_seen_ok t _ fl hH a) n rfl
    ⟨⟨hs.t, hs.dt, hs.eps, hs.tol, hs.post_stab, hs.strict, hs.bodies, hj, hs.contacts, hs.v, hf⟩, hw, hw', hpos, hmu⟩
    h1
  exact ⟨u', h2, C85_galilean_run F H H' lcp exactLcp hx exactLcp_exact mi mi' gas nc pairs hp hi w w' hw hw' hs hf hj
    hpos hmu hH fuel n T u u' h1 h2⟩

/-! ## Examples -/

/-- The world as another frame sees it. -/
def seenWorld (F : Frame) (w : World (Option Mat) φ) : World (Option Mat) φ :=
  { w with
    bodies := w.bodies.map (F.body w.t)
    contacts := w.contacts.map F.contact
    v := stack fun i => F.vel (twist w.v i)
    eng := none }

theorem seenWorld_seen (F : Frame) (w : World (Option Mat) φ) : SeenFrom F w (seenWorld F w) :=
  ⟨rfl, rfl, rfl, rfl, rfl, rfl, rfl, rfl, fun i _ => twist_stack (fun i => F.vel (twist w.v i)) i⟩

theorem seenBounce_inv (F : Frame) (fnd : Finder) : EngineInv (seenWorld F (bounceWorld 1 false fnd)) := by
  have h := bounceWorld_inv 1 false fnd
  refine ⟨⟨?_, ?_, ?_, ?_⟩, ?_, ?_, ?_⟩
  · intro b hb
    simp [seenWorld, bounceWorld] at hb
    rcases hb with rfl | rfl <;> simp [Body.RectForm, unitCircle, scaleMass, Frame.body, Frame.shape]
  · intro j hj; cases hj
  · intro j hj; cases hj
  · intro i hi
    have hi2 : i < (bounceWorld 1 false fnd).bodies.length := by simpa [seenWorld] using hi
    rw [slice3_twist]
    have e := twist_stack (fun i => F.vel (twist (bounceWorld 1 false fnd).v i)) i
    have g := h.good.vel i hi2
    rw [slice3_twist] at g
    simp only [seenWorld]
    rw [e, List.getElem_map, ← g]
    rfl
  · intro j hj; cases hj
  · intro c hc
    simp only [seenWorld] at hc
    obtain ⟨c0, hc0, rfl⟩ := List.mem_map.1 hc
    have := h.contacts c0 hc0
    simpa [seenWorld, Frame.contact] using this
  · intro inv hi; cases hi

/-- Example for `C85_galilean_returns` and `C85_galilean_run`: the colliding circles as seen by anyone. -/
example (F : Frame) (fnd : Finder) : ∃ u u',
    runWorld (pdipmEnv 2 noForces exactLcp 10 (rejectNan (diffCollide 5 (fun _ => []) (bouncePairs false)))) 1 1 1
      (bounceWorld 1 false fnd) = .done u ∧
    runWorld (pdipmEnv 2 noForces exactLcp 7 (rejectNan (diffCollide 5 (fun _ => []) (bouncePairs false)))) 1 1 1
      (seenWorld F (bounceWorld 1 false fnd)) = .done u' ∧ SeenFrom F u u' := by
  obtain ⟨u, hu⟩ := bounce_runs 1 one_pos false fnd 10 5
  have hb := bounceWorld_bodies 1 one_pos false fnd
  obtain ⟨u', h⟩ := C85_galilean_returns F noForces noForces exactLcp exactLcp_exact 10 7 5 (fun _ => [])
    (bouncePairs false) (by intro s bs; simp [bouncePairs]) (bouncePairs_valid false) _ _ (bounceWorld_inv 1 false fnd)
    (seenBounce_inv F fnd) (seenWorld_seen F _) rfl ⟨rfl, rfl⟩ (fun b h => (hb b h).1) (fun b h => (hb b h).2.1)
    (by
      intro i _ t
      have e : noForces.apply_forces i t = some 0 := rfl
      rw [e]
      simp [Frame.force, V3.xy, rot]
      rfl) 1 1 1 u hu
  exact ⟨u, u', hu, h⟩

/-- Forces look alike in frames that are only shifted and moving, so the hypothesis on the forces of
`C85_galilean_run` then holds with the same forces (gravity included). -/
example (c b : ℝ × ℝ) (H : ForceHeap) (i : ℕ) (t : ℝ) :
    H.apply_forces i t = (H.apply_forces i t).map (Frame.force ⟨0, c, b⟩) := by
  have : Frame.force ⟨0, c, b⟩ = id := by
    funext f
    apply V3.ext <;> simp [Frame.force, V3.xy, rot_zero]
  rw [this, Option.map_id]
  rfl

/-- Example for `C85_law_seen`: the impact of the circles, seen by anyone. -/
example (F : Frame) (fnd : Finder) : ∃ v' V' l pn a b g,
    ContactLaw (bounceWorld 1 false fnd).bodies [] (bounceWorld 1 false fnd).contacts (fun _ => 0)
      (bounceWorld 1 false fnd).v v' l pn a b g ∧
    ContactLaw ((bounceWorld 1 false fnd).bodies.map (F.body 0)) [] ((bounceWorld 1 false fnd).contacts.map F.contact)
      (fun _ => F.force 0) (seenWorld F (bounceWorld 1 false fnd)).v V' l pn a b g := by
  have hinv := bounceWorld_inv 1 false fnd
  have hb := bounceWorld_bodies 1 one_pos false fnd
  obtain ⟨v', l, pn, a, b, g, h⟩ := C74_inelastic (bounceWorld 1 false fnd) hinv.joints hinv.contacts
    (fun b hbm => (hb b hbm).1) (by
      intro c hc
      obtain ⟨q1, q2, -⟩ := hinv.contacts c hc
      unfold meanFriction
      rw [(hb _ (bodyAt_mem' q1)).2.1, (hb _ (bodyAt_mem' q2)).2.1]
      norm_num) (by
      intro c hc
      obtain ⟨q1, q2, -⟩ := hinv.contacts c hc
      unfold meanRestitution
      rw [(hb _ (bodyAt_mem' q1)).2.2.1, (hb _ (bodyAt_mem' q2)).2.2.1]
      norm_num) (fun _ => 0)
  exact ⟨v', stack fun i => F.vel (twist v' i), l, pn, a, b, g, h, C85_law_seen F 0 _ _ _ _ _ _ _ _ _ _ _ _ h
    (fun c hc => ⟨(hinv.contacts c hc).1, (hinv.contacts c hc).2.1⟩) (seenWorld_seen F _).v
    (fun i _ => twist_stack (fun i => F.vel (twist v' i)) i)⟩

/-- Example for `C85_post_law_seen`: the idle correction of bodies at rest, seen by anyone. -/
example (F : Frame) (fnd : Finder) :
    PostStabLaw ((bounceWorld 1 false fnd).bodies.map (F.body 0)) [] ((bounceWorld 1 false fnd).contacts.map F.contact)
      (stack fun _ => F.vel 0) 0 0 (fun _ => 0) := by
  have hinv := bounceWorld_inv 1 false fnd
  have h : PostStabLaw (bounceWorld 1 false fnd).bodies [] (bounceWorld 1 false fnd).contacts 0 0 0 fun _ => 0 := by
    refine ⟨?_, by simp [jointVels], fun _ _ => le_refl _, ?_⟩
    · intro u
      have : contactPower (bounceWorld 1 false fnd).contacts (fun _ => 0) (fun _ => 0) u = 0 := by
        unfold contactPower
        refine Finset.sum_eq_zero fun i _ => ?_
        cases (bounceWorld 1 false fnd).contacts[i]? <;> simp
      rw [this]
      simp [momentumPower, twist, jointPower, jointVels]
    · intro i hi
      simp [normalVel, contactVel, pointVel, twist, Spec.inner]
  exact C85_post_law_seen F 0 _ _ 0 0 _ 0 0 _ h (fun c hc => ⟨(hinv.contacts c hc).1, (hinv.contacts c hc).2.1⟩)
    (fun i _ => by
      rw [twist_stack]
      congr 1) (fun i _ => by apply V3.ext <;> simp [twist, Frame.force, V3.xy, rot])

end LcpPhysics
