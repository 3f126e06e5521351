import Verif.Spec.FreeFall
import Verif.Props.Galilei
import Verif.Props.Quiet

/-!
# C109: a scene that falls freely
-/

noncomputable section

namespace LcpPhysics
open Spec

variable {φ : Type}

/-! ## The law of impact -/

theorem momentum_bodies (F : Frame) (t : ℝ) (bs : List Body) (U W : Vec) :
    momentumPower (bs.map (F.body t)) U W = momentumPower bs U W := by
  unfold momentumPower
  rw [List.length_map]
  refine Finset.sum_congr rfl fun i hi => ?_
  rw [(bodyAt_frame_consts F t bs (Finset.mem_range.1 hi)).1, (bodyAt_frame_consts F t bs (Finset.mem_range.1 hi)).2.1]

/-- C109: the law of impact with restitution and friction holds with the same impulses in a frame that gains the velocity
`Δ` during the step, if every body gets the further impulse `m Δ`. -/
theorem C109_law (F : Frame) (Δ : ℝ × ℝ) (t : ℝ) (bs : List Body) (cs : List Contact) (f : ℕ → V3)
    (v v' V V' l : Vec) (pn a b g : ℕ → ℝ) (h : ContactLaw bs [] cs f v v' l pn a b g)
    (hc : ∀ c ∈ cs, c.i1 < bs.length ∧ c.i2 < bs.length)
    (hV : ∀ i < bs.length, twist V i = F.vel (twist v i))
    (hV' : ∀ i < bs.length, twist V' i = Frame.vel { F with boost := F.boost + Δ } (twist v' i)) :
    ContactLaw (bs.map (F.body t)) [] (cs.map F.contact)
      (fun i => F.weighed Δ (bodyAt bs i).mass (f i)) V V' l pn a b g := by
  set G : Frame := { F with boost := F.boost + Δ } with hG
  -- the velocity after the step without the gain
  set W : Vec := stack fun i => F.vel (twist v' i) with hW
  have hWW : ∀ i < bs.length, twist W i = F.vel (twist v' i) := fun i _ => twist_stack _ i
  have law := C85_law_seen F t bs cs f v v' V W l pn a b g h hc hV hWW
  have hnv : ∀ c ∈ cs, normalVel (F.contact c) V' = normalVel (F.contact c) W := by
    intro c hcm
    obtain ⟨h1, h2⟩ := hc c hcm
    have e : F.contact c = G.contact c := rfl
    rw [normalVel_seen hWW h1 h2, e, normalVel_seen hV' h1 h2]
  have hsv : ∀ c ∈ cs, slipVel (F.contact c) V' = slipVel (F.contact c) W := by
    intro c hcm
    obtain ⟨h1, h2⟩ := hc c hcm
    have e : F.contact c = G.contact c := rfl
    rw [slipVel_seen hWW h1 h2, e, slipVel_seen hV' h1 h2]
  refine ⟨?_, law.joints, law.nonneg, ?_, ?_, law.cone⟩
  · intro U
    have d := law.dynamics U
    rw [momentum_bodies] at d ⊢
    have m1 := momentum_seen F t bs hWW U
    have m2 := momentum_seen G t bs hV' U
    rw [momentum_bodies] at m1 m2
    have hf : forcePower (bs.map (F.body t)).length (fun i => F.weighed Δ (bodyAt bs i).mass (f i)) U =
        forcePower (bs.map (F.body t)).length (fun i => F.force (f i)) U + ∑ i ∈ Finset.range bs.length,
          (bodyAt bs i).mass * (Δ.1 * (twist U i).x + Δ.2 * (twist U i).y) := by
      unfold forcePower
      rw [List.length_map, ← Finset.sum_add_distrib]
      refine Finset.sum_congr rfl fun i _ => ?_
      simp only [Frame.weighed, V3.add_r, V3.add_x, V3.add_y]
      ring
    have hb : ∑ i ∈ Finset.range bs.length, (bodyAt bs i).mass * (G.boost.1 * (twist U i).x + G.boost.2 * (twist U i).y) =
        ∑ i ∈ Finset.range bs.length, (bodyAt bs i).mass * (F.boost.1 * (twist U i).x + F.boost.2 * (twist U i).y) +
        ∑ i ∈ Finset.range bs.length, (bodyAt bs i).mass * (Δ.1 * (twist U i).x + Δ.2 * (twist U i).y) := by
      rw [← Finset.sum_add_distrib]
      refine Finset.sum_congr rfl fun i _ => ?_
      simp only [hG, Prod.fst_add, Prod.snd_add]
      ring
    have hu : unturn G U = unturn F U := rfl
    rw [hu] at m2
    rw [hf]
    linarith
  · intro i hi
    have hi' : i < cs.length := by simpa using hi
    have q := law.restitution i hi
    rw [List.getElem_map] at q ⊢
    rw [hnv _ (List.getElem_mem hi')]
    exact q
  · intro i hi
    have hi' : i < cs.length := by simpa using hi
    have q := law.slip i hi
    rw [List.getElem_map] at q ⊢
    rw [hsv _ (List.getElem_mem hi')]
    exact q


theorem contactLaw_force_congr {bs : List Body} {js : List Joint} {cs : List Contact} {f f' : ℕ → V3}
    {v v' l : Vec} {pn a b g : ℕ → ℝ} (h : ContactLaw bs js cs f v v' l pn a b g)
    (hf : ∀ i < bs.length, f' i = f i) : ContactLaw bs js cs f' v v' l pn a b g := by
  refine ⟨?_, h.joints, h.nonneg, h.restitution, h.slip, h.cone⟩
  intro u
  have e : forcePower bs.length f' u = forcePower bs.length f u := by
    unfold forcePower
    refine Finset.sum_congr rfl fun i hi => ?_
    rw [hf i (Finset.mem_range.1 hi)]
  rw [e]
  exact h.dynamics u

/-! ## Forces -/

/-- Every body gets its weight in addition. -/
def Weighed (F : Frame) (γ : ℝ × ℝ) (m : ℕ → ℝ) (N : ℕ) (H H' : ForceHeap) : Prop :=
  ∀ i < N, ∀ t, H'.apply_forces i t = (H.apply_forces i t).map (F.weighed γ (m i))

theorem forceCat_weighed {F : Frame} {γ : ℝ × ℝ} {m : ℕ → ℝ} {H H' : ForceHeap} (t : ℝ) : ∀ (N : ℕ) (fl : List V3),
    Weighed F γ m N H H' → forceCat H t N = .ok fl →
    ∃ fl', forceCat H' t N = .ok fl' ∧ fl.length = N ∧ fl'.length = N ∧
      ∀ i < N, fl'.getD i 0 = F.weighed γ (m i) (fl.getD i 0)
  | 0, fl, _, h1 => by
    unfold forceCat at h1 ⊢
    injection h1 with h1
    subst h1
    exact ⟨[], rfl, rfl, rfl, fun i hi => by omega⟩
  | N + 1, fl, hobj, h1 => by
    unfold forceCat at h1 ⊢
    cases c1 : forceCat H t N with
    | error e => rw [c1] at h1; cases h1
    | ok l =>
      rw [c1] at h1
      obtain ⟨l', c2, n1, n2, hg⟩ := forceCat_weighed t N l (fun i hi => hobj i (by omega)) c1
      rw [c2, hobj N (by omega)]
      cases ha : H.apply_forces N t with
      | none => rw [ha] at h1; cases h1
      | some x =>
        rw [ha] at h1
        simp only [Option.map_some] at h1 ⊢
        injection h1 with h1
        subst h1
        refine ⟨_, rfl, by simp [n1], by simp [n2], ?_⟩
        intro i hi
        by_cases hiN : i < N
        · have := hg i hiN
          simp only [List.getD_eq_getElem?_getD] at this ⊢
          rw [List.getElem?_append_left (by omega), List.getElem?_append_left (by omega)]
          exact this
        · have hi' : i = N := by omega
          subst hi'
          simp [List.getD_eq_getElem?_getD, n1, n2]

theorem impulse_weighed {F : Frame} {γ : ℝ × ℝ} {m dt : ℝ} {fl fl' : List V3} {i : ℕ}
    (h : fl'.getD i 0 = F.weighed γ m (fl.getD i 0)) :
    impulse fl' dt i = F.weighed (dt • γ) m (impulse fl dt i) := by
  unfold impulse
  rw [h]
  apply V3.ext <;> simp [Frame.weighed, Frame.force, V3.xy, rot] <;> ring

/-! ## One step -/

/-- The invariant of the pair of runs; the frame is taken as it is at the moment. -/
structure FallRun (F : Frame) (m : ℕ → ℝ) (w w' : World (Option Mat) φ) : Prop where
  seen : SeenAt F 0 w w'
  inv : EngineInv w
  inv' : EngineInv w'
  pos : ∀ b ∈ w.bodies, 0 < b.mass ∧ 0 < b.ang_inertia
  slick : ∀ b ∈ w.bodies, b.fric_coeff = 0
  mass : ∀ i < w.bodies.length, (bodyAt w.bodies i).mass = m i

/-- The frame with the velocity gained. -/
def Frame.gained (F : Frame) (Δ : ℝ × ℝ) : Frame := { F with boost := F.boost + Δ }

theorem frame_fall_law {F : Frame} {γ : ℝ × ℝ} {m : ℕ → ℝ} {H H' : ForceHeap} {lcp : LcpSolver} {mi : ℕ} (hx : Exact lcp)
    {w w' : World (Option Mat) φ} (h : FallRun F m w w') (hH : Weighed F γ m w.bodies.length H H')
    {dt : ℝ} {e : Option Mat} {v : Vec} (h1 : pdipmSolve 2 H lcp mi w dt = .ok (e, v)) :
    ∃ fl' l pn a b g, forceCat H' w'.t w'.bodies.length = .ok fl' ∧
      ContactLaw w'.bodies [] w'.contacts (impulse fl' dt) w'.v
        (stack fun i => (Frame.gained F (dt • γ)).vel (twist v i)) l pn a b g := by
  obtain ⟨fl, l, pn, a, b, g, hf, law⟩ := C38_engine_contact_law H lcp mi w dt e v h.inv.joints h.inv.contacts
    h.inv.cache.ok hx h1
  have sn := h.seen
  have hlen : w'.bodies.length = w.bodies.length := by rw [sn.bodies, List.length_map]
  obtain ⟨fl', hf', -, -, hg⟩ := forceCat_weighed w.t _ fl hH hf
  have hci : ∀ c ∈ w.contacts, c.i1 < w.bodies.length ∧ c.i2 < w.bodies.length :=
    fun c hc => ⟨(h.inv.contacts c hc).1, (h.inv.contacts c hc).2.1⟩
  rw [sn.joints.1] at law
  have law2 := C109_law F (dt • γ) 0 w.bodies w.contacts _ w.v v w'.v
    (stack fun i => (Frame.gained F (dt • γ)).vel (twist v i)) l pn a b g law hci sn.v (fun i _ => twist_stack _ i)
  refine ⟨fl', l, pn, a, b, g, by rw [sn.t, hlen]; exact hf', ?_⟩
  rw [sn.bodies, sn.contacts]
  refine contactLaw_force_congr law2 ?_
  intro i hi
  rw [List.length_map] at hi
  rw [h.mass i hi]
  exact impulse_weighed (hg i hi)

theorem frame_fall_solve {F : Frame} {γ : ℝ × ℝ} {m : ℕ → ℝ} {H H' : ForceHeap} {lcp lcp' : LcpSolver} {mi mi' : ℕ}
    (hx : Exact lcp) (hx' : Exact lcp')
    {w w' : World (Option Mat) φ} (h : FallRun F m w w') (hH : Weighed F γ m w.bodies.length H H')
    {dt : ℝ} {e e' : Option Mat} {v v' : Vec} (h1 : pdipmSolve 2 H lcp mi w dt = .ok (e, v))
    (h2 : pdipmSolve 2 H' lcp' mi' w' dt = .ok (e', v')) :
    ∀ i < w.bodies.length, twist v' i = (Frame.gained F (dt • γ)).vel (twist v i) := by
  obtain ⟨fl, l, pn, a, b, g, hf, law⟩ := frame_fall_law hx h hH h1
  obtain ⟨fl', l', pn', a', b', g', hf', law'⟩ := C38_engine_contact_law H' lcp' mi' w' dt e' v' h.inv'.joints
    h.inv'.contacts h.inv'.cache.ok hx' h2
  have sn := h.seen
  have hlen : w'.bodies.length = w.bodies.length := by rw [sn.bodies, List.length_map]
  rw [hf] at hf'
  injection hf' with hf'
  subst hf'
  rw [sn.joints.2] at law'
  have slick : ∀ b ∈ w'.bodies, b.fric_coeff = 0 ∧ 0 < b.mass ∧ 0 < b.ang_inertia := by
    intro b hb
    rw [sn.bodies] at hb
    obtain ⟨b0, hb0, rfl⟩ := List.mem_map.1 hb
    exact ⟨h.slick b0 hb0, h.pos b0 hb0⟩
  have mu : ∀ c ∈ w'.contacts, meanFriction w'.bodies c = 0 := by
    intro c hc
    obtain ⟨q1, q2, -⟩ := h.inv'.contacts c hc
    unfold meanFriction
    rw [(slick _ (bodyAt_mem' q1)).1, (slick _ (bodyAt_mem' q2)).1]
    norm_num
  have same := C82_same_impact 1 one_pos w'.bodies w'.bodies [] [] w'.contacts w'.contacts _ _ w'.v _ w'.v v' l l' pn a b g
    pn' a' b' g' law law' rfl (fun i _ => ⟨by ring, by ring, rfl⟩) (fun i hi => (slick _ (bodyAt_mem' hi)).2)
    (fun i _ => by apply V3.ext <;> simp) (fun _ _ => rfl) (fun _ => Iff.rfl) (sameContacts_refl _)
    (fun c hc => ⟨(h.inv'.contacts c hc).1, (h.inv'.contacts c hc).2.1⟩) mu mu
  intro i hi
  rw [twist_congr same (hlen ▸ hi), twist_stack]

theorem fall_solve_returns {F : Frame} {γ : ℝ × ℝ} {m : ℕ → ℝ} {H H' : ForceHeap} {lcp : LcpSolver} {mi mi' : ℕ}
    (hx : Exact lcp) {w w' : World (Option Mat) φ} (h : FallRun F m w w') (hH : Weighed F γ m w.bodies.length H H')
    {dt : ℝ} {r : Option Mat × Vec} (h1 : pdipmSolve 2 H lcp mi w dt = .ok r) :
    ∃ r', pdipmSolve 2 H' exactLcp mi' w' dt = .ok r' := by
  obtain ⟨e, v⟩ := r
  obtain ⟨fl', l, pn, a, b, g, hf', law⟩ := frame_fall_law hx h hH h1
  by_cases hne : w'.contacts = []
  · exact C35_no_contact_succeeds 2 H' exactLcp mi' w' dt h.inv'.joints (seen_pos h.seen h.pos)
      (independent_nil h.seen.joints.2) hne _ hf'
  · rw [← h.seen.joints.2] at law
    exact (C74_exact_engine_returns H' mi' w' dt h.inv'.joints h.inv'.contacts hne _ hf' _ l pn a b g law).2

/-- The same places and velocities, described by another frame. -/
theorem seenAt_reframe {F G : Frame} {s r : ℝ} {w w' : World (Option Mat) φ} (h : SeenAt G r w w')
    (ht : F.turn = G.turn) (hb : F.boost = G.boost) (hp : ∀ x, F.point s x = G.point r x) : SeenAt F s w w' := by
  refine ⟨h.t, h.dt, h.eps, h.tol, h.post_stab, h.strict, ?_, h.joints, ?_, ?_, h.fnd⟩
  · rw [h.bodies]
    refine List.map_congr_left fun b _ => ?_
    simp only [Frame.body, Frame.pose, Frame.shape, Frame.quat, Frame.vel, hp, ht, hb]
  · rw [h.contacts]
    refine List.map_congr_left fun c _ => ?_
    simp only [Frame.contact, ht]
  · intro i hi
    rw [h.v i hi]
    simp only [Frame.vel, ht, hb]

theorem frame_fall_step {F : Frame} {γ : ℝ × ℝ} {m : ℕ → ℝ} {H H' : ForceHeap} {lcp lcp' : LcpSolver} {mi mi' : ℕ}
    (hx : Exact lcp) (hx' : Exact lcp') {collide : ℝ → φ → List Body → Except Err (φ × List Contact)}
    (hfo : FinderOk collide) (hcol : ∀ G : Frame, G.turn = F.turn → SeesContacts G collide)
    {w w' : World (Option Mat) φ} (h : FallRun F m w w') (hH : Weighed F γ m w.bodies.length H H')
    {fuel : ℕ} {dt : ℝ} {u : World (Option Mat) φ}
    (h1 : w.step_dt (pdipmEnv 2 H lcp mi collide) fuel dt = .done u)
    (hret : lcp' = exactLcp ∨ ∃ u', w'.step_dt (pdipmEnv 2 H' lcp' mi' collide) fuel dt = .done u') :
    ∃ u', w'.step_dt (pdipmEnv 2 H' lcp' mi' collide) fuel dt = .done u' ∧
      FallRun (F.fallen γ dt (u.t - w.t)) m u u' := by
  have i1 := step_inv hfo h.inv h1
  have hst := step_dt_statics h.inv.good h1
  have core : ∃ u', w'.step_dt (pdipmEnv 2 H' lcp' mi' collide) fuel dt = .done u' ∧
      SeenAt (F.fallen γ dt (u.t - w.t)) 0 u u' := by
    rw [step_dt_eq _ fuel w h.inv.good dt, Run.bind_eq_done] at h1
    rw [step_dt_eq _ fuel w' h.inv'.good dt] at hret ⊢
    obtain ⟨⟨e, v⟩, s1, h1⟩ := h1
    have s1 : pdipmSolve 2 H lcp mi w dt = .ok (e, v) := by
      change Run.ofExcept (pdipmSolve 2 H lcp mi w dt) = _ at s1
      cases hq : pdipmSolve 2 H lcp mi w dt with
      | error x => rw [hq] at s1; cases s1
      | ok x => rw [hq] at s1; injection s1 with s1; rw [s1]
    obtain ⟨⟨e', v'⟩, s2⟩ : ∃ r', pdipmSolve 2 H' lcp' mi' w' dt = .ok r' := by
      rcases hret with rfl | ⟨u', hret⟩
      · exact fall_solve_returns hx h hH s1
      · rw [Run.bind_eq_done] at hret
        obtain ⟨r', s2, -⟩ := hret
        change Run.ofExcept (pdipmSolve 2 H' lcp' mi' w' dt) = _ at s2
        cases hq : pdipmSolve 2 H' lcp' mi' w' dt with
        | error x => rw [hq] at s2; cases s2
        | ok x => exact ⟨x, rfl⟩
    have s3 : Run.ofExcept ((pdipmEnv 2 H' lcp' mi' collide).solve_dynamics w' dt) = .done (e', v') := by
      change Run.ofExcept (pdipmSolve 2 H' lcp' mi' w' dt) = _
      rw [s2]; rfl
    rw [s3, Run.bind_done] at hret ⊢
    have hv := frame_fall_solve hx hx' h hH s1 s2
    set G := Frame.gained F (dt • γ) with hG
    have hcG : SeesContacts G collide := hcol G rfl
    have sn1 : SeenAt G 0 (({ w with eng := e } : World (Option Mat) φ).set_v v)
        (({ w' with eng := e' } : World (Option Mat) φ).set_v v') :=
      seenAt_set_v h.seen e e' rfl (fun x => by simp [Frame.point, hG, Frame.gained]) hv
    simp only at h1 hret ⊢
    rw [Run.bind_eq_done] at h1
    obtain ⟨r, l1, h1⟩ := h1
    obtain ⟨r', l2'⟩ := seen_specLoop_returns (env := pdipmEnv 2 H lcp mi collide)
      (env' := pdipmEnv 2 H' lcp' mi' collide) hcG rfl sn1 fuel _ _ _ _ l1
    have l2 : specLoop (pdipmEnv 2 H' lcp' mi' collide) (({ w' with eng := e' } : World (Option Mat) φ).set_v v') fuel
        w'.fnd dt 0 = .done r' := by
      have := l2'
      generalize ({ w' with eng := e' } : World (Option Mat) φ).set_v v' = q at this ⊢
      rw [h.seen.fnd]
      exact this
    obtain ⟨d, q, g, cs, rfl, rfl, f0, k1⟩ := seen_specLoop (env := pdipmEnv 2 H lcp mi collide)
      (env' := pdipmEnv 2 H' lcp' mi' collide) hcG rfl sn1 fuel _ _ _ _ _ l1 l2'
    rw [l2, Run.bind_done] at hret ⊢
    have sn2 := seenAt_accepted sn1 d q g cs
    have refr : ∀ {y y' : World (Option Mat) φ}, SeenAt G (0 + d) y y' → SeenAt (F.fallen γ dt d) 0 y y' := by
      intro y y' hs
      refine seenAt_reframe hs rfl rfl fun x => ?_
      simp only [Frame.point, Frame.fallen, hG, Frame.gained, zero_smul, add_zero, zero_add]
      abel
    simp only at h1 hret ⊢
    set x := ({ w with eng := e } : World (Option Mat) φ).set_v v with hxdef
    set x' := ({ w' with eng := e' } : World (Option Mat) φ).set_v v' with hx'def
    by_cases hp : w.post_stab = true
    · have hp' : w'.post_stab = true := by rw [h.seen.post_stab]; exact hp
      have hpa : (x.accepted d q g cs).post_stab = true := hp
      have hpa' : (x'.accepted d q g (cs.map G.contact)).post_stab = true := hp'
      rw [if_pos hpa, Run.bind_eq_done] at h1
      rw [if_pos hpa'] at hret ⊢
      obtain ⟨y, h1, hy⟩ := h1
      have ss : SameStatics w (x.accepted d q g cs) :=
        (sameStatics_set_v w v e).trans (sameStatics_accepted _ _ _ _ _)
      have ss' : SameStatics w' (x'.accepted d q g (cs.map G.contact)) :=
        (sameStatics_set_v w' v' e').trans (sameStatics_accepted _ _ _ _ _)
      have pos2 : ∀ b ∈ (x.accepted d q g cs).bodies, 0 < b.mass ∧ 0 < b.ang_inertia := by
        intro b hb
        have : b.consts ∈ w.bodies.map Body.consts := ss.1 ▸ List.mem_map.2 ⟨b, hb, rfl⟩
        obtain ⟨b0, hb0, he⟩ := List.mem_map.1 this
        have hq := h.pos b0 hb0
        simp only [Body.consts, Prod.mk.injEq] at he
        rw [← he.1, ← he.2.1]
        exact hq
      have hcs : ContactsOk (x.accepted d q g cs) := fun c hc => hfo _ _ _ _ _ k1 c hc
      have hcs' : ContactsOk (x'.accepted d q g (cs.map G.contact)) := by
        have k2 : collide x.eps f0 (x'.bodies.map fun b => b.move d) = .ok (g, cs.map G.contact) := by
          rw [sn1.bodies, map_frame_move, hcG]
          change collide x.eps f0 (x.bodies.map fun b => b.move d) = .ok (g, cs) at k1
          rw [k1]
          rfl
        exact fun c hc => hfo _ _ _ _ _ k2 c hc
      have j1 := jointsOk_congr ss h.inv.joints
      have j2 := jointsOk_congr ss' h.inv'.joints
      have c1 := solve_cacheInv ss h.inv.cache s1
      have c2 := solve_cacheInv ss' h.inv'.cache s2
      obtain ⟨y', hy2⟩ : ∃ y', postStab (pdipmEnv 2 H' lcp' mi' collide) (x'.accepted d q g (cs.map G.contact)) d =
          .done y' := by
        rcases hret with rfl | ⟨u', hret⟩
        · exact seen_postBlock_returns (mi := mi) (mi' := mi') (H := H) (H' := H') hx hcG sn2 j1 hcs c1 j2 hcs' c2
            pos2 h1
        · rw [Run.bind_eq_done] at hret
          obtain ⟨y', hpp, -⟩ := hret
          exact ⟨y', hpp⟩
      have ty := refr (seen_postBlock (mi := mi) (mi' := mi') (H := H) (H' := H') hx hx' hcG sn2 j1 hcs c1 j2 hcs' c2 pos2
        h1 hy2)
      rw [hy2, Run.bind_done]
      have yt : y.t = w.t := by
        rw [postStab] at h1
        simp only at h1
        rw [Run.bind_eq_done] at h1
        obtain ⟨dp, -, h1⟩ := h1
        unfold World.find_contacts at h1
        split at h1
        · cases h1
        · injection h1 with h1; rw [← h1]; rfl
      injection hy with hy
      subst hy
      have e1 : ({ y with t := y.t + d } : World (Option Mat) φ).t - w.t = d := by
        change y.t + d - w.t = d
        rw [yt]; ring
      rw [e1]
      refine ⟨_, rfl, ?_, ty.dt, ty.eps, ty.tol, ty.post_stab, ty.strict, ty.bodies, ty.joints, ty.contacts, ty.v, ty.fnd⟩
      change y'.t + d = y.t + d
      rw [ty.t]
    · have hp' : ¬ w'.post_stab = true := by rw [h.seen.post_stab]; exact hp
      have hpa : ¬ (x.accepted d q g cs).post_stab = true := hp
      have hpa' : ¬ (x'.accepted d q g (cs.map G.contact)).post_stab = true := hp'
      rw [if_neg hpa] at h1
      rw [if_neg hpa']
      simp only [Run.bind] at h1 ⊢
      injection h1 with h1
      subst h1
      have sn3 := refr sn2
      have e1 : ({ x.accepted d q g cs with t := (x.accepted d q g cs).t + d } : World (Option Mat) φ).t - w.t = d := by
        change w.t + d - w.t = d
        ring
      rw [e1]
      refine ⟨_, rfl, ?_, sn3.dt, sn3.eps, sn3.tol, sn3.post_stab, sn3.strict, sn3.bodies, sn3.joints, sn3.contacts, sn3.v,
        sn3.fnd⟩
      change w'.t + d = w.t + d
      rw [h.seen.t]
  obtain ⟨u', h2, core⟩ := core
  have i2 := step_inv hfo h.inv' h2
  have hcons : ∀ (Q : ℝ × ℝ × ℝ × ℝ → Prop), (∀ b ∈ w.bodies, Q b.consts) → ∀ b ∈ u.bodies, Q b.consts := by
    intro Q hQ b hb
    have : b.consts ∈ w.bodies.map Body.consts := hst.1 ▸ List.mem_map.2 ⟨b, hb, rfl⟩
    obtain ⟨b0, hb0, he⟩ := List.mem_map.1 this
    rw [← he]
    exact hQ b0 hb0
  have hlen : u.bodies.length = w.bodies.length := sameStatics_length hst
  refine ⟨u', h2, core, i1, i2, hcons (fun c => 0 < c.1 ∧ 0 < c.2.1) h.pos, hcons (fun c => c.2.2.2 = 0) h.slick, ?_⟩
  intro i hi
  rw [← h.mass i (hlen ▸ hi)]
  have := congrArg (fun l : List (ℝ × ℝ × ℝ × ℝ) => (l.getD i (0, 0, 0, 0)).1) hst.1
  have hi' : i < w.bodies.length := hlen ▸ hi
  simp only [List.getD_eq_getElem?_getD, List.getElem?_map, List.getElem?_eq_getElem hi, List.getElem?_eq_getElem hi',
    Option.map_some, Option.getD_some, Body.consts] at this
  simp only [bodyAt, List.getD_eq_getElem?_getD, List.getElem?_eq_getElem hi, List.getElem?_eq_getElem hi', Option.getD_some]
  exact this

/-! ## Runs -/

theorem falling_zero (F : Frame) (γ : ℝ × ℝ) (dt : ℝ) (τ : ℕ → ℝ) : F.falling γ dt τ 0 = F := by
  simp [Frame.falling]

theorem falling_succ (F : Frame) (γ : ℝ × ℝ) (dt : ℝ) (τ : ℕ → ℝ) (k : ℕ) :
    (F.falling γ dt τ k).fallen γ dt (τ (k + 1) - τ k) = F.falling γ dt τ (k + 1) := by
  have e : F.boost + ((k : ℝ) * dt) • γ + dt • γ = F.boost + ((k + 1 : ℝ) * dt) • γ := by
    rw [add_assoc, ← add_smul]
    ring_nf
  simp only [Frame.falling, Frame.fallen, Finset.sum_range_succ, e, Nat.cast_add, Nat.cast_one, add_assoc]

/-- With full steps the frame falls by `n (n + 1) / 2 · dt² γ`. -/
theorem falling_full (F : Frame) (γ : ℝ × ℝ) (dt : ℝ) (τ : ℕ → ℝ) (n : ℕ) (h : ∀ k < n, τ (k + 1) - τ k = dt) :
    (F.falling γ dt τ n).shift = F.shift + ((n : ℝ) * dt) • F.boost + ((n : ℝ) * (n + 1) / 2 * dt ^ 2) • γ := by
  induction n with
  | zero => simp [Frame.falling]
  | succ n ih =>
    have := ih fun k hk => h k (by omega)
    simp only [Frame.falling] at this ⊢
    rw [Finset.sum_range_succ, ← add_assoc, this, h n (by omega)]
    ext <;> simp <;> ring

theorem frame_fall_steps {F : Frame} {γ : ℝ × ℝ} {m : ℕ → ℝ} {H H' : ForceHeap} {lcp lcp' : LcpSolver} {mi mi' : ℕ}
    (hx : Exact lcp) (hx' : Exact lcp') {collide : ℝ → φ → List Body → Except Err (φ × List Contact)}
    (hfo : FinderOk collide) (hcol : ∀ G : Frame, G.turn = F.turn → SeesContacts G collide) {N : ℕ}
    (hH : Weighed F γ m N H H') {fuel : ℕ} {dt : ℝ} {n : ℕ} {ws ws' : ℕ → World (Option Mat) φ}
    (hN : (ws 0).bodies.length = N) (h0 : FallRun F m (ws 0) (ws' 0))
    (h1 : ∀ k < n, (ws k).step_dt (pdipmEnv 2 H lcp mi collide) fuel dt = .done (ws (k + 1)))
    (h2 : ∀ k < n, (ws' k).step_dt (pdipmEnv 2 H' lcp' mi' collide) fuel dt = .done (ws' (k + 1))) :
    ∀ k ≤ n, (ws k).bodies.length = N ∧ FallRun (F.falling γ dt (fun j => (ws j).t) k) m (ws k) (ws' k) := by
  intro k
  induction k with
  | zero =>
    intro _
    rw [falling_zero]
    exact ⟨hN, h0⟩
  | succ k ih =>
    intro hk
    obtain ⟨hl, hr⟩ := ih (by omega)
    have hH' : Weighed (F.falling γ dt (fun j => (ws j).t) k) γ m (ws k).bodies.length H H' := by
      rw [hl]; exact hH
    obtain ⟨u', a, b⟩ := frame_fall_step (F := F.falling γ dt (fun j => (ws j).t) k) (mi' := mi') hx hx' hfo (fun G hG => hcol G hG) hr hH' (h1 k (by omega))
      (Or.inr ⟨_, h2 k (by omega)⟩)
    rw [h2 k (by omega)] at a
    injection a with a
    subst a
    rw [falling_succ F γ dt (fun j => (ws j).t) k] at b
    exact ⟨(sameStatics_length (step_dt_statics hr.inv.good (h1 k (by omega)))).trans hl, b⟩

theorem fall_steps_returns {F : Frame} {γ : ℝ × ℝ} {m : ℕ → ℝ} {H H' : ForceHeap} {lcp : LcpSolver} {mi mi' : ℕ}
    (hx : Exact lcp) {collide : ℝ → φ → List Body → Except Err (φ × List Contact)}
    (hfo : FinderOk collide) (hcol : ∀ G : Frame, G.turn = F.turn → SeesContacts G collide) {N : ℕ}
    (hH : Weighed F γ m N H H') {fuel : ℕ} {dt : ℝ} {n : ℕ} {ws : ℕ → World (Option Mat) φ} {w' : World (Option Mat) φ}
    (hN : (ws 0).bodies.length = N) (h0 : FallRun F m (ws 0) w')
    (h1 : ∀ k < n, (ws k).step_dt (pdipmEnv 2 H lcp mi collide) fuel dt = .done (ws (k + 1))) :
    ∃ ws' : ℕ → World (Option Mat) φ, ws' 0 = w' ∧
      ∀ k < n, (ws' k).step_dt (pdipmEnv 2 H' exactLcp mi' collide) fuel dt = .done (ws' (k + 1)) := by
  induction n with
  | zero => exact ⟨fun _ => w', rfl, fun k hk => by omega⟩
  | succ n ih =>
    obtain ⟨ws', e0, hs⟩ := ih fun k hk => h1 k (by omega)
    obtain ⟨hl, hr⟩ := frame_fall_steps (ws := ws) (ws' := ws') hx exactLcp_exact hfo hcol hH hN (by rw [e0]; exact h0)
      (fun k hk => h1 k (by omega)) hs n le_rfl
    have hH' : Weighed (F.falling γ dt (fun j => (ws j).t) n) γ m (ws n).bodies.length H H' := by
      rw [hl]; exact hH
    obtain ⟨u', a, b⟩ := frame_fall_step (F := F.falling γ dt (fun j => (ws j).t) n) (mi' := mi') hx exactLcp_exact hfo (fun G hG => hcol G hG) hr hH' (h1 n (by omega))
      (Or.inl rfl)
    refine ⟨fun k => if k ≤ n then ws' k else u', by simp [e0], ?_⟩
    intro k hk
    by_cases hkn : k < n
    · simp only [if_pos (show k ≤ n by omega), if_pos (show k + 1 ≤ n by omega)]
      exact hs k hkn
    · have : k = n := by omega
      subst this
      simp only [le_refl, if_true, if_neg (show ¬ k + 1 ≤ k by omega)]
      exact a

theorem frame_fall_run {γ : ℝ × ℝ} {m : ℕ → ℝ} {H H' : ForceHeap} {lcp lcp' : LcpSolver} {mi mi' : ℕ}
    (hx : Exact lcp) (hx' : Exact lcp') {collide : ℝ → φ → List Body → Except Err (φ × List Contact)}
    (hfo : FinderOk collide) {N : ℕ} {fuel : ℕ} {T dt : ℝ} : ∀ (n : ℕ) {F : Frame} {w w' : World (Option Mat) φ},
    (∀ G : Frame, G.turn = F.turn → SeesContacts G collide) → Weighed F γ m N H H' →
    w.bodies.length = N → w.dt = dt → FallRun F m w w' → ∀ {u : World (Option Mat) φ},
    runWorld (pdipmEnv 2 H lcp mi collide) fuel T n w = .done u →
    (lcp' = exactLcp ∨ ∃ u', runWorld (pdipmEnv 2 H' lcp' mi' collide) fuel T n w' = .done u') →
    ∃ u', runWorld (pdipmEnv 2 H' lcp' mi' collide) fuel T n w' = .done u' ∧ ∃ G : Frame, ∃ k : ℕ,
      G.turn = F.turn ∧ G.boost = F.boost + ((k : ℝ) * dt) • γ ∧ FallRun G m u u' := by
  intro n
  induction n with
  | zero =>
    intro F w w' hcol hH hN hdt h u h1 hret
    unfold runWorld at h1 ⊢
    by_cases ht : w.t < T
    · rw [if_pos ht] at h1; cases h1
    · rw [if_neg ht] at h1
      rw [if_neg (by rw [h.seen.t]; exact ht)]
      injection h1 with h1
      subst h1
      exact ⟨_, rfl, F, 0, rfl, by simp, h⟩
  | succ n ih =>
    intro F w w' hcol hH hN hdt h u h1 hret
    unfold runWorld at h1 hret ⊢
    by_cases ht : w.t < T
    · rw [if_pos ht] at h1
      rw [if_pos (by rw [h.seen.t]; exact ht)] at hret ⊢
      simp only at h1 hret ⊢
      rw [Run.bind_eq_done] at h1
      obtain ⟨x, a1, b1⟩ := h1
      simp only [World.step, Bool.false_eq_true, if_false] at a1 hret ⊢
      rw [h.seen.dt] at hret ⊢
      obtain ⟨x', a2, hx2⟩ := frame_fall_step (mi' := mi') (H' := H') (γ := γ) hx hx' hfo hcol h (by rw [hN]; exact hH) a1 (by
        rcases hret with hret | ⟨u', hret⟩
        · exact Or.inl hret
        · rw [Run.bind_eq_done] at hret
          obtain ⟨x', a2, -⟩ := hret
          exact Or.inr ⟨x', a2⟩)
      rw [a2, Run.bind_done] at hret ⊢
      have hss := step_dt_statics h.inv.good a1
      obtain ⟨u', c1, G, k, g1, g2, g3⟩ := ih (F := F.fallen γ w.dt (x.t - w.t)) (w := x) (w' := x') hcol hH
        ((sameStatics_length hss).trans hN) (by rw [← hdt]; exact (step_dt_params h.inv.good a1).1) hx2 b1 hret
      refine ⟨u', c1, G, k + 1, g1, ?_, g3⟩
      rw [g2]
      simp only [Frame.fallen, hdt]
      rw [add_assoc, ← add_smul]
      push_cast
      ring_nf
    · rw [if_neg ht] at h1
      rw [if_neg (by rw [h.seen.t]; exact ht)]
      injection h1 with h1
      subst h1
      exact ⟨_, rfl, F, 0, rfl, by simp, h⟩

/-! ## Statements -/

/-- Attaching to every body a fresh gravity object weighs the bodies. -/
theorem C109_gravity_weighs (c b : ℝ × ℝ) (g : ℝ) (m : ℕ → ℝ) (N : ℕ) (H H' : ForceHeap) (κ : ℕ → ℕ)
    (hatt : ∀ i < N, H'.attached i = H.attached i ++ [κ i])
    (hold : ∀ i < N, ∀ k ∈ H.attached i, H'.obj k = H.obj k)
    (hnew : ∀ i < N, H'.obj (κ i) = (Force.gravity g none).set_body (m i)) :
    Weighed ⟨0, c, b⟩ (0, g) m N H H' := by
  intro i hi t
  have hs : ∀ (l : List (Option V3)) (x acc : V3), sumForces (l ++ [some x]) acc =
      (sumForces l acc).map fun f => f + x := by
    intro l x
    induction l with
    | nil => intro acc; rfl
    | cons a l ih =>
      intro acc
      cases a with
      | none => rfl
      | some a => exact ih (acc + a)
  have e1 : H'.apply_forces i t = (sumForces ((H.attached i).map fun k => (H.obj k).force t) 0).map
      fun f => f + ⟨0 * m i * g, 0 * m i * g, 1 * m i * g⟩ := by
    unfold ForceHeap.apply_forces
    rw [hatt i hi, if_neg (by simp), List.map_append, List.map_cons, List.map_nil, hnew i hi]
    have : (H.attached i).map (fun k => (H'.obj k).force t) = (H.attached i).map fun k => (H.obj k).force t :=
      List.map_congr_left fun k hk => by rw [hold i hi k hk]
    rw [this]
    exact hs _ _ _
  have e2 : H.apply_forces i t = sumForces ((H.attached i).map fun k => (H.obj k).force t) 0 := by
    unfold ForceHeap.apply_forces
    split_ifs with h0
    · rw [List.length_eq_zero_iff.1 h0]
      rfl
    · rfl
  rw [e1, e2]
  congr 1
  funext f
  apply V3.ext <;> simp [Frame.weighed, Frame.force, V3.xy, rot]

/-- C109: a scene that falls freely, step by step. Two worlds show the same frictionless scene of free bodies (of any
shapes), the second from another frame and with the weight `m γ` acting on every body in addition. Step by step the second
keeps showing the same scene, same clock and contacts included, from the frame that gains the velocity `dt γ` at
each step, shortened or not, and moves with it for the actual length of the step. -/
theorem C109_falling_steps (F : Frame) (γ : ℝ × ℝ) (H H' : ForceHeap) (lcp lcp' : LcpSolver) (hx : Exact lcp)
    (hx' : Exact lcp') (mi mi' gas : ℕ) (nc : ℕ → List ℕ) (pairs : List Body → List (ℕ × ℕ))
    (hp : ∀ G : Frame, G.turn = F.turn → ∀ s bs, pairs (bs.map (G.body s)) = pairs bs)
    (hi : ∀ bs, ∀ p ∈ pairs bs, p.1 < bs.length ∧ p.2 < bs.length ∧ p.1 ≠ p.2)
    (ws ws' : ℕ → World (Option Mat) Finder) (hw : EngineInv (ws 0)) (hw' : EngineInv (ws' 0))
    (hs : SeenNow F (ws 0) (ws' 0)) (hf : (ws' 0).fnd = (ws 0).fnd) (hj : (ws 0).joints = [] ∧ (ws' 0).joints = [])
    (hpos : ∀ b ∈ (ws 0).bodies, 0 < b.mass ∧ 0 < b.ang_inertia) (hmu : ∀ b ∈ (ws 0).bodies, b.fric_coeff = 0)
    (hH : ∀ i < (ws 0).bodies.length, ∀ t,
      H'.apply_forces i t = (H.apply_forces i t).map (F.weighed γ (bodyAt (ws 0).bodies i).mass))
    (fuel n : ℕ) (dt : ℝ)
    (h1 : ∀ k < n, (ws k).step_dt (pdipmEnv 2 H lcp mi (rejectNan (diffCollide gas nc pairs))) fuel dt = .done (ws (k + 1)))
    (h2 : ∀ k < n, (ws' k).step_dt (pdipmEnv 2 H' lcp' mi' (rejectNan (diffCollide gas nc pairs))) fuel dt =
      .done (ws' (k + 1))) :
    ∀ k ≤ n, SeenNow (F.falling γ dt (fun j => (ws j).t) k) (ws k) (ws' k) := by
  intro k hk
  have r := (frame_fall_steps (m := fun i => (bodyAt (ws 0).bodies i).mass) hx hx' (C12_finder_ok gas nc pairs hi)
    (fun G hG => rejectNan_sees gas nc pairs (hp G hG) hi) hH (ws := ws) (ws' := ws') rfl
    ⟨⟨hs.t, hs.dt, hs.eps, hs.tol, hs.post_stab, hs.strict, hs.bodies, hj, hs.contacts, hs.v, hf⟩, hw, hw', hpos, hmu,
      fun _ _ => rfl⟩ h1 h2 k hk).2.seen
  exact ⟨r.t, r.dt, r.eps, r.tol, r.post_stab, r.strict, r.bodies, r.contacts, r.v⟩

/-- C109: the falling scene keeps running as long as the scene without the weights does, with an exact solver that answers
every solvable problem. -/
theorem C109_falling_returns (F : Frame) (γ : ℝ × ℝ) (H H' : ForceHeap) (lcp : LcpSolver) (hx : Exact lcp)
    (mi mi' gas : ℕ) (nc : ℕ → List ℕ) (pairs : List Body → List (ℕ × ℕ))
    (hp : ∀ G : Frame, G.turn = F.turn → ∀ s bs, pairs (bs.map (G.body s)) = pairs bs)
    (hi : ∀ bs, ∀ p ∈ pairs bs, p.1 < bs.length ∧ p.2 < bs.length ∧ p.1 ≠ p.2)
    (ws : ℕ → World (Option Mat) Finder) (w' : World (Option Mat) Finder) (hw : EngineInv (ws 0)) (hw' : EngineInv w')
    (hs : SeenNow F (ws 0) w') (hf : w'.fnd = (ws 0).fnd) (hj : (ws 0).joints = [] ∧ w'.joints = [])
    (hpos : ∀ b ∈ (ws 0).bodies, 0 < b.mass ∧ 0 < b.ang_inertia) (hmu : ∀ b ∈ (ws 0).bodies, b.fric_coeff = 0)
    (hH : ∀ i < (ws 0).bodies.length, ∀ t,
      H'.apply_forces i t = (H.apply_forces i t).map (F.weighed γ (bodyAt (ws 0).bodies i).mass))
    (fuel n : ℕ) (dt : ℝ)
    (h1 : ∀ k < n, (ws k).step_dt (pdipmEnv 2 H lcp mi (rejectNan (diffCollide gas nc pairs))) fuel dt =
      .done (ws (k + 1))) :
    ∃ ws' : ℕ → World (Option Mat) Finder, ws' 0 = w' ∧
      (∀ k < n, (ws' k).step_dt (pdipmEnv 2 H' exactLcp mi' (rejectNan (diffCollide gas nc pairs))) fuel dt =
        .done (ws' (k + 1))) ∧
      ∀ k ≤ n, SeenNow (F.falling γ dt (fun j => (ws j).t) k) (ws k) (ws' k) := by
  obtain ⟨ws', e0, h2⟩ := fall_steps_returns (m := fun i => (bodyAt (ws 0).bodies i).mass) (mi' := mi') hx
    (C12_finder_ok gas nc pairs hi) (fun G hG => rejectNan_sees gas nc pairs (hp G hG) hi) hH (ws := ws) (w' := w') rfl
    ⟨⟨hs.t, hs.dt, hs.eps, hs.tol, hs.post_stab, hs.strict, hs.bodies, hj, hs.contacts, hs.v, hf⟩, hw, hw', hpos, hmu,
      fun _ _ => rfl⟩ h1
  refine ⟨ws', e0, h2, ?_⟩
  subst e0
  exact C109_falling_steps F γ H H' lcp exactLcp hx exactLcp_exact mi mi' gas nc pairs hp hi ws ws' hw hw' hs hf hj hpos
    hmu hH fuel n dt h1 h2

/-- C109: whole runs. After the same number of steps the falling world shows the same scene with the same clock and
contacts, every velocity changed by the same `k dt γ`. -/
theorem C109_falling_run (F : Frame) (γ : ℝ × ℝ) (H H' : ForceHeap) (lcp lcp' : LcpSolver) (hx : Exact lcp)
    (hx' : Exact lcp') (mi mi' gas : ℕ) (nc : ℕ → List ℕ) (pairs : List Body → List (ℕ × ℕ))
    (hp : ∀ G : Frame, G.turn = F.turn → ∀ s bs, pairs (bs.map (G.body s)) = pairs bs)
    (hi : ∀ bs, ∀ p ∈ pairs bs, p.1 < bs.length ∧ p.2 < bs.length ∧ p.1 ≠ p.2)
    (w w' : World (Option Mat) Finder) (hw : EngineInv w) (hw' : EngineInv w')
    (hs : SeenNow F w w') (hf : w'.fnd = w.fnd) (hj : w.joints = [] ∧ w'.joints = [])
    (hpos : ∀ b ∈ w.bodies, 0 < b.mass ∧ 0 < b.ang_inertia) (hmu : ∀ b ∈ w.bodies, b.fric_coeff = 0)
    (hH : ∀ i < w.bodies.length, ∀ t,
      H'.apply_forces i t = (H.apply_forces i t).map (F.weighed γ (bodyAt w.bodies i).mass))
    (fuel n : ℕ) (T : ℝ) (u : World (Option Mat) Finder)
    (h1 : runWorld (pdipmEnv 2 H lcp mi (rejectNan (diffCollide gas nc pairs))) fuel T n w = .done u) :
    (∀ u', runWorld (pdipmEnv 2 H' lcp' mi' (rejectNan (diffCollide gas nc pairs))) fuel T n w' = .done u' →
      ∃ (G : Frame) (k : ℕ), G.turn = F.turn ∧ G.boost = F.boost + ((k : ℝ) * w.dt) • γ ∧ SeenNow G u u') ∧
    ∃ u', runWorld (pdipmEnv 2 H' exactLcp mi' (rejectNan (diffCollide gas nc pairs))) fuel T n w' = .done u' ∧
      ∃ (G : Frame) (k : ℕ), G.turn = F.turn ∧ G.boost = F.boost + ((k : ℝ) * w.dt) • γ ∧ SeenNow G u u' := by
  have key : ∀ L : LcpSolver, Exact L → (L = exactLcp ∨
      ∃ u', runWorld (pdipmEnv 2 H' L mi' (rejectNan (diffCollide gas nc pairs))) fuel T n w' = .done u') →
      ∃ u', runWorld (pdipmEnv 2 H' L mi' (rejectNan (diffCollide gas nc pairs))) fuel T n w' = .done u' ∧
      ∃ (G : Frame) (k : ℕ), G.turn = F.turn ∧ G.boost = F.boost + ((k : ℝ) * w.dt) • γ ∧ SeenNow G u u' := by
    intro L hL hret
    obtain ⟨u', a, G, k, g1, g2, g3⟩ := frame_fall_run (m := fun i => (bodyAt w.bodies i).mass) (mi' := mi') hx hL
      (C12_finder_ok gas nc pairs hi) n (fun G hG => rejectNan_sees gas nc pairs (hp G hG) hi) hH rfl rfl
      ⟨⟨hs.t, hs.dt, hs.eps, hs.tol, hs.post_stab, hs.strict, hs.bodies, hj, hs.contacts, hs.v, hf⟩, hw, hw', hpos, hmu,
        fun _ _ => rfl⟩ h1 hret
    have r := g3.seen
    exact ⟨u', a, G, k, g1, g2, r.t, r.dt, r.eps, r.tol, r.post_stab, r.strict, r.bodies, r.contacts, r.v⟩
  refine ⟨fun u' h2 => ?_, key exactLcp exactLcp_exact (Or.inl rfl)⟩
  obtain ⟨x, a, r⟩ := key lcp' hx' (Or.inr ⟨u', h2⟩)
  rw [h2] at a
  injection a with a
  rw [a]
  exact r

/-- C109: the fall itself. When no step is shortened, a body of the falling world is found, after `n` steps, below its
place in the world without weights by `n (n + 1) / 2 · dt² γ` (the formula of free fall has `n²`). -/
theorem C109_fall (F : Frame) (γ : ℝ × ℝ) (dt : ℝ) (ws ws' : ℕ → World (Option Mat) Finder) (n : ℕ)
    (ht : F.turn = 0) (hb : F.boost = 0) (hc : F.shift = 0) (hfull : ∀ k < n, (ws (k + 1)).t - (ws k).t = dt)
    (h : SeenNow (F.falling γ dt (fun j => (ws j).t) n) (ws n) (ws' n)) (i : ℕ) (hi : i < (ws n).bodies.length) :
    (bodyAt (ws' n).bodies i).pos = (bodyAt (ws n).bodies i).pos + ((n : ℝ) * (n + 1) / 2 * dt ^ 2) • γ ∧
    (bodyAt (ws' n).bodies i).p.r = (bodyAt (ws n).bodies i).p.r ∧
    (bodyAt (ws' n).bodies i).v = (bodyAt (ws n).bodies i).v + ⟨0, n * dt * γ.1, n * dt * γ.2⟩ := by
  have hs := falling_full F γ dt (fun j => (ws j).t) n hfull
  rw [hb, hc, smul_zero, add_zero, zero_add] at hs
  rw [h.bodies, bodyAt_frame _ _ _ hi]
  have ht' : (F.falling γ dt (fun j => (ws j).t) n).turn = 0 := ht
  have hb' : (F.falling γ dt (fun j => (ws j).t) n).boost = ((n : ℝ) * dt) • γ := by
    simp [Frame.falling, hb]
  generalize F.falling γ dt (fun j => (ws j).t) n = G at *
  refine ⟨?_, ?_, ?_⟩
  · simp only [Body.pos, Frame.body, Frame.pose, Frame.point, ht', hs, rot_zero, V3.xy]
    ext <;> simp
  · simp [Frame.body, Frame.pose, ht']
  · simp only [Frame.body, Frame.vel, ht', hb', rot_zero]
    apply V3.ext <;> simp [V3.xy]

/-! ## Examples -/

theorem rest_body (b : Body) : (⟨0, 0, 0⟩ : Frame).body 0 b = b := by
  have hp : ∀ x : ℝ × ℝ, (⟨0, 0, 0⟩ : Frame).point 0 x = x := fun x => by simp [Frame.point, rot_zero]
  have hr : rot (0 : ℝ) = id := funext fun x => rot_zero x
  have h1 : (⟨0, 0, 0⟩ : Frame).pose 0 b.p = b.p := by
    apply V3.ext <;> simp [Frame.pose, hp, V3.xy]
  have h2 : (⟨0, 0, 0⟩ : Frame).vel b.v = b.v := by
    apply V3.ext <;> simp [Frame.vel, hr, V3.xy]
  have h3 : (⟨0, 0, 0⟩ : Frame).shape b.shape = b.shape := by
    cases b.shape <;> simp [Frame.shape, hr]
  have h4 : (⟨0, 0, 0⟩ : Frame).quat b.geom.quat = b.geom.quat := by simp [Frame.quat]
  simp only [Frame.body, h1, h2, h3, h4, hp]

/-- Every world is seen from the frame at rest as it is. -/
theorem seenNow_rest {σ : Type} (w : World σ φ) : SeenNow ⟨0, 0, 0⟩ w w := by
  refine ⟨rfl, rfl, rfl, rfl, rfl, rfl, ?_, ?_, ?_⟩
  · have : (⟨0, 0, 0⟩ : Frame).body 0 = id := funext rest_body
    rw [this, List.map_id]
  · have : (⟨0, 0, 0⟩ : Frame).contact = id := by
      funext c
      simp [Frame.contact, rot_zero]
    rw [this, List.map_id]
  · intro i _
    apply V3.ext <;> simp [Frame.vel, rot_zero, V3.xy]

/-- Gravity on every body, each with its own force object, the masses being `m`. -/
def gravities (g : ℝ) (m : ℕ → ℝ) : ForceHeap :=
  { obj := fun i => (Force.gravity g none).set_body (m i), attached := fun i => [i] }

theorem gravities_weigh (g : ℝ) (m : ℕ → ℝ) (N : ℕ) : Weighed ⟨0, 0, 0⟩ (0, g) m N noForces (gravities g m) :=
  C109_gravity_weighs 0 0 g m N noForces (gravities g m) id (fun _ _ => rfl) (fun i _ k hk => by cases hk)
    fun _ _ => rfl

/-- Example for `C109_falling_run` (and `C109_gravity_weighs`): the colliding circles under gravity. -/
example (g : ℝ) (fnd : Finder) : ∃ u u',
    runWorld (pdipmEnv 2 noForces exactLcp 10 (rejectNan (diffCollide 5 (fun _ => []) (bouncePairs false)))) 1 1 1
      (bounceWorld 1 false fnd) = .done u ∧
    runWorld (pdipmEnv 2 (gravities g fun i => (bodyAt (bounceWorld 1 false fnd).bodies i).mass) exactLcp 7
      (rejectNan (diffCollide 5 (fun _ => []) (bouncePairs false)))) 1 1 1 (bounceWorld 1 false fnd) = .done u' ∧
    ∃ (G : Frame) (k : ℕ), G.turn = 0 ∧ G.boost = 0 + ((k : ℝ) * 1) • ((0, g) : ℝ × ℝ) ∧ SeenNow G u u' := by
  obtain ⟨u, hu⟩ := bounce_runs 1 one_pos false fnd 10 5
  have hb := bounceWorld_bodies 1 one_pos false fnd
  obtain ⟨-, u', h⟩ := C109_falling_run ⟨0, 0, 0⟩ (0, g) noForces
    (gravities g fun i => (bodyAt (bounceWorld 1 false fnd).bodies i).mass) exactLcp exactLcp exactLcp_exact exactLcp_exact
    10 7 5 (fun _ => []) (bouncePairs false) (by intro G _ s bs; simp [bouncePairs]) (bouncePairs_valid false) _ _
    (bounceWorld_inv 1 false fnd) (bounceWorld_inv 1 false fnd) (seenNow_rest _) rfl ⟨rfl, rfl⟩ (fun b h => (hb b h).1)
    (fun b h => (hb b h).2.1) (gravities_weigh g _ _) 1 1 1 u hu
  exact ⟨u, u', hu, h⟩

/-- Example for `C109_falling_steps`, `C109_falling_returns` and `C109_fall`: two circles with velocities fall for as long
as one likes, from where they would be by `n (n + 1) / 2 · dt² g`. -/
example (g dt eps tol x y : ℝ) (u1 u2 : V3) (strict : Bool) (fnd : Finder) (n : ℕ) :
    let bs : List Body := [{ unitCircle 0 0 0 with v := u1 }, { unitCircle x y 0 with v := u2 }]
    ∃ ws ws' : ℕ → World (Option Mat) Finder, ws' 0 = ws 0 ∧ (ws 0).bodies = bs ∧
      (∀ k < n, (ws' k).step_dt (pdipmEnv 2 (gravities g fun i => (bodyAt bs i).mass) exactLcp 7
        (rejectNan (diffCollide 5 (fun _ => []) fun _ => []))) 1 dt = .done (ws' (k + 1))) ∧
      ∀ i < 2, (bodyAt (ws' n).bodies i).pos =
        (bodyAt (ws n).bodies i).pos + ((n : ℝ) * (n + 1) / 2 * dt ^ 2) • ((0, g) : ℝ × ℝ) := by
  intro bs
  have hfo := C12_finder_ok 5 (fun _ => []) (fun _ => []) (fun bs p hp => by cases hp)
  have hall : ∀ b ∈ bs, (0 < b.mass ∧ 0 < b.ang_inertia) ∧ b.fric_coeff = 0 ∧ b.RectForm := by
    intro b hb
    simp only [bs, List.mem_cons, List.not_mem_nil, or_false] at hb
    rcases hb with rfl | rfl <;> simp [unitCircle, Body.RectForm]
  obtain ⟨ws, -, q2, q3, -, -, q6⟩ := quiet_runs (H := noForces) (lcp := exactLcp) (mi := 10) hfo fnd bs
    (fun t => ⟨_, noForces_cat t _⟩) (by simp [bs]) (fun b hb => (hall b hb).2.2) (fun eps f bs _ => rfl)
    (fun i hi => (hall _ (bodyAt_mem' hi)).1) [] (by simp) (by simp) (by simp) (fun k hk => by simp at hk) dt eps tol strict
  have hq := (q6 0).2.1
  obtain ⟨ws', e0, h2, h3⟩ := C109_falling_returns ⟨0, 0, 0⟩ (0, g) noForces (gravities g fun i => (bodyAt bs i).mass)
    exactLcp exactLcp_exact 10 7 5 (fun _ => []) (fun _ => []) (fun _ _ _ _ => rfl) (fun bs p hp => by cases hp) ws (ws 0)
    hq.inv hq.inv (seenNow_rest _) rfl ⟨q3, q3⟩ (by rw [q2]; exact fun b hb => (hall b hb).1)
    (by rw [q2]; exact fun b hb => (hall b hb).2.1) (by rw [q2]; exact gravities_weigh g _ _) 1 n dt
    (fun k _ => (q6 k).1)
  refine ⟨ws, ws', e0, q2, h2, fun i hi => ?_⟩
  exact (C109_fall ⟨0, 0, 0⟩ (0, g) dt ws ws' n rfl rfl rfl (fun k _ => by rw [(q6 k).2.2]; ring) (h3 n le_rfl) i (by
    rw [(q6 n).2.1.count]
    exact hi)).1

/-- Example for `C109_law`: the impact of the circles, seen from a frame that gains any velocity meanwhile. -/
example (F : Frame) (Δ : ℝ × ℝ) (fnd : Finder) : ∃ V' l pn a b g,
    ContactLaw ((bounceWorld 1 false fnd).bodies.map (F.body 0)) [] ((bounceWorld 1 false fnd).contacts.map F.contact)
      (fun i => F.weighed Δ (bodyAt (bounceWorld 1 false fnd).bodies i).mass 0)
      (seenWorld F (bounceWorld 1 false fnd)).v V' l pn a b g := by
  have hinv := bounceWorld_inv 1 false fnd
  have hb := bounceWorld_bodies 1 one_pos false fnd
  obtain ⟨v', l, pn, a, b, g, h⟩ := C74_inelastic (bounceWorld 1 false fnd) hinv.joints hinv.contacts
    (fun b hbm => (hb b hbm).1) (by
      intro c hc
      obtain ⟨q1, q2, -⟩ := hinv.contacts c hc
      unfold meanFriction
      rw [(hb _ (bodyAt_mem' q1)).2.1, (hb _ (bodyAt_mem' q2)).2.1]
      norm_num) (by
      intro c hc
      obtain ⟨q1, q2, -⟩ := hinv.contacts c hc
      unfold meanRestitution
      rw [(hb _ (bodyAt_mem' q1)).2.2.1, (hb _ (bodyAt_mem' q2)).2.2.1]
      norm_num) (fun _ => 0)
  exact ⟨stack fun i => Frame.vel { F with boost := F.boost + Δ } (twist v' i), l, pn, a, b, g,
    C109_law F Δ 0 _ _ _ _ _ _ _ _ _ _ _ _ h (fun c hc => ⟨(hinv.contacts c hc).1, (hinv.contacts c hc).2.1⟩)
      (seenWorld_seen F _).v (fun i _ => twist_stack _ i)⟩

end LcpPhysics
