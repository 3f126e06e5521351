import Verif.Props.ApproxLaw
import Verif.Props.History
import Verif.Props.CircleWorld
import Verif.Props.Totality
import Verif.Spec.JointTree
import Verif.Spec.Posed

/-! # C71, C72: runs with the library's own solver -/

noncomputable section

namespace LcpPhysics
open Spec

variable {σ φ : Type}

/-- Unit velocity of one coordinate. -/
def unitVel (c : ℕ) : Vec := fun k => if k = c then 1 else 0

theorem twist_unit (c i : ℕ) (h : c ∉ coords i) : twist (unitVel c) i = 0 := by
  simp only [coords, List.mem_cons, List.not_mem_nil, or_false, not_or] at h
  apply V3.ext <;> simp [twist, unitVel] <;> omega

theorem twist_other {i m : ℕ} (h : m ≠ i) {a : ℕ} (ha : a = 3 * m ∨ a = 3 * m + 1 ∨ a = 3 * m + 2) :
    twist (unitVel a) i = 0 := by
  apply twist_unit
  simp only [coords, List.mem_cons, List.not_mem_nil, or_false, not_or]
  omega

theorem twist_self (m : ℕ) : twist (unitVel (3 * m)) m = ⟨1, 0, 0⟩ ∧
    twist (unitVel (3 * m + 1)) m = ⟨0, 1, 0⟩ ∧ twist (unitVel (3 * m + 2)) m = ⟨0, 0, 1⟩ := by
  refine ⟨?_, ?_, ?_⟩ <;> apply V3.ext <;> simp [twist, unitVel]

theorem jointVel_untouched (j : Joint) (c : ℕ) (h : c ∉ touched j) : ∀ x ∈ jointVel j (unitVel c), x = 0 := by
  obtain ⟨kind, i1, i2, pos, pos1, pos2, r1, rot1, rot2⟩ := j
  have axis : ∀ k, c ≠ k → unitVel c k = 0 := fun k hk => if_neg (Ne.symm hk)
  intro x hx
  cases kind with
  | xc =>
    simp only [touched, List.mem_singleton] at h
    simp only [jointVel, twist, List.mem_singleton] at hx
    rw [hx, axis _ h]
  | yc =>
    simp only [touched, List.mem_singleton] at h
    simp only [jointVel, twist, List.mem_singleton] at hx
    rw [hx, axis _ h]
  | rotc =>
    simp only [touched, List.mem_singleton] at h
    simp only [jointVel, twist, List.mem_singleton] at hx
    rw [hx, axis _ h]
  | total =>
    simp only [touched] at h
    simp only [jointVel, twist_unit c i1 h] at hx
    simpa using hx
  | revolute =>
    simp only [touched, List.mem_append, not_or] at h
    cases i2 with
    | none =>
      simp only [jointVel, twist_unit c i1 h.1] at hx
      simpa [pointVel] using hx
    | some k =>
      simp only [jointVel, twist_unit c i1 h.1, twist_unit c k h.2] at hx
      simpa [pointVel] using hx
  | fixed =>
    simp only [touched, List.mem_append, not_or] at h
    cases i2 with
    | none =>
      simp only [jointVel, twist_unit c i1 h.1] at hx
      simpa [pointVel] using hx
    | some k =>
      simp only [jointVel, twist_unit c i1 h.1, twist_unit c k h.2] at hx
      simpa [pointVel] using hx

theorem jointVel_length (j : Joint) (u : Vec) : (jointVel j u).length = j.kind.num_constraints := by
  obtain ⟨kind, i1, i2, pos, pos1, pos2, r1, rot1, rot2⟩ := j
  cases kind <;> rfl

theorem jointPower_snoc (js : List Joint) (j : Joint) (l u : Vec) :
    jointPower (js ++ [j]) l u = jointPower js l u +
      ∑ r ∈ Finset.range (jointVel j u).length, l ((jointVels js u).length + r) * (jointVel j u).getD r 0 := by
  unfold jointPower
  have hv : jointVels (js ++ [j]) u = jointVels js u ++ jointVel j u := by simp [jointVels]
  rw [hv, List.length_append, Finset.sum_range_add]
  congr 1
  · refine Finset.sum_congr rfl fun r hr => ?_
    have := Finset.mem_range.1 hr
    simp [List.getD_eq_getElem?_getD, List.getElem?_append_left this]
  · refine Finset.sum_congr rfl fun r hr => ?_
    rw [List.getD_eq_getElem?_getD, List.getElem?_append_right (by omega), Nat.add_sub_cancel_left,
      ← List.getD_eq_getElem?_getD]

/-- The rows of one constraint are independent on the coordinates it removes. -/
theorem held_independent (j : Joint) (hj : ∀ k ∈ j.i2, j.i1 ≠ k) (m : ℕ) (hm : m = j.i1 ∨ j.i2 = some m) (l : Vec)
    (h : ∀ c ∈ held j m, ∑ r ∈ Finset.range (jointVel j (unitVel c)).length,
      l r * (jointVel j (unitVel c)).getD r 0 = 0) :
    ∀ r < j.kind.num_constraints, l r = 0 := by
  obtain ⟨kind, i1, i2, pos, pos1, pos2, r1, rot1, rot2⟩ := j
  simp only at hj hm
  cases kind with
  | xc =>
    have := h (3 * i1 + 1) (by simp [held, touched])
    intro r hr
    simp only [JKind.num_constraints] at hr
    obtain rfl : r = 0 := by omega
    simpa [jointVel, twist, unitVel] using this
  | yc =>
    have := h (3 * i1 + 2) (by simp [held, touched])
    intro r hr
    simp only [JKind.num_constraints] at hr
    obtain rfl : r = 0 := by omega
    simpa [jointVel, twist, unitVel] using this
  | rotc =>
    have := h (3 * i1) (by simp [held, touched])
    intro r hr
    simp only [JKind.num_constraints] at hr
    obtain rfl : r = 0 := by omega
    simpa [jointVel, twist, unitVel] using this
  | total =>
    have h0 := h (3 * i1) (by simp [held, touched, coords])
    have h1 := h (3 * i1 + 1) (by simp [held, touched, coords])
    have h2 := h (3 * i1 + 2) (by simp [held, touched, coords])
    simp [jointVel, twist, unitVel, Finset.sum_range_succ] at h0 h1 h2
    intro r hr
    simp only [JKind.num_constraints] at hr
    interval_cases r <;> assumption
  | revolute =>
    have h1 := h (3 * m + 1) (by simp [held])
    have h2 := h (3 * m + 2) (by simp [held])
    have e : l 0 = 0 ∧ l 1 = 0 := by
      rcases hm with rfl | rfl
      · cases i2 with
        | none =>
          simp [jointVel, twist_self, pointVel, Finset.sum_range_succ] at h1 h2
          exact ⟨h1, h2⟩
        | some k =>
          have hk := hj k rfl
          simp [jointVel, twist_self, twist_other hk, pointVel, Finset.sum_range_succ] at h1 h2
          exact ⟨h1, h2⟩
      · have hk := hj m rfl
        simp [jointVel, twist_self, twist_other hk.symm, pointVel, Finset.sum_range_succ] at h1 h2
        exact ⟨h1, h2⟩
    intro r hr
    simp only [JKind.num_constraints] at hr
    interval_cases r
    · exact e.1
    · exact e.2
  | fixed =>
    have h0 := h (3 * m) (by simp [held, coords])
    have h1 := h (3 * m + 1) (by simp [held, coords])
    have h2 := h (3 * m + 2) (by simp [held, coords])
    have e : l 0 = 0 ∧ l 1 = 0 ∧ l 2 = 0 := by
      rcases hm with rfl | rfl
      · cases i2 with
        | none =>
          simp [jointVel, twist_self, pointVel, Finset.sum_range_succ] at h0 h1 h2
          simp [h1, h2] at h0
          exact ⟨h1, h2, h0⟩
        | some k =>
          have hk := hj k rfl
          simp [jointVel, twist_self, twist_other hk, pointVel, Finset.sum_range_succ] at h0 h1 h2
          simp [h1, h2] at h0
          exact ⟨h1, h2, h0⟩
      · have hk := hj m rfl
        simp [jointVel, twist_self, twist_other hk.symm, pointVel, Finset.sum_range_succ] at h0 h1 h2
        simp [h1, h2] at h0
        exact ⟨h1, h2, h0⟩
    intro r hr
    simp only [JKind.num_constraints] at hr
    interval_cases r
    · exact e.1
    · exact e.2.1
    · exact e.2.2

/-- C71: the constraint rows of a chain or tree are independent in every configuration. -/
theorem C71_tree_independent (w : World σ φ) (hj : JointsOk w) (ht : JointTree w.joints) : Independent w := by
  have key : ∀ js : List Joint, (∀ j ∈ js, ∀ k ∈ j.i2, j.i1 ≠ k) → JointTree js → ∀ l : Vec,
      (∀ u, jointPower js l u = 0) → ∀ u, ∀ r < (jointVels js u).length, l r = 0 := by
    intro js
    induction js using List.reverseRecOn with
    | nil => intro _ _ l _ u r hr; simp [jointVels] at hr
    | append_singleton js j ih =>
      intro hok htree l hl
      have hlen : ∀ u u', (jointVels js u).length = (jointVels js u').length := by
        intro u u'
        simp [jointVels, List.length_flatMap, jointVel_length]
      obtain ⟨m, hm, hfree⟩ := htree js.length (by simp)
      simp only [List.getElem_concat_length] at hm hfree
      have hrow : ∀ r < j.kind.num_constraints, l ((jointVels js 0).length + r) = 0 := by
        apply held_independent j (fun k hk => hok j (by simp) k hk) m hm
          (fun r => l ((jointVels js 0).length + r))
        intro c hc
        have := hl (unitVel c)
        rw [jointPower_snoc, jointPower_zero, zero_add, hlen (unitVel c) 0] at this
        · exact this
        · intro x hx
          obtain ⟨j', hj', hx⟩ := List.mem_flatMap.1 hx
          obtain ⟨k', hk', rfl⟩ := List.mem_iff_getElem.1 hj'
          have := hfree c hc k' hk'
          rw [List.getElem_append_left hk'] at this
          exact jointVel_untouched _ c this x hx
      have hjs := ih (fun j' hj' => hok j' (by simp [hj'])) (fun k hk => by
        obtain ⟨m, hm, hf⟩ := htree k (by simp; omega)
        rw [List.getElem_append_left hk] at hm hf
        refine ⟨m, hm, fun c hc k' hk' => ?_⟩
        have := hf c hc k' hk'
        rwa [List.getElem_append_left (by omega)] at this) l (fun u => by
          have := hl u
          rw [jointPower_snoc, Finset.sum_eq_zero, add_zero] at this
          · exact this
          · intro r hr
            have hr := Finset.mem_range.1 hr
            rw [jointVel_length] at hr
            rw [hlen u 0, hrow r hr, zero_mul])
      intro u r hr
      by_cases h : r < (jointVels js u).length
      · exact hjs u r h
      · have hv : jointVels (js ++ [j]) u = jointVels js u ++ jointVel j u := by simp [jointVels]
        rw [hv, List.length_append, jointVel_length] at hr
        have := hrow (r - (jointVels js u).length) (by omega)
        rw [hlen 0 u] at this
        rwa [show (jointVels js u).length + (r - (jointVels js u).length) = r by omega] at this
  intro l hl r hr
  refine key w.joints (fun j hj' k hk => ((hj j hj').2 k hk).2) ht l hl 0 r ?_
  rw [← C32_row_count w 0]; exact hr

/-! ## What a step raises -/

theorem specLoop_raised {env : Env σ φ} {w : World σ φ} {e : Err} :
    ∀ {fuel : ℕ} {f : φ} {d s : ℝ}, specLoop env w fuel f d s = .raised e →
      ∃ f d, env.collide w.eps f (w.bodies.map fun b => b.move d) = .error e := by
  intro fuel
  induction fuel with
  | zero => intro f d s h; simp [specLoop] at h
  | succ n ih =>
    intro f d s h
    unfold specLoop at h
    cases hc : env.collide w.eps f (w.bodies.map fun b => b.move d) with
    | error e' =>
      rw [hc] at h
      injection h with h
      exact ⟨f, d, by rw [hc, h]⟩
    | ok r =>
      rw [hc] at h
      simp only at h
      split_ifs at h
      exact ih h

theorem Spec.Posed.refl (bs : List Body) : Posed bs bs := ⟨rfl, fun _ _ => ⟨[], rfl⟩⟩

theorem Spec.Posed.trans {a b c : List Body} (h1 : Posed a b) (h2 : Posed b c) : Posed a c := by
  refine ⟨h2.1.trans h1.1, fun i hi => ?_⟩
  obtain ⟨o1, e1⟩ := h1.2 i hi
  obtain ⟨o2, e2⟩ := h2.2 i (by rw [h1.1]; exact hi)
  exact ⟨o1 ++ o2, by rw [e2, e1]; simp [Body.run, List.foldl_append]⟩

theorem posed_move (bs : List Body) (d : ℝ) : Posed bs (bs.map fun b => b.move d) :=
  ⟨by simp, fun i hi => ⟨[.move d], by rw [bodyAt_map _ _ _ hi]; rfl⟩⟩

theorem posed_set_v (w : World σ φ) (v : Vec) : Posed w.bodies (w.set_v v).bodies := by
  refine ⟨set_v_length w v, fun i hi => ⟨[.setV (slice3 v i)], ?_⟩⟩
  have hl : i < (w.set_v v).bodies.length := by rw [set_v_length]; exact hi
  have h1 : bodyAt (w.set_v v).bodies i = (w.set_v v).bodies[i] := by simp [bodyAt, List.getD_eq_getElem?_getD, hl]
  have h2 : bodyAt w.bodies i = w.bodies[i] := by simp [bodyAt, List.getD_eq_getElem?_getD, hi]
  rw [h1, set_v_getElem, h2]; rfl

theorem posed_step {env : Env σ φ} {fuel : ℕ} {w w' : World σ φ} {dt : ℝ} (hg : w.Good)
    (h : w.step_dt env fuel dt = .done w') : Posed w.bodies w'.bodies := by
  obtain ⟨e, v, k, w1, w2, _, _, hw1, hg1, ⟨fk, f', cs, _, _, hw2⟩, _, hend⟩ := step_dt_done hg h
  have h12 : Posed w.bodies w2.bodies := by
    rw [hw2, hw1]
    exact (posed_set_v ({ w with eng := e } : World σ φ) v).trans (posed_move _ _)
  rcases hend with ⟨_, rfl⟩ | ⟨_, dp, f2, cs2, _, w3, hw3, _, rfl⟩
  · exact h12
  · refine h12.trans ?_
    subst hw3
    exact ((posed_set_v w2 _).trans (posed_move _ _)).trans
      (posed_set_v (((w2.set_v fun k => dp k / 2).moveBodies (dt / 2 ^ k)).moveJoints (dt / 2 ^ k)) v)

/-- C73: a step raises only what one of its parts raises: the solve, a contact search for the bodies in
some pose, or post-stabilization of the moved world. -/
theorem C73_step_raises_from (env : Env σ φ) (fuel : ℕ) (w : World σ φ) (dt : ℝ) (e : Err) (hg : w.Good)
    (h : w.step_dt env fuel dt = .raised e) :
    env.solve_dynamics w dt = .error e ∨
    (∃ f bs, Posed w.bodies bs ∧ env.collide w.eps f bs = .error e) ∨
    (w.post_stab = true ∧ ∃ (w2 : World σ φ) (v : Vec), env.solve_dynamics w dt = .ok (w2.eng, v) ∧
      SameStatics w w2 ∧ Posed w.bodies w2.bodies ∧ (∃ f f', env.collide w.eps f w2.bodies = .ok (f', w2.contacts)) ∧
      env.post_stabilization w2 = .error e) := by
  rw [step_dt_eq env fuel w hg dt] at h
  cases hs : env.solve_dynamics w dt with
  | error e' =>
    rw [hs] at h
    injection h with h
    exact Or.inl (by rw [h])
  | ok r =>
    rw [hs] at h
    simp only [Run.ofExcept, Run.bind_done] at h
    cases hl : specLoop env (({ w with eng := r.1 } : World σ φ).set_v r.2) fuel w.fnd dt 0 with
    | running => rw [hl] at h; simp [Run.bind] at h
    | raised e' =>
      rw [hl] at h
      injection h with h
      subst h
      obtain ⟨f, d, hc⟩ := specLoop_raised hl
      exact Or.inr (Or.inl ⟨f, _,
        (posed_set_v ({ w with eng := r.1 } : World σ φ) r.2).trans (posed_move _ _), hc⟩)
    | done q =>
      obtain ⟨w2, d⟩ := q
      rw [hl, Run.bind_done] at h
      obtain ⟨k, hk, hd, ⟨fk, f', cs, h1, h2, h3⟩, -⟩ := specLoop_done hl
      have hps : w2.post_stab = w.post_stab := by rw [h3]; rfl
      have hst : SameStatics w w2 := by
        rw [h3]
        exact (sameStatics_set_v w r.2 r.1).trans (sameStatics_accepted _ _ _ _ _)
      have hpo : Posed w.bodies w2.bodies := by
        rw [h3]
        exact (posed_set_v ({ w with eng := r.1 } : World σ φ) r.2).trans (posed_move _ _)
      have heps : w2.eps = w.eps := by rw [h3]; rfl
      simp only [hps] at h
      cases hp : w.post_stab with
      | false => rw [hp] at h; simp [Run.bind] at h
      | true =>
        rw [hp, if_pos rfl] at h
        unfold postStab at h
        simp only at h
        cases hdp : env.post_stabilization w2 with
        | error e' =>
          rw [hdp] at h
          injection h with h
          subst h
          refine Or.inr (Or.inr ⟨rfl, w2, r.2, ?_, hst, hpo, ⟨fk, f', ?_⟩, hdp⟩)
          · rw [h3]; rfl
          · rw [h3]; exact h1
        | ok dp =>
          rw [hdp] at h
          simp only [Run.ofExcept, Run.bind_done] at h
          unfold World.find_contacts at h
          split at h
          · rename_i e' hc
            injection h with h
            subst h
            refine Or.inr (Or.inl ⟨_, _, ?_, heps ▸ hc⟩)
            exact ((hpo.trans (posed_set_v w2 _)).trans (posed_move _ _)).trans
              (posed_set_v (((w2.set_v fun k => dp k / 2).moveBodies d).moveJoints d) _)
          · simp [Run.bind] at h

/-! ## C71: whole runs return -/

/-- What makes the library solver return: a tree of constraints, positive masses, no friction. -/
structure Regular (w : World (Option Mat) φ) : Prop where
  inv : EngineInv w
  tree : JointTree w.joints
  pos : ∀ b ∈ w.bodies, 0 < b.mass ∧ 0 < b.ang_inertia
  smooth : ∀ b ∈ w.bodies, b.fric_coeff = 0

theorem tree_congr {w w' : World σ φ} (hs : SameStatics w w') (h : JointTree w.joints) : JointTree w'.joints := by
  have hlen : w'.joints.length = w.joints.length := by simpa using congrArg List.length hs.2
  have hw : ∀ (k : ℕ) (hk : k < w.joints.length) (hk' : k < w'.joints.length),
      (w'.joints[k]).wiring = (w.joints[k]).wiring := by
    intro k hk hk'
    have : (w'.joints.map Joint.wiring)[k]? = (w.joints.map Joint.wiring)[k]? := by rw [hs.2]
    simpa [hk, hk'] using this
  have ht : ∀ j j' : Joint, j'.wiring = j.wiring → touched j' = touched j ∧ (∀ m, held j' m = held j m) ∧
      j'.i1 = j.i1 ∧ j'.i2 = j.i2 := by
    intro j j' hjj
    simp only [Joint.wiring, Prod.mk.injEq] at hjj
    obtain ⟨h1, h2, h3⟩ := hjj
    have : touched j' = touched j := by unfold touched; rw [h1, h2, h3]
    refine ⟨this, fun m => ?_, h2, h3⟩
    unfold held
    rw [h1, this]
  intro k hk
  obtain ⟨m, hm, hf⟩ := h k (by omega)
  obtain ⟨e1, e2, e3, e4⟩ := ht _ _ (hw k (by omega) hk)
  refine ⟨m, by rw [e3, e4]; exact hm, fun c hc k' hk' => ?_⟩
  rw [e2] at hc
  rw [(ht _ _ (hw k' (by omega) (by omega))).1]
  exact hf c hc k' hk'

theorem consts_mem {bs bs' : List Body} (h : bs'.map Body.consts = bs.map Body.consts) {b : Body} (hb : b ∈ bs') :
    ∃ b0 ∈ bs, b0.consts = b.consts := by
  have : b.consts ∈ bs.map Body.consts := h ▸ List.mem_map.2 ⟨b, hb, rfl⟩
  obtain ⟨b0, h0, h1⟩ := List.mem_map.1 this
  exact ⟨b0, h0, h1⟩

theorem bodies_congr {w w' : World σ φ} (hs : SameStatics w w')
    (hp : ∀ b ∈ w.bodies, 0 < b.mass ∧ 0 < b.ang_inertia) (hf : ∀ b ∈ w.bodies, b.fric_coeff = 0) :
    (∀ b ∈ w'.bodies, 0 < b.mass ∧ 0 < b.ang_inertia) ∧ ∀ b ∈ w'.bodies, b.fric_coeff = 0 := by
  constructor
  · intro b hb
    obtain ⟨b0, h0, h1⟩ := consts_mem hs.1 hb
    simp only [Body.consts, Prod.mk.injEq] at h1
    rw [← h1.1, ← h1.2.1]; exact hp b0 h0
  · intro b hb
    obtain ⟨b0, h0, h1⟩ := consts_mem hs.1 hb
    simp only [Body.consts, Prod.mk.injEq] at h1
    rw [← h1.2.2.2]; exact hf b0 h0

theorem regular_smooth {w : World (Option Mat) φ} (h : Regular w) :
    ∀ c ∈ w.contacts, meanFriction w.bodies c = 0 := by
  intro c hc
  obtain ⟨h1, h2, -, -⟩ := h.inv.contacts c hc
  have e : ∀ i < w.bodies.length, (bodyAt w.bodies i).fric_coeff = 0 := by
    intro i hi
    apply h.smooth
    have : bodyAt w.bodies i = w.bodies[i] := by simp [bodyAt, List.getD_eq_getElem?_getD, hi]
    rw [this]; exact List.getElem_mem hi
  unfold meanFriction
  rw [e _ h1, e _ h2]; norm_num

section
variable {f : Btrifact} (hf : BtrifactOk f) {eps : ℝ} {lim : ℕ} {H : ForceHeap} {mi : ℕ} (hm : mi ≠ 0)
  {collide : ℝ → φ → List Body → Except Err (φ × List Contact)} (hfind : FinderOk collide)

include hf hm hfind

/-- One step of a regular world raises only what the contact search raises, and leaves it regular. -/
theorem regular_step {w : World (Option Mat) φ} (h : Regular w)
    (hH : ∀ t, ∃ fl, forceCat H t w.bodies.length = .ok fl) (fuel : ℕ) (dt : ℝ) :
    (∀ e, w.step_dt (pdipmEnv 2 H (libraryLcp f eps lim) mi collide) fuel dt = .raised e →
      ∃ f' bs, Posed w.bodies bs ∧ collide w.eps f' bs = .error e) ∧
    ∀ w', w.step_dt (pdipmEnv 2 H (libraryLcp f eps lim) mi collide) fuel dt = .done w' →
      Regular w' ∧ SameStatics w w' ∧ Posed w.bodies w'.bodies := by
  obtain ⟨fl, hfl⟩ := hH w.t
  obtain ⟨r, hr⟩ := C71_frictionless_returns f hf eps lim H mi hm w dt h.inv.joints h.pos
    (C71_tree_independent w h.inv.joints h.tree) (regular_smooth h) fl hfl
  constructor
  · intro e he
    rcases C73_step_raises_from _ fuel w dt e h.inv.good he with h1 | h1 | ⟨-, w2, v, -, hst, -, -, h1⟩
    · have h1 : pdipmSolve 2 H (libraryLcp f eps lim) mi w dt = .error e := h1
      rw [hr] at h1; cases h1
    · exact h1
    · have hj2 := jointsOk_congr hst h.inv.joints
      obtain ⟨dp, hdp⟩ := C71_post_stab_returns f hf eps lim w2 hj2 (bodies_congr hst h.pos h.smooth).1
        (C71_tree_independent w2 hj2 (tree_congr hst h.tree))
      have h1 : pdipmPostStab (libraryLcp f eps lim) w2 = .error e := h1
      rw [hdp] at h1; cases h1
  · intro w' hw'
    have hst := step_dt_statics h.inv.good hw'
    obtain ⟨h1, h2⟩ := bodies_congr hst h.pos h.smooth
    exact ⟨⟨step_inv hfind h.inv hw', tree_congr hst h.tree, h1, h2⟩, hst, posed_step h.inv.good hw'⟩

/-- C71: a non-strict frictionless simulation of bodies with positive masses, joined by a tree of
constraints, with the library's engine and solver: `run_world` returns, at a time in `[T, T + dt)`,
unless the contact search raises for these bodies in some pose. -/
theorem C71_run_returns_or_search_raises (w : World (Option Mat) φ) (h : Regular w)
    (hH : ∀ t, ∃ fl, forceCat H t w.bodies.length = .ok fl) (hs : w.strict_no_pen = false) (hdt : 0 < w.dt) (T : ℝ)
    (hstart : w.t < T) (n : ℕ) (hn : 8 * (T - w.t) / w.dt ≤ n) (fuel : ℕ) (hfuel : 4 ≤ fuel) :
    (∃ w', runWorld (pdipmEnv 2 H (libraryLcp f eps lim) mi collide) fuel T n w = .done w' ∧ T ≤ w'.t ∧
      w'.t < T + w.dt ∧ Regular w') ∨
    ∃ e f' bs, runWorld (pdipmEnv 2 H (libraryLcp f eps lim) mi collide) fuel T n w = .raised e ∧
      Posed w.bodies bs ∧ collide w.eps f' bs = .error e := by
  have key : ∀ (n : ℕ) (w : World (Option Mat) φ), Regular w →
      (∀ t, ∃ fl, forceCat H t w.bodies.length = .ok fl) →
      (∀ e, runWorld (pdipmEnv 2 H (libraryLcp f eps lim) mi collide) fuel T n w = .raised e →
        ∃ f' bs, Posed w.bodies bs ∧ collide w.eps f' bs = .error e) ∧
      ∀ w', runWorld (pdipmEnv 2 H (libraryLcp f eps lim) mi collide) fuel T n w = .done w' → Regular w' := by
    intro n
    induction n with
    | zero =>
      intro w h hH
      unfold runWorld
      split_ifs
      · exact ⟨fun e he => by simp at he, fun w' he => by simp at he⟩
      · exact ⟨fun e he => by simp at he, fun w' he => by injection he with he; exact he ▸ h⟩
    | succ n ih =>
      intro w h hH
      unfold runWorld
      split_ifs
      · simp only
        have hw : w.step (pdipmEnv 2 H (libraryLcp f eps lim) mi collide) fuel 0 false =
            w.step_dt (pdipmEnv 2 H (libraryLcp f eps lim) mi collide) fuel w.dt := by
          unfold World.step; rw [if_neg (by simp)]
        rw [hw]
        obtain ⟨h1, h2⟩ := regular_step (eps := eps) (lim := lim) hf hm hfind h hH fuel w.dt
        cases hstep : w.step_dt (pdipmEnv 2 H (libraryLcp f eps lim) mi collide) fuel w.dt with
        | running => exact ⟨fun e he => by simp [Run.bind] at he, fun w' he => by simp [Run.bind] at he⟩
        | raised e =>
          refine ⟨fun e' he => ?_, fun w' he => by simp [Run.bind] at he⟩
          injection he with he
          exact he ▸ h1 e hstep
        | done w1 =>
          rw [Run.bind_done]
          obtain ⟨h3, h4, h5⟩ := h2 w1 hstep
          obtain ⟨i1, i2⟩ := ih w1 h3 (by rw [sameStatics_length h4]; exact hH)
          refine ⟨fun e he => ?_, i2⟩
          obtain ⟨f', bs, hb, hc⟩ := i1 e he
          exact ⟨f', bs, h5.trans hb, (step_dt_params h.inv.good hstep).2.1 ▸ hc⟩
      · exact ⟨fun e he => by simp at he, fun w' he => by injection he with he; exact he ▸ h⟩
  obtain ⟨k1, k2⟩ := key n w h hH
  cases hr : runWorld (pdipmEnv 2 H (libraryLcp f eps lim) mi collide) fuel T n w with
  | done w' =>
    obtain ⟨a, b⟩ := C25_run_world_final_time _ fuel n T w w' h.inv.good hdt hstart hr
    exact Or.inl ⟨w', rfl, a, b, k2 w' hr⟩
  | running => exact absurd hr (C25_run_world_terminates _ fuel hfuel T n w h.inv.good hs hdt hn)
  | raised e =>
    obtain ⟨f', bs, h1, h2⟩ := k1 e hr
    exact Or.inr ⟨e, f', bs, rfl, h1, h2⟩

/-- C71: with a contact search that never raises, such a run returns. -/
theorem C71_run_returns (w : World (Option Mat) φ) (h : Regular w)
    (hcol : ∀ f bs, Posed w.bodies bs → ∃ r, collide w.eps f bs = .ok r)
    (hH : ∀ t, ∃ fl, forceCat H t w.bodies.length = .ok fl) (hs : w.strict_no_pen = false) (hdt : 0 < w.dt) (T : ℝ)
    (hstart : w.t < T) (n : ℕ) (hn : 8 * (T - w.t) / w.dt ≤ n) (fuel : ℕ) (hfuel : 4 ≤ fuel) :
    ∃ w', runWorld (pdipmEnv 2 H (libraryLcp f eps lim) mi collide) fuel T n w = .done w' ∧ T ≤ w'.t ∧
      w'.t < T + w.dt ∧ Regular w' := by
  rcases C71_run_returns_or_search_raises (eps := eps) (lim := lim) hf hm hfind w h hH hs hdt T hstart n hn fuel
    hfuel with h1 | ⟨e, f', bs, -, hb, hc⟩
  · exact h1
  · obtain ⟨r, hr⟩ := hcol f' bs hb
    rw [hr] at hc; cases hc

end

/-- C71, non-strict circle worlds with the library's engine, solver and contact search: the run returns unless two
circles that may touch get exactly concentric. -/
theorem C71_circle_run_returns (f : Btrifact) (hf : BtrifactOk f) (eps : ℝ) (lim mi : ℕ) (hm : mi ≠ 0) (H : ForceHeap)
    (cfuel : ℕ) (nc : ℕ → List ℕ) (pairs : List Body → List (ℕ × ℕ)) (hp : BroadPhase pairs)
    (w : World (Option Mat) Finder) (h : Regular w) (hcirc : ∀ b ∈ w.bodies, b.isCircle = true)
    (hH : ∀ t, ∃ fl, forceCat H t w.bodies.length = .ok fl) (hs : w.strict_no_pen = false) (hdt : 0 < w.dt) (T : ℝ)
    (hstart : w.t < T) (n : ℕ) (hn : 8 * (T - w.t) / w.dt ≤ n) (fuel : ℕ) (hfuel : 4 ≤ fuel) :
    (∃ w', runWorld (pdipmEnv 2 H (libraryLcp f eps lim) mi (rejectNan (diffCollide cfuel nc pairs))) fuel T n w =
      .done w' ∧ T ≤ w'.t ∧ w'.t < T + w.dt ∧ Regular w') ∨
    ∃ bs i j, Posed w.bodies bs ∧ i < bs.length ∧ j < bs.length ∧ i ≠ j ∧ i ∉ nc j ∧
      (bodyAt bs i).pos = (bodyAt bs j).pos ∧
      runWorld (pdipmEnv 2 H (libraryLcp f eps lim) mi (rejectNan (diffCollide cfuel nc pairs))) fuel T n w =
        .raised (.raised "nonfinite") := by
  rcases C71_run_returns_or_search_raises (eps := eps) (lim := lim) hf hm (C12_finder_ok cfuel nc pairs hp.valid) w h
    hH hs hdt T hstart n hn fuel hfuel with h1 | ⟨e, f', bs, hrun, hb, hc⟩
  · exact Or.inl h1
  · right
    have hcb : ∀ i < bs.length, (bodyAt bs i).isCircle = true := by
      intro i hi
      rw [hb.1] at hi
      obtain ⟨ops, ho⟩ := hb.2 i hi
      have hi' := hcirc _ (bodyAt_mem hi)
      unfold Body.isCircle at hi'
      cases hsh : (bodyAt w.bodies i).shape with
      | circle r =>
        rw [ho]; unfold Body.isCircle; rw [run_circle _ hsh ops]
      | hull vs => rw [hsh] at hi'; cases hi'
      | rect d vs => rw [hsh] at hi'; cases hi'
    unfold rejectNan at hc
    rw [collide_circles hp hcb f'] at hc
    simp only at hc
    split_ifs at hc with hall
    injection hc with hc
    obtain ⟨c, hcm, hcn⟩ : ∃ c ∈ circleContacts nc w.eps bs (pairs bs), c.nan = true := by
      by_contra hno
      push Not at hno
      refine hall (List.all_eq_true.2 fun c hcm => ?_)
      cases hn : c.nan with
      | false => rfl
      | true => exact absurd hn (hno c hcm)
    obtain ⟨m1, m2, -, -, -, -, m7⟩ := circleContacts_mem hcm
    obtain ⟨v1, v2, v3⟩ := hp.valid bs _ m1
    refine ⟨bs, c.i1, c.i2, hb, v1, v2, v3, m2, ?_, by rw [hrun, hc]⟩
    have := m7 hcn
    exact Spec.dist_eq_zero.1 this

/-- C71, strict circle worlds with the library's engine, solver and contact search: from a state between steps
in which no contact is as deep as `tol`, the step returns, without overlap deeper than `tol`. -/
theorem C71_circle_step_returns (f : Btrifact) (hf : BtrifactOk f) (eps : ℝ) (lim mi : ℕ) (hm : mi ≠ 0) (H : ForceHeap)
    (fuel : ℕ) (nc : ℕ → List ℕ) (hnc : ∀ i j, i ∈ nc j → j ∈ nc i)
    (pairs : List Body → List (ℕ × ℕ)) (hp : BroadPhase pairs) (w : World (Option Mat) Finder)
    (h : CircleScene fuel nc pairs w) (ht : JointTree w.joints)
    (hpos : ∀ b ∈ w.bodies, 0 < b.mass ∧ 0 < b.ang_inertia) (hs : ∀ b ∈ w.bodies, b.fric_coeff = 0)
    (fl : List V3) (hfl : forceCat H w.t w.bodies.length = .ok fl) (dt : ℝ) (hdt : 0 ≤ dt)
    (hc : ∀ c ∈ w.contacts, c.pen < w.tol) :
    ∃ n w', w.step_dt (pdipmEnv 2 H (libraryLcp f eps lim) mi (diffCollide fuel nc pairs)) n dt = .done w' ∧
      CircleScene fuel nc pairs w' ∧ NoOverlap nc w'.tol w'.bodies := by
  have hreg : Regular w := ⟨⟨h.good, h.joints, h.contactsOk hp, h.cache⟩, ht, hpos, hs⟩
  obtain ⟨r, hr⟩ := C71_frictionless_returns f hf eps lim H mi hm w dt h.joints hpos
    (C71_tree_independent w h.joints ht) (regular_smooth hreg) fl hfl
  obtain ⟨n, w', hw'⟩ := C27_terminates_unless_pressed fuel nc hnc pairs hp H (libraryLcp f eps lim) mi w h dt hdt r hr
    fun c hcm => Or.inl (hc c hcm)
  exact ⟨n, w', hw', circleScene_step h hw', C27_never_interpenetrate fuel nc hnc pairs hp H _ mi w w' h
    (Relation.ReflTransGen.single ⟨n, dt, hw'⟩)⟩

/-! ## C72: drift of constrained coordinates -/

/-- A step of non-negative length, without post-stabilization, whose LCP residual is at most `ε`. -/
def PreciseStep (f : Btrifact) (eps : ℝ) (lim : ℕ) (H : ForceHeap) (mi : ℕ)
    (collide : ℝ → φ → List Body → Except Err (φ × List Contact)) (ε : ℝ) (w w' : World (Option Mat) φ) : Prop :=
  ∃ fuel dt, 0 ≤ dt ∧ w.post_stab = false ∧ engineResid f eps lim H mi w dt ≤ ε ∧
    w.step_dt (pdipmEnv 2 H (libraryLcp f eps lim) mi collide) fuel dt = .done w'

/-- C72: along every run whose LCP residuals stay below `ε`, a coordinate held by an axis constraint drifts
by at most `ε` per unit of simulated time. -/
theorem C72_constraint_drift (f : Btrifact) (eps : ℝ) (lim : ℕ) (H : ForceHeap) (mi : ℕ)
    (collide : ℝ → φ → List Body → Except Err (φ × List Contact)) (hfind : FinderOk collide) (ε : ℝ)
    (w0 w : World (Option Mat) φ) (h0 : EngineInv w0)
    (h : Relation.ReflTransGen (PreciseStep f eps lim H mi collide ε) w0 w) (j : Joint) (hj : j ∈ w0.joints) :
    (j.kind = .xc ∨ j.kind = .total →
      |(bodyAt w.bodies j.i1).p.x - (bodyAt w0.bodies j.i1).p.x| ≤ ε * (w.t - w0.t)) ∧
    (j.kind = .yc ∨ j.kind = .total →
      |(bodyAt w.bodies j.i1).p.y - (bodyAt w0.bodies j.i1).p.y| ≤ ε * (w.t - w0.t)) ∧
    (j.kind = .rotc ∨ j.kind = .total →
      |(bodyAt w.bodies j.i1).p.r - (bodyAt w0.bodies j.i1).p.r| ≤ ε * (w.t - w0.t)) := by
  have hreach : ∀ w, Relation.ReflTransGen (PreciseStep f eps lim H mi collide ε) w0 w →
      Reaches (pdipmEnv 2 H (libraryLcp f eps lim) mi collide) w0 w := by
    intro w h
    induction h with
    | refl => exact Relation.ReflTransGen.refl
    | tail _ hs ih =>
      obtain ⟨fuel, dt, _, _, _, hs⟩ := hs
      exact ih.tail ⟨fuel, dt, hs⟩
  have hbase : ∀ w, Relation.ReflTransGen (PreciseStep f eps lim H mi collide ε) w0 w →
      EngineInv w ∧ SameStatics w0 w := fun w h =>
    ⟨C29_engine_invariant H _ mi collide hfind w0 w h0 (hreach w h), (reaches_statics h0.good (hreach w h)).2⟩
  induction h with
  | refl => simp
  | @tail wa wb hab hstep ih =>
    obtain ⟨hinv, hst⟩ := hbase wa hab
    obtain ⟨fuel, dt, hdt, hps, hres, hs⟩ := hstep
    obtain ⟨ja, hja, hjaw⟩ : ∃ ja ∈ wa.joints, ja.wiring = j.wiring := by
      have : j.wiring ∈ wa.joints.map Joint.wiring := hst.2 ▸ List.mem_map.2 ⟨j, hj, rfl⟩
      obtain ⟨j2, h1, h2⟩ := List.mem_map.1 this
      exact ⟨j2, h1, h2⟩
    have hw := hjaw
    simp only [Joint.wiring, Prod.mk.injEq] at hw
    have hi : j.i1 < wa.bodies.length := hw.2.1 ▸ (hinv.joints ja hja).1
    obtain ⟨e, v, k, hsol, _, ht, _, _, hlen, hb⟩ := C21_step_exact _ fuel wa wb dt hinv.good hps hs
    obtain ⟨-, fl, l, pn, a, b, g, -, hlaw⟩ := C70_engine_law f eps lim H mi wa dt e v hinv.joints hinv.contacts
      hinv.cache.ok hsol
    have hv : ∀ x ∈ jointVel ja v, |x| ≤ ε := fun x hx =>
      (hlaw.joints x (List.mem_flatMap.2 ⟨ja, hja, hx⟩)).trans hres
    obtain ⟨-, hp, -⟩ := hb j.i1 hi (by omega)
    have hpa : bodyAt wa.bodies j.i1 = wa.bodies[j.i1] := by simp [bodyAt, List.getD_eq_getElem?_getD, hi]
    have hpb : bodyAt wb.bodies j.i1 = wb.bodies[j.i1]'(by omega) := by
      simp [bodyAt, List.getD_eq_getElem?_getD, hlen, hi]
    rw [← hpa, ← hpb] at hp
    have hd : 0 ≤ dt / 2 ^ k := by positivity
    have step : ∀ q q0 y : ℝ, |q - q0| ≤ ε * (wa.t - w0.t) → |y| ≤ ε →
        |q + dt / 2 ^ k * y - q0| ≤ ε * (wb.t - w0.t) := by
      intro q q0 y h1 h2
      have h3 : |dt / 2 ^ k * y| ≤ dt / 2 ^ k * ε := by
        rw [abs_mul, abs_of_nonneg hd]
        exact mul_le_mul_of_nonneg_left h2 hd
      rw [show q + dt / 2 ^ k * y - q0 = (q - q0) + dt / 2 ^ k * y by ring, ht]
      refine (abs_add_le _ _).trans ?_
      linarith
    refine ⟨fun hk => ?_, fun hk => ?_, fun hk => ?_⟩
    · rw [hp]
      refine step _ _ _ (ih.1 hk) ?_
      rcases hk with hk | hk <;> simp [jointVel, twist, hw.1, hk, hw.2.1] at hv
      · simpa [slice3, mul_comm j.i1 3] using hv
      · simpa [slice3, mul_comm j.i1 3] using hv.2.1
    · rw [hp]
      refine step _ _ _ (ih.2.1 hk) ?_
      rcases hk with hk | hk <;> simp [jointVel, twist, hw.1, hk, hw.2.1] at hv
      · simpa [slice3, mul_comm j.i1 3] using hv
      · simpa [slice3, mul_comm j.i1 3] using hv.2.2
    · rw [hp]
      refine step _ _ _ (ih.2.2 hk) ?_
      rcases hk with hk | hk <;> simp [jointVel, twist, hw.1, hk, hw.2.1] at hv
      · simpa [slice3, mul_comm j.i1 3] using hv
      · simpa [slice3, mul_comm j.i1 3] using hv.1

end LcpPhysics
