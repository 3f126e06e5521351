import Verif.Lemmas.Bodies
import Verif.Model.World

/-! Helper lemmas about slicing, rollback and the stepping loop. -/

noncomputable section

namespace LcpPhysics
open Spec

variable {σ φ : Type}

/-! ### `Run` -/

@[simp] theorem Run.bind_done {α β : Type} (a : α) (f : α → Run β) :
    (Run.done a).bind f = f a := rfl
@[simp] theorem Run.bind_running {α β : Type} (f : α → Run β) :
    (Run.running : Run α).bind f = .running := rfl
@[simp] theorem Run.bind_raised {α β : Type} (e : Err) (f : α → Run β) :
    (Run.raised e : Run α).bind f = .raised e := rfl

theorem Run.bind_eq_done {α β : Type} {r : Run α} {f : α → Run β} {b : β} :
    r.bind f = .done b ↔ ∃ a, r = .done a ∧ f a = .done b := by
  cases r <;> simp [Run.bind]

theorem Run.bind_eq_running {α β : Type} {r : Run α} {f : α → Run β} :
    r.bind f = .running ↔ r = .running ∨ ∃ a, r = .done a ∧ f a = .running := by
  cases r <;> simp [Run.bind]

theorem Run.ofExcept_eq_done {α : Type} {e : Except Err α} {a : α} :
    Run.ofExcept e = .done a ↔ e = .ok a := by
  cases e <;> simp [Run.ofExcept]

theorem Run.ofExcept_ne_running {α : Type} {e : Except Err α} : Run.ofExcept e ≠ .running := by
  cases e <;> simp [Run.ofExcept]

/-! ### flat tensors -/

theorem cat3_slice (l : List V3) (i : ℕ) (h : i < l.length) : slice3 (cat3 l) i = l[i] := by
  induction l generalizing i with
  | nil => simp at h
  | cons a l ih =>
    cases i with
    | zero => simp [slice3, cat3]
    | succ i =>
      have := ih i (by simpa using h)
      simp only [List.getElem_cons_succ, ← this]
      unfold slice3
      rw [show (i + 1) * 3 = i * 3 + 3 by ring, show i * 3 + 3 + 1 = (i * 3 + 1) + 3 by ring,
        show i * 3 + 3 + 2 = (i * 3 + 2) + 3 by ring]
      rfl

theorem set_v_getElem (w : World σ φ) (v : Vec) (i : ℕ) (h : i < (w.set_v v).bodies.length) :
    (w.set_v v).bodies[i] =
      { (w.bodies[i]'(by simpa [World.set_v] using h)) with v := slice3 v i } := by
  simp [World.set_v]

theorem set_v_length (w : World σ φ) (v : Vec) : (w.set_v v).bodies.length = w.bodies.length := by
  simp [World.set_v]

theorem set_p_bodies (w : World σ φ) (bs : List Body) (g : Body → Body)
    (h : w.bodies = bs.map g) :
    (w.set_p (cat3 (bs.map Body.p))).bodies = bs.map fun b => (g b).set_p b.p := by
  unfold World.set_p
  apply List.ext_getElem
  · simp [h]
  · intro i h1 h2
    have hi : i < bs.length := by simpa [h] using h1
    simp only [List.getElem_map, List.getElem_zipIdx, h, zero_add]
    rw [cat3_slice _ _ (by simpa using hi), List.getElem_map]

/-! ### rollback of bodies -/

theorem set_p_set_p (b : Body) (q q' : V3) (h : b.RectForm) :
    (b.set_p q).set_p q' = b.set_p q' := by
  have key : ∀ vs : List V2, (vs.map (rot (q.r - b.p.r))).map (rot (q'.r - q.r))
      = vs.map (rot (q'.r - b.p.r)) := by
    intro vs; rw [List.map_map]; congr 1; funext a
    simp only [Function.comp, rot_add]; congr 1; ring
  have hull : ∀ (t : ℝ) (vs : List V2), (if t ≠ 0 then hullRotate t vs else vs) = vs.map (rot t) := by
    intro t vs; split_ifs with h0
    · exact hullRotate_eq t vs
    · push Not at h0; rw [h0, map_rot_zero]
  have rect : ∀ (t : ℝ) (v0 v1 : V2), (if t ≠ 0 then rectRotate t [v0, v1, -v0, -v1] else
      [v0, v1, -v0, -v1]) = [v0, v1, -v0, -v1].map (rot t) := by
    intro t v0 v1; split_ifs with h0
    · exact rectRotate_eq t v0 v1
    · push Not at h0; rw [h0, map_rot_zero]
  unfold Body.RectForm at h
  cases hs : b.shape with
  | circle r => simp [Body.set_p, hs, Body.baseSetP]
  | hull vs =>
    simp only [Body.set_p, hs, Body.baseSetP, hull, key]
    rfl
  | rect d vs =>
    rw [hs] at h
    obtain ⟨v0, v1, rfl⟩ := h
    simp only [Body.set_p, hs, Body.baseSetP]
    rw [rect, rect]
    have hm : [v0, v1, -v0, -v1].map (rot (q.r - b.p.r)) =
        [rot (q.r - b.p.r) v0, rot (q.r - b.p.r) v1,
          -rot (q.r - b.p.r) v0, -rot (q.r - b.p.r) v1] := by
      simp [rot_map_neg]
    rw [hm, rect, ← hm, key]
    simp

theorem move_rollback_move (b : Body) (d d' : ℝ) (h : b.RectForm) :
    ((b.move d).set_p b.p).move d' = b.move d' := by
  unfold Body.move
  rw [set_p_set_p b _ _ h, set_p_p, set_p_v, set_p_set_p b _ _ h]

theorem move_p (b : Body) (d : ℝ) : (b.move d).p = b.p + d • b.v := set_p_p _ _
theorem move_v (b : Body) (d : ℝ) : (b.move d).v = b.v := set_p_v _ _

/-! ### joints -/

theorem bodyAt_map (bs : List Body) (g : Body → Body) (i : ℕ) (h : i < bs.length) :
    bodyAt (bs.map g) i = g (bodyAt bs i) := by
  simp [bodyAt, List.getD_eq_getElem?_getD, h]

/-- joint indices are valid -/
def Joint.Valid (j : Joint) (n : ℕ) : Prop := j.i1 < n ∧ ∀ k ∈ j.i2, k < n

theorem update_pos_congr (j : Joint) (bs bs' : List Body)
    (h1 : (bodyAt bs' j.i1).p = (bodyAt bs j.i1).p)
    (h2 : ∀ k ∈ j.i2, (bodyAt bs' k).p = (bodyAt bs k).p) :
    j.update_pos bs' = j.update_pos bs := by
  unfold Joint.update_pos Body.pos
  cases hk : j.kind <;> simp only [h1] <;>
  · cases hi : j.i2 with
    | none => rfl
    | some k => simp only [h2 k (by simp [hi])]

theorem update_pos_idem (j : Joint) (bs : List Body) :
    (j.update_pos bs).update_pos bs = j.update_pos bs := by
  obtain ⟨kind, i1, i2, pos, pos1, pos2, r1, rot1, rot2⟩ := j
  cases kind <;> cases i2 <;> rfl

theorem move_is_fix (j : Joint) (bs : List Body) (d : ℝ) :
    (j.move bs d).update_pos bs = j.move bs d := by
  unfold Joint.move
  cases hk : j.kind <;> simp only [update_pos_idem]

/-- `rot2` after rejected attempts of total length `s` -/
def Joint.drift (j : Joint) (bs : List Body) (s : ℝ) : Joint :=
  match j.kind, j.i2 with
  | .revolute, some k => { j with rot2 := j.rot2 + (bodyAt bs k).v.r * s }
  | _, _ => j

theorem drift_zero (j : Joint) (bs : List Body) : j.drift bs 0 = j := by
  obtain ⟨kind, i1, i2, pos, pos1, pos2, r1, rot1, rot2⟩ := j
  cases kind <;> cases i2 <;> simp [Joint.drift]

theorem drift_rot1 (j : Joint) (bs : List Body) (s : ℝ) : (j.drift bs s).rot1 = j.rot1 := by
  unfold Joint.drift; cases hk : j.kind <;> cases hi : j.i2 <;> rfl

/-- One rejected attempt: move, then restore. -/
theorem joint_reject (j : Joint) (bs bs1 bs2 : List Body) (d s : ℝ)
    (hfix : j.update_pos bs = j)
    (hv : ∀ k ∈ j.i2, (bodyAt bs1 k).v.r = (bodyAt bs k).v.r)
    (h1 : (bodyAt bs2 j.i1).p = (bodyAt bs j.i1).p)
    (h2 : ∀ k ∈ j.i2, (bodyAt bs2 k).p = (bodyAt bs k).p) :
    ({ (j.drift bs s).move bs1 d with rot1 := j.rot1 }).update_pos bs2 = j.drift bs (s + d) := by
  obtain ⟨kind, i1, i2, pos, pos1, pos2, r1, rot1, rot2⟩ := j
  cases kind <;> cases i2 <;>
    simp only [Joint.drift, Joint.move, Joint.update_pos, Body.pos, Option.mem_def,
      Option.some.injEq, forall_eq', Joint.mk.injEq, true_and, and_true, reduceCtorEq,
      false_implies, implies_true] at * <;>
    simp_all
  · rw [← hfix.2]; exact hfix.1
  · obtain ⟨e1, e2, e3⟩ := hfix
    rw [← e2]; exact ⟨e1, e3, by ring⟩
  · rw [← hfix.1]; exact hfix.2.2
  · rw [← hfix.2]; exact hfix.1
  · rw [← hfix.2]; exact hfix.1

/-! ### the stepping loop -/

/-- The world after an accepted attempt of length `d`, when the rejected attempts before it had
total length `s`, and the finder was in state `f'` and reported `cs`. -/
def World.accepted (w : World σ φ) (d s : ℝ) (f' : φ) (cs : List Contact) : World σ φ :=
  { w with
    bodies := w.bodies.map fun b => b.move d
    joints := w.joints.map fun j => (j.drift w.bodies s).move (w.bodies.map fun b => b.move d) d
    contacts := cs
    fnd := f' }

/-- Accept test of one attempt. -/
def World.accepts (w : World σ φ) (d : ℝ) (cs : List Contact) : Prop :=
  (∀ c ∈ cs, c.pen ≤ w.tol) ∨ (w.strict_no_pen = false ∧ d < w.dt / 4)

open Classical in
/-- The loop without state to roll back: every attempt starts from `w`. -/
def specLoop (env : Env σ φ) (w : World σ φ) : ℕ → φ → ℝ → ℝ → Run (World σ φ × ℝ)
  | 0, _, _, _ => .running
  | fuel + 1, f, d, s =>
    match env.collide w.eps f (w.bodies.map fun b => b.move d) with
    | .error e => .raised e
    | .ok (f', cs) =>
      if w.accepts d cs then .done (w.accepted d s f' cs, d)
      else specLoop env w fuel f' (d / 2) (s + d)

/-- Invariants of a world between steps. -/
structure World.Good (w : World σ φ) : Prop where
  rect : ∀ b ∈ w.bodies, b.RectForm
  valid : ∀ j ∈ w.joints, j.Valid w.bodies.length
  fix : ∀ j ∈ w.joints, j.update_pos w.bodies = j
  vel : ∀ (i : ℕ) (h : i < w.bodies.length), (w.bodies[i]).v = slice3 w.v i

/-- The state in which the loop starts an attempt. -/
structure LoopState (w0 : World σ φ) (s : ℝ) (w : World σ φ) : Prop where
  scal : w.t = w0.t ∧ w.dt = w0.dt ∧ w.eps = w0.eps ∧ w.tol = w0.tol ∧
    w.post_stab = w0.post_stab ∧ w.strict_no_pen = w0.strict_no_pen ∧ w.v = w0.v ∧ w.eng = w0.eng
  bodies : w.bodies = w0.bodies ∨
    ∃ d, w.bodies = w0.bodies.map fun b => (b.move d).set_p b.p
  joints : w.joints = w0.joints.map fun j => j.drift w0.bodies s

theorem map_congr_mem {α β : Type} {l : List α} {f g : α → β} (h : ∀ a ∈ l, f a = g a) :
    l.map f = l.map g := List.map_congr_left h

theorem loopState_move {w0 w : World σ φ} {s : ℝ} (hg : w0.Good) (h : LoopState w0 s w) (d : ℝ) :
    w.bodies.map (fun b => b.move d) = w0.bodies.map fun b => b.move d := by
  rcases h.bodies with hb | ⟨d', hb⟩
  · rw [hb]
  · rw [hb, List.map_map]
    apply map_congr_mem
    intro b hb
    exact move_rollback_move b d' d (hg.rect b hb)

theorem stepLoop_eq_spec (env : Env σ φ) (w0 : World σ φ) (hg : w0.Good) (fuel : ℕ) :
    ∀ (w : World σ φ) (d s : ℝ), LoopState w0 s w →
      stepLoop env (cat3 (w0.bodies.map Body.p)) (w0.joints.map fun j => (j.rot1, j.rot2)) fuel w d
        = specLoop env w0 fuel w.fnd d s := by
  induction fuel with
  | zero => intro w d s _; rfl
  | succ n ih =>
    intro w d s h
    have hm := loopState_move hg h d
    obtain ⟨e1, e2, e3, e4, e5, e6, e7, e8⟩ := h.scal
    unfold stepLoop specLoop
    simp only [World.find_contacts, World.moveBodies, World.moveJoints, hm, e3]
    cases hc : env.collide w0.eps w.fnd (w0.bodies.map fun b => b.move d) with
    | error e => rfl
    | ok r =>
      obtain ⟨f', cs⟩ := r
      have done_eq : ∀ w1 : World σ φ, w1 = { w with
            bodies := w0.bodies.map fun b => b.move d
            joints := w.joints.map fun j => j.move (w0.bodies.map fun b => b.move d) d
            contacts := cs
            fnd := f' } → w1 = w0.accepted d s f' cs := by
        rintro _ rfl
        unfold World.accepted
        rw [h.joints, List.map_map, e1, e2, e3, e4, e5, e6, e7, e8]
        rfl
      simp only [Run.bind_done]
      split_ifs with h1 h2 h3 h4 h5
      · congr 2
        apply done_eq; rw [e2, e3, e4, e6]
      · exact absurd (Or.inl (by intro c hc; rw [← e4]; exact h1 c hc)) h2
      · congr 2
        apply done_eq; rw [e2, e3, e4, e6]
      · refine absurd (Or.inr ?_) h4
        simpa [e2, e6] using h3
      · exfalso
        rcases h5 with h5 | h5
        · exact h1 (by intro c hc; simp only [e4]; exact h5 c hc)
        · exact h3 (by simpa [e2, e6] using h5)
      · rw [ih _ _ (s + d)]
        · rfl
        · refine ⟨?_, ?_, ?_⟩
          · simp [World.restoreJoints, World.set_p, e1, e2, e4, e5, e6, e7, e8]
          · right
            refine ⟨d, ?_⟩
            have := set_p_bodies (σ := σ) (φ := φ)
              { w with bodies := w0.bodies.map fun b => b.move d }
              w0.bodies (fun b => b.move d) rfl
            exact this
          · have hset := set_p_bodies (σ := σ) (φ := φ)
              { w with bodies := w0.bodies.map fun b => b.move d }
              w0.bodies (fun b => b.move d) rfl
            simp only [World.restoreJoints, World.set_p] at hset ⊢
            rw [hset, h.joints]
            apply List.ext_getElem
            · simp
            · intro i h1 h2
              have hi : i < w0.joints.length := by simpa using h2
              simp only [List.getElem_map, List.getElem_zip]
              have hmem := List.getElem_mem hi
              have hval := hg.valid _ hmem
              have hfix := hg.fix _ hmem
              generalize w0.joints[i] = j at *
              apply joint_reject j w0.bodies _ _ d s hfix
              · intro k hk
                rw [bodyAt_map _ _ _ (hval.2 k hk), move_v]
              · rw [bodyAt_map _ _ _ hval.1, set_p_p]
              · intro k hk
                rw [bodyAt_map _ _ _ (hval.2 k hk), set_p_p]

/-! ### consequences -/

theorem specLoop_done {env : Env σ φ} {w : World σ φ} :
    ∀ {fuel : ℕ} {f : φ} {d s : ℝ} {w' : World σ φ} {d' : ℝ},
      specLoop env w fuel f d s = .done (w', d') →
      ∃ k < fuel, d' = d / 2 ^ k ∧
        (∃ fk f' cs, env.collide w.eps fk (w.bodies.map fun b => b.move d') = .ok (f', cs) ∧
          w.accepts d' cs ∧ w' = w.accepted d' (s + 2 * (d - d')) f' cs) ∧
        ∀ j < k, ∃ fj fj' cs, env.collide w.eps fj (w.bodies.map fun b => b.move (d / 2 ^ j))
          = .ok (fj', cs) ∧ ¬ w.accepts (d / 2 ^ j) cs := by
  intro fuel
  induction fuel with
  | zero => intro f d s w' d' h; simp [specLoop] at h
  | succ n ih =>
    intro f d s w' d' h
    unfold specLoop at h
    cases hc : env.collide w.eps f (w.bodies.map fun b => b.move d) with
    | error e => rw [hc] at h; simp at h
    | ok r =>
      obtain ⟨f', cs⟩ := r
      rw [hc] at h
      simp only at h
      split_ifs at h with ha
      · simp only [Run.done.injEq, Prod.mk.injEq] at h
        obtain ⟨rfl, rfl⟩ := h
        refine ⟨0, by omega, by simp, ⟨f, f', cs, hc, ha, by simp⟩, ?_⟩
        intro j hj; omega
      · obtain ⟨k, hk, hd, ⟨fk, f2, cs2, h1, h2, h3⟩, h4⟩ := ih h
        refine ⟨k + 1, by omega, ?_, ⟨fk, f2, cs2, h1, h2, ?_⟩, ?_⟩
        · rw [hd, pow_succ]; field_simp
        · rw [h3]; congr 1; ring
        · intro j hj
          cases j with
          | zero => exact ⟨f, f', cs, by simpa using hc, by simpa using ha⟩
          | succ j =>
            obtain ⟨a, b, c, e1, e2⟩ := h4 j (by omega)
            have : d / 2 / 2 ^ j = d / 2 ^ (j + 1) := by rw [pow_succ]; field_simp
            rw [this] at e1 e2
            exact ⟨a, b, c, e1, e2⟩

theorem good_set_v {w : World σ φ} (hg : w.Good) (v : Vec) (e : σ) :
    (({ w with eng := e } : World σ φ).set_v v).Good := by
  have hlen : (({ w with eng := e } : World σ φ).set_v v).bodies.length = w.bodies.length := by
    simp [World.set_v]
  have hp : ∀ k, (bodyAt (({ w with eng := e } : World σ φ).set_v v).bodies k).p
      = (bodyAt w.bodies k).p := by
    intro k
    by_cases hk : k < w.bodies.length
    · simp [bodyAt, List.getD_eq_getElem?_getD, World.set_v, hk]
    · simp [bodyAt, List.getD_eq_getElem?_getD, World.set_v, hk]
  refine ⟨?_, ?_, ?_, ?_⟩
  · intro b hb
    obtain ⟨i, hi, rfl⟩ := List.getElem_of_mem hb
    rw [set_v_getElem]
    have hi' : i < w.bodies.length := by simpa [hlen] using hi
    have := hg.rect _ (List.getElem_mem hi')
    exact this
  · intro j hj
    rw [hlen]; exact hg.valid j hj
  · intro j hj
    rw [update_pos_congr j w.bodies _ (hp _) (fun k _ => hp k)]
    exact hg.fix j hj
  · intro i hi
    rw [set_v_getElem]; rfl

theorem set_v_poses (w : World σ φ) (v : Vec) : (w.set_v v).bodies.map Body.p = w.bodies.map Body.p := by
  apply List.ext_getElem
  · simp [World.set_v]
  · intro i h1 h2
    simp [World.set_v]

theorem good_moved {w : World σ φ} (hg : w.Good) (d : ℝ) (g : Joint → Joint) (cs : List Contact) (f : φ)
    (hgi : ∀ j, (g j).i1 = j.i1 ∧ (g j).i2 = j.i2) :
    ({ w with
      bodies := w.bodies.map fun b => b.move d
      joints := w.joints.map fun j => (g j).move (w.bodies.map fun b => b.move d) d
      contacts := cs
      fnd := f } : World σ φ).Good := by
  have hmv : ∀ (j : Joint) (bs : List Body), (j.move bs d).i1 = j.i1 ∧ (j.move bs d).i2 = j.i2 := by
    intro j bs
    obtain ⟨kind, i1, i2, pos, pos1, pos2, r1, rot1, rot2⟩ := j
    cases kind <;> exact ⟨rfl, rfl⟩
  refine ⟨?_, ?_, ?_, ?_⟩
  · intro b hb
    simp only [List.mem_map] at hb
    obtain ⟨b0, hb0, rfl⟩ := hb
    exact set_p_rectForm _ _ (hg.rect b0 hb0)
  · intro j hj
    simp only [List.mem_map] at hj
    obtain ⟨j0, hj0, rfl⟩ := hj
    have := hg.valid j0 hj0
    unfold Joint.Valid at *
    rw [(hmv _ _).1, (hmv _ _).2, (hgi _).1, (hgi _).2]
    simpa using this
  · intro j hj
    simp only [List.mem_map] at hj
    obtain ⟨j0, hj0, rfl⟩ := hj
    exact move_is_fix _ _ _
  · intro i hi
    simp only [List.length_map] at hi
    simp only [List.getElem_map, move_v]
    exact hg.vel i hi

theorem drift_idx (j : Joint) (bs : List Body) (s : ℝ) :
    (j.drift bs s).i1 = j.i1 ∧ (j.drift bs s).i2 = j.i2 := by
  unfold Joint.drift; cases hk : j.kind <;> cases hi : j.i2 <;> simp [hi]

theorem good_accepted {w : World σ φ} (hg : w.Good) (d s : ℝ) (f : φ) (cs : List Contact) :
    (w.accepted d s f cs).Good :=
  good_moved hg d (fun j => j.drift w.bodies s) cs f (fun j => drift_idx j _ _)

/-- `step_dt` on a good world, with the loop replaced by `specLoop`. -/
theorem step_dt_eq (env : Env σ φ) (fuel : ℕ) (w : World σ φ) (hg : w.Good) (dt : ℝ) :
    w.step_dt env fuel dt =
      (Run.ofExcept (env.solve_dynamics w dt)).bind fun r =>
        (specLoop env (({ w with eng := r.1 } : World σ φ).set_v r.2) fuel w.fnd dt 0).bind fun r =>
          (if r.1.post_stab then postStab env r.1 r.2 else .done r.1).bind fun w =>
            .done { w with t := w.t + r.2 } := by
  unfold World.step_dt
  cases hs : env.solve_dynamics w dt with
  | error e => rfl
  | ok r =>
    simp only [Run.ofExcept, Run.bind_done]
    have hg1 := good_set_v hg r.2 r.1
    have h := stepLoop_eq_spec env (({ w with eng := r.1 } : World σ φ).set_v r.2) hg1 fuel
      (({ w with eng := r.1 } : World σ φ).set_v r.2) dt 0
      ⟨⟨rfl, rfl, rfl, rfl, rfl, rfl, rfl, rfl⟩, Or.inl rfl, by
        have : (fun j : Joint => j.drift (({ w with eng := r.1 } : World σ φ).set_v r.2).bodies 0)
            = id := by funext j; exact drift_zero j _
        rw [this, List.map_id]⟩
    rw [set_v_poses] at h
    exact congrArg (fun l => Run.bind l _) h

/-- What a returning `step_dt` did. -/
theorem step_dt_done {env : Env σ φ} {fuel : ℕ} {w w' : World σ φ} {dt : ℝ} (hg : w.Good)
    (h : w.step_dt env fuel dt = .done w') :
    ∃ (e : σ) (v : Vec) (k : ℕ) (w1 w2 : World σ φ),
      env.solve_dynamics w dt = .ok (e, v) ∧ k < fuel ∧
      w1 = ({ w with eng := e } : World σ φ).set_v v ∧ w1.Good ∧
      (∃ fk f' cs, env.collide w.eps fk (w1.bodies.map fun b => b.move (dt / 2 ^ k)) = .ok (f', cs) ∧
        w1.accepts (dt / 2 ^ k) cs ∧
        w2 = w1.accepted (dt / 2 ^ k) (2 * (dt - dt / 2 ^ k)) f' cs) ∧
      (∀ j < k, ∃ fj fj' cs, env.collide w.eps fj
        (w1.bodies.map fun b => b.move (dt / 2 ^ j)) = .ok (fj', cs) ∧ ¬ w1.accepts (dt / 2 ^ j) cs) ∧
      ((w.post_stab = false ∧ w' = { w2 with t := w.t + dt / 2 ^ k }) ∨
       (w.post_stab = true ∧ ∃ dp f2 cs2, env.post_stabilization w2 = .ok dp ∧
         ∃ w3, w3 = (((w2.set_v fun k => dp k / 2).moveBodies (dt / 2 ^ k)).moveJoints (dt / 2 ^ k)).set_v v
          ∧ env.collide w.eps w2.fnd w3.bodies = .ok (f2, cs2) ∧
          w' = { w3 with contacts := cs2, fnd := f2, t := w.t + dt / 2 ^ k })) := by
  rw [step_dt_eq env fuel w hg dt, Run.bind_eq_done] at h
  obtain ⟨⟨e, v⟩, hs, h⟩ := h
  rw [Run.ofExcept_eq_done] at hs
  rw [Run.bind_eq_done] at h
  obtain ⟨⟨w2, d⟩, hl, h⟩ := h
  obtain ⟨k, hk, hd, ⟨fk, f', cs, h1, h2, h3⟩, h4⟩ := specLoop_done hl
  simp only [zero_add] at h3
  subst hd
  refine ⟨e, v, k, ({ w with eng := e } : World σ φ).set_v v, w2, hs, hk, rfl,
    good_set_v hg v e, ⟨fk, f', cs, h1, h2, h3⟩, h4, ?_⟩
  have hps : w2.post_stab = w.post_stab := by rw [h3]; rfl
  have ht : w2.t = w.t := by rw [h3]; rfl
  have heps : w2.eps = w.eps := by rw [h3]; rfl
  have hv : w2.v = v := by rw [h3]; rfl
  simp only [hps] at h
  rw [Run.bind_eq_done] at h
  obtain ⟨w3, h5, h6⟩ := h
  simp only [Run.done.injEq] at h6
  cases hp : w.post_stab with
  | false =>
    left
    simp only [hp, Bool.false_eq_true, ↓reduceIte, Run.done.injEq] at h5
    subst h5
    exact ⟨rfl, by rw [← h6, ht]⟩
  | true =>
    right
    refine ⟨rfl, ?_⟩
    simp only [hp, ↓reduceIte, postStab] at h5
    rw [Run.bind_eq_done] at h5
    obtain ⟨dp, h7, h8⟩ := h5
    rw [Run.ofExcept_eq_done] at h7
    rw [hv] at h8
    generalize hw3 : (((w2.set_v fun k => dp k / 2).moveBodies (dt / 2 ^ k)).moveJoints
      (dt / 2 ^ k)).set_v v = w4 at h8
    have heps4 : w4.eps = w.eps := by rw [← hw3]; exact heps
    have hf4 : w4.fnd = w2.fnd := by rw [← hw3]; rfl
    have ht4 : w4.t = w.t := by rw [← hw3]; exact ht
    unfold World.find_contacts at h8
    rw [heps4, hf4] at h8
    cases hc : env.collide w.eps w2.fnd w4.bodies with
    | error er => rw [hc] at h8; simp at h8
    | ok r =>
      obtain ⟨f2, cs2⟩ := r
      rw [hc] at h8
      simp only [Run.done.injEq] at h8
      refine ⟨dp, f2, cs2, h7, w4, hw3.symm, hc, ?_⟩
      rw [← h6, ← h8, ht4, heps4]

theorem good_congr {w w' : World σ φ} (hg : w.Good) (hb : w'.bodies = w.bodies)
    (hj : w'.joints = w.joints) (hv : w'.v = w.v) : w'.Good := by
  refine ⟨?_, ?_, ?_, ?_⟩
  · rw [hb]; exact hg.rect
  · rw [hb, hj]; exact hg.valid
  · rw [hb, hj]; exact hg.fix
  · intro i hi; simp only [hb, hv]; exact hg.vel i (by simpa [hb] using hi)

/-- Goodness is preserved by every returning step. -/
theorem step_dt_good {env : Env σ φ} {fuel : ℕ} {w w' : World σ φ} {dt : ℝ} (hg : w.Good)
    (h : w.step_dt env fuel dt = .done w') : w'.Good := by
  obtain ⟨e, v, k, w1, w2, _, _, hw1, hg1, ⟨fk, f', cs, _, _, hw2⟩, _, hend⟩ := step_dt_done hg h
  have hg2 : w2.Good := by rw [hw2]; exact good_accepted hg1 _ _ _ _
  rcases hend with ⟨_, rfl⟩ | ⟨_, dp, f2, cs2, _, w3, hw3, _, rfl⟩
  · exact good_congr hg2 rfl rfl rfl
  · have h1 : (w2.set_v fun k => dp k / 2).Good := good_set_v hg2 _ w2.eng
    have h2 := good_moved h1 (dt / 2 ^ k) id w2.contacts w2.fnd (fun j => ⟨rfl, rfl⟩)
    have h3 := good_set_v h2 v w2.eng
    refine good_congr (w := w3) ?_ rfl rfl rfl
    rw [hw3]
    exact h3

theorem step_dt_params {env : Env σ φ} {fuel : ℕ} {w w' : World σ φ} {dt : ℝ} (hg : w.Good)
    (h : w.step_dt env fuel dt = .done w') :
    w'.dt = w.dt ∧ w'.eps = w.eps ∧ w'.tol = w.tol ∧ w'.post_stab = w.post_stab ∧
      w'.strict_no_pen = w.strict_no_pen ∧ w'.bodies.length = w.bodies.length ∧
      w'.joints.length = w.joints.length := by
  obtain ⟨e, v, k, w1, w2, _, _, hw1, hg1, ⟨fk, f', cs, _, _, hw2⟩, _, hend⟩ := step_dt_done hg h
  rcases hend with ⟨_, rfl⟩ | ⟨_, dp, f2, cs2, _, w3, hw3, _, rfl⟩
  · subst hw2 hw1; simp [World.accepted, World.set_v]
  · subst hw3 hw2 hw1; simp [World.accepted, World.set_v, World.moveBodies, World.moveJoints]

end LcpPhysics
