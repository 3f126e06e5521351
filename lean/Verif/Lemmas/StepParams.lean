import Verif.Lemmas.World
import Verif.Spec.Run
import Verif.Lemmas.Inverse

/-! # What a step leaves unchanged: masses, coefficients, the wiring of the joints -/

noncomputable section

namespace LcpPhysics
open Spec

variable {σ φ : Type}

/-- The physical constants of a body. -/
def Body.consts (b : Body) : ℝ × ℝ × ℝ × ℝ := (b.mass, b.ang_inertia, b.restitution, b.fric_coeff)

/-- The wiring of a joint. -/
def Joint.wiring (j : Joint) : JKind × ℕ × Option ℕ := (j.kind, j.i1, j.i2)

theorem set_p_consts (b : Body) (q : V3) : (b.set_p q).consts = b.consts := by
  unfold Body.set_p
  cases b.shape <;> rfl

theorem move_consts (b : Body) (d : ℝ) : (b.move d).consts = b.consts := set_p_consts b _

theorem update_pos_wiring (j : Joint) (bs : List Body) : (j.update_pos bs).wiring = j.wiring := by
  obtain ⟨kind, i1, i2, pos, pos1, pos2, r1, rot1, rot2⟩ := j
  cases kind <;> rfl

theorem joint_move_wiring (j : Joint) (bs : List Body) (d : ℝ) : (j.move bs d).wiring = j.wiring := by
  obtain ⟨kind, i1, i2, pos, pos1, pos2, r1, rot1, rot2⟩ := j
  cases kind <;> rfl

theorem drift_wiring (j : Joint) (bs : List Body) (s : ℝ) : (j.drift bs s).wiring = j.wiring := by
  obtain ⟨kind, i1, i2, pos, pos1, pos2, r1, rot1, rot2⟩ := j
  cases kind <;> cases i2 <;> rfl

theorem set_v_consts (w : World σ φ) (v : Vec) :
    (w.set_v v).bodies.map Body.consts = w.bodies.map Body.consts := by
  apply List.ext_getElem
  · simp [World.set_v]
  · intro i h1 h2
    simp [World.set_v, Body.consts]

theorem moveBodies_consts (bs : List Body) (d : ℝ) :
    (bs.map fun b => b.move d).map Body.consts = bs.map Body.consts := by
  rw [List.map_map]
  exact List.map_congr_left fun b _ => move_consts b d

/-- `w'` has the same masses, coefficients and joint wiring as `w`. -/
def SameStatics (w w' : World σ φ) : Prop :=
  w'.bodies.map Body.consts = w.bodies.map Body.consts ∧
  w'.joints.map Joint.wiring = w.joints.map Joint.wiring

theorem SameStatics.trans {w w' w'' : World σ φ} (h : SameStatics w w') (h' : SameStatics w' w'') :
    SameStatics w w'' := ⟨h'.1.trans h.1, h'.2.trans h.2⟩

theorem sameStatics_set_v (w : World σ φ) (v : Vec) (e : σ) :
    SameStatics w (({ w with eng := e } : World σ φ).set_v v) :=
  ⟨set_v_consts _ v, rfl⟩

theorem sameStatics_accepted (w : World σ φ) (d s : ℝ) (f : φ) (cs : List Contact) :
    SameStatics w (w.accepted d s f cs) := by
  refine ⟨moveBodies_consts _ _, ?_⟩
  simp only [World.accepted]
  rw [List.map_map]
  exact List.map_congr_left fun j _ => by
    simp only [Function.comp, joint_move_wiring, drift_wiring]

theorem step_dt_statics {env : Env σ φ} {fuel : ℕ} {w w' : World σ φ} {dt : ℝ} (hg : w.Good)
    (h : w.step_dt env fuel dt = .done w') : SameStatics w w' := by
  obtain ⟨e, v, k, w1, w2, _, _, hw1, hg1, ⟨fk, f', cs, _, _, hw2⟩, _, hend⟩ := step_dt_done hg h
  have h12 : SameStatics w w2 := by
    rw [hw2, hw1]
    exact (sameStatics_set_v w v e).trans (sameStatics_accepted _ _ _ _ _)
  rcases hend with ⟨_, rfl⟩ | ⟨_, dp, f2, cs2, _, w3, hw3, _, rfl⟩
  · exact h12
  · refine h12.trans ?_
    subst hw3
    constructor
    · show ((((w2.set_v fun k => dp k / 2).moveBodies (dt / 2 ^ k)).moveJoints
        (dt / 2 ^ k)).set_v v).bodies.map Body.consts = _
      rw [set_v_consts]
      simp only [World.moveJoints, World.moveBodies]
      rw [moveBodies_consts, set_v_consts]
    · simp only [World.moveJoints, World.moveBodies, World.set_v]
      rw [List.map_map]
      exact List.map_congr_left fun j _ => by simp only [Function.comp, joint_move_wiring]

theorem sameStatics_length {w w' : World σ φ} (h : SameStatics w w') :
    w'.bodies.length = w.bodies.length := by
  have := congrArg List.length h.1
  simpa using this

theorem sameStatics_num {w w' : World σ φ} (h : SameStatics w w') :
    w'.num_constraints = w.num_constraints := by
  have := congrArg (fun l : List (JKind × ℕ × Option ℕ) => (l.map fun x => x.1.num_constraints).sum) h.2
  simpa [List.map_map, Function.comp_def, Joint.wiring, World.num_constraints] using this

theorem sameStatics_static {w w' : World σ φ} (h : SameStatics w w') :
    w'.static_inverse = w.static_inverse := by
  have := congrArg (fun l : List (JKind × ℕ × Option ℕ) => l.all fun x => x.1.static) h.2
  simpa [List.all_map, Function.comp_def, Joint.wiring, World.static_inverse] using this

theorem massLoop_congr : ∀ (bs bs' : List Body), bs'.map Body.consts = bs.map Body.consts →
    ∀ i A, massLoop bs' i A = massLoop bs i A
  | [], [], _, _, _ => rfl
  | [], _ :: _, h, _, _ => by simp at h
  | _ :: _, [], h, _, _ => by simp at h
  | b :: bs, b' :: bs', h, i, A => by
    simp only [List.map_cons, List.cons.injEq] at h
    have hb : b'.M = b.M := by
      have := h.1
      simp only [Body.consts, Prod.mk.injEq] at this
      unfold Body.M
      rw [this.1, this.2.1]
    unfold massLoop
    rw [hb]
    exact massLoop_congr bs bs' h.2 _ _

theorem sameStatics_M {w w' : World σ φ} (h : SameStatics w w') : w'.M = w.M :=
  massLoop_congr _ _ h.1 _ _

/-- The Jacobian of a static constraint depends only on its class. -/
theorem J_static (j j' : Joint) (h : j'.wiring = j.wiring) (hs : j.kind.static = true) :
    j'.J = j.J := by
  obtain ⟨kind, i1, i2, pos, pos1, pos2, r1, rot1, rot2⟩ := j
  obtain ⟨kind', i1', i2', pos', pos1', pos2', r1', rot1', rot2'⟩ := j'
  simp only [Joint.wiring, Prod.mk.injEq] at h
  obtain ⟨rfl, rfl, rfl⟩ := h
  cases kind' <;> first | rfl | (simp [JKind.static] at hs)

theorem JeLoop_congr : ∀ (js js' : List Joint), js'.map Joint.wiring = js.map Joint.wiring →
    (∀ j ∈ js, j.kind.static = true) → ∀ r A, JeLoop js' r A = JeLoop js r A
  | [], [], _, _, _, _ => rfl
  | [], _ :: _, h, _, _, _ => by simp at h
  | _ :: _, [], h, _, _, _ => by simp at h
  | j :: js, j' :: js', h, hs, r, A => by
    simp only [List.map_cons, List.cons.injEq] at h
    have hJ := J_static j j' h.1 (hs j (by simp))
    have hw := h.1
    simp only [Joint.wiring, Prod.mk.injEq] at hw
    unfold JeLoop
    simp only [hJ, hw.1, hw.2.1, hw.2.2]
    exact JeLoop_congr js js' h.2 (fun j hj => hs j (by simp [hj])) _ _

theorem sameStatics_Je {w w' : World σ φ} (h : SameStatics w w') (hs : w.static_inverse = true) :
    w'.Je = w.Je := by
  apply JeLoop_congr _ _ h.2
  simpa [World.static_inverse] using hs

theorem sameStatics_bodyAt {w w' : World σ φ} (h : SameStatics w w') (i : ℕ) :
    (bodyAt w'.bodies i).consts = (bodyAt w.bodies i).consts := by
  have hl := sameStatics_length h
  by_cases hi : i < w.bodies.length
  · have := congrArg (fun l : List (ℝ × ℝ × ℝ × ℝ) => l[i]?) h.1
    simp only [List.getElem?_map, List.getElem?_eq_getElem hi,
      List.getElem?_eq_getElem (hl ▸ hi : i < w'.bodies.length), Option.map_some,
      Option.some.injEq] at this
    simpa [bodyAt, List.getD_eq_getElem?_getD, hi, hl] using this
  · simp [bodyAt, List.getD_eq_getElem?_getD, hi, hl]

theorem reaches_statics {env : Env σ φ} {w w' : World σ φ} (hg : w.Good) (h : Reaches env w w') :
    w'.Good ∧ SameStatics w w' := by
  induction h with
  | refl => exact ⟨hg, rfl, rfl⟩
  | tail _ hstep ih =>
    obtain ⟨fuel, dt, hs⟩ := hstep
    exact ⟨step_dt_good ih.1 hs, ih.2.trans (step_dt_statics ih.1 hs)⟩

end LcpPhysics
