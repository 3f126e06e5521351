import Verif.Model.Forces
import Verif.Model.Recorder
import Mathlib.Algebra.BigOperators.Group.List.Basic
import Mathlib.Tactic.Linarith
import Mathlib.Tactic.NormNum
import Mathlib.Algebra.Order.Floor.Ring
import Mathlib.Algebra.Order.Archimedean.Basic
import Mathlib.Data.List.Perm.Basic

/-! # C56, C57, C58: forces and the recorder -/

noncomputable section

namespace LcpPhysics

/-! ## C56 -/

/-- C56: the impulse functions are the unit force before `t = 0.1` and zero from then on. -/
theorem C56_impulses (t : ℝ) :
    (t < 1 / 10 → vert_impulse t = ⟨0, 0, 1⟩ ∧ hor_impulse t = ⟨0, 1, 0⟩ ∧ rot_impulse t = ⟨1, 0, 0⟩) ∧
    (1 / 10 ≤ t → vert_impulse t = ⟨0, 0, 0⟩ ∧ hor_impulse t = ⟨0, 0, 0⟩ ∧
      rot_impulse t = ⟨0, 0, 0⟩) := by
  have e : (0.1 : ℝ) = 1 / 10 := by norm_num
  unfold vert_impulse hor_impulse rot_impulse
  rw [e]
  constructor
  · intro h; rw [if_pos h, if_pos h, if_pos h]; exact ⟨rfl, rfl, rfl⟩
  · intro h
    rw [if_neg (not_lt.2 h), if_neg (not_lt.2 h), if_neg (not_lt.2 h)]; exact ⟨rfl, rfl, rfl⟩

theorem sumForces_eq (l : List V3) : ∀ acc : V3, sumForces (l.map some) acc =
    some ⟨acc.r + (l.map V3.r).sum, acc.x + (l.map V3.x).sum, acc.y + (l.map V3.y).sum⟩ := by
  induction l with
  | nil => intro acc; simp [sumForces]
  | cons a l ih =>
    intro acc
    simp only [List.map_cons, sumForces, List.sum_cons]
    rw [ih]
    simp only [V3.add_r, V3.add_x, V3.add_y, add_assoc]

/-- C56: a body's force is the componentwise sum of its force objects' values. -/
theorem C56_forces_superpose (H : ForceHeap) (i : ℕ) (t : ℝ) (fs : List V3)
    (h : (H.attached i).map (fun k => (H.obj k).force t) = fs.map some) :
    H.apply_forces i t = some ⟨(fs.map V3.r).sum, (fs.map V3.x).sum, (fs.map V3.y).sum⟩ := by
  unfold ForceHeap.apply_forces
  by_cases h0 : (H.attached i).length = 0
  · rw [if_pos h0]
    have : fs = [] := by
      have := congrArg List.length h
      simp only [List.length_map, h0] at this
      exact List.length_eq_zero_iff.1 this.symm
    subst this
    rfl
  · rw [if_neg h0, h, sumForces_eq]
    simp

/-- C56: no forces, no force. -/
theorem C56_no_forces (H : ForceHeap) (i : ℕ) (t : ℝ) (h : H.attached i = []) :
    H.apply_forces i t = some ⟨0, 0, 0⟩ := by
  simpa using C56_forces_superpose H i t [] (by simp [h])

/-- C56: an external force is the multiplier times the force function's value. -/
theorem C56_multiplier (f : ℝ → V3) (m t : ℝ) : (Force.external f m).force t =
    some ⟨m * (f t).r, m * (f t).x, m * (f t).y⟩ := rfl

/-- The accumulated sum does not depend on the order. -/
theorem sumForces_perm {l l' : List (Option V3)} (h : l.Perm l') (acc : V3) :
    sumForces l acc = sumForces l' acc := by
  induction h generalizing acc with
  | nil => rfl
  | cons x _ ih => cases x <;> simp only [sumForces, ih]
  | swap x y l =>
    cases x <;> cases y <;> simp only [sumForces]
    congr 1
    ext <;> simp <;> ring
  | trans _ _ ih1 ih2 => rw [ih1, ih2]

/-- C56: the order in which two forces are added to a body is irrelevant. -/
theorem C56_add_force_comm (H : ForceHeap) (i : ℕ) (m : ℝ) (a b : ℕ) (k : ℕ) (t : ℝ) :
    ((H.add_force i m a).add_force i m b).apply_forces k t =
      ((H.add_force i m b).add_force i m a).apply_forces k t := by
  have hobj : ((H.add_force i m a).add_force i m b).obj = ((H.add_force i m b).add_force i m a).obj := by
    funext h
    simp only [ForceHeap.add_force]
    by_cases h1 : h = a <;> by_cases h2 : h = b <;> simp [h1, h2]
    all_goals split_ifs <;> rfl
  have hatt : (((H.add_force i m a).add_force i m b).attached k).Perm
      (((H.add_force i m b).add_force i m a).attached k) := by
    simp only [ForceHeap.add_force]
    by_cases hk : k = i
    · simp only [if_pos hk, List.append_assoc]
      exact List.Perm.append_left _ (List.Perm.swap _ _ _)
    · simp only [if_neg hk]; exact List.Perm.refl _
  unfold ForceHeap.apply_forces
  rw [hobj, hatt.length_eq, sumForces_perm (hatt.map _)]

example : ({ obj := fun _ => .external down_force 100, attached := fun _ => [0, 1] } :
    ForceHeap).apply_forces 0 3 = some ⟨0, 0, 200⟩ := by
  rw [C56_forces_superpose _ 0 3 [⟨0, 0, 100⟩, ⟨0, 0, 100⟩]]
  · norm_num
  · simp only [List.map_cons, List.map_nil, C56_multiplier, down_force, DOWN]; norm_num

/-! ## C57 -/

/-- The heap after a history of `add_force` calls (body, handle); `mass` gives the bodies' masses. -/
def afterAdds (mass : ℕ → ℝ) (H : ForceHeap) (calls : List (ℕ × ℕ)) : ForceHeap :=
  calls.foldl (fun H c => H.add_force c.1 (mass c.1) c.2) H

/-- C57: after any history of `add_force` calls in which the Gravity object `h` was given only to
body `i` (at least once), its force is `mass i * g` downwards at all times. -/
theorem C57_gravity_partial (mass : ℕ → ℝ) (H : ForceHeap) (calls : List (ℕ × ℕ)) (i h : ℕ) (g : ℝ)
    (c0 : Option V3) (hg : H.obj h = .gravity g c0) (hin : (i, h) ∈ calls)
    (honly : ∀ k, (k, h) ∈ calls → k = i) (t : ℝ) :
    ((afterAdds mass H calls).obj h).force t = some ⟨0, 0, mass i * g⟩ := by
  have key : ∀ (calls : List (ℕ × ℕ)) (H : ForceHeap) (c0 : Option V3), H.obj h = .gravity g c0 →
      (∀ k, (k, h) ∈ calls → k = i) →
      ∃ c, (afterAdds mass H calls).obj h = .gravity g c ∧
        ((i, h) ∈ calls ∨ c0 = some ⟨0, 0, mass i * g⟩ → c = some ⟨0, 0, mass i * g⟩) ∧
        ((i, h) ∉ calls → c = c0) := by
    intro calls
    induction calls with
    | nil =>
      intro H c0 hg _
      refine ⟨c0, hg, fun hc => ?_, fun _ => rfl⟩
      rcases hc with hc | hc
      · simp at hc
      · exact hc
    | cons c calls ih =>
      intro H c0 hg ho
      obtain ⟨k, h'⟩ := c
      by_cases hh : h' = h
      · subst hh
        have hk : k = i := ho k (by simp)
        subst hk
        have hobj : (H.add_force k (mass k) h').obj h' = .gravity g (some ⟨0, 0, mass k * g⟩) := by
          simp [ForceHeap.add_force, hg, Force.set_body]
        obtain ⟨c, h1, h2, h3⟩ := ih _ _ hobj (fun k hk => ho k (by simp [hk]))
        refine ⟨c, h1, fun _ => h2 (Or.inr rfl), fun hn => by simp at hn⟩
      · have hobj : (H.add_force k (mass k) h').obj h = .gravity g c0 := by
          simp only [ForceHeap.add_force]
          rw [if_neg (fun e => hh e.symm), hg]
        obtain ⟨c, h1, h2, h3⟩ := ih _ _ hobj (fun k hk => ho k (by simp [hk]))
        refine ⟨c, h1, fun hc => ?_, fun hn => h3 fun hc => hn (by simp [hc])⟩
        rcases hc with hc | hc
        · rcases List.mem_cons.1 hc with hc | hc
          · rw [Prod.mk.injEq] at hc; exact absurd hc.2.symm hh
          · exact h2 (Or.inl hc)
        · exact h2 (Or.inr hc)
  obtain ⟨c, h1, h2, -⟩ := key calls H c0 hg honly
  rw [h1, h2 (Or.inl hin)]
  rfl

/-- C57 fails for shared objects: after giving one Gravity object to a body of mass 1 and then to a
body of mass 2, the first body is pulled with twice its weight. -/
theorem C57_shared_gravity_wrong :
    ∃ (mass : ℕ → ℝ) (H : ForceHeap) (calls : List (ℕ × ℕ)),
      H.obj 0 = .gravity 10 none ∧ mass 0 = 1 ∧ (∀ k, H.attached k = []) ∧ (0, 0) ∈ calls ∧
      (afterAdds mass H calls).apply_forces 0 0 = some ⟨0, 0, 20⟩ := by
  refine ⟨fun k => if k = 0 then 1 else 2, ⟨fun _ => .gravity 10 none, fun _ => []⟩,
    [(0, 0), (1, 0)], rfl, rfl, fun _ => rfl, by simp, ?_⟩
  simp [afterAdds, ForceHeap.add_force, ForceHeap.apply_forces, Force.set_body, Force.force, sumForces]
  ext <;> simp <;> norm_num

example : ((afterAdds (fun _ => 2) ⟨fun _ => .gravity 10 none, fun _ => []⟩ [(3, 1)]).obj 1).force 7 =
    some ⟨0, 0, 20⟩ := by
  rw [C57_gravity_partial (fun _ => 2) _ _ 3 1 10 none rfl (by simp) (by simp) 7]
  norm_num

/-! ## C58 -/

/-- The recorder after a sequence of `record` calls. -/
def afterRecords (dt : ℝ) (ts : List ℝ) : Recorder := ts.foldl Recorder.record (mkRecorder dt)

/-- C58: after any calls, the files written are `0, 1, ..., frame-1`, each once and in order, and
`prev_t = frame * dt`. -/
theorem C58_frames_consecutive (dt : ℝ) (ts : List ℝ) :
    (afterRecords dt ts).files = List.range (afterRecords dt ts).frame ∧
    (afterRecords dt ts).prev_t = (afterRecords dt ts).frame * dt ∧
    (afterRecords dt ts).dt = dt := by
  unfold afterRecords
  have key : ∀ (ts : List ℝ) (r : Recorder), (r.files = List.range r.frame ∧
      r.prev_t = r.frame * dt ∧ r.dt = dt) →
      (ts.foldl Recorder.record r).files = List.range (ts.foldl Recorder.record r).frame ∧
      (ts.foldl Recorder.record r).prev_t = (ts.foldl Recorder.record r).frame * dt ∧
      (ts.foldl Recorder.record r).dt = dt := by
    intro ts
    induction ts with
    | nil => intro r h; exact h
    | cons t ts ih =>
      intro r h
      apply ih
      obtain ⟨h1, h2, h3⟩ := h
      unfold Recorder.record
      split_ifs
      · refine ⟨?_, ?_, h3⟩
        · simp only [h1, List.range_succ]
        · simp only [h2, h3]; push_cast; ring
      · exact ⟨h1, h2, h3⟩
  exact key ts _ ⟨rfl, by simp [mkRecorder], rfl⟩

/-- C58: with positive `dt`, the number of frames after calls with times at most `T` is at most
`⌊T / dt⌋` (at most one frame per interval). -/
theorem C58_frames_bounded (dt : ℝ) (hdt : 0 < dt) (ts : List ℝ) (T : ℝ) (hT : 0 ≤ T)
    (h : ∀ t ∈ ts, t ≤ T) : (afterRecords dt ts).frame ≤ ⌊T / dt⌋₊ := by
  have key : ∀ (ts : List ℝ) (r : Recorder), (∀ t ∈ ts, t ≤ T) → r.prev_t = r.frame * dt →
      r.dt = dt → r.frame * dt ≤ T →
      (ts.foldl Recorder.record r).frame * dt ≤ T := by
    intro ts
    induction ts with
    | nil => intro r _ _ _ h; exact h
    | cons t ts ih =>
      intro r hts h1 h2 h3
      apply ih _ (fun t ht => hts t (by simp [ht]))
      · unfold Recorder.record; split_ifs
        · simp only [h1, h2]; push_cast; ring
        · exact h1
      · unfold Recorder.record; split_ifs <;> exact h2
      · unfold Recorder.record; split_ifs with hc
        · have := hts t (by simp)
          rw [h1, h2] at hc
          push_cast; linarith
        · exact h3
  have := key ts (mkRecorder dt) h (by simp [mkRecorder]) rfl (by simpa [mkRecorder] using hT)
  rw [Nat.le_floor_iff (by positivity), le_div_iff₀ hdt]
  exact this

/-- C58: a call writes at most one frame, and writes one iff a full interval has passed. -/
theorem C58_record_once (r : Recorder) (t : ℝ) :
    (r.dt ≤ t - r.prev_t ∧ (r.record t).files = r.files ++ [r.frame] ∧
      (r.record t).frame = r.frame + 1) ∨
    (t - r.prev_t < r.dt ∧ r.record t = r) := by
  unfold Recorder.record
  split_ifs with h
  · exact Or.inl ⟨h, rfl, rfl⟩
  · exact Or.inr ⟨not_le.1 h, rfl⟩

example : (afterRecords 1 [0, 1, 1, 5]).files = [0, 1] := by
  simp [afterRecords, mkRecorder, Recorder.record]
  norm_num

end LcpPhysics
