import Verif.Spec.DiscLearning
import Verif.Props.Pace
import Verif.Model.Inference

/-!
# C131: masses and restitution from a collision

Two runs of two discs that start alike but have other masses and another restitution.
-/

noncomputable section

namespace LcpPhysics
open Spec

variable {cfuel : ℕ} {pairs : List Body → List (ℕ × ℕ)} {P Q : TwoDiscs}

/-! ## One step -/

/-- The velocity along the line of centres, for a unit of distance. -/
def nearing (w : World (Option Mat) Finder) : ℝ :=
  Spec.inner (between w.bodies) (closing w.v) / Spec.inner (between w.bodies) (between w.bodies)

/-- The line of centres as a velocity without spin. -/
def axis3 (w : World (Option Mat) Finder) : V3 := ⟨0, (between w.bodies).1, (between w.bodies).2⟩

theorem twist_eq {v v' : Vec} {i : ℕ} (hr : (twist v' i).r = (twist v i).r) (hd : drift v' i = drift v i) : twist v' i = twist v i := by
  have h1 := congrArg Prod.fst hd
  have h2 := congrArg Prod.snd hd
  exact V3.ext hr h1 h2

/-- A step after which the discs do not come nearer. -/
theorem parting_step {H : ForceHeap} {lcp : LcpSolver} (D : DiscSetting P H lcp pairs) {mi f : ℕ} {dt : ℝ} (hdt : 0 < dt)
    {w w' : World (Option Mat) Finder} (h : Discs cfuel pairs P w)
    (hs : w.step_dt (pdipmEnv 2 H lcp mi (diffCollide cfuel (fun _ => []) pairs)) f dt = .done w')
    (hv : 0 ≤ Spec.inner (between w.bodies) (closing w'.v)) :
    w'.t = w.t + dt ∧ 0 ≤ Spec.inner (between w'.bodies) (closing w'.v) ∧
      ∀ i < 2, (bodyAt w'.bodies i).p = (bodyAt w.bodies i).p + dt • twist w'.v i := by
  obtain ⟨-, -, -, d, ht, hg, -⟩ := discs_step D.broad D.once D.m0 D.m1 D.e D.forces D.exact h hs
  have hd : d = dt := glides_whole hdt (h.apart D.broad D.once) hv dist_grows hg
  subst hd
  obtain ⟨-, -, j, -, hq, -⟩ := hg
  refine ⟨ht, ?_, fun i hi => ?_⟩
  · rw [hq, inner_along]
    have := inner_self_nonneg (closing w'.v)
    positivity
  · have := (plain_move h.scene.good h.scene.nostab hdt.le hs).2 i (by rw [h.two]; exact hi)
    rw [this, ht, add_sub_cancel_left]

/-- Discs that fly apart. -/
theorem apart_step {H : ForceHeap} {lcp : LcpSolver} (D : DiscSetting P H lcp pairs) {mi f : ℕ} {dt : ℝ} (hdt : 0 < dt)
    {w w' : World (Option Mat) Finder} (h : Discs cfuel pairs P w)
    (hs : w.step_dt (pdipmEnv 2 H lcp mi (diffCollide cfuel (fun _ => []) pairs)) f dt = .done w')
    (hv : 0 ≤ Spec.inner (between w.bodies) (closing w.v)) :
    w'.t = w.t + dt ∧ 0 ≤ Spec.inner (between w'.bodies) (closing w'.v) ∧
      ∀ i < 2, twist w'.v i = twist w.v i ∧ (bodyAt w'.bodies i).p = (bodyAt w.bodies i).p + dt • twist w.v i := by
  obtain ⟨r0, r1, -, hno, -⟩ := C129_step P H lcp pairs D mi cfuel f dt w w' h hs
  obtain ⟨e0, e1⟩ := hno fun hst => absurd hst.2 (not_lt.2 hv)
  have hcl : closing w'.v = closing w.v := by unfold closing; rw [e0, e1]
  obtain ⟨a1, a2, a3⟩ := parting_step D hdt h hs (by rw [hcl]; exact hv)
  have ht : ∀ i < 2, twist w'.v i = twist w.v i := by
    intro i hi
    interval_cases i
    · exact twist_eq r0 e0
    · exact twist_eq r1 e1
  exact ⟨a1, a2, fun i hi => ⟨ht i hi, by rw [← ht i hi]; exact a3 i hi⟩⟩

/-- The step of the impact. -/
theorem impact_step {H : ForceHeap} {lcp : LcpSolver} (D : DiscSetting P H lcp pairs) {mi f : ℕ} {dt : ℝ} (hdt : 0 < dt)
    {w w' : World (Option Mat) Finder} (h : Discs cfuel pairs P w)
    (hs : w.step_dt (pdipmEnv 2 H lcp mi (diffCollide cfuel (fun _ => []) pairs)) f dt = .done w')
    (hst : Strikes P.R w.eps (between w.bodies) (closing w.v)) :
    w'.t = w.t + dt ∧ 0 ≤ Spec.inner (between w'.bodies) (closing w'.v) ∧
      twist w'.v 0 = twist w.v 0 - (P.share0 * nearing w) • axis3 w ∧ twist w'.v 1 = twist w.v 1 + (P.share1 * nearing w) • axis3 w ∧
      ∀ i < 2, (bodyAt w'.bodies i).p = (bodyAt w.bodies i).p + dt • twist w'.v i := by
  obtain ⟨r0, r1, hyes, -⟩ := C129_step P H lcp pairs D mi cfuel f dt w w' h hs
  obtain ⟨e0, e1⟩ := hyes hst
  obtain ⟨-, -, -, d, ht, hg, -⟩ := discs_step D.broad D.once D.m0 D.m1 D.e D.forces D.exact h hs
  have hq0 := ne_zero_of_far h.tol_lt (h.apart D.broad D.once)
  have hcl : closing w'.v = struck P.e (between w.bodies) (closing w.v) := hg.1 hst
  have hin : 0 ≤ Spec.inner (between w.bodies) (closing w'.v) := by
    rw [hcl, inner_struck hq0]
    nlinarith [D.e, hst.2]
  obtain ⟨a1, a2, a3⟩ := parting_step D hdt h hs hin
  have x0 := congrArg Prod.fst e0
  have y0 := congrArg Prod.snd e0
  have x1 := congrArg Prod.fst e1
  have y1 := congrArg Prod.snd e1
  simp only [drift, Prod.fst_sub, Prod.snd_sub, Prod.fst_add, Prod.snd_add, Prod.smul_fst, Prod.smul_snd, smul_eq_mul] at x0 y0 x1 y1
  refine ⟨a1, a2, ?_, ?_, a3⟩
  · apply V3.ext
    · simp [axis3, r0]
    · simp only [V3.sub_x, V3.smul_x, axis3, x0, nearing, TwoDiscs.share0]; ring
    · simp only [V3.sub_y, V3.smul_y, axis3, y0, nearing, TwoDiscs.share0]; ring
  · apply V3.ext
    · simp [axis3, r1]
    · simp only [V3.add_x, V3.smul_x, axis3, x1, nearing, TwoDiscs.share1]; ring
    · simp only [V3.add_y, V3.smul_y, axis3, y1, nearing, TwoDiscs.share1]; ring

/-! ## Two runs side by side -/

/-- Two worlds at the same time with the discs at the same places and with the same velocities. -/
structure Alike (w u : World (Option Mat) Finder) : Prop where
  t : w.t = u.t
  p : ∀ i < 2, (bodyAt w.bodies i).p = (bodyAt u.bodies i).p
  v : ∀ i < 2, twist w.v i = twist u.v i

theorem Alike.between {w u : World (Option Mat) Finder} (h : Alike w u) : between w.bodies = between u.bodies := by
  unfold Spec.between Body.pos
  rw [h.p 0 (by omega), h.p 1 (by omega)]

theorem Alike.closing {w u : World (Option Mat) Finder} (h : Alike w u) : closing w.v = closing u.v := by
  unfold Spec.closing drift
  rw [h.v 0 (by omega), h.v 1 (by omega)]

/-- Discs that do not strike move alike, whatever they are made of. -/
theorem alike_step {H H' : ForceHeap} {lcp lcp' : LcpSolver} (D : DiscSetting P H lcp pairs) (D' : DiscSetting Q H' lcp' pairs)
    {mi mi' f f' : ℕ} {dt : ℝ} (hdt : 0 < dt) {w w' u u' : World (Option Mat) Finder} (h : Discs cfuel pairs P w)
    (h' : Discs cfuel pairs Q u) (hR : P.R = Q.R) (he : w.eps = u.eps) (htol : w.tol = u.tol) (ha : Alike w u)
    (hs : w.step_dt (pdipmEnv 2 H lcp mi (diffCollide cfuel (fun _ => []) pairs)) f dt = .done w')
    (hs' : u.step_dt (pdipmEnv 2 H' lcp' mi' (diffCollide cfuel (fun _ => []) pairs)) f' dt = .done u')
    (hst : ¬ Strikes P.R w.eps (between w.bodies) (closing w.v)) : Alike w' u' := by
  obtain ⟨r0, r1, -, hno, j, t1, -, t3, t4⟩ := C129_step P H lcp pairs D mi cfuel f dt w w' h hs
  obtain ⟨e0, e1⟩ := hno hst
  have hst' : ¬ Strikes Q.R u.eps (between u.bodies) (closing u.v) := by
    rw [← hR, ← he, ← ha.between, ← ha.closing]; exact hst
  obtain ⟨r0', r1', -, hno', j', t1', t2', t3', t4'⟩ := C129_step Q H' lcp' pairs D' mi' cfuel f' dt u u' h' hs'
  obtain ⟨e0', e1'⟩ := hno' hst'
  have hv : ∀ i < 2, twist w'.v i = twist w.v i := by
    intro i hi
    interval_cases i
    · exact twist_eq r0 e0
    · exact twist_eq r1 e1
  have hv' : ∀ i < 2, twist u'.v i = twist u.v i := by
    intro i hi
    interval_cases i
    · exact twist_eq r0' e0'
    · exact twist_eq r1' e1'
  have hvv : ∀ i < 2, twist w'.v i = twist u'.v i := fun i hi => by rw [hv i hi, hv' i hi, ha.v i hi]
  have hcl : closing w'.v = closing u'.v := by
    unfold closing drift
    rw [hvv 0 (by omega), hvv 1 (by omega)]
  obtain ⟨-, -, -, -, j2, t1b, t2, -⟩ := C129_step P H lcp pairs D mi cfuel f dt w w' h hs
  have hbw : between w'.bodies = between w.bodies + (dt / 2 ^ j) • closing w'.v := by
    rw [t2]
    have : dt / 2 ^ j2 = dt / 2 ^ j := by linarith
    rw [this]
  have hj : j = j' := by
    rcases lt_trichotomy j j' with hlt | heq | hgt
    · have := t4' j hlt
      rw [← hR, ← htol, ← hcl, ← ha.between, ← hbw] at this
      linarith
    · exact heq
    · have := t4 j' hgt
      rw [hcl, ha.between, ← t2', hR, htol] at this
      linarith
  have htt : w'.t = u'.t := by rw [t1, t1', hj, ha.t]
  refine ⟨htt, fun i hi => ?_, hvv⟩
  have a := (plain_move h.scene.good h.scene.nostab hdt.le hs).2 i (by rw [h.two]; exact hi)
  have b := (plain_move h'.scene.good h'.scene.nostab hdt.le hs').2 i (by rw [h'.two]; exact hi)
  rw [a, b, ha.p i hi, hvv i hi, htt, ha.t]

/-- The state `w` of discs that have struck in the state `w0`. -/
structure Gone (P : TwoDiscs) (w0 w : World (Option Mat) Finder) : Prop where
  v0 : twist w.v 0 = twist w0.v 0 - (P.share0 * nearing w0) • axis3 w0
  v1 : twist w.v 1 = twist w0.v 1 + (P.share1 * nearing w0) • axis3 w0
  p : ∀ i < 2, (bodyAt w.bodies i).p = (bodyAt w0.bodies i).p + (w.t - w0.t) • twist w.v i
  out : 0 ≤ Spec.inner (Spec.between w.bodies) (Spec.closing w.v)

theorem gone_start {H : ForceHeap} {lcp : LcpSolver} (D : DiscSetting P H lcp pairs) {mi f : ℕ} {dt : ℝ} (hdt : 0 < dt)
    {w w' : World (Option Mat) Finder} (h : Discs cfuel pairs P w)
    (hs : w.step_dt (pdipmEnv 2 H lcp mi (diffCollide cfuel (fun _ => []) pairs)) f dt = .done w')
    (hst : Strikes P.R w.eps (between w.bodies) (closing w.v)) : Gone P w w' ∧ w'.t = w.t + dt := by
  obtain ⟨a1, a2, a3, a4, a5⟩ := impact_step D hdt h hs hst
  refine ⟨⟨a3, a4, fun i hi => ?_, a2⟩, a1⟩
  rw [a5 i hi, a1, add_sub_cancel_left]

theorem gone_step {H : ForceHeap} {lcp : LcpSolver} (D : DiscSetting P H lcp pairs) {mi f : ℕ} {dt : ℝ} (hdt : 0 < dt)
    {w0 w w' : World (Option Mat) Finder} (h : Discs cfuel pairs P w) (hg : Gone P w0 w)
    (hs : w.step_dt (pdipmEnv 2 H lcp mi (diffCollide cfuel (fun _ => []) pairs)) f dt = .done w') : Gone P w0 w' ∧ w'.t = w.t + dt := by
  obtain ⟨a1, a2, a3⟩ := apart_step D hdt h hs hg.out
  refine ⟨⟨(a3 0 (by omega)).1.trans hg.v0, (a3 1 (by omega)).1.trans hg.v1, fun i hi => ?_, a2⟩, a1⟩
  rw [(a3 i hi).2, (a3 i hi).1, hg.p i hi, a1]
  apply V3.ext <;> simp <;> ring

/-- C131: two runs of discs that differ in their masses and their restitution but start alike.  Until the impact they are the
same, the impact happens in the same step, at the same time and place, and the clocks always agree; afterwards the discs of each
run fly on with their own velocities. -/
theorem C131_twins (P Q : TwoDiscs) (H H' : ForceHeap) (lcp lcp' : LcpSolver) (pairs : List Body → List (ℕ × ℕ))
    (D : DiscSetting P H lcp pairs) (D' : DiscSetting Q H' lcp' pairs) (mi mi' cfuel n : ℕ) (dt : ℝ) (hdt : 0 < dt)
    (ws us : ℕ → World (Option Mat) Finder) (h : Discs cfuel pairs P (ws 0)) (h' : Discs cfuel pairs Q (us 0)) (hR : P.R = Q.R)
    (he : (ws 0).eps = (us 0).eps) (htol : (ws 0).tol = (us 0).tol) (ha : Alike (ws 0) (us 0))
    (hrun : Steps (pdipmEnv 2 H lcp mi (diffCollide cfuel (fun _ => []) pairs)) dt n ws)
    (hrun' : Steps (pdipmEnv 2 H' lcp' mi' (diffCollide cfuel (fun _ => []) pairs)) dt n us) :
    ∃ s ≤ n, (∀ k ≤ s, Alike (ws k) (us k)) ∧
      (∀ k < s, ¬ Strikes Q.R (us k).eps (between (us k).bodies) (closing (us k).v)) ∧
      (s < n → Strikes Q.R (us s).eps (between (us s).bodies) (closing (us s).v)) ∧
      ∀ k, s < k → k ≤ n → (ws k).t = (us k).t ∧ (us s).t < (us k).t ∧ Gone P (ws s) (ws k) ∧ Gone Q (us s) (us k) := by
  induction n with
  | zero => exact ⟨0, le_rfl, fun k hk => by rw [Nat.le_zero.1 hk]; exact ha, fun k hk => by omega, fun h => by omega,
      fun k h1 h2 => by omega⟩
  | succ n ih =>
    obtain ⟨s, hs, a1, a0, a2, a3⟩ := ih (fun k hk => hrun k (by omega)) (fun k hk => hrun' k (by omega))
    obtain ⟨d1, d2, d3, -⟩ := discs_run D hdt h hrun n (by omega)
    obtain ⟨d1', d2', d3', -⟩ := discs_run D' hdt h' hrun' n (by omega)
    obtain ⟨f, hst⟩ := hrun n (by omega)
    obtain ⟨f', hst'⟩ := hrun' n (by omega)
    rcases hs.lt_or_eq with hlt | rfl
    · refine ⟨s, by omega, a1, a0, fun _ => a2 hlt, fun k hk hkn => ?_⟩
      rcases Nat.lt_or_ge k (n + 1) with hk' | hk'
      · exact a3 k hk (by omega)
      · obtain rfl : k = n + 1 := by omega
        obtain ⟨b1, b2, b3, b4⟩ := a3 n hlt le_rfl
        obtain ⟨c1, c2⟩ := gone_step D hdt d1 b3 hst
        obtain ⟨c1', c2'⟩ := gone_step D' hdt d1' b4 hst'
        exact ⟨by rw [c2, c2', b1], by rw [c2']; linarith, c1, c1'⟩
    · have hal := a1 s le_rfl
      have hee : (ws s).eps = (us s).eps := by rw [d2, d2', he]
      by_cases hS : Strikes P.R (ws s).eps (between (ws s).bodies) (closing (ws s).v)
      · have hS' : Strikes Q.R (us s).eps (between (us s).bodies) (closing (us s).v) := by
          rw [← hR, ← hee, ← hal.between, ← hal.closing]; exact hS
        refine ⟨s, by omega, a1, a0, fun _ => hS', fun k hk hkn => ?_⟩
        obtain rfl : k = s + 1 := by omega
        obtain ⟨c1, c2⟩ := gone_start D hdt d1 hst hS
        obtain ⟨c1', c2'⟩ := gone_start D' hdt d1' hst' hS'
        exact ⟨by rw [c2, c2', hal.t], by rw [c2']; linarith, c1, c1'⟩
      · refine ⟨s + 1, le_rfl, fun k hk => ?_, fun k hk => ?_, fun h => by omega, fun k h1 h2 => by omega⟩
        · rcases Nat.lt_or_ge k (s + 1) with hk' | hk'
          · exact a1 k (by omega)
          obtain rfl : k = s + 1 := by omega
          exact alike_step D D' hdt d1 d1' hR hee (by rw [d3, d3', htol]) hal hst hst' hS
        · rcases Nat.lt_or_ge k s with hk' | hk'
          · exact a0 k hk'
          obtain rfl : k = s := by omega
          rw [← hR, ← hee, ← hal.between, ← hal.closing]
          exact hS

/-! ## The recorded positions -/

/-- The recorded positions are those of the worlds of a run that ends when the time is reached. -/
theorem positions_trace {env : Env (Option Mat) Finder} {fuel : ℕ} {T : ℝ} : ∀ (n : ℕ) (w : World (Option Mat) Finder)
    (ps : List (List ℝ)), w.Good → Inference.positionsLoop env fuel T n w = .done ps →
    ∃ N ws, ws 0 = w ∧ Steps env w.dt N ws ∧ ps = (List.range N).map (fun k => Inference.poseRow (ws (k + 1))) ∧
      (∀ k < N, (ws k).t < T) ∧ T ≤ (ws N).t ∧ runWorld env fuel T n w = .done (ws N) := by
  intro n
  induction n with
  | zero =>
    intro w ps hg h
    unfold Inference.positionsLoop at h
    by_cases ht : w.t < T
    · rw [if_pos ht] at h; cases h
    · rw [if_neg ht] at h
      injection h with h
      refine ⟨0, fun _ => w, rfl, fun k hk => by omega, by simp [← h], fun k hk => by omega, not_lt.1 ht, ?_⟩
      unfold runWorld
      rw [if_neg ht]
  | succ n ih =>
    intro w ps hg h
    unfold Inference.positionsLoop at h
    by_cases ht : w.t < T
    · rw [if_pos ht] at h
      simp only at h
      obtain ⟨w1, hw1, h⟩ := Run.bind_eq_done.1 h
      obtain ⟨qs, hqs, h⟩ := Run.bind_eq_done.1 h
      injection h with h
      have hstep : w.step_dt env fuel w.dt = .done w1 := by
        unfold World.step at hw1
        rwa [if_neg (by simp)] at hw1
      have hdt1 : w1.dt = w.dt := (step_dt_params hg hstep).1
      obtain ⟨N, ws, h0, hst, rfl, hlt, hge, hrun⟩ := ih w1 qs (step_dt_good hg hstep) hqs
      refine ⟨N + 1, fun k => Nat.casesOn k w ws, rfl, ?_, ?_, ?_, hge, ?_⟩
      · intro k hk
        cases k with
        | zero => exact ⟨fuel, by rw [← h0] at hstep; exact hstep⟩
        | succ k =>
          obtain ⟨f, hf⟩ := hst k (by omega)
          exact ⟨f, by rw [← hdt1]; exact hf⟩
      · rw [← h, List.range_succ_eq_map, List.map_cons, List.map_map, ← h0]
        rfl
      · intro k hk
        cases k with
        | zero => exact ht
        | succ k => exact hlt k (by omega)
      · unfold runWorld
        rw [if_pos ht]
        simp only [hw1, Run.bind_done]
        exact hrun
    · rw [if_neg ht] at h
      injection h with h
      refine ⟨0, fun _ => w, rfl, fun k hk => by omega, by simp [← h], fun k hk => by omega, not_lt.1 ht, ?_⟩
      unfold runWorld
      rw [if_neg ht]

/-- The square of the distance of two poses. -/
def poseSq (a b : V3) : ℝ := (a.r - b.r) ^ 2 + (a.x - b.x) ^ 2 + (a.y - b.y) ^ 2

theorem flatten_rows (f : ℕ → List ℝ) (m : ℕ) : ∀ N, (∀ k < N, (f k).length = m) → ((List.range N).map f).flatten.length = N * m := by
  intro N
  induction N with
  | zero => simp
  | succ N ih =>
    intro hf
    rw [List.range_succ, List.map_append, List.flatten_append, List.length_append, ih fun k hk => hf k (by omega)]
    simp [hf N (by omega)]
    ring

theorem sumSq_flatten (f g : ℕ → List ℝ) (m : ℕ) : ∀ N, (∀ k < N, (f k).length = m) → (∀ k < N, (g k).length = m) →
    (List.zipWith (fun a b : ℝ => (a - b) ^ 2) ((List.range N).map f).flatten ((List.range N).map g).flatten).sum =
      ∑ k ∈ Finset.range N, (List.zipWith (fun a b : ℝ => (a - b) ^ 2) (f k) (g k)).sum := by
  intro N
  induction N with
  | zero => simp
  | succ N ih =>
    intro hf hg
    rw [List.range_succ, List.map_append, List.map_append, List.flatten_append, List.flatten_append,
      List.zipWith_append (by rw [flatten_rows f m N fun k hk => hf k (by omega), flatten_rows g m N fun k hk => hg k (by omega)]),
      List.sum_append, ih (fun k hk => hf k (by omega)) (fun k hk => hg k (by omega)), Finset.sum_range_succ]
    simp

theorem poseRow_two {w : World (Option Mat) Finder} (h : w.bodies.length = 2) : Inference.poseRow w =
    [(bodyAt w.bodies 0).p.r, (bodyAt w.bodies 0).p.x, (bodyAt w.bodies 0).p.y, (bodyAt w.bodies 1).p.r, (bodyAt w.bodies 1).p.x,
      (bodyAt w.bodies 1).p.y] := by
  unfold Inference.poseRow bodyAt
  match hb : w.bodies, h with
  | [b0, b1], _ => simp [List.getD]

theorem rows_loss {ws us : ℕ → World (Option Mat) Finder} {N : ℕ} (hw : ∀ k ≤ N, (ws k).bodies.length = 2)
    (hu : ∀ k ≤ N, (us k).bodies.length = 2) :
    Inference.chainLoss ((List.range (N + 1)).map fun k => Inference.poseRow (ws k))
      ((List.range (N + 1)).map fun k => Inference.poseRow (us k)) =
    .done ((∑ k ∈ Finset.range (N + 1), (poseSq (bodyAt (ws k).bodies 0).p (bodyAt (us k).bodies 0).p +
      poseSq (bodyAt (ws k).bodies 1).p (bodyAt (us k).bodies 1).p)) / (6 * (N + 1))) := by
  have hlw : ∀ k < N + 1, (Inference.poseRow (ws k)).length = 6 := fun k hk => by rw [poseRow_two (hw k (by omega))]; rfl
  have hlu : ∀ k < N + 1, (Inference.poseRow (us k)).length = 6 := fun k hk => by rw [poseRow_two (hu k (by omega))]; rfl
  have l1 := flatten_rows _ 6 (N + 1) hlw
  have l2 := flatten_rows _ 6 (N + 1) hlu
  unfold Inference.chainLoss Inference.mse
  simp only
  rw [List.take_of_length_le (by rw [l1, l2]), List.take_of_length_le (by rw [l1, l2]), if_pos (by rw [l1, l2]), sumSq_flatten _ _ 6 (N + 1) hlw hlu, l1]
  congr 2
  · refine Finset.sum_congr rfl fun k hk => ?_
    have hk := Finset.mem_range.1 hk
    rw [poseRow_two (hw k (by omega)), poseRow_two (hu k (by omega))]
    simp [poseSq]
    ring
  · push_cast; ring

theorem gone_apart {w0 w u0 u : World (Option Mat) Finder} (ha : Alike w0 u0) (ht : w.t = u.t) (h : Gone P w0 w) (h' : Gone Q u0 u) :
    poseSq (bodyAt w.bodies 0).p (bodyAt u.bodies 0).p + poseSq (bodyAt w.bodies 1).p (bodyAt u.bodies 1).p =
      (u.t - u0.t) ^ 2 * (nearing u0 ^ 2 * Spec.inner (between u0.bodies) (between u0.bodies)) * mismatch P Q := by
  have hn : nearing w0 = nearing u0 := by unfold nearing; rw [ha.between, ha.closing]
  have hx : axis3 w0 = axis3 u0 := by unfold axis3; rw [ha.between]
  rw [h.p 0 (by omega), h.p 1 (by omega), h'.p 0 (by omega), h'.p 1 (by omega), h.v0, h.v1, h'.v0, h'.v1, ha.p 0 (by omega),
    ha.p 1 (by omega), ha.v 0 (by omega), ha.v 1 (by omega), hn, hx, ht, ha.t]
  simp only [poseSq, mismatch, axis3, Spec.inner, V3.add_r, V3.add_x, V3.add_y, V3.smul_r, V3.smul_x, V3.smul_y, V3.sub_r, V3.sub_x,
    V3.sub_y]
  ring

/-- Discs that have not struck have kept their velocities. -/
theorem unstruck {H : ForceHeap} {lcp : LcpSolver} (D : DiscSetting P H lcp pairs) {mi n : ℕ} {dt : ℝ} (hdt : 0 < dt)
    {ws : ℕ → World (Option Mat) Finder} (h : Discs cfuel pairs P (ws 0))
    (hrun : Steps (pdipmEnv 2 H lcp mi (diffCollide cfuel (fun _ => []) pairs)) dt n ws) {s : ℕ} (hs : s ≤ n)
    (hno : ∀ k < s, ¬ Strikes P.R (ws k).eps (between (ws k).bodies) (closing (ws k).v)) : ∀ k ≤ s, closing (ws k).v = closing (ws 0).v := by
  intro k
  induction k with
  | zero => intro _; rfl
  | succ k ih =>
    intro hk
    obtain ⟨d1, -⟩ := discs_run D hdt h hrun k (by omega)
    obtain ⟨f, hst⟩ := hrun k (by omega)
    obtain ⟨-, -, -, hn, -⟩ := C129_step P H lcp pairs D mi cfuel f dt _ _ d1 hst
    obtain ⟨e0, e1⟩ := hn (hno k (by omega))
    rw [← ih (by omega)]
    unfold closing
    rw [e0, e1]

theorem positions_all {env : Env (Option Mat) Finder} {fuel : ℕ} {T : ℝ} {n : ℕ} {w : World (Option Mat) Finder}
    {ps : List (List ℝ)} (hg : w.Good) (h : Inference.positions_run_world env fuel T n w = .done ps) :
    ∃ N ws, ws 0 = w ∧ Steps env w.dt N ws ∧ ps = (List.range (N + 1)).map (fun k => Inference.poseRow (ws k)) ∧
      (∀ k < N, (ws k).t < T) ∧ T ≤ (ws N).t ∧ runWorld env fuel T n w = .done (ws N) := by
  unfold Inference.positions_run_world at h
  obtain ⟨qs, hqs, h⟩ := Run.bind_eq_done.1 h
  injection h with h
  obtain ⟨N, ws, rfl, a2, rfl, a4, a5, a6⟩ := positions_trace n w qs hg hqs
  refine ⟨N, ws, rfl, a2, ?_, a4, a5, a6⟩
  rw [← h, List.range_succ_eq_map, List.map_cons, List.map_map]
  rfl

/-- C131: the loss with which inference.py compares positions, for two discs.  It is the mismatch of the two pairs of discs times a
factor that depends on the observed run only, and that is positive once the observed discs have struck. -/
theorem C131_loss (Q : TwoDiscs) (H' : ForceHeap) (lcp' : LcpSolver) (pairs : List Body → List (ℕ × ℕ))
    (D' : DiscSetting Q H' lcp' pairs) (mi' cfuel fuel' n' : ℕ) (T : ℝ) (u : World (Option Mat) Finder)
    (h' : Discs cfuel pairs Q u) (hdt : 0 < u.dt) (qs : List (List ℝ))
    (hqs : Inference.positions_run_world (pdipmEnv 2 H' lcp' mi' (diffCollide cfuel (fun _ => []) pairs)) fuel' T n' u = .done qs) :
    ∃ K, 0 ≤ K ∧
      (∀ u', runWorld (pdipmEnv 2 H' lcp' mi' (diffCollide cfuel (fun _ => []) pairs)) fuel' T n' u = .done u' →
        closing u'.v ≠ closing u.v → 0 < K) ∧
      ∀ (P : TwoDiscs) (H : ForceHeap) (lcp : LcpSolver) (_ : DiscSetting P H lcp pairs) (mi fuel n : ℕ)
        (w : World (Option Mat) Finder) (_ : Discs cfuel pairs P w) (ps : List (List ℝ)), P.R = Q.R → w.eps = u.eps → w.tol = u.tol →
        w.dt = u.dt → Alike w u →
        Inference.positions_run_world (pdipmEnv 2 H lcp mi (diffCollide cfuel (fun _ => []) pairs)) fuel T n w = .done ps →
        Inference.chainLoss ps qs = .done (K * mismatch P Q) := by
  obtain ⟨N, us, rfl, hst', rfl, hlt', hge', hrw⟩ := positions_all h'.scene.good hqs
  obtain ⟨s, hsN, -, hno, hyes, hlate⟩ := C131_twins Q Q H' H' lcp' lcp' pairs D' D' mi' mi' cfuel N _ hdt us us h' h' rfl rfl rfl
    ⟨rfl, fun _ _ => rfl, fun _ _ => rfl⟩ hst' hst'
  have hqq := Spec.inner_self_nonneg (between (us s).bodies)
  have hK0 : ∀ k, 0 ≤ (if s < k then ((us k).t - (us s).t) ^ 2 else 0) := fun k => by split_ifs <;> positivity
  refine ⟨nearing (us s) ^ 2 * Spec.inner (between (us s).bodies) (between (us s).bodies) *
    (∑ k ∈ Finset.range (N + 1), if s < k then ((us k).t - (us s).t) ^ 2 else 0) / (6 * (N + 1)), ?_, ?_, ?_⟩
  · have := Finset.sum_nonneg fun k (_ : k ∈ Finset.range (N + 1)) => hK0 k
    positivity
  · intro u' hu' hne
    rw [hrw] at hu'
    injection hu' with hu'
    subst hu'
    have hsN' : s < N := by
      refine lt_of_le_of_ne hsN fun he => hne ?_
      exact unstruck D' hdt h' hst' hsN hno N he.ge
    have hS := hyes hsN'
    have hq : 0 < Spec.inner (between (us s).bodies) (between (us s).bodies) := by
      obtain ⟨d1, -⟩ := discs_run D' hdt h' hst' s hsN
      exact inner_self_pos (ne_zero_of_far d1.tol_lt (d1.apart D'.broad D'.once))
    have hn : nearing (us s) ≠ 0 := (div_neg_of_neg_of_pos hS.2 hq).ne
    have hsum : 0 < ∑ k ∈ Finset.range (N + 1), if s < k then ((us k).t - (us s).t) ^ 2 else 0 := by
      refine Finset.sum_pos' (fun k _ => hK0 k) ⟨N, by simp, ?_⟩
      rw [if_pos hsN']
      have := (hlate N hsN' le_rfl).2.1
      have : 0 < (us N).t - (us s).t := by linarith
      positivity
    positivity
  · intro P H lcp D mi fuel n w h ps hR he htol hwd ha hps
    obtain ⟨M, ws, rfl, hst, rfl, hlt, hge, -⟩ := positions_all h.scene.good hps
    rw [hwd] at hst
    have hMN : M = N := by
      rcases lt_trichotomy M N with hl | hl | hl
      · exfalso
        obtain ⟨s2, -, b1, -, -, b4⟩ := C131_twins P Q H H' lcp lcp' pairs D D' mi mi' cfuel M _ hdt ws us h h' hR he htol ha hst
          (fun k hk => hst' k (by omega))
        have : (ws M).t = (us M).t := by
          rcases Nat.lt_or_ge s2 M with hc | hc
          · exact (b4 M hc le_rfl).1
          · exact (b1 M hc).t
        linarith [hlt' M hl]
      · exact hl
      · exfalso
        obtain ⟨s2, -, b1, -, -, b4⟩ := C131_twins P Q H H' lcp lcp' pairs D D' mi mi' cfuel N _ hdt ws us h h' hR he htol ha
          (fun k hk => hst k (by omega)) hst'
        have : (ws N).t = (us N).t := by
          rcases Nat.lt_or_ge s2 N with hc | hc
          · exact (b4 N hc le_rfl).1
          · exact (b1 N hc).t
        linarith [hlt N hl]
    subst hMN
    obtain ⟨s2, hs2, b1, b2, b3, b4⟩ := C131_twins P Q H H' lcp lcp' pairs D D' mi mi' cfuel M _ hdt ws us h h' hR he htol ha hst hst'
    have hss : s2 = s := by
      rcases lt_trichotomy s2 s with hl | hl | hl
      · exact absurd (b3 (by omega)) (hno s2 hl)
      · exact hl
      · exact absurd (hyes (by omega)) (b2 s hl)
    subst hss
    rw [rows_loss (fun k hk => (discs_run D hdt h hst k hk).1.two) (fun k hk => (discs_run D' hdt h' hst' k hk).1.two)]
    have hterm : ∀ k ∈ Finset.range (M + 1), poseSq (bodyAt (ws k).bodies 0).p (bodyAt (us k).bodies 0).p +
        poseSq (bodyAt (ws k).bodies 1).p (bodyAt (us k).bodies 1).p = (if s2 < k then ((us k).t - (us s2).t) ^ 2 else 0) *
          (nearing (us s2) ^ 2 * Spec.inner (between (us s2).bodies) (between (us s2).bodies) * mismatch P Q) := by
      intro k hk
      have hk := Finset.mem_range.1 hk
      by_cases hc : s2 < k
      · obtain ⟨c1, -, c3, c4⟩ := b4 k hc (by omega)
        rw [if_pos hc, gone_apart (b1 s2 le_rfl) c1 c3 c4]
        ring
      · have := b1 k (by omega)
        rw [if_neg hc, this.p 0 (by omega), this.p 1 (by omega)]
        simp [poseSq]
    rw [Finset.sum_congr rfl hterm, ← Finset.sum_mul]
    congr 1
    ring

/-! ## What can be learnt -/

/-- C131: which discs cannot be told apart.  They have the same restitution and the same ratio of masses. -/
theorem C131_ratio (P Q : TwoDiscs) (hp0 : 0 < P.m0) (hp1 : 0 < P.m1) (hq0 : 0 < Q.m0) (hq1 : 0 < Q.m1) (he : 0 ≤ Q.e) :
    mismatch P Q = 0 ↔ P.e = Q.e ∧ P.m0 * Q.m1 = P.m1 * Q.m0 := by
  have hP : P.m0 + P.m1 ≠ 0 := by positivity
  have hQ : Q.m0 + Q.m1 ≠ 0 := by positivity
  constructor
  · intro h
    unfold mismatch at h
    have h0 : P.share0 - Q.share0 = 0 := by
      have := sq_nonneg (P.share0 - Q.share0)
      have := sq_nonneg (P.share1 - Q.share1)
      exact pow_eq_zero_iff (two_ne_zero) |>.1 (by linarith)
    have h1 : P.share1 - Q.share1 = 0 := by
      have := sq_nonneg (P.share0 - Q.share0)
      have := sq_nonneg (P.share1 - Q.share1)
      exact pow_eq_zero_iff (two_ne_zero) |>.1 (by linarith)
    have eP : P.share0 + P.share1 = 1 + P.e := by unfold TwoDiscs.share0 TwoDiscs.share1; field_simp; ring
    have eQ : Q.share0 + Q.share1 = 1 + Q.e := by unfold TwoDiscs.share0 TwoDiscs.share1; field_simp; ring
    have hee : P.e = Q.e := by linarith
    refine ⟨hee, ?_⟩
    unfold TwoDiscs.share0 at h0
    rw [hee] at h0
    have hE : (1 + Q.e) ≠ 0 := by positivity
    have h2 : P.m1 / (P.m0 + P.m1) = Q.m1 / (Q.m0 + Q.m1) := by
      apply mul_right_cancel₀ hE
      linarith
    rw [div_eq_div_iff hP hQ] at h2
    linarith
  · rintro ⟨h1, h2⟩
    have e0 : P.m1 / (P.m0 + P.m1) = Q.m1 / (Q.m0 + Q.m1) := by
      rw [div_eq_div_iff hP hQ]; linarith
    have e1 : P.m0 / (P.m0 + P.m1) = Q.m0 / (Q.m0 + Q.m1) := by
      rw [div_eq_div_iff hP hQ]; linarith
    unfold mismatch TwoDiscs.share0 TwoDiscs.share1
    rw [h1, e0, e1]
    ring

/-- The mismatch as a function of the mass of disc 0. -/
def massMismatch (Q : TwoDiscs) (m : ℝ) : ℝ :=
  2 * ((1 + Q.e) * Q.m1 / (Q.m0 + Q.m1)) ^ 2 * ((m - Q.m0) / (m + Q.m1)) ^ 2

theorem mismatch_mass (Q : TwoDiscs) (h0 : 0 < Q.m0) (h1 : 0 < Q.m1) {m : ℝ} (hm : 0 < m) :
    mismatch { Q with m0 := m } Q = massMismatch Q m := by
  unfold mismatch massMismatch TwoDiscs.share0 TwoDiscs.share1
  have : m + Q.m1 ≠ 0 := by positivity
  have : Q.m0 + Q.m1 ≠ 0 := by positivity
  field_simp
  ring

theorem massMismatch_deriv (Q : TwoDiscs) (h0 : 0 < Q.m0) (h1 : 0 < Q.m1) {m : ℝ} (hm : 0 < m) :
    HasDerivAt (massMismatch Q) (4 * ((1 + Q.e) * Q.m1) ^ 2 / (Q.m0 + Q.m1) * ((m - Q.m0) / (m + Q.m1) ^ 3)) m := by
  have hne : m + Q.m1 ≠ 0 := by positivity
  have hne' : Q.m0 + Q.m1 ≠ 0 := by positivity
  have h : HasDerivAt (fun x : ℝ => (x - Q.m0) / (x + Q.m1)) ((1 * (m + Q.m1) - (m - Q.m0) * 1) / (m + Q.m1) ^ 2) m :=
    ((hasDerivAt_id m).sub_const _).div ((hasDerivAt_id m).add_const _) hne
  refine ((h.pow 2).const_mul (2 * ((1 + Q.e) * Q.m1 / (Q.m0 + Q.m1)) ^ 2)).congr_deriv ?_
  rw [show 1 * (m + Q.m1) - (m - Q.m0) * 1 = Q.m0 + Q.m1 by ring]
  simp only [Nat.add_one_sub_one, pow_one, Nat.cast_ofNat]
  field_simp
  ring

/-- C131, the mass of one disc from a collision with a disc of known mass: the loss is a function of the guessed mass with
the only minimum at the true mass; it falls before and rises behind, and its derivative always points the right way.  For heavy
guesses it is nearly flat: the derivative goes down with the square of the mass. -/
theorem C131_mass (Q : TwoDiscs) (H' : ForceHeap) (lcp' : LcpSolver) (pairs : List Body → List (ℕ × ℕ))
    (D' : DiscSetting Q H' lcp' pairs) (mi' cfuel fuel' n' : ℕ) (T : ℝ) (u u' : World (Option Mat) Finder)
    (h' : Discs cfuel pairs Q u) (hdt : 0 < u.dt) (qs : List (List ℝ))
    (hqs : Inference.positions_run_world (pdipmEnv 2 H' lcp' mi' (diffCollide cfuel (fun _ => []) pairs)) fuel' T n' u = .done qs)
    (hu' : runWorld (pdipmEnv 2 H' lcp' mi' (diffCollide cfuel (fun _ => []) pairs)) fuel' T n' u = .done u')
    (hhit : closing u'.v ≠ closing u.v) : ∃ c > 0, ∃ L : ℝ → ℝ,
      (∀ (m : ℝ) (H : ForceHeap) (lcp : LcpSolver) (_ : DiscSetting { Q with m0 := m } H lcp pairs) (mi fuel n : ℕ)
        (w : World (Option Mat) Finder) (_ : Discs cfuel pairs { Q with m0 := m } w) (ps : List (List ℝ)), w.eps = u.eps →
        w.tol = u.tol → w.dt = u.dt → Alike w u →
        Inference.positions_run_world (pdipmEnv 2 H lcp mi (diffCollide cfuel (fun _ => []) pairs)) fuel T n w = .done ps →
        Inference.chainLoss ps qs = .done (L m)) ∧
      L Q.m0 = 0 ∧ StrictAntiOn L (Set.Ioc 0 Q.m0) ∧ StrictMonoOn L (Set.Ici Q.m0) ∧
      (∀ m > 0, HasDerivAt L (c * ((m - Q.m0) / (m + Q.m1) ^ 3)) m) ∧
      ∀ m > 0, |c * ((m - Q.m0) / (m + Q.m1) ^ 3)| ≤ c * (1 + Q.m0 / Q.m1) / (m + Q.m1) ^ 2 := by
  obtain ⟨K, -, hK, hloss⟩ := C131_loss Q H' lcp' pairs D' mi' cfuel fuel' n' T u h' hdt qs hqs
  have hKp := hK u' hu' hhit
  have h0 := D'.m0
  have h1 := D'.m1
  have hE : 0 < 1 + Q.e := by linarith [D'.e]
  have hderiv : ∀ m > 0, HasDerivAt (fun m => K * massMismatch Q m)
      (K * (4 * ((1 + Q.e) * Q.m1) ^ 2 / (Q.m0 + Q.m1)) * ((m - Q.m0) / (m + Q.m1) ^ 3)) m := by
    intro m hm
    refine ((massMismatch_deriv Q h0 h1 hm).const_mul K).congr_deriv ?_
    ring
  have hc : 0 < K * (4 * ((1 + Q.e) * Q.m1) ^ 2 / (Q.m0 + Q.m1)) := by positivity
  refine ⟨K * (4 * ((1 + Q.e) * Q.m1) ^ 2 / (Q.m0 + Q.m1)), hc, fun m => K * massMismatch Q m, ?_, ?_, ?_, ?_, hderiv, ?_⟩
  · intro m H lcp D mi fuel n w h ps he htol hwd ha hps
    rw [hloss _ H lcp D mi fuel n w h ps rfl he htol hwd ha hps, mismatch_mass Q h0 h1 D.m0]
  · simp [massMismatch]
  · refine strictAntiOn_of_deriv_neg (convex_Ioc _ _) (fun m hm => (hderiv m hm.1).continuousAt.continuousWithinAt) fun m hm => ?_
    rw [interior_Ioc] at hm
    rw [(hderiv m hm.1).deriv]
    have : 0 < (m + Q.m1) ^ 3 := pow_pos (add_pos hm.1 h1) 3
    exact mul_neg_of_pos_of_neg hc (div_neg_of_neg_of_pos (by linarith [hm.2]) this)
  · refine strictMonoOn_of_deriv_pos (convex_Ici _) (fun m hm => (hderiv m (h0.trans_le hm)).continuousAt.continuousWithinAt)
      fun m hm => ?_
    rw [interior_Ici] at hm
    have hm' : 0 < m := h0.trans hm
    rw [(hderiv m hm').deriv]
    have : 0 < m - Q.m0 := sub_pos.2 hm
    positivity
  · intro m hm
    have hs : 0 < m + Q.m1 := by positivity
    rw [abs_mul, abs_of_pos hc, abs_div, abs_of_pos (pow_pos hs 3)]
    generalize K * (4 * ((1 + Q.e) * Q.m1) ^ 2 / (Q.m0 + Q.m1)) = c at hc ⊢
    rw [mul_div_assoc]
    refine mul_le_mul_of_nonneg_left ?_ hc.le
    rw [div_le_div_iff₀ (by positivity) (by positivity)]
    have : |m - Q.m0| ≤ (1 + Q.m0 / Q.m1) * (m + Q.m1) := by
      have e : (1 + Q.m0 / Q.m1) * (m + Q.m1) = m + Q.m1 + Q.m0 / Q.m1 * m + Q.m0 := by field_simp; ring
      rw [e, abs_le]
      have : 0 < Q.m0 / Q.m1 * m := by positivity
      constructor <;> linarith
    calc |m - Q.m0| * (m + Q.m1) ^ 2 ≤ (1 + Q.m0 / Q.m1) * (m + Q.m1) * (m + Q.m1) ^ 2 := by gcongr
      _ = (1 + Q.m0 / Q.m1) * (m + Q.m1) ^ 3 := by ring

/-- C131: gradient descent on such a loss finds the true mass from every positive start if the rate is not too great; a
guess that is too heavy by far comes down slowly. -/
theorem C131_descent (a b c η : ℝ) (ha : 0 < a) (hb : 0 < b) (hc : 0 < c) (hη : 0 < η) (hηc : η * c ≤ b ^ 3) (m : ℕ → ℝ) (hm : 0 < m 0)
    (hstep : ∀ k, m (k + 1) = m k - η * (c * ((m k - a) / (m k + b) ^ 3))) :
    (∀ k, 0 < m k ∧ |m k - a| ≤ (1 - η * c / (max (m 0) a + b) ^ 3) ^ k * |m 0 - a|) ∧ Filter.Tendsto m Filter.atTop (nhds a) := by
  set M := max (m 0) a with hM
  have hMa : a ≤ M := le_max_right _ _
  have hM0 : m 0 ≤ M := le_max_left _ _
  have hMb : 0 < (M + b) ^ 3 := by positivity
  set r := 1 - η * c / (M + b) ^ 3 with hr
  have hr1 : r < 1 := by
    have : 0 < η * c / (M + b) ^ 3 := by positivity
    linarith
  have hr0 : 0 ≤ r := by
    have h1 : b ^ 3 ≤ (M + b) ^ 3 := by gcongr; linarith
    have : η * c / (M + b) ^ 3 ≤ 1 := (div_le_one hMb).2 (hηc.trans h1)
    linarith
  have key : ∀ k, (0 < m k ∧ m k ≤ M) ∧ |m k - a| ≤ r ^ k * |m 0 - a| := by
    intro k
    induction k with
    | zero => exact ⟨⟨hm, hM0⟩, by simp⟩
    | succ k ih =>
      obtain ⟨⟨i1, i2⟩, i3⟩ := ih
      have hs : 0 < (m k + b) ^ 3 := by positivity
      set φ := η * c / (m k + b) ^ 3 with hφ
      have hφ1 : φ ≤ 1 := by
        rw [hφ, div_le_one hs]
        refine hηc.trans ?_
        gcongr; linarith
      have hφ0 : η * c / (M + b) ^ 3 ≤ φ := by
        rw [hφ]
        gcongr
      have e : m (k + 1) - a = (1 - φ) * (m k - a) := by rw [hstep, hφ]; ring
      have e2 : m (k + 1) = (1 - φ) * m k + φ * a := by linarith
      have hφp : 0 < φ := by positivity
      refine ⟨⟨?_, ?_⟩, ?_⟩
      · rw [e2]
        have : 0 ≤ (1 - φ) * m k := mul_nonneg (by linarith) i1.le
        have : 0 < φ * a := by positivity
        linarith
      · rw [e2]
        nlinarith
      · rw [e, abs_mul, abs_of_nonneg (by linarith), pow_succ']
        calc (1 - φ) * |m k - a| ≤ r * (r ^ k * |m 0 - a|) := by
              refine mul_le_mul (by rw [hr]; linarith) i3 (abs_nonneg _) hr0
          _ = _ := by ring
  refine ⟨fun k => ⟨(key k).1.1, (key k).2⟩, ?_⟩
  rw [tendsto_iff_dist_tendsto_zero]
  refine squeeze_zero (g := fun k => r ^ k * |m 0 - a|) (fun _ => dist_nonneg) (fun k => (Real.dist_eq _ _).trans_le (key k).2) ?_
  have := (tendsto_pow_atTop_nhds_zero_of_lt_one hr0 hr1).mul_const |m 0 - a|
  simpa using this

/-- C131, the restitution from a collision: with known masses the loss is a parabola. -/
theorem C131_restitution (Q : TwoDiscs) (h0 : 0 < Q.m0) (h1 : 0 < Q.m1) (x : ℝ) :
    mismatch { Q with e := x } Q = (Q.m0 ^ 2 + Q.m1 ^ 2) / (Q.m0 + Q.m1) ^ 2 * (x - Q.e) ^ 2 := by
  unfold mismatch TwoDiscs.share0 TwoDiscs.share1
  have : Q.m0 + Q.m1 ≠ 0 := by positivity
  field_simp
  ring

/-! ## Examples -/

/-- Where `run_world` returns, so does the loop that records the positions. -/
theorem positions_of_run {env : Env (Option Mat) Finder} {fuel : ℕ} {T : ℝ} : ∀ (n : ℕ) (w w' : World (Option Mat) Finder),
    runWorld env fuel T n w = .done w' → ∃ ps, Inference.positionsLoop env fuel T n w = .done ps := by
  intro n
  induction n with
  | zero =>
    intro w w' h
    unfold runWorld at h
    unfold Inference.positionsLoop
    by_cases ht : w.t < T
    · rw [if_pos ht] at h; cases h
    · exact ⟨[], by rw [if_neg ht]⟩
  | succ n ih =>
    intro w w' h
    unfold runWorld at h
    unfold Inference.positionsLoop
    by_cases ht : w.t < T
    · rw [if_pos ht] at h
      simp only at h
      obtain ⟨w1, hw1, h⟩ := Run.bind_eq_done.1 h
      obtain ⟨ps, hps⟩ := ih w1 w' h
      exact ⟨Inference.poseRow w1 :: ps, by rw [if_pos ht]; simp only [hw1, Run.bind_done, hps]⟩
    · exact ⟨[], by rw [if_neg ht]⟩

/-- A disc of mass `m` and speed 1 on its way to a disc of mass 1 at rest, without restitution. -/
theorem pair_runs (m : ℝ) (hm : 0 < m) (mi cfuel : ℕ) (fnd : Finder) : ∃ w fuel n ps w',
    mkWorld (pdipmEnv 2 idleForces exactLcp mi (diffCollide cfuel (fun _ => []) allPairs)) none fnd
      (massBodies m 1 0 (-5, 0) (0, 0) (1, 0) (0, 0)) [] (1 / 30) (1 / 10) (1 / 1000000) false true = .done w ∧
    Discs cfuel allPairs { m0 := m, m1 := 1, r0 := 1, r1 := 1, e := 0 } w ∧ w.eps = 1 / 10 ∧ w.tol = 1 / 1000000 ∧ w.t = 0 ∧ w.dt = 1 / 30 ∧
    w.bodies = massBodies m 1 0 (-5, 0) (0, 0) (1, 0) (0, 0) ∧
    w.v = cat3 ((massBodies m 1 0 (-5, 0) (0, 0) (1, 0) (0, 0)).map Body.v) ∧ between w.bodies = (-5, 0) ∧ closing w.v = (1, 0) ∧
    runWorld (pdipmEnv 2 idleForces exactLcp mi (diffCollide cfuel (fun _ => []) allPairs)) fuel 5 n w = .done w' ∧
    Inference.positions_run_world (pdipmEnv 2 idleForces exactLcp mi (diffCollide cfuel (fun _ => []) allPairs)) fuel 5 n w = .done ps := by
  obtain ⟨w, h1, h2, h3, h4, h5, h6, h7⟩ := mass_made m 1 0 (1 / 30) (1 / 10) (1 / 1000000) hm one_pos (by norm_num) (by norm_num)
    (-5, 0) (0, 0) (1, 0) (0, 0) (by norm_num) (by norm_num)
    (by rw [show (((-5 : ℝ), (0 : ℝ)) - (0, 0)) = (-5, 0) by simp, len_x]; norm_num) idleForces exactLcp mi cfuel fnd
  obtain ⟨hb, hv⟩ := made_bodies h1
  have hwd := (mkWorld_clock h1).2
  have hk : 0 < min m 1 := lt_min hm one_pos
  have hdull : DullScene cfuel (fun _ => []) allPairs (min m 1) w := by
    refine ⟨h2.scene, fun i hi => ?_⟩
    rw [h2.two] at hi
    interval_cases i
    · exact ⟨by rw [h2.mass0]; exact min_le_left _ _, h2.inertia0, by rw [h2.fric0], by rw [hb]; rfl⟩
    · exact ⟨by rw [h2.mass1]; exact min_le_right _ _, h2.inertia1, by rw [h2.fric1], by rw [hb]; rfl⟩
  obtain ⟨fuel, n, w', hr, -⟩ := C130_every_time cfuel (fun _ => []) (by simp) allPairs allPairs_broad idleForces exactLcp exactLcp_exact mi
    (min m 1) 0 hk w hdull (by rw [hwd]; norm_num) (by rw [h3, h4]; norm_num)
    (C130_answers cfuel _ allPairs allPairs_broad idleForces mi (min m 1) hk w hdull h2.free
      fun t => ⟨_, by rw [h2.two]; exact idle_none t⟩)
    ⟨le_rfl, fun t fl hfl => by
      rw [h2.two, idle_none] at hfl
      injection hfl with hfl
      unfold pushSq
      rw [h2.two, ← hfl, Finset.sum_range_succ, Finset.sum_range_one]
      simp⟩ 5
  obtain ⟨ps, hps⟩ := positions_of_run n w w' hr
  exact ⟨w, fuel, n, Inference.poseRow w :: ps, w', h1, h2, h3, h4, h5, hwd, hb, hv, by rw [h6]; simp, by rw [h7]; simp, hr,
    by unfold Inference.positions_run_world; rw [hps]; rfl⟩

/-- After five seconds the discs have struck: without impact they would overlap. -/
theorem pair_hit {P : TwoDiscs} (D : DiscSetting P idleForces exactLcp allPairs) (hR : P.R = 2) {mi cfuel fuel n : ℕ} {ps : List (List ℝ)}
    {w w' : World (Option Mat) Finder} (h : Discs cfuel allPairs P w) (h4 : w.tol = 1 / 1000000) (h5 : w.t = 0) (hwd : w.dt = 1 / 30)
    (hq : between w.bodies = (-5, 0)) (hv : closing w.v = (1, 0))
    (hr : runWorld (pdipmEnv 2 idleForces exactLcp mi (diffCollide cfuel (fun _ => []) allPairs)) fuel 5 n w = .done w')
    (hps : Inference.positions_run_world (pdipmEnv 2 idleForces exactLcp mi (diffCollide cfuel (fun _ => []) allPairs)) fuel 5 n w = .done ps) :
    closing w'.v ≠ closing w.v := by
  obtain ⟨a1, a2, -⟩ := runWorld_done n w w' h.scene.good (by rw [hwd]; norm_num) hr
  have a2 := a2 (by rw [h5]; norm_num)
  obtain ⟨N, ws, rfl, hst, -, -, -, hrw⟩ := positions_all h.scene.good hps
  rw [hr] at hrw
  injection hrw with hrw
  subst hrw
  intro hc
  obtain ⟨d1, -, d3, -⟩ := discs_run D (by rw [hwd]; norm_num) h hst N le_rfl
  have hap := d1.apart D.broad D.once
  rw [d3, h4, hR] at hap
  rcases (C129_once P _ _ _ D mi cfuel N _ (by rw [hwd]; norm_num) ws h hst N le_rfl).1 with ⟨-, hb⟩ | hs
  · rw [hb, hq, hv, h5, show (((-5 : ℝ), (0 : ℝ)) + ((ws N).t - 0) • ((1 : ℝ), (0 : ℝ))) = ((ws N).t - 5, 0) by
      ext <;> simp; ring, len_x, abs_of_nonneg (by linarith)] at hap
    rw [hwd] at a2
    norm_num at hap
    linarith
  · obtain ⟨τ, -, -, b3, b4, b5, -⟩ := hs
    have hp := ne_zero_of_far h.tol_lt b3
    have := inner_struck (e := P.e) (v := closing (ws 0).v) hp
    rw [← b5, hc] at this
    nlinarith [b4.2, D.e]

/-- Example for `C131_twins`, `C131_loss` and `C131_mass`: the mass of a disc is 2.  For every guess the run returns; the loss falls up to
the guess 2, where it is zero, and rises behind. -/
example (mi cfuel : ℕ) (fnd : Finder) : ∃ qs : List (List ℝ), ∃ L : ℝ → ℝ, L 2 = 0 ∧ StrictAntiOn L (Set.Ioc 0 2) ∧
    StrictMonoOn L (Set.Ici 2) ∧ ∀ m > 0, ∃ w fuel n ps,
      mkWorld (pdipmEnv 2 idleForces exactLcp mi (diffCollide cfuel (fun _ => []) allPairs)) none fnd
        (massBodies m 1 0 (-5, 0) (0, 0) (1, 0) (0, 0)) [] (1 / 30) (1 / 10) (1 / 1000000) false true = .done w ∧
      Inference.positions_run_world (pdipmEnv 2 idleForces exactLcp mi (diffCollide cfuel (fun _ => []) allPairs)) fuel 5 n w = .done ps ∧
      Inference.chainLoss ps qs = .done (L m) := by
  obtain ⟨u, fuel', n', qs, u', -, u2, u3, u4, u5, u6, u7, u8, u9, u10, u11, u12⟩ := pair_runs 2 two_pos mi cfuel fnd
  have setting : ∀ m > 0, DiscSetting { m0 := m, m1 := 1, r0 := 1, r1 := 1, e := 0 } idleForces exactLcp allPairs := fun m hm =>
    ⟨hm, one_pos, le_rfl, allPairs_broad, allPairs_once, idle_none, exactLcp_exact⟩
  obtain ⟨c, -, L, l1, l2, l3, l4, -⟩ := C131_mass _ _ _ _ (setting 2 two_pos) mi cfuel fuel' n' 5 u u' u2 (by rw [u6]; norm_num) qs u12 u11
    (pair_hit (setting 2 two_pos) (by norm_num [TwoDiscs.R]) u2 u4 u5 u6 u9 u10 u11 u12)
  refine ⟨qs, L, l2, l3, l4, fun m hm => ?_⟩
  obtain ⟨w, fuel, n, ps, w', w1, w2, w3, w4, w5, w6, w7, w8, w9, w10, w11, w12⟩ := pair_runs m hm mi cfuel fnd
  refine ⟨w, fuel, n, ps, w1, w12, l1 m idleForces exactLcp (setting m hm) mi fuel n w w2 ps (by rw [w3, u3]) (by rw [w4, u4])
    (by rw [w6, u6]) ⟨by rw [w5, u5], fun i hi => ?_, fun i hi => ?_⟩ w12⟩
  · rw [w7, u7]
    interval_cases i <;> rfl
  · rw [w8, u8]
    interval_cases i <;> rfl

/-- Example for `C131_ratio`: doubling both masses changes nothing. -/
example : mismatch { m0 := 4, m1 := 2, r0 := 1, r1 := 1, e := 1 / 2 } { m0 := 2, m1 := 1, r0 := 1, r1 := 1, e := 1 / 2 } = 0 :=
  (C131_ratio _ _ (by norm_num) (by norm_num) (by norm_num) (by norm_num) (by norm_num)).2 ⟨rfl, by norm_num⟩

/-- Example for `C131_descent`: rate 1 with `c = 1`, `b = 1`, from the guess 10 to the mass 2. -/
example : ∃ m : ℕ → ℝ, m 0 = 10 ∧ Filter.Tendsto m Filter.atTop (nhds 2) := by
  let m : ℕ → ℝ := fun k => Nat.rec 10 (fun _ x => x - 1 * (1 * ((x - 2) / (x + 1) ^ 3))) k
  exact ⟨m, rfl, (C131_descent 2 1 1 1 two_pos one_pos one_pos one_pos (by norm_num) m (by norm_num [m]) fun _ => rfl).2⟩

end LcpPhysics
