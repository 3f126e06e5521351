import Verif.Props.DemoRun

/-! # Examples for C115 -/

noncomputable section

namespace LcpPhysics
open Spec Demos

/-- A ball that turns inside a fixed slope, told to ignore it, for one second. -/
def insideDemo : Demo where
  items := [.rect (.three ⟨Real.pi / 32, 500, 300⟩) (900, 10) {}, .circle (.two (500, 300)) 20 { vel := .three ⟨1, 2, 0⟩ }]
  joints := fun bs => [mkTotal bs 0]
  nc := addNoContact (fun _ => []) 0 1
  forces := withForces [.gravity 100 none] [(0, 0)]
  post_stab := false
  run_time := 1

theorem inside_made : WellMade insideDemo where
  some := by simp [insideDemo]
  fine := by
    intro i hi
    simp only [insideDemo, List.mem_cons, List.not_mem_nil, or_false] at hi
    rcases hi with rfl | rfl <;> norm_num [Fine]
  apart := by
    intro k hk l hl h
    have hl' : l < 2 := hl
    interval_cases l
    · omega
    · interval_cases k
      left
      simp [insideDemo, addNoContact]
  joints := by
    intro bs j hj
    simp only [insideDemo, List.mem_singleton] at hj
    subst hj
    exact ⟨by simp [mkTotal, insideDemo], by simp [mkTotal], mkTotal_fix _ _ _ rfl⟩
  tree := fun bs => tree_one _

/-- In a world in which nothing touches, `run_world` returns. -/
theorem quiet_play {N : ℕ} {H : ForceHeap} (hH : ∀ t, ∃ fl, forceCat H t N = .ok fl) {lcp : LcpSolver} {mi : ℕ}
    {collide : ℝ → Finder → List Body → Except Err (Finder × List Contact)} (hf : FinderOk collide)
    (hsil : ∀ eps f (bs : List Body), bs.length = N → collide eps f bs = .ok (f, [])) (T : ℝ) :
    ∀ (n : ℕ) (w : World (Option Mat) Finder), Quiet N w → T ≤ w.t + n * w.dt →
      ∃ w', runWorld (pdipmEnv 2 H lcp mi collide) 1 T n w = .done w' := by
  intro n
  induction n with
  | zero =>
    intro w _ h
    refine ⟨w, ?_⟩
    unfold runWorld
    rw [if_neg (by push_cast at h; linarith)]
  | succ n ih =>
    intro w hw h
    unfold runWorld
    split_ifs with ht
    · obtain ⟨w1, h1, h2, h3⟩ := quiet_step hH (lcp := lcp) (mi := mi) hf hsil hw w.dt
      have hdt := (step_dt_params hw.inv.good h1).1
      obtain ⟨w', h4⟩ := ih w1 h2 (by rw [h3, hdt]; push_cast at h; linarith)
      refine ⟨w', ?_⟩
      simp only [World.step, Bool.false_eq_true, if_false]
      rw [h1]
      exact h4
    · exact ⟨w, rfl⟩

/-- The run returns. -/
theorem inside_plays (lcp : LcpSolver) (mi cfuel : ℕ) (hcf : 66 ≤ cfuel) (pairs : List Body → List (ℕ × ℕ))
    (hp : ∀ bs, ∀ p ∈ pairs bs, p.1 < bs.length ∧ p.2 < bs.length ∧ p.1 ≠ p.2) (fnd : Finder) :
    ∃ w, insideDemo.play lcp mi 1 30 (watched 1 (rejectNan (diffCollide cfuel insideDemo.nc pairs))) fnd = .done w := by
  have hsil : ∀ eps f (bs : List Body), bs.length = 2 →
      rejectNan (diffCollide cfuel insideDemo.nc pairs) eps f bs = .ok (f, []) :=
    fun eps f bs hb => pair_silent cfuel (by simp [insideDemo, addNoContact]) (by simp [insideDemo, addNoContact]) hp eps f bs hb
  have hwat : ∀ eps f (bs : List Body), bs.length = 2 →
      watched 1 (rejectNan (diffCollide cfuel insideDemo.nc pairs)) eps f bs = .ok (f, []) := by
    intro eps f bs hb
    unfold watched
    rw [hsil eps f bs hb]
    simp [Untouched]
  have hfo := watched_finderOk (i := 1) (C12_finder_ok cfuel insideDemo.nc pairs hp)
  obtain ⟨bs, b1, b2, b3⟩ := built_all insideDemo.items inside_made.fine
  have b2' : bs.length = 2 := b2
  have hmem : ∀ k < 2, ∃ b, (insideDemo.items.getD k clock).build = .ok b ∧ bodyAt bs k = b ∧ b.RectForm ∧ 0 < b.mass ∧
      0 < b.ang_inertia := by
    intro k hk
    obtain ⟨b, q1, -, -, -, q2, q3⟩ := item_built (insideDemo.items.getD k clock) (inside_made.fine _ (by
      rw [List.getD_eq_getElem?_getD, List.getElem?_eq_getElem (show k < insideDemo.items.length from hk)]
      exact List.getElem_mem _))
    have := b3 k hk
    rw [q1] at this
    injection this with this
    exact ⟨b, q1, this.symm, q2, q3⟩
  obtain ⟨w0, h1, h2, -, -, -, h3⟩ := quiet_initial (H := insideDemo.forces) (lcp := lcp) (mi := mi) hfo fnd bs
    (by rintro rfl; simp at b2')
    (by
      intro b hb
      obtain ⟨k, hk, rfl⟩ := List.getElem_of_mem hb
      obtain ⟨b', -, e, r, -⟩ := hmem k (by omega)
      have : bodyAt bs k = bs[k] := by simp [bodyAt, List.getD_eq_getElem?_getD, hk]
      rw [← this, e]; exact r)
    (by rw [b2']; exact hwat)
    (by
      intro k hk
      obtain ⟨b', -, e, -, r⟩ := hmem k (by omega)
      rw [e]; exact r)
    (insideDemo.joints bs) (fun j hj => (inside_made.joints bs j hj).2.2)
    (fun j hj k hk => ((inside_made.joints bs j hj).2.1 k hk).2)
    (by
      intro j hj
      obtain ⟨q1, q2, -⟩ := inside_made.joints bs j hj
      rw [b2]
      exact ⟨q1, fun k hk => (q2 k hk).1⟩)
    (inside_made.tree bs) (1 / 30) (1 / 10) (1 / 1000000) true
  have hstart : insideDemo.start lcp mi (watched 1 (rejectNan (diffCollide cfuel insideDemo.nc pairs))) fnd = .done w0 := by
    unfold Demo.start
    rw [b1]
    exact h1
  have hdt : w0.dt = 1 / 30 := by
    exact (start_starts insideDemo inside_made lcp mi cfuel hcf pairs hp fnd w0
      (start_watched insideDemo 1 lcp mi _ fnd w0 hstart)).2.2.2.2.2.2.2
  obtain ⟨w, hw⟩ := quiet_play (H := insideDemo.forces) (withForces_ok _ _ _) (lcp := lcp) (mi := mi) hfo (N := 2) hwat 1 30 w0
    (by rw [b2'] at h2; exact h2) (by rw [h3, hdt]; norm_num)
  refine ⟨w, ?_⟩
  unfold Demo.play
  rw [hstart]
  exact hw

/-- So the hypotheses of the theorems can be met: after the second the ball has turned by the time and passed through the slope. -/
example (pairs : List Body → List (ℕ × ℕ)) (hp : ∀ bs, ∀ p ∈ pairs bs, p.1 < bs.length ∧ p.2 < bs.length ∧ p.1 ≠ p.2) (fnd : Finder) :
    ∃ w, insideDemo.play exactLcp 10 1 30 (rejectNan (diffCollide 66 insideDemo.nc pairs)) fnd = .done w ∧
      (bodyAt w.bodies 1).p = ⟨w.t, 500 + 2 * w.t, 300⟩ ∧ 1 ≤ w.t ∧ w.t < 1 + 1 / 30 ∧
      (bodyAt w.bodies 0).p = ⟨Real.pi / 32, 500, 300⟩ := by
  obtain ⟨w, hw⟩ := inside_plays exactLcp 10 66 le_rfl pairs hp fnd
  obtain ⟨r1, -, r3, r4, r5⟩ := C115_left_alone insideDemo inside_made exactLcp exactLcp_exact 10 1 30 66 le_rfl pairs hp fnd w 1
    (by simp [insideDemo]) (by
      intro bs j hj
      simp only [insideDemo, List.mem_singleton] at hj
      subst hj
      simp [mkTotal]) (by simp [insideDemo, withForces, ForceHeap.add_force]) (by norm_num [insideDemo]) hw _ rfl
  refine ⟨w, r1, ?_, r4, r5, ?_⟩
  · rw [r3]
    apply V3.ext <;> simp [mkCircle, Arg.toV3, mul_comm]
  · obtain ⟨w0, h1, h2, -⟩ := play_watched insideDemo 1 exactLcp 10 1 30 _ fnd w hw
    exact C115_held insideDemo inside_made exactLcp exactLcp_exact 10 66 le_rfl pairs hp fnd w0 w 0 (by simp [insideDemo])
      (by simp [insideDemo]) h1 (runWorld_reaches (watched_run 1 _ _ _ _ _ _ h2))

/-- All pairs of bodies, as a broad phase. -/
example (d : Demo) (hd : d ∈ shippedScenes) (lcp : LcpSolver) (fnd : Finder) :
    ∃ w, d.start lcp 20 (rejectNan (diffCollide 66 d.nc fun bs =>
      (List.range bs.length).flatMap fun i => (List.range i).map fun j => (i, j))) fnd = .done w ∧ w.contacts = [] := by
  obtain ⟨w, h1, h2, -⟩ := C115_demos_start d hd lcp 20 66 le_rfl
    (fun bs => (List.range bs.length).flatMap fun i => (List.range i).map fun j => (i, j)) (by
      intro bs p hp
      simp only [List.mem_flatMap, List.mem_map, List.mem_range] at hp
      obtain ⟨i, hi, j, hj, rfl⟩ := hp
      exact ⟨hi, by show j < _; omega, by show i ≠ j; omega⟩) fnd
  exact ⟨w, h1, h2⟩

/-- A body listed by all others and listing the first hundred, in scenes of at most a hundred bodies. -/
example (pairs : List Body → List (ℕ × ℕ)) (hp : ∀ bs, ∀ p ∈ pairs bs, p.1 < bs.length ∧ p.2 < bs.length ∧ p.1 ≠ p.2) (eps : ℝ)
    (f : Finder) (bs : List Body) (hb : bs.length ≤ 100) :
    watched 1 (rejectNan (diffCollide 66 (fun i => if i = 1 then List.range 100 else [1]) pairs)) eps f bs =
      rejectNan (diffCollide 66 (fun i => if i = 1 then List.range 100 else [1]) pairs) eps f bs :=
  C115_excluded 66 _ pairs 1 bs (hp bs) (fun j hj h1 => by simp [hj]; omega) eps f

end LcpPhysics
