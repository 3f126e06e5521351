import Verif.Spec.CircleWorld
import Verif.Props.BroadPhase
import Verif.Props.EngineExamples
import Verif.Props.Stepping

/-!
# C27: worlds of circles

Strict stepping without post-stabilization, with the differentiable contact handler and an exact LCP
solver.
-/

noncomputable section

namespace LcpPhysics
open Spec

/-! ## Contacts among circles -/

/-- The contacts reported for presented pairs of circles. -/
def circleContacts (nc : ℕ → List ℕ) (eps : ℝ) (bs : List Body) (ps : List (ℕ × ℕ)) : List Contact :=
  ps.flatMap fun p =>
    if p.1 ∈ nc p.2 then [] else
      (circleCircle eps (bodyAt bs p.1).rad (bodyAt bs p.2).rad (bodyAt bs p.1).pos (bodyAt bs p.2).pos).map
        fun q => { normal := q.normal, p1 := q.p1, p2 := q.p2, pen := q.pen, i1 := p.1, i2 := p.2, nan := q.nan }

theorem handleAll_circles {fuel : ℕ} {nc : ℕ → List ℕ} {eps : ℝ} {bs : List Body}
    (hb : ∀ i < bs.length, (bodyAt bs i).isCircle = true) : ∀ (ps : List (ℕ × ℕ)) (f : Finder),
    (∀ p ∈ ps, p.1 < bs.length ∧ p.2 < bs.length) →
    handleAll fuel nc eps bs ps f = .done (f, circleContacts nc eps bs ps)
  | [], f, _ => rfl
  | p :: ps, f, h => by
    have h1 : handle fuel nc eps bs f p.1 p.2 = .done (f, circleContacts nc eps bs [p]) := by
      unfold handle circleContacts
      simp only [List.flatMap_cons, List.flatMap_nil, List.append_nil]
      split_ifs with hx
      · rfl
      · unfold handlePair
        simp only
        rw [if_pos ⟨hb _ (h p (by simp)).1, hb _ (h p (by simp)).2⟩]
    unfold handleAll
    rw [h1, Run.bind_done, handleAll_circles hb ps f fun q hq => h q (List.mem_cons_of_mem _ hq), Run.bind_done]
    simp [circleContacts]

theorem collide_circles {fuel : ℕ} {nc : ℕ → List ℕ} {pairs : List Body → List (ℕ × ℕ)} (hp : BroadPhase pairs)
    {eps : ℝ} {bs : List Body} (hb : ∀ i < bs.length, (bodyAt bs i).isCircle = true) (f : Finder) :
    diffCollide fuel nc pairs eps f bs = .ok (f, circleContacts nc eps bs (pairs bs)) := by
  unfold diffCollide
  rw [handleAll_circles hb _ _ fun p h => ⟨(hp.valid bs p h).1, (hp.valid bs p h).2.1⟩]
  rfl

/-- What is known of a contact between circles. -/
theorem circleContacts_mem {nc : ℕ → List ℕ} {eps : ℝ} {bs : List Body} {ps : List (ℕ × ℕ)} {c : Contact}
    (h : c ∈ circleContacts nc eps bs ps) :
    (c.i1, c.i2) ∈ ps ∧ c.i1 ∉ nc c.i2 ∧ c.pen = overlapDepth (bodyAt bs c.i1) (bodyAt bs c.i2) ∧
    c.normal = (1 / Spec.dist (bodyAt bs c.i1).pos (bodyAt bs c.i2).pos) •
      ((bodyAt bs c.i1).pos - (bodyAt bs c.i2).pos) ∧
    (∃ s : ℝ, c.p1 = s • c.normal) ∧ (∃ s : ℝ, c.p2 = s • c.normal) ∧
    (c.nan = true → Spec.dist (bodyAt bs c.i1).pos (bodyAt bs c.i2).pos = 0) := by
  unfold circleContacts at h
  obtain ⟨p, hp, h⟩ := List.mem_flatMap.1 h
  split_ifs at h with hx
  · simp at h
  · obtain ⟨q, hq, rfl⟩ := List.mem_map.1 h
    unfold circleCircle at hq
    simp only at hq
    split_ifs at hq with hpen
    · simp at hq
    · have hq := List.mem_singleton.1 hq
      subst hq
      refine ⟨hp, hx, ?_, ?_, ?_, ?_, ?_⟩
      · simp only [overlapDepth, Spec.dist, nrm_eq_len]
      · simp only [Spec.dist, nrm_eq_len]
      · exact ⟨-((bodyAt bs p.1).rad - ((bodyAt bs p.1).rad + (bodyAt bs p.2).rad -
          nrm ((bodyAt bs p.1).pos - (bodyAt bs p.2).pos)) / 2), by simp only [neg_smul, smul_neg]⟩
      · exact ⟨_, rfl⟩
      · intro hn
        simpa [Spec.dist, nrm_eq_len] using hn

/-- Every presented, not excluded pair of circles at most `eps` apart is reported. -/
theorem circleContacts_reported {nc : ℕ → List ℕ} {eps : ℝ} {bs : List Body} {ps : List (ℕ × ℕ)} {i j : ℕ}
    (h : (i, j) ∈ ps) (hx : i ∉ nc j) (hd : -eps ≤ overlapDepth (bodyAt bs i) (bodyAt bs j)) :
    ∃ c ∈ circleContacts nc eps bs ps, c.i1 = i ∧ c.i2 = j := by
  have : ∃ q, circleCircle eps (bodyAt bs i).rad (bodyAt bs j).rad (bodyAt bs i).pos (bodyAt bs j).pos = [q] := by
    unfold circleCircle
    simp only
    rw [if_neg]
    · exact ⟨_, rfl⟩
    · rw [nrm_eq_len]; exact not_lt.2 hd
  obtain ⟨q, hq⟩ := this
  refine ⟨{ normal := q.normal, p1 := q.p1, p2 := q.p2, pen := q.pen, i1 := i, i2 := j, nan := q.nan }, ?_, rfl, rfl⟩
  unfold circleContacts
  refine List.mem_flatMap.2 ⟨(i, j), h, ?_⟩
  simp only
  rw [if_neg hx, hq]
  simp

theorem overlapDepth_comm (a b : Body) : overlapDepth a b = overlapDepth b a := by
  unfold overlapDepth; rw [Spec.dist_comm]; ring

/-- With a complete broad phase every near pair is reported, in one order or the other. -/
theorem near_reported {nc : ℕ → List ℕ} (hnc : ∀ i j, i ∈ nc j → j ∈ nc i) {pairs : List Body → List (ℕ × ℕ)}
    (hp : BroadPhase pairs) {eps : ℝ} (heps : 0 ≤ eps) {bs : List Body} (hb : ∀ b ∈ bs, CircleBody eps b)
    {i j : ℕ} (hi : i < bs.length) (hj : j < bs.length) (hij : i ≠ j) (hx : i ∉ nc j)
    (hd : -eps ≤ overlapDepth (bodyAt bs i) (bodyAt bs j)) :
    ∃ c ∈ circleContacts nc eps bs (pairs bs), (c.i1 = i ∧ c.i2 = j) ∨ (c.i1 = j ∧ c.i2 = i) := by
  have hmem : ∀ k < bs.length, bodyAt bs k ∈ bs := by
    intro k hk
    have : bodyAt bs k = bs[k] := by simp [bodyAt, List.getD_eq_getElem?_getD, hk]
    rw [this]; exact List.getElem_mem hk
  have b1 := hb _ (hmem i hi)
  have b2 := hb _ (hmem j hj)
  obtain ⟨c, hc, h1, h2⟩ := circleContacts_reported (ps := [(i, j)]) (nc := nc) (eps := eps) (bs := bs)
    (List.mem_singleton.2 rfl) hx hd
  have hpair : handlePair 0 eps bs ⟨fun _ => 0, fun _ => 0⟩ i j = .done (⟨fun _ => 0, fun _ => 0⟩,
      circleContacts nc eps bs [(i, j)]) := by
    unfold handlePair circleContacts
    simp only [List.flatMap_cons, List.flatMap_nil, List.append_nil]
    rw [if_pos ⟨b1.circle, b2.circle⟩, if_neg hx]
  have ho := C09_circle_contact_presented 0 eps heps bs _ _ i j _ hpair (List.ne_nil_of_mem hc) b1.alive b2.alive
    b1.rad b2.rad (by linarith [b1.eps]) (by linarith [b2.eps]) (by linarith [b1.eps, b2.eps]) (.inl b1.circle)
  rcases hp.complete bs i j hi hj hij ho with h | h
  · obtain ⟨c, hc, h⟩ := circleContacts_reported (nc := nc) h hx hd
    exact ⟨c, hc, .inl h⟩
  · obtain ⟨c, hc, h⟩ := circleContacts_reported (nc := nc) h (fun h' => hx (hnc _ _ h'))
      (by rw [overlapDepth_comm]; exact hd)
    exact ⟨c, hc, .inr h⟩

/-- What a contact search among circles without contacts deeper than `tol` means. -/
theorem noOverlap_of_contacts {nc : ℕ → List ℕ} (hnc : ∀ i j, i ∈ nc j → j ∈ nc i)
    {pairs : List Body → List (ℕ × ℕ)} (hp : BroadPhase pairs) {eps tol : ℝ} (heps : 0 ≤ eps) (htol : -eps ≤ tol)
    {bs : List Body} (hb : ∀ b ∈ bs, CircleBody eps b)
    (h : ∀ c ∈ circleContacts nc eps bs (pairs bs), c.pen ≤ tol) : NoOverlap nc tol bs := by
  intro i hi j hj hij hx
  by_contra hlt
  push Not at hlt
  obtain ⟨c, hc, hcij⟩ := near_reported hnc hp heps hb hi hj hij hx (by linarith)
  have h1 := h c hc
  rw [(circleContacts_mem hc).2.2.1] at h1
  rcases hcij with ⟨a, b⟩ | ⟨a, b⟩
  · rw [a, b] at h1; linarith
  · rw [a, b, overlapDepth_comm] at h1; linarith

/-! ## The invariant -/

/-- A strict world of circles between steps. -/
structure CircleScene (fuel : ℕ) (nc : ℕ → List ℕ) (pairs : List Body → List (ℕ × ℕ))
    (w : World (Option Mat) Finder) : Prop where
  good : w.Good
  joints : JointsOk w
  cache : CacheInv w
  strict : w.strict_no_pen = true
  nostab : w.post_stab = false
  eps : 0 ≤ w.eps
  tol : -w.eps ≤ w.tol
  bodies : ∀ b ∈ w.bodies, CircleBody w.eps b
  radii : ∀ i < w.bodies.length, ∀ j < w.bodies.length, i ≠ j →
    w.tol < (bodyAt w.bodies i).rad + (bodyAt w.bodies j).rad
  contacts : ∃ f, diffCollide fuel nc pairs w.eps f w.bodies = .ok (w.fnd, w.contacts)
  nopen : ∀ c ∈ w.contacts, c.pen ≤ w.tol

theorem bodyAt_mem {bs : List Body} {k : ℕ} (hk : k < bs.length) : bodyAt bs k ∈ bs := by
  have : bodyAt bs k = bs[k] := by simp [bodyAt, List.getD_eq_getElem?_getD, hk]
  rw [this]; exact List.getElem_mem hk

theorem CircleScene.circles {fuel : ℕ} {nc : ℕ → List ℕ} {pairs : List Body → List (ℕ × ℕ)}
    {w : World (Option Mat) Finder} (h : CircleScene fuel nc pairs w) :
    ∀ i < w.bodies.length, (bodyAt w.bodies i).isCircle = true :=
  fun _ hi => (h.bodies _ (bodyAt_mem hi)).circle

theorem CircleScene.contacts_eq {fuel : ℕ} {nc : ℕ → List ℕ} {pairs : List Body → List (ℕ × ℕ)}
    (hp : BroadPhase pairs) {w : World (Option Mat) Finder} (h : CircleScene fuel nc pairs w) :
    w.contacts = circleContacts nc w.eps w.bodies (pairs w.bodies) := by
  obtain ⟨f, hf⟩ := h.contacts
  rw [collide_circles hp h.circles] at hf
  injection hf with hf
  exact (Prod.mk.inj hf).2.symm

theorem CircleScene.contactsOk {fuel : ℕ} {nc : ℕ → List ℕ} {pairs : List Body → List (ℕ × ℕ)}
    (hp : BroadPhase pairs) {w : World (Option Mat) Finder} (h : CircleScene fuel nc pairs w) : ContactsOk w := by
  intro c hc
  have hc' := hc
  rw [h.contacts_eq hp] at hc'
  obtain ⟨h1, -, h3, -, -, -, h7⟩ := circleContacts_mem hc'
  obtain ⟨v1, v2, v3⟩ := hp.valid _ _ h1
  refine ⟨v1, v2, v3, ?_⟩
  by_contra hn
  have hz := h7 (by simpa using hn)
  have := h.nopen c hc
  have hr := h.radii _ v1 _ v2 v3
  rw [h3, overlapDepth, hz] at this
  linarith

theorem circleBody_op {eps : ℝ} {b : Body} (h : CircleBody eps b) (o : BodyOp) : CircleBody eps (b.op o) := by
  have hs : ∃ r, b.shape = .circle r := by
    have := h.circle
    unfold Body.isCircle at this
    cases hb : b.shape with
    | circle r => exact ⟨r, rfl⟩
    | hull vs => rw [hb] at this; cases this
    | rect d vs => rw [hb] at this; cases this
  obtain ⟨r, hr⟩ := hs
  have hr' : (b.op o).shape = .circle r := run_circle b hr [o]
  have he : (b.op o).eps = b.eps := run_eps b [o]
  refine ⟨?_, ?_, ?_, ?_⟩
  · obtain ⟨b0, ops, h0, rfl⟩ := h.alive
    exact ⟨b0, ops ++ [o], h0, by simp [Body.run, List.foldl_append]⟩
  · rw [Body.isCircle, hr']
  · have := h.rad
    rw [Body.rad, hr] at this
    rw [Body.rad, hr']; exact this
  · rw [he]; exact h.eps

theorem circle_rad_op {b : Body} (h : b.isCircle = true) (o : BodyOp) : (b.op o).rad = b.rad := by
  unfold Body.isCircle at h
  cases hb : b.shape with
  | circle r =>
    have : (b.op o).shape = .circle r := run_circle b hb [o]
    rw [Body.rad, Body.rad, this, hb]
  | hull vs => rw [hb] at h; cases h
  | rect d vs => rw [hb] at h; cases h

/-- The bodies tried by the step loop: those of `w` with new velocities, moved. -/
theorem tried_bodies (w : World (Option Mat) Finder) (e : Option Mat) (v : Vec) (d : ℝ) :
    ((({ w with eng := e } : World (Option Mat) Finder).set_v v).bodies.map fun b => b.move d).length =
      w.bodies.length ∧
    ∀ i < w.bodies.length,
      bodyAt ((({ w with eng := e } : World (Option Mat) Finder).set_v v).bodies.map fun b => b.move d) i =
        ((bodyAt w.bodies i).op (.setV (slice3 v i))).op (.move d) := by
  refine ⟨by simp [World.set_v], ?_⟩
  intro i hi
  have hl : i < (({ w with eng := e } : World (Option Mat) Finder).set_v v).bodies.length := by
    rw [set_v_length]; exact hi
  rw [bodyAt_map _ _ _ hl]
  have : bodyAt (({ w with eng := e } : World (Option Mat) Finder).set_v v).bodies i =
      (bodyAt w.bodies i).op (.setV (slice3 v i)) := by
    have h1 : bodyAt (({ w with eng := e } : World (Option Mat) Finder).set_v v).bodies i =
      (({ w with eng := e } : World (Option Mat) Finder).set_v v).bodies[i] := by
        simp [bodyAt, List.getD_eq_getElem?_getD, hl]
    have h2 : bodyAt w.bodies i = w.bodies[i] := by simp [bodyAt, List.getD_eq_getElem?_getD, hi]
    rw [h1, set_v_getElem, h2]; rfl
  rw [this]; rfl

theorem tried_pos (b : Body) (u : V3) (d : ℝ) :
    ((b.op (.setV u)).op (.move d)).pos = b.pos + d • (u.x, u.y) := by
  change (Body.move { b with v := u } d).pos = _
  rw [Body.pos, move_p]
  rfl

theorem mem_bodyAt {bs : List Body} {b : Body} (h : b ∈ bs) : ∃ i < bs.length, b = bodyAt bs i := by
  obtain ⟨i, hi, rfl⟩ := List.getElem_of_mem h
  exact ⟨i, hi, by simp [bodyAt, List.getD_eq_getElem?_getD, hi]⟩

theorem tried_circle {fuel : ℕ} {nc : ℕ → List ℕ} {pairs : List Body → List (ℕ × ℕ)}
    {w : World (Option Mat) Finder} (h : CircleScene fuel nc pairs w) (e : Option Mat) (v : Vec) (d : ℝ) :
    ∀ b ∈ (({ w with eng := e } : World (Option Mat) Finder).set_v v).bodies.map fun b => b.move d,
      CircleBody w.eps b := by
  intro b hb
  obtain ⟨hl, ht⟩ := tried_bodies w e v d
  obtain ⟨i, hi, rfl⟩ := mem_bodyAt hb
  rw [ht i (by omega)]
  exact circleBody_op (circleBody_op (h.bodies _ (bodyAt_mem (by omega))) _) _

/-- One returning step keeps the invariant. -/
theorem circleScene_step {fuel : ℕ} {nc : ℕ → List ℕ} {pairs : List Body → List (ℕ × ℕ)} {H : ForceHeap}
    {lcp : LcpSolver} {mi n : ℕ} {dt : ℝ} {w w' : World (Option Mat) Finder} (h : CircleScene fuel nc pairs w)
    (hs : w.step_dt (pdipmEnv 2 H lcp mi (diffCollide fuel nc pairs)) n dt = .done w') :
    CircleScene fuel nc pairs w' := by
  obtain ⟨p1, p2, p3, p4, p5, p6, p7⟩ := step_dt_params h.good hs
  have hst := step_dt_statics h.good hs
  obtain ⟨hc1, hc2⟩ := C20_strict_step_no_penetration _ n w w' dt h.good h.strict h.nostab hs
  obtain ⟨v, hv⟩ := step_dt_eng h.good hs
  obtain ⟨e, v', k, w1, w2, _, _, hw1, hg1, ⟨fk, f', cs, hcs, ha, hw2⟩, _, hend⟩ := step_dt_done h.good hs
  have hbod : w'.bodies = (({ w with eng := e } : World (Option Mat) Finder).set_v v').bodies.map
      fun b => b.move (dt / 2 ^ k) := by
    rcases hend with ⟨_, rfl⟩ | ⟨hp', _⟩
    · subst hw2 hw1; rfl
    · rw [h.nostab] at hp'; cases hp'
  obtain ⟨hl, ht⟩ := tried_bodies w e v' (dt / 2 ^ k)
  refine ⟨step_dt_good h.good hs, jointsOk_congr hst h.joints, solve_cacheInv hst h.cache hv, p5.trans h.strict,
    p4.trans h.nostab, by rw [p2]; exact h.eps, by rw [p2, p3]; exact h.tol, ?_, ?_, ?_, ?_⟩
  · rw [hbod, p2]; exact tried_circle h e v' _
  · have hr : ∀ i < w.bodies.length, (bodyAt w'.bodies i).rad = (bodyAt w.bodies i).rad := by
      intro i hi
      rw [hbod, ht i hi, circle_rad_op (circleBody_op (h.bodies _ (bodyAt_mem hi)) _).circle,
        circle_rad_op (h.bodies _ (bodyAt_mem hi)).circle]
    intro i hi j hj hij
    rw [p6] at hi hj
    rw [p3, hr i hi, hr j hj]
    exact h.radii i hi j hj hij
  · rw [p2]; exact hc1
  · rw [p3]; exact hc2

theorem circleScene_reaches {fuel : ℕ} {nc : ℕ → List ℕ} {pairs : List Body → List (ℕ × ℕ)} {H : ForceHeap}
    {lcp : LcpSolver} {mi : ℕ} {w w' : World (Option Mat) Finder} (h : CircleScene fuel nc pairs w)
    (hr : Reaches (pdipmEnv 2 H lcp mi (diffCollide fuel nc pairs)) w w') : CircleScene fuel nc pairs w' := by
  induction hr with
  | refl => exact h
  | tail _ hstep ih =>
    obtain ⟨n, dt, hs⟩ := hstep
    exact circleScene_step ih hs

/-- C27, construction: a strict world made of constructed circles (without post-stabilization) satisfies the
invariant as soon as the constructor does not raise. -/
theorem C27_constructed (fuel : ℕ) (nc : ℕ → List ℕ) (pairs : List Body → List (ℕ × ℕ)) (H : ForceHeap)
    (lcp : LcpSolver) (mi : ℕ) (fnd : Finder) (bodies : List Body) (joints : List Joint) (dt eps tol : ℝ)
    (w : World (Option Mat) Finder) (heps : 0 ≤ eps) (htol : -eps ≤ tol)
    (hb : ∀ b ∈ bodies, CircleBody eps b)
    (hr : ∀ i < bodies.length, ∀ j < bodies.length, i ≠ j → tol < (bodyAt bodies i).rad + (bodyAt bodies j).rad)
    (hj : ∀ j ∈ joints, j.update_pos bodies = j ∧ ∀ k ∈ j.i2, j.i1 ≠ k)
    (h : mkWorld (pdipmEnv 2 H lcp mi (diffCollide fuel nc pairs)) none fnd bodies joints dt eps tol false true =
      .done w) : CircleScene fuel nc pairs w := by
  have hrect : ∀ b ∈ bodies, b.RectForm := by
    intro b hbb
    have := (hb b hbb).circle
    unfold Body.isCircle at this
    unfold Body.RectForm
    cases hs : b.shape with
    | circle r => trivial
    | hull vs => rw [hs] at this; cases this
    | rect d vs => rw [hs] at this; cases this
  have hg := C30_mkWorld_good _ _ _ _ _ _ _ _ _ _ w hrect (fun j hjj => (hj j hjj).1) h
  unfold mkWorld at h
  by_cases h0 : bodies.length = 0
  · rw [if_pos h0] at h; cases h
  rw [if_neg h0] at h
  by_cases h1 : ∀ j ∈ joints, j.i1 < bodies.length ∧ ∀ k ∈ j.i2, k < bodies.length
  swap
  · rw [if_neg h1] at h; cases h
  rw [if_pos h1, Run.bind_eq_done] at h
  obtain ⟨w1, h3, h4⟩ := h
  rw [if_pos rfl] at h4
  by_cases h5 : w1.noPen
  swap
  · rw [if_neg h5] at h4; cases h4
  rw [if_pos h5] at h4
  have hw : w1 = w := Run.done.inj h4
  subst hw
  have hbod : (initWorld (none : Option Mat) fnd bodies joints dt eps tol false true).bodies = bodies := by
    apply List.ext_getElem
    · simp [initWorld, World.set_v]
    · intro i hi hi'
      unfold initWorld at hi ⊢
      rw [set_v_getElem]
      have : slice3 (cat3 (bodies.map Body.v)) i = bodies[i].v := by
        rw [cat3_slice _ _ (by simpa using hi'), List.getElem_map]
      simp only [this]
  unfold World.find_contacts at h3
  split at h3
  · cases h3
  · rename_i f cs hcol
    have h3 := Run.done.inj h3
    subst h3
    refine ⟨hg, ?_, ?_, rfl, rfl, heps, htol, ?_, ?_, ?_, h5⟩
    · intro j hjj
      change j.i1 < (initWorld (none : Option Mat) fnd bodies joints dt eps tol false true).bodies.length ∧
        ∀ k ∈ j.i2, k < (initWorld (none : Option Mat) fnd bodies joints dt eps tol false true).bodies.length ∧ _
      rw [hbod]
      exact ⟨(h1 j hjj).1, fun k hk => ⟨(h1 j hjj).2 k hk, (hj j hjj).2 k hk⟩⟩
    · intro inv hi; cases hi
    · change ∀ b ∈ (initWorld (none : Option Mat) fnd bodies joints dt eps tol false true).bodies, CircleBody eps b
      rw [hbod]; exact hb
    · change ∀ i < (initWorld (none : Option Mat) fnd bodies joints dt eps tol false true).bodies.length,
        ∀ j < (initWorld (none : Option Mat) fnd bodies joints dt eps tol false true).bodies.length, i ≠ j → tol <
        (bodyAt (initWorld (none : Option Mat) fnd bodies joints dt eps tol false true).bodies i).rad +
        (bodyAt (initWorld (none : Option Mat) fnd bodies joints dt eps tol false true).bodies j).rad
      rw [hbod]; exact hr
    · exact ⟨fnd, hcol⟩

/-- C27, safety: however long the world runs, no two circles that may touch overlap by more than `tol` (whatever
the solver returns). -/
theorem C27_never_interpenetrate (fuel : ℕ) (nc : ℕ → List ℕ) (hnc : ∀ i j, i ∈ nc j → j ∈ nc i)
    (pairs : List Body → List (ℕ × ℕ)) (hp : BroadPhase pairs) (H : ForceHeap) (lcp : LcpSolver) (mi : ℕ)
    (w w' : World (Option Mat) Finder) (h : CircleScene fuel nc pairs w)
    (hr : Reaches (pdipmEnv 2 H lcp mi (diffCollide fuel nc pairs)) w w') : NoOverlap nc w'.tol w'.bodies := by
  have h' := circleScene_reaches h hr
  refine noOverlap_of_contacts hnc hp h'.eps h'.tol h'.bodies ?_
  rw [← h'.contacts_eq hp]
  exact h'.nopen

/-! ## Termination -/

/-- The normal relative velocity at a contact of circles is the component of the relative velocity of the
centres. -/
theorem circle_normalVel {c : Contact} (h1 : ∃ s : ℝ, c.p1 = s • c.normal) (h2 : ∃ s : ℝ, c.p2 = s • c.normal) (v : Vec) :
    normalVel c v = inner c.normal
      (((twist v c.i1).x, (twist v c.i1).y) - ((twist v c.i2).x, (twist v c.i2).y)) := by
  obtain ⟨s1, h1⟩ := h1
  obtain ⟨s2, h2⟩ := h2
  unfold normalVel contactVel pointVel inner
  rw [h1, h2]
  simp only [Prod.fst_sub, Prod.snd_sub, Prod.smul_fst, Prod.smul_snd, smul_eq_mul]
  ring

/-- Moving apart along the line of centres never decreases the distance. -/
theorem dist_grows (x u : V2) (t : ℝ) (ht : 0 ≤ t) (h : 0 ≤ inner x u) : len x ≤ len (x + t • u) := by
  have h1 : inner x x + t * inner x u ≤ len x * len (x + t • u) := by
    have := inner_le_len_mul x (x + t • u)
    have e : inner x (x + t • u) = inner x x + t * inner x u := by
      unfold inner; simp only [Prod.fst_add, Prod.snd_add, Prod.smul_fst, Prod.smul_snd, smul_eq_mul]; ring
    linarith
  by_cases hx : len x = 0
  · rw [hx]; exact len_nonneg _
  · have hp : 0 < len x := lt_of_le_of_ne (len_nonneg _) (Ne.symm hx)
    rw [← len_mul_self] at h1
    by_contra hlt
    push Not at hlt
    nlinarith [mul_nonneg ht h]

/-- C27, termination, for any solver: if every contact that is exactly `tol` deep is not approaching with the new
velocities, the strict step returns after finitely many attempts. -/
theorem C27_terminates_unless_pressed (fuel : ℕ) (nc : ℕ → List ℕ) (hnc : ∀ i j, i ∈ nc j → j ∈ nc i)
    (pairs : List Body → List (ℕ × ℕ)) (hp : BroadPhase pairs) (H : ForceHeap) (lcp : LcpSolver)
    (mi : ℕ) (w : World (Option Mat) Finder) (h : CircleScene fuel nc pairs w) (dt : ℝ) (hdt : 0 ≤ dt)
    (r : Option Mat × Vec) (hsolve : pdipmSolve 2 H lcp mi w dt = .ok r)
    (hc : ∀ c ∈ w.contacts, c.pen < w.tol ∨ 0 ≤ normalVel c r.2) :
    ∃ n w', w.step_dt (pdipmEnv 2 H lcp mi (diffCollide fuel nc pairs)) n dt = .done w' := by
  obtain ⟨e, v⟩ := r
  set env := pdipmEnv 2 H lcp mi (diffCollide fuel nc pairs) with henv
  set moved : ℝ → List Body := fun d =>
    (({ w with eng := e } : World (Option Mat) Finder).set_v v).bodies.map fun b => b.move d with hmoved
  have hcirc : ∀ d, ∀ i < (moved d).length, (bodyAt (moved d) i).isCircle = true :=
    fun d i hi => (tried_circle h e v d _ (bodyAt_mem hi)).circle
  have hlen : ∀ d, (moved d).length = w.bodies.length := fun d => (tried_bodies w e v d).1
  have hF : ∀ f d, ∃ f', env.collide w.eps f (moved d) =
      .ok (f', circleContacts nc w.eps (moved d) (pairs (moved d))) :=
    fun f d => ⟨f, collide_circles hp (hcirc d) f⟩
  have key := (C26_strict_terminates_iff env w dt h.good h.strict h.nostab
    (fun bs => circleContacts nc w.eps bs (pairs bs)) e v hF hsolve).1
  refine key.2 ?_
  -- each pair stays within `tol` for short times
  have hov := noOverlap_of_contacts hnc hp h.eps h.tol h.bodies (by rw [← h.contacts_eq hp]; exact h.nopen)
  have hpair : ∀ i < w.bodies.length, ∀ j < w.bodies.length, i ≠ j → i ∉ nc j → ∃ δ > 0, ∀ t, 0 ≤ t → t ≤ δ →
      overlapDepth (bodyAt (moved t) i) (bodyAt (moved t) j) ≤ w.tol := by
    intro i hi j hj hij hxx
    set x := (bodyAt w.bodies i).pos - (bodyAt w.bodies j).pos with hxdef
    set u : V2 := ((slice3 v i).x, (slice3 v i).y) - ((slice3 v j).x, (slice3 v j).y) with hudef
    have hdepth : ∀ t, overlapDepth (bodyAt (moved t) i) (bodyAt (moved t) j) =
        (bodyAt w.bodies i).rad + (bodyAt w.bodies j).rad - len (x + t • u) := by
      intro t
      have hb := tried_bodies w e v t
      unfold overlapDepth
      rw [hmoved]
      simp only
      rw [hb.2 i hi, hb.2 j hj, tried_pos, tried_pos,
        circle_rad_op (circleBody_op (h.bodies _ (bodyAt_mem hi)) _).circle,
        circle_rad_op (h.bodies _ (bodyAt_mem hi)).circle,
        circle_rad_op (circleBody_op (h.bodies _ (bodyAt_mem hj)) _).circle,
        circle_rad_op (h.bodies _ (bodyAt_mem hj)).circle, Spec.dist]
      congr 2
      rw [hxdef, hudef]
      module
    have h0 : overlapDepth (bodyAt w.bodies i) (bodyAt w.bodies j) =
        (bodyAt w.bodies i).rad + (bodyAt w.bodies j).rad - len x := rfl
    have hle := hov i hi j hj hij hxx
    rcases lt_or_eq_of_le hle with hlt | heq
    · have hu := len_nonneg u
      refine ⟨(w.tol - overlapDepth (bodyAt w.bodies i) (bodyAt w.bodies j)) / (len u + 1),
        div_pos (by linarith) (by linarith), ?_⟩
      intro t ht htd
      rw [le_div_iff₀ (by linarith)] at htd
      rw [hdepth]
      have h3 : len x ≤ len (x + t • u) + len (-(t • u)) := by
        have := len_add_le (x + t • u) (-(t • u))
        rwa [add_neg_cancel_right] at this
      rw [len_neg, len_smul, abs_of_nonneg ht] at h3
      nlinarith
    · refine ⟨1, one_pos, ?_⟩
      intro t ht _
      rw [hdepth, ← heq, h0]
      suffices hin : 0 ≤ inner x u by
        have := dist_grows x u t ht hin
        linarith
      obtain ⟨c, hcm, hcij⟩ := near_reported hnc hp h.eps h.bodies hi hj hij hxx (by rw [heq]; exact h.tol)
      obtain ⟨_, _, m3, m4, m5, m6, _⟩ := circleContacts_mem hcm
      have hcw : c ∈ w.contacts := by rw [h.contacts_eq hp]; exact hcm
      have hpen : c.pen = w.tol := by
        rw [m3, ← heq]
        rcases hcij with ⟨a, b⟩ | ⟨a, b⟩
        · rw [a, b]
        · rw [a, b, overlapDepth_comm]
      have hrest : 0 ≤ normalVel c v := by
        rcases hc c hcw with h1 | h1
        · linarith
        · exact h1
      rw [circle_normalVel m5 m6, m4] at hrest
      have hlx : 0 < len x := by
        have := h.radii i hi j hj hij
        rw [← heq, h0] at this; linarith
      have hsm : ∀ (k : ℝ) (p q : V2), inner (k • p) q = k * inner p q := by
        intro k p q; unfold inner; simp only [Prod.smul_fst, Prod.smul_snd, smul_eq_mul]; ring
      have htw : ∀ k, twist v k = slice3 v k := by
        intro k; simp only [twist, slice3, mul_comm 3 k]
      rw [hsm] at hrest
      rcases hcij with ⟨a, b⟩ | ⟨a, b⟩
      · rw [a, b, htw, htw] at hrest
        have hd : 0 < 1 / Spec.dist (bodyAt w.bodies i).pos (bodyAt w.bodies j).pos := by
          rw [Spec.dist]; exact one_div_pos.2 hlx
        exact nonneg_of_mul_nonneg_right hrest hd
      · rw [a, b, htw, htw] at hrest
        have hd : 0 < 1 / Spec.dist (bodyAt w.bodies j).pos (bodyAt w.bodies i).pos := by
          rw [Spec.dist_comm, Spec.dist]; exact one_div_pos.2 hlx
        have := nonneg_of_mul_nonneg_right hrest hd
        have e2 : inner ((bodyAt w.bodies j).pos - (bodyAt w.bodies i).pos)
            (((slice3 v j).x, (slice3 v j).y) - ((slice3 v i).x, (slice3 v i).y)) = inner x u := by
          rw [hxdef, hudef]
          unfold inner
          simp only [Prod.fst_sub, Prod.snd_sub]
          ring
        rwa [e2] at this
  -- a common bound for all pairs
  have hall : ∃ δ > 0, ∀ i < w.bodies.length, ∀ j < w.bodies.length, i ≠ j → i ∉ nc j → ∀ t, 0 ≤ t → t ≤ δ →
      overlapDepth (bodyAt (moved t) i) (bodyAt (moved t) j) ≤ w.tol := by
    classical
    let D : ℕ × ℕ → ℝ := fun p =>
      if hq : p.1 < w.bodies.length ∧ p.2 < w.bodies.length ∧ p.1 ≠ p.2 ∧ p.1 ∉ nc p.2 then
        (hpair p.1 hq.1 p.2 hq.2.1 hq.2.2.1 hq.2.2.2).choose else 1
    have hD : ∀ p, 0 < D p := by
      intro p
      simp only [D]
      split_ifs with hq
      · exact (hpair p.1 hq.1 p.2 hq.2.1 hq.2.2.1 hq.2.2.2).choose_spec.1
      · exact one_pos
    let S := insert (0, 0) ((Finset.range w.bodies.length) ×ˢ (Finset.range w.bodies.length))
    obtain ⟨q, hq, hmin⟩ := Finset.exists_min_image S D ⟨(0, 0), Finset.mem_insert_self _ _⟩
    refine ⟨D q, hD q, ?_⟩
    intro i hi j hj hij hxx t ht htd
    have hmem : (i, j) ∈ S := Finset.mem_insert_of_mem
      (Finset.mem_product.2 ⟨Finset.mem_range.2 hi, Finset.mem_range.2 hj⟩)
    have hle := htd.trans (hmin _ hmem)
    have hq' : i < w.bodies.length ∧ j < w.bodies.length ∧ i ≠ j ∧ i ∉ nc j := ⟨hi, hj, hij, hxx⟩
    have hDe : D (i, j) = (hpair i hi j hj hij hxx).choose := by
      simp only [D]; rw [dif_pos hq']
    rw [hDe] at hle
    exact (hpair i hi j hj hij hxx).choose_spec.2 t ht hle
  obtain ⟨δ, hδ, hall⟩ := hall
  obtain ⟨k, hk⟩ := pow_unbounded_of_one_lt (dt / δ) (one_lt_two)
  refine ⟨k, ?_⟩
  intro c hcm
  have hcm : c ∈ circleContacts nc w.eps (moved (dt / 2 ^ k)) (pairs (moved (dt / 2 ^ k))) := hcm
  obtain ⟨m1, m2, m3, -⟩ := circleContacts_mem hcm
  obtain ⟨v1, v2, v3⟩ := hp.valid _ _ m1
  rw [hlen] at v1 v2
  rw [m3]
  refine hall _ v1 _ v2 v3 m2 _ (by positivity) ?_
  rw [div_lt_iff₀ hδ] at hk
  rw [div_le_iff₀ (by positivity)]
  linarith

/-- C27, termination: from a state between steps, if every contact that is exactly `tol` deep is not separating,
or has no restitution, the strict step returns after finitely many attempts, whatever its length and the
forces. -/
theorem C27_strict_terminates (fuel : ℕ) (nc : ℕ → List ℕ) (hnc : ∀ i j, i ∈ nc j → j ∈ nc i)
    (pairs : List Body → List (ℕ × ℕ)) (hp : BroadPhase pairs) (H : ForceHeap) (lcp : LcpSolver) (hx : Exact lcp)
    (mi : ℕ) (w : World (Option Mat) Finder) (h : CircleScene fuel nc pairs w) (dt : ℝ) (hdt : 0 ≤ dt)
    (r : Option Mat × Vec) (hsolve : pdipmSolve 2 H lcp mi w dt = .ok r)
    (hc : ∀ c ∈ w.contacts, c.pen < w.tol ∨ meanRestitution w.bodies c * normalVel c w.v ≤ 0) :
    ∃ n w', w.step_dt (pdipmEnv 2 H lcp mi (diffCollide fuel nc pairs)) n dt = .done w' := by
  obtain ⟨e, v⟩ := r
  refine C27_terminates_unless_pressed fuel nc hnc pairs hp H lcp mi w h dt hdt (e, v) hsolve ?_
  obtain ⟨fl, l, pn, a, b, g, hfl, hlaw⟩ := C38_engine_contact_law H lcp mi w dt e v h.joints (h.contactsOk hp)
    h.cache.ok hx hsolve
  intro c hcw
  obtain ⟨k, hk, hck⟩ := List.getElem_of_mem hcw
  have := (hlaw.restitution k hk).1
  rw [hck] at this
  rcases hc c hcw with h1 | h1
  · exact Or.inl h1
  · exact Or.inr (by simp only; linarith)

/-- C27: without restitution strict stepping never hangs: from every reachable state every step for which the
solver answers returns. -/
theorem C27_inelastic_never_hangs (fuel : ℕ) (nc : ℕ → List ℕ) (hnc : ∀ i j, i ∈ nc j → j ∈ nc i)
    (pairs : List Body → List (ℕ × ℕ)) (hp : BroadPhase pairs) (H : ForceHeap) (lcp : LcpSolver) (hx : Exact lcp)
    (mi : ℕ) (w0 w : World (Option Mat) Finder) (h : CircleScene fuel nc pairs w0)
    (he : ∀ b ∈ w0.bodies, b.restitution = 0)
    (hr : Reaches (pdipmEnv 2 H lcp mi (diffCollide fuel nc pairs)) w0 w) (dt : ℝ) (hdt : 0 ≤ dt)
    (r : Option Mat × Vec) (hsolve : pdipmSolve 2 H lcp mi w dt = .ok r) :
    ∃ n w', w.step_dt (pdipmEnv 2 H lcp mi (diffCollide fuel nc pairs)) n dt = .done w' := by
  have h' := circleScene_reaches h hr
  refine C27_strict_terminates fuel nc hnc pairs hp H lcp hx mi w h' dt hdt r hsolve ?_
  intro c hc
  right
  have hst := (reaches_statics h.good hr).2
  have hres : ∀ b ∈ w.bodies, b.restitution = 0 := by
    intro b hb
    have : b.consts ∈ w0.bodies.map Body.consts := hst.1 ▸ List.mem_map.2 ⟨b, hb, rfl⟩
    obtain ⟨b0, hb0, hcon⟩ := List.mem_map.1 this
    have := congrArg (fun x => x.2.2.1) hcon
    simp only [Body.consts] at this
    rw [← this]; exact he b0 hb0
  obtain ⟨v1, v2, -⟩ := h'.contactsOk hp c hc
  rw [meanRestitution, hres _ (bodyAt_mem v1), hres _ (bodyAt_mem v2)]
  simp

/-! ## Strict stepping can hang -/

/-- The engine with the exact solver answers whenever the contact law has a solution. -/
theorem exact_engine_answers {φ : Type} {H : ForceHeap} {mi : ℕ} {w : World (Option Mat) φ} {dt : ℝ}
    (hj : JointsOk w) (hc : ContactsOk w) (hnc : w.contacts ≠ []) {fl : List V3}
    (hf : forceCat H w.t w.bodies.length = .ok fl) {v' l : Vec} {pn a b g : ℕ → ℝ}
    (hl : ContactLaw w.bodies w.joints w.contacts (impulse fl dt) w.v v' l pn a b g) :
    ∃ r, pdipmSolve 2 H exactLcp mi w dt = .ok r := by
  have hJ : w.Jf 2 = .ok (JfLoop w.contacts 0 fun _ _ => 0) := by simp [World.Jf]
  have hlen := (forceCat_length hf).1
  obtain ⟨s, hs⟩ := C34_lcp_complete w hj hc _ hJ (impulse fl dt) (fun k => dt * cat3 fl k)
    (fun i hi => impulse_entries fl dt i (by omega))
    (fun k => if k < 3 * w.bodies.length then mv w.M (3 * w.bodies.length) w.v k + dt * cat3 fl k else 0)
    (fun k hk => if_pos hk) _ _ _ _ _ _ hl
  obtain ⟨x', hx'⟩ := exactLcp_total mi hs
  refine ⟨(w.eng, fun k => -x' k), ?_⟩
  unfold pdipmSolve
  simp only
  rw [hf]
  simp only
  rw [if_neg hnc, hJ]
  simp only
  rw [hx']

/-- A broad phase that presents all pairs. -/
def allPairs (bs : List Body) : List (ℕ × ℕ) :=
  (List.range bs.length).flatMap fun j => (List.range j).map fun i => (i, j)

theorem allPairs_mem (bs : List Body) (i j : ℕ) : (i, j) ∈ allPairs bs ↔ i < j ∧ j < bs.length := by
  unfold allPairs
  simp only [List.mem_flatMap, List.mem_range, List.mem_map, Prod.mk.injEq]
  constructor
  · rintro ⟨a, ha, b, hb, rfl, rfl⟩; exact ⟨hb, ha⟩
  · rintro ⟨h1, h2⟩; exact ⟨j, h2, i, h1, rfl, rfl⟩

theorem allPairs_broad : BroadPhase allPairs := by
  constructor
  · rintro bs ⟨i, j⟩ h
    have := (allPairs_mem bs i j).1 h
    simp only
    omega
  · intro bs i j hi hj hij _
    rcases Nat.lt_or_gt_of_ne hij with h | h
    · exact .inl ((allPairs_mem bs i j).2 ⟨h, hj⟩)
    · exact .inr ((allPairs_mem bs j i).2 ⟨h, hi⟩)

/-- Two touching unit circles; the first moves away from the second with speed 1; restitution `e`, no
friction. -/
def hangBodies (e : ℝ) : List Body :=
  [mkCircle (.two (-1, 0)) 1 { vel := .three ⟨0, -1, 0⟩, restitution := e, fric_coeff := 0 },
   mkCircle (.two (1, 0)) 1 { restitution := e, fric_coeff := 0 }]

/-- A constant force of 8 pushes the second circle towards the first. -/
def hangForces : ForceHeap :=
  { obj := fun _ => .external (fun _ => ⟨0, -1, 0⟩) 8, attached := fun k => if k = 1 then [0] else [] }

/-- The contact between the two. -/
def hangContact : Contact :=
  { normal := (-1, 0), p1 := (1, 0), p2 := (-1, 0), pen := 0, i1 := 0, i2 := 1 }

/-- The strict world with `eps = 1/10`, `tol = 0` as constructed. -/
def hangWorld (e : ℝ) (fnd : Finder) : World (Option Mat) Finder :=
  { t := 0, dt := 1, eps := 1 / 10, tol := 0, post_stab := false, strict_no_pen := true, bodies := hangBodies e,
    joints := [], v := cat3 ((hangBodies e).map Body.v), contacts := [hangContact], eng := none, fnd := fnd }

theorem hang_circles (e : ℝ) : ∀ b ∈ (hangBodies e), CircleBody (1 / 10) b := by
  intro b hb
  simp only [hangBodies, List.mem_cons, List.not_mem_nil, or_false] at hb
  rcases hb with rfl | rfl <;>
  · refine ⟨⟨_, [], .circle _ _ _, rfl⟩, rfl, ?_, ?_⟩
    · change (0 : ℝ) ≤ 1; norm_num
    · change (1 / 10 : ℝ) ≤ 2 * 0.1; norm_num

theorem hang_contacts (e : ℝ) : circleContacts (fun _ => []) (1 / 10) (hangBodies e) (allPairs (hangBodies e)) = [hangContact] := by
  have hp : allPairs (hangBodies e) = [(0, 1)] := by simp [allPairs, hangBodies, List.range_succ]
  have hl : nrm (((-1 : ℝ), (0 : ℝ)) - (1, 0)) = 2 := by
    rw [nrm_eq_len, len]
    simp only [Prod.fst_sub, Prod.snd_sub]
    rw [show ((-1 : ℝ) - 1) ^ 2 + (0 - 0) ^ 2 = 2 ^ 2 by norm_num]
    exact Real.sqrt_sq (by norm_num)
  rw [hp]
  simp only [circleContacts, List.flatMap_cons, List.flatMap_nil, List.append_nil, List.not_mem_nil, if_false]
  change (circleCircle (1 / 10) 1 1 ((-1 : ℝ), (0 : ℝ)) (1, 0)).map _ = _
  unfold circleCircle
  simp only [hl]
  rw [if_neg (by norm_num)]
  simp only [List.map_cons, List.map_nil, hangContact]
  norm_num

theorem hang_bodies (e : ℝ) (fnd : Finder) :
    (initWorld (none : Option Mat) fnd (hangBodies e) [] 1 (1 / 10) 0 false true).bodies = (hangBodies e) := by
  apply List.ext_getElem
  · simp [initWorld, World.set_v]
  · intro i hi hi'
    unfold initWorld at hi ⊢
    rw [set_v_getElem]
    have : slice3 (cat3 ((hangBodies e).map Body.v)) i = (hangBodies e)[i].v := by
      rw [cat3_slice _ _ (by simpa using hi'), List.getElem_map]
    simp only [this]

/-- The constructor accepts this world. -/
theorem hang_constructed (fuel mi : ℕ) (lcp : LcpSolver) (e : ℝ) (fnd : Finder) :
    mkWorld (pdipmEnv 2 hangForces lcp mi (diffCollide fuel (fun _ => []) allPairs)) none fnd (hangBodies e) [] 1 (1 / 10)
      0 false true = .done (hangWorld e fnd) := by
  unfold mkWorld
  rw [if_neg (by simp [hangBodies]), if_pos (by simp)]
  unfold World.find_contacts
  have hcol : (pdipmEnv 2 hangForces lcp mi (diffCollide fuel (fun _ => []) allPairs)).collide
      (initWorld (none : Option Mat) fnd (hangBodies e) [] 1 (1 / 10) 0 false true).eps
      (initWorld (none : Option Mat) fnd (hangBodies e) [] 1 (1 / 10) 0 false true).fnd
      (initWorld (none : Option Mat) fnd (hangBodies e) [] 1 (1 / 10) 0 false true).bodies =
      .ok (fnd, [hangContact]) := by
    rw [hang_bodies]
    change diffCollide fuel (fun _ => []) allPairs (1 / 10) fnd (hangBodies e) = _
    rw [collide_circles allPairs_broad fun i hi => (hang_circles e _ (bodyAt_mem hi)).circle, hang_contacts]
  rw [hcol]
  simp only [Run.bind_done]
  have hw : ({ initWorld (none : Option Mat) fnd (hangBodies e) [] 1 (1 / 10) 0 false true with
      contacts := [hangContact], fnd := fnd } : World (Option Mat) Finder) = hangWorld e fnd := by
    have hb := hang_bodies e fnd
    generalize hi : initWorld (none : Option Mat) fnd (hangBodies e) [] 1 (1 / 10) 0 false true = i at hb
    have hv : i.v = cat3 ((hangBodies e).map Body.v) := by rw [← hi]; rfl
    simp only [hb, hv, hangWorld]
    rw [← hi]
    rfl
  rw [hw, if_pos trivial, if_pos]
  intro c hc
  have : c = hangContact := by simpa [hangWorld] using hc
  rw [this]
  exact le_refl (0 : ℝ)

theorem hang_forces (t : ℝ) : forceCat hangForces t 2 = .ok [0, ⟨0, -8, 0⟩] := by
  have h0 : hangForces.apply_forces 0 t = some 0 := by simp [ForceHeap.apply_forces, hangForces]
  have h1 : hangForces.apply_forces 1 t = some ⟨0, -8, 0⟩ := by
    simp only [ForceHeap.apply_forces, hangForces, sumForces, Force.force, if_true, List.map_cons, List.map_nil,
      List.length_singleton, one_ne_zero, if_false]
    congr 1
    ext <;> simp
  simp [forceCat, h0, h1]

/-- Whatever exact solution the solver returns, the circles approach each other with relative speed `e`. -/
theorem hang_velocity (e : ℝ) (he : e ≤ 1) {v' l : Vec} {pn a b g : ℕ → ℝ}
    (h : ContactLaw (hangBodies e) [] [hangContact] (impulse [0, ⟨0, -8, 0⟩] 1) (cat3 ((hangBodies e).map Body.v)) v' l pn a b g) :
    v' 1 - v' 4 = e ∧ v' 2 = 0 ∧ v' 5 = 0 := by
  have hv : cat3 ((hangBodies e).map Body.v) = headOnVel (-1) 0 := by
    funext k
    rcases k with _ | _ | _ | _ | _ | _ | k <;> simp [cat3, hangBodies, mkCircle, Arg.toV3, headOnVel]
  rw [hv] at h
  have hf := (C39_coulomb _ _ _ _ _ _ _ _ _ _ _ h 0 (by simp)).1
  have hmu : meanFriction (hangBodies e) [hangContact][0] = 0 := by
    simp [meanFriction, hangContact, hangBodies, bodyAt, mkCircle]
  rw [hmu, zero_mul] at hf
  have hab : a 0 - b 0 = 0 := abs_nonpos_iff.1 hf
  have e1 := h.dynamics fun k => if k = 1 then 1 else 0
  have e2 := h.dynamics fun k => if k = 2 then 1 else 0
  have e4 := h.dynamics fun k => if k = 4 then 1 else 0
  have e5 := h.dynamics fun k => if k = 5 then 1 else 0
  simp [momentumPower, forcePower, jointPower, jointVels, contactPower, Finset.sum_range_succ, bodyAt, hangBodies,
    mkCircle, headOnVel, hangContact, twist, normalVel, slipVel, contactVel, pointVel, inner, impulse, hab, tangent]
    at e1 e2 e4 e5
  obtain ⟨r1, r2⟩ := h.restitution 0 (by simp)
  have hr : meanRestitution (hangBodies e) [hangContact][0] = e := by
    simp [meanRestitution, hangContact, hangBodies, bodyAt, mkCircle]
  rw [hr] at r1 r2
  simp [headOnVel, hangContact, twist, normalVel, contactVel, pointVel, inner] at r1 r2
  refine ⟨?_, e2, e5⟩
  rcases r2 with r2 | r2
  · linarith
  · linarith

theorem hang_law (e : ℝ) (he : e ≤ 1) : ContactLaw (hangBodies e) [] [hangContact] (impulse [0, ⟨0, -8, 0⟩] 1)
    (cat3 ((hangBodies e).map Body.v)) (headOnVel (-(9 - e) / 2) (-(9 + e) / 2)) (fun _ => 0) (fun _ => (7 - e) / 2) (fun _ => 0)
    (fun _ => 0) (fun _ => 0) := by
  have hv : cat3 ((hangBodies e).map Body.v) = headOnVel (-1) 0 := by
    funext k
    rcases k with _ | _ | _ | _ | _ | _ | k <;> simp [cat3, hangBodies, mkCircle, Arg.toV3, headOnVel]
  rw [hv]
  refine ⟨?_, ?_, ?_, ?_, ?_, ?_⟩
  · intro u
    simp [momentumPower, forcePower, jointPower, jointVels, contactPower, Finset.sum_range_succ, impulse,
      bodyAt, hangBodies, mkCircle, headOnVel, hangContact, twist, normalVel, slipVel, contactVel, pointVel, inner]
    ring
  · simp [jointVels]
  · intro i _; exact ⟨by linarith, le_rfl, le_rfl, le_rfl⟩
  all_goals
    intro i hi
    have : i = 0 := by simpa using hi
    subst this
    simp [hangContact, hangBodies, mkCircle, headOnVel, meanRestitution, meanFriction, bodyAt, normalVel, slipVel,
      contactVel, pointVel, twist, inner, tangent]
  have : (-e + -9) / 2 - (e - 9) / 2 + e = 0 := by ring
  exact ⟨this.ge, .inr this⟩

theorem hang_scene (fuel mi : ℕ) (e : ℝ) (fnd : Finder) :
    CircleScene fuel (fun _ => []) allPairs (hangWorld e fnd) := by
  refine C27_constructed fuel (fun _ => []) allPairs hangForces exactLcp mi fnd (hangBodies e) [] 1 (1 / 10) 0 _
    (by norm_num) (by norm_num) (hang_circles e) ?_ (by simp) (hang_constructed fuel mi exactLcp e fnd)
  intro i hi j hj hij
  have hr : ∀ k < (hangBodies e).length, (bodyAt (hangBodies e) k).rad = 1 := by
    intro k hk
    have : k = 0 ∨ k = 1 := by simp [hangBodies] at hk; omega
    rcases this with rfl | rfl <;> rfl
  rw [hr i hi, hr j hj]; norm_num

/-- C27 fails for elastic contacts: the world `hangWorld` is accepted by the constructor, the solver has an exact
answer, and with any exact solver that answers, `step_dt` never returns: the contact at depth `tol` was
separating, so Newton's law with restitution `e > 0` lets the pressed circles approach at `e` times that speed, and
every halved step is rejected. -/
theorem C27_strict_can_hang (fuel mi : ℕ) (e : ℝ) (he0 : 0 < e) (he : e ≤ 1) (fnd : Finder) :
    CircleScene fuel (fun _ => []) allPairs (hangWorld e fnd) ∧
    (∃ r, pdipmSolve 2 hangForces exactLcp mi (hangWorld e fnd) 1 = .ok r) ∧
    ∀ lcp, Exact lcp → (∃ r, pdipmSolve 2 hangForces lcp mi (hangWorld e fnd) 1 = .ok r) →
      ∀ n, (hangWorld e fnd).step_dt (pdipmEnv 2 hangForces lcp mi (diffCollide fuel (fun _ => []) allPairs)) n 1 =
        .running := by
  have hscene := hang_scene fuel mi e fnd
  refine ⟨hscene, ?_, ?_⟩
  · exact exact_engine_answers hscene.joints (hscene.contactsOk allPairs_broad) (by simp [hangWorld])
      (hang_forces 0) (hang_law e he)
  · rintro lcp hx ⟨⟨eng, v⟩, hsolve⟩
    set w := hangWorld e fnd with hw
    obtain ⟨fl, l, pn, a, b, g, hfl, hlaw⟩ := C38_engine_contact_law hangForces lcp mi w 1 eng v hscene.joints
      (hscene.contactsOk allPairs_broad) hscene.cache.ok hx hsolve
    have hfl' : forceCat hangForces w.t w.bodies.length = .ok [0, ⟨0, -8, 0⟩] := hang_forces 0
    rw [hfl'] at hfl
    injection hfl with hfl
    subst hfl
    obtain ⟨q1, q2, q3⟩ := hang_velocity e he hlaw
    have hcirc : ∀ d, ∀ i < ((({ w with eng := eng } : World (Option Mat) Finder).set_v v).bodies.map
        fun b => b.move d).length, (bodyAt ((({ w with eng := eng } : World (Option Mat) Finder).set_v v).bodies.map
        fun b => b.move d) i).isCircle = true :=
      fun d i hi => (tried_circle hscene eng v d _ (bodyAt_mem hi)).circle
    refine (C26_strict_terminates_iff _ w 1 hscene.good rfl rfl
      (fun bs => circleContacts (fun _ => []) w.eps bs (allPairs bs)) eng v
      (fun f d => ⟨f, collide_circles (fuel := fuel) (nc := fun _ => []) (eps := w.eps) allPairs_broad (hcirc d) f⟩)
      hsolve).2.2 ?_
    intro k hfree
    set d : ℝ := 1 / 2 ^ k with hd
    have hd0 : 0 < d := by positivity
    have hd1 : d ≤ 1 := by
      rw [hd, div_le_one (by positivity)]; exact one_le_pow₀ (by norm_num)
    obtain ⟨tl, tb⟩ := tried_bodies w eng v d
    set bs := (({ w with eng := eng } : World (Option Mat) Finder).set_v v).bodies.map fun b => b.move d with hbs
    have hdep : overlapDepth (bodyAt bs 0) (bodyAt bs 1) = d * e := by
      have p0 : (bodyAt bs 0).pos = (-1, 0) + d • (v 1, v 2) := by
        rw [tb 0 (by simp [hw, hangWorld, hangBodies]), tried_pos]; rfl
      have p1 : (bodyAt bs 1).pos = (1, 0) + d • (v 4, v 5) := by
        rw [tb 1 (by simp [hw, hangWorld, hangBodies]), tried_pos]; rfl
      have r0 : (bodyAt bs 0).rad = 1 := by
        rw [tb 0 (by simp [hw, hangWorld, hangBodies])]; rfl
      have r1 : (bodyAt bs 1).rad = 1 := by
        rw [tb 1 (by simp [hw, hangWorld, hangBodies])]; rfl
      have hl : Spec.dist (bodyAt bs 0).pos (bodyAt bs 1).pos = 2 - d * e := by
        rw [p0, p1, Spec.dist, len]
        simp only [Prod.fst_sub, Prod.snd_sub, Prod.fst_add, Prod.snd_add, Prod.smul_fst, Prod.smul_snd, smul_eq_mul,
          q2, q3]
        rw [show (-1 + d * v 1 - (1 + d * v 4)) ^ 2 + (0 + d * 0 - (0 + d * 0)) ^ 2 =
          (2 - d * (v 1 - v 4)) ^ 2 by ring, q1, Real.sqrt_sq (by nlinarith)]
      rw [overlapDepth, r0, r1, hl]; ring
    obtain ⟨c, hc, c1, c2⟩ := circleContacts_reported (nc := fun _ => []) (eps := w.eps) (bs := bs) (ps := allPairs bs)
      (i := 0) (j := 1) ((allPairs_mem bs 0 1).2 ⟨by norm_num, by rw [tl]; simp [hw, hangWorld, hangBodies]⟩) (by simp)
      (by rw [hdep]; change -(1 / 10 : ℝ) ≤ _; nlinarith)
    have hle := hfree c hc
    rw [(circleContacts_mem hc).2.2.1, c1, c2, hdep] at hle
    have hle : d * e ≤ 0 := hle
    nlinarith

/-- Non-vacuity of the positive theorems: the same scene without restitution. -/
example (fuel mi : ℕ) (fnd : Finder) : ∃ n w', (hangWorld 0 fnd).step_dt
    (pdipmEnv 2 hangForces exactLcp mi (diffCollide fuel (fun _ => []) allPairs)) n 1 = .done w' ∧
    NoOverlap (fun _ => []) 0 w'.bodies := by
  have hscene := hang_scene fuel mi 0 fnd
  obtain ⟨r, hr⟩ := exact_engine_answers (mi := mi) hscene.joints (hscene.contactsOk allPairs_broad)
    (by simp [hangWorld]) (hang_forces 0) (hang_law 0 (by norm_num))
  obtain ⟨n, w', hw'⟩ := C27_inelastic_never_hangs fuel (fun _ => []) (by simp) allPairs allPairs_broad hangForces
    exactLcp exactLcp_exact mi _ _ hscene
    (by
      intro b hb
      simp only [hangWorld, hangBodies, List.mem_cons, List.not_mem_nil, or_false] at hb
      rcases hb with rfl | rfl <;> rfl) .refl 1 (by norm_num) r hr
  refine ⟨n, w', hw', ?_⟩
  have := C27_never_interpenetrate fuel (fun _ => []) (by simp) allPairs allPairs_broad hangForces exactLcp mi _ w'
    hscene (Relation.ReflTransGen.single ⟨n, 1, hw'⟩)
  rwa [(step_dt_params hscene.good hw').2.2.1] at this

/-- Example for `C27_terminates_unless_pressed`: the same scene, whatever solver answers with a velocity that does not
press the circles together. -/
example (fuel mi : ℕ) (fnd : Finder) (lcp : LcpSolver) (r : Option Mat × Vec)
    (hr : pdipmSolve 2 hangForces lcp mi (hangWorld 0 fnd) 1 = .ok r)
    (hv : ∀ c ∈ (hangWorld 0 fnd).contacts, 0 ≤ normalVel c r.2) :
    ∃ n w', (hangWorld 0 fnd).step_dt (pdipmEnv 2 hangForces lcp mi (diffCollide fuel (fun _ => []) allPairs)) n 1 =
      .done w' :=
  C27_terminates_unless_pressed fuel (fun _ => []) (by simp) allPairs allPairs_broad hangForces lcp mi _
    (hang_scene fuel mi 0 fnd) 1 (by norm_num) r hr fun c hc => Or.inr (hv c hc)

end LcpPhysics
