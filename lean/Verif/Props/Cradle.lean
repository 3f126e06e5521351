import Verif.Props.FrictionSolvable
import Verif.Props.Tower
import Verif.Lemmas.Cradle

/-!
# C107: a row of balls is hit as one body

The contacts of a step are resolved together (engines.py:26-78).  A ball that runs into a row of balls, each within the contact
distance `eps` of the next, meets the row as one rigid body, whatever the masses, the friction and the restitution; a gap larger
than `eps` cuts the row.
-/

noncomputable section

namespace LcpPhysics
open Spec Finset

/-! ## The law of impact along a row -/

/-- The velocities that move every body along the x-axis. -/
def alongX (u : ℕ → ℝ) : Vec := fun q => if q % 3 = 1 then u (q / 3) else 0

theorem twist_alongX (u : ℕ → ℝ) (k : ℕ) : twist (alongX u) k = ⟨0, u k, 0⟩ := by
  have h0 : (3 * k) % 3 = 0 := by omega
  have h1 : (3 * k + 1) % 3 = 1 := by omega
  have h1' : (3 * k + 1) / 3 = k := by omega
  have h2 : (3 * k + 2) % 3 = 2 := by omega
  simp [twist, alongX, h0, h1, h1', h2]

theorem joins_normalVel {c : Contact} {k : ℕ} (h : Joins c k) (v : Vec) (h1 : det c.p1 c.normal = 0) (h2 : det c.p2 c.normal = 0) :
    normalVel c v = (twist v (k + 1)).x - (twist v k).x := by
  rcases h with ⟨e1, e2, e3⟩ | ⟨e1, e2, e3⟩ <;> rw [e3] at h1 h2 <;>
    simp only [Spec.det, mul_zero, mul_neg, mul_one, neg_zero, zero_sub, sub_zero, sub_neg_eq_add, zero_add, neg_eq_zero] at h1 h2 <;>
    simp [normalVel, contactVel, e1, e2, e3, Spec.inner, pointVel, h1, h2]

theorem joins_slip {c : Contact} {k : ℕ} (h : Joins c k) (u : ℕ → ℝ) : slipVel c (alongX u) = 0 := by
  rcases h with ⟨e1, e2, e3⟩ | ⟨e1, e2, e3⟩ <;>
    simp [slipVel, contactVel, twist_alongX, e3, Spec.inner, pointVel, tangent]

theorem joins_push {c : Contact} {k : ℕ} (h : Joins c k) (u : ℕ → ℝ) : normalVel c (alongX u) = u (k + 1) - u k := by
  rcases h with ⟨e1, e2, e3⟩ | ⟨e1, e2, e3⟩ <;>
    simp [normalVel, contactVel, twist_alongX, e1, e2, e3, Spec.inner, pointVel]

/-- C107, the law: whatever solves the contact problem of a row moves along the row as if the hit group were one body. -/
theorem C107_law (bs : List Body) (cs : List Contact) (f : ℕ → V3) (v v' l : Vec) (pn p q g : ℕ → ℝ)
    (h : ContactLaw bs [] cs f v v' l pn p q g) (hm : ∀ k < bs.length, 0 < (bodyAt bs k).mass)
    (hrow : ∀ c ∈ cs, ∃ k, k + 1 < bs.length ∧ Joins c k ∧ det c.p1 c.normal = 0 ∧ det c.p2 c.normal = 0)
    (e : ℝ) (he0 : 0 ≤ e) (he : ∀ c ∈ cs, meanRestitution bs c = e) (hf : ∀ k < bs.length, (f k).x = 0) (s n : ℕ)
    (hs : s + n < bs.length) (a u : ℝ) (hu : 0 ≤ u) (hv : ∀ k < bs.length, (twist v k).x = if k = s then a + u else a)
    (hcl : ∀ k, s ≤ k → k < s + n → ∃ c ∈ cs, Joins c k) (hop : s + n + 1 < bs.length → ¬ ∃ c ∈ cs, Joins c (s + n)) :
    ∀ k < bs.length, (twist v' k).x = rowAfter bs e a u s n k := by
  have hms := hm s (by omega)
  set M := groupMass bs s n with hMd
  have hM0 : 0 ≤ M := by
    rw [hMd]; exact sum_nonneg fun k hk => (hm _ (by have := mem_range.1 hk; omega)).le
  have hsum : (bodyAt bs s).mass + M ≠ 0 := by positivity
  set V := struckSpeed (bodyAt bs s).mass M e u with hV
  have hV0 : 0 ≤ V := by rw [hV]; unfold struckSpeed; positivity
  have hjump : V - hitterSpeed (bodyAt bs s).mass M e u = e * u := by
    rw [hV]; unfold struckSpeed hitterSpeed; field_simp; ring
  have hback : 0 ≤ hitterSpeed (bodyAt bs s).mass M e u + e * u := by
    have : hitterSpeed (bodyAt bs s).mass M e u + e * u = V := by linarith
    rw [this]; exact hV0
  choose! gp hgp using hrow
  set w : ℕ → ℝ := fun k => e * ((twist v (k + 1)).x - (twist v k).x) with hw
  have hY : ∀ k, rowAfter bs e a u s n k = if k = s then a + hitterSpeed (bodyAt bs s).mass M e u
      else if s < k ∧ k ≤ s + n then a + V else a := fun k => rfl
  have hzero : ∀ k, s ≤ k → k < s + n → rowAfter bs e a u s n (k + 1) - rowAfter bs e a u s n k + w k = 0 := by
    intro k h1 h2
    simp only [hY, hw]
    rw [hv _ (by omega), hv _ (by omega)]
    by_cases hk : k = s
    · subst hk
      rw [if_neg (by omega), if_pos (by omega), if_pos rfl, if_neg (by omega), if_pos rfl]
      linarith
    · rw [if_neg (by omega), if_pos (by omega), if_neg hk, if_pos (by omega), if_neg (by omega), if_neg hk]
      ring
  have hnon : ∀ c ∈ cs, 0 ≤ rowAfter bs e a u s n (gp c + 1) - rowAfter bs e a u s n (gp c) + w (gp c) := by
    intro c hc
    obtain ⟨h1, h2, -⟩ := hgp c hc
    generalize hk : gp c = k at *
    by_cases hin : s ≤ k ∧ k < s + n
    · exact (hzero k hin.1 hin.2).ge
    have hne : k ≠ s + n := by
      rintro rfl
      exact hop h1 ⟨c, hc, h2⟩
    simp only [hY, hw]
    rw [hv _ (by omega), hv _ (by omega)]
    by_cases hk' : k + 1 = s
    · rw [if_pos hk', if_neg (by omega), if_neg (by omega), if_pos hk', if_neg (by omega)]
      linarith
    · rw [if_neg hk', if_neg (by omega), if_neg (by omega), if_neg (by omega), if_neg hk', if_neg (by omega)]
      linarith
  refine row_unique (x := fun k => (twist v k).x) hm (range cs.length) pn
    (fun i => if hi : i < cs.length then gp cs[i] else 0) ((range n).image (s + ·))
    (fun k => V * (M - ∑ i ∈ range (k - s), (bodyAt bs (s + 1 + i)).mass)) ?_ ?_ w ?_ ?_
  · intro t
    have hd := h.dynamics (alongX t)
    have hc : contactPower cs pn (fun i => p i - q i) (alongX t) = ∑ i ∈ range cs.length,
        pn i * (t ((if hi : i < cs.length then gp cs[i] else 0) + 1) - t (if hi : i < cs.length then gp cs[i] else 0)) := by
      unfold contactPower
      refine sum_congr rfl fun i hi => ?_
      have hi := mem_range.1 hi
      rw [List.getElem?_eq_getElem hi]
      simp only [dif_pos hi]
      rw [joins_push (hgp _ (List.getElem_mem hi)).2.1, joins_slip (hgp _ (List.getElem_mem hi)).2.1]
      ring
    have hj : jointPower [] l (alongX t) = 0 := by simp [jointPower, jointVels]
    have hF : forcePower bs.length f (alongX t) = 0 := by
      unfold forcePower
      refine sum_eq_zero fun k hk => ?_
      rw [twist_alongX, hf k (mem_range.1 hk)]
      simp
    rw [hc, hj, hF] at hd
    unfold momentumPower at hd
    simp only [twist_alongX, mul_zero, zero_add, add_zero] at hd
    rw [← sub_eq_iff_eq_add', ← sum_sub_distrib] at hd
    rw [← hd]
    exact sum_congr rfl fun k _ => by ring
  · intro t
    exact row_struck (m := fun k => (bodyAt bs k).mass) (x := fun k => (twist v k).x) hm hs hv (M := M) hMd
      (Y := rowAfter bs e a u s n) (fun k _ => rfl) t
  · intro i hi
    have hi := mem_range.1 hi
    have hci := List.getElem_mem hi
    obtain ⟨h1, h2, h3, h4⟩ := hgp _ hci
    have hr := h.restitution i hi
    rw [he _ hci, joins_normalVel h2 v' h3 h4, joins_normalVel h2 v h3 h4] at hr
    refine ⟨(h.nonneg i hi).1, ?_, ?_⟩
    · simp only [dif_pos hi]; exact hr.2
    · simp only [dif_pos hi]; exact hnon _ hci
  · intro k hk
    obtain ⟨j, hj, rfl⟩ := mem_image.1 hk
    have hj := mem_range.1 hj
    refine ⟨mul_nonneg hV0 (sub_nonneg.2 ?_), ?_, ?_⟩
    · rw [hMd, Nat.add_sub_cancel_left]
      exact sum_le_sum_of_subset_of_nonneg (range_mono hj.le) fun i hi _ =>
        (hm _ (by have := mem_range.1 hi; omega)).le
    · rw [hzero _ (by omega) (by omega), mul_zero]
    · obtain ⟨c, hc, hjn⟩ := hcl (s + j) (by omega) (by omega)
      obtain ⟨i, hi, rfl⟩ := List.getElem_of_mem hc
      obtain ⟨h1, h2, h3, h4⟩ := hgp _ hc
      have hr := h.restitution i hi
      rw [he _ hc, joins_normalVel hjn v' h3 h4, joins_normalVel hjn v h3 h4] at hr
      exact hr.1

/-! ## The contacts of a row -/

theorem inline_mono {eps : ℝ} {bs : List Body} (h : InLine eps bs) {i j : ℕ} (hij : i < j) (hj : j < bs.length) :
    (bodyAt bs i).pos.1 < (bodyAt bs j).pos.1 := by
  induction j with
  | zero => omega
  | succ j ih =>
    rcases Nat.lt_succ_iff_lt_or_eq.1 hij with h1 | h1
    · exact (ih h1 (by omega)).trans (h.order j hj)
    · rw [h1]; exact h.order j hj

theorem inline_dist {eps : ℝ} {bs : List Body} (h : InLine eps bs) {i j : ℕ} (hij : i < j) (hj : j < bs.length) :
    Spec.dist (bodyAt bs i).pos (bodyAt bs j).pos = (bodyAt bs j).pos.1 - (bodyAt bs i).pos.1 ∧
    Spec.dist (bodyAt bs j).pos (bodyAt bs i).pos = (bodyAt bs j).pos.1 - (bodyAt bs i).pos.1 := by
  have hx := inline_mono h hij hj
  have hy : (bodyAt bs i).pos.2 = (bodyAt bs j).pos.2 := by rw [h.level i (by omega), h.level j hj]
  have : Spec.dist (bodyAt bs j).pos (bodyAt bs i).pos = (bodyAt bs j).pos.1 - (bodyAt bs i).pos.1 := by
    unfold Spec.dist len
    rw [Prod.fst_sub, Prod.snd_sub, hy, sub_self, zero_pow two_ne_zero, add_zero, Real.sqrt_sq (by linarith)]
  exact ⟨by rw [Spec.dist_comm]; exact this, this⟩

/-- The contacts of a row of balls are those between neighbours at most `eps` apart. -/
theorem C107_contacts (fuel : ℕ) (pairs : List Body → List (ℕ × ℕ)) (hp : BroadPhase pairs) (w : World (Option Mat) Finder)
    (h : CircleScene fuel (fun _ => []) pairs w) (hl : InLine w.eps w.bodies) :
    (∀ c ∈ w.contacts, ∃ k, k + 1 < w.bodies.length ∧ Joins c k ∧ det c.p1 c.normal = 0 ∧ det c.p2 c.normal = 0) ∧
    ∀ k, k + 1 < w.bodies.length → ((∃ c ∈ w.contacts, Joins c k) ↔ rowGap w.bodies k ≤ w.eps) := by
  have hcs := h.contacts_eq hp
  have hpen : ∀ c ∈ w.contacts, -w.eps ≤ c.pen := by
    intro c hc
    obtain ⟨f, hf⟩ := h.contacts
    exact (C12_contacts_wellformed _ _ _ _ _ _ _ _ hf c hc).2.2.1
  have first : ∀ c ∈ w.contacts, ∃ k, k + 1 < w.bodies.length ∧ Joins c k ∧ det c.p1 c.normal = 0 ∧ det c.p2 c.normal = 0 := by
    intro c hc
    have hc' := hc
    rw [hcs] at hc'
    obtain ⟨h1, -, h3, h4, ⟨s1, h5⟩, ⟨s2, h6⟩, -⟩ := circleContacts_mem hc'
    obtain ⟨v1, v2, v3⟩ := hp.valid _ _ h1
    simp only at v1 v2 v3
    have hd : ∀ s : ℝ, det (s • c.normal) c.normal = 0 := fun s => by
      simp only [Spec.det, Prod.smul_fst, Prod.smul_snd, smul_eq_mul]; ring
    have hq := hpen c hc
    rw [h3, overlapDepth] at hq
    have hlev : ∀ i < w.bodies.length, ∀ j < w.bodies.length, (bodyAt w.bodies i).pos.2 = (bodyAt w.bodies j).pos.2 :=
      fun i hi j hj => by rw [hl.level i hi, hl.level j hj]
    rcases Nat.lt_or_gt_of_ne v3 with hlt | hlt
    · have hk : c.i2 = c.i1 + 1 := by
        by_contra hne
        have := hl.apart c.i1 c.i2 (by omega) v2
        rw [(inline_dist hl hlt v2).1] at hq
        linarith
      refine ⟨c.i1, by omega, Or.inl ⟨rfl, hk, ?_⟩, by rw [h5]; exact hd s1, by rw [h6]; exact hd s2⟩
      have hx := inline_mono hl hlt v2
      rw [h4, (inline_dist hl hlt v2).1]
      apply Prod.ext
      · simp only [Prod.smul_fst, Prod.fst_sub, smul_eq_mul]
        have : (bodyAt w.bodies c.i2).pos.1 - (bodyAt w.bodies c.i1).pos.1 ≠ 0 := by linarith
        field_simp
        ring
      · simp only [Prod.smul_snd, Prod.snd_sub, smul_eq_mul]
        rw [hlev _ v1 _ v2, sub_self, mul_zero]
    · have hk : c.i1 = c.i2 + 1 := by
        by_contra hne
        have := hl.apart c.i2 c.i1 (by omega) v1
        rw [(inline_dist hl hlt v1).2] at hq
        linarith
      refine ⟨c.i2, by omega, Or.inr ⟨hk, rfl, ?_⟩, by rw [h5]; exact hd s1, by rw [h6]; exact hd s2⟩
      have hx := inline_mono hl hlt v1
      rw [h4, (inline_dist hl hlt v1).2]
      apply Prod.ext
      · simp only [Prod.smul_fst, Prod.fst_sub, smul_eq_mul]
        have : (bodyAt w.bodies c.i1).pos.1 - (bodyAt w.bodies c.i2).pos.1 ≠ 0 := by linarith
        field_simp
      · simp only [Prod.smul_snd, Prod.snd_sub, smul_eq_mul]
        rw [hlev _ v1 _ v2, sub_self, mul_zero]
  refine ⟨first, fun k hk => ⟨?_, ?_⟩⟩
  · rintro ⟨c, hc, hj⟩
    have hc' := hc
    rw [hcs] at hc'
    obtain ⟨-, -, h3, -⟩ := circleContacts_mem hc'
    have hq := hpen c hc
    rw [h3, overlapDepth] at hq
    unfold rowGap
    rcases hj with ⟨e1, e2, -⟩ | ⟨e1, e2, -⟩
    · rw [e1, e2, (inline_dist hl (Nat.lt_succ_self k) hk).1] at hq; linarith
    · rw [e1, e2, (inline_dist hl (Nat.lt_succ_self k) hk).2] at hq; linarith
  · intro hg
    obtain ⟨c, hc, hij⟩ := near_reported (nc := fun _ => []) (by simp) hp h.eps h.bodies (i := k) (j := k + 1) (by omega) hk (by omega)
      (by simp) (by
        rw [overlapDepth, (inline_dist hl (Nat.lt_succ_self k) hk).1]
        unfold rowGap at hg
        linarith)
    rw [← hcs] at hc
    obtain ⟨k', -, hj, -⟩ := first c hc
    have : k' = k := by
      rcases hj with ⟨e1, e2, -⟩ | ⟨e1, e2, -⟩ <;> rcases hij with ⟨d1, d2⟩ | ⟨d1, d2⟩ <;> omega
    exact ⟨c, hc, this ▸ hj⟩

/-! ## One step of the engine -/

/-- C107: a step in a world of balls in a row, of which ball `s` is faster than the others by `u ≥ 0`: the balls after it with gaps at
most `eps` move together as one body that was hit by ball `s`, and the balls beyond the first larger gap, and those behind, do not
notice. -/
theorem C107_step (fuel : ℕ) (pairs : List Body → List (ℕ × ℕ)) (hp : BroadPhase pairs) (H : ForceHeap) (lcp : LcpSolver)
    (hx : Exact lcp) (mi : ℕ) (w w' : World (Option Mat) Finder) (h : CircleScene fuel (fun _ => []) pairs w) (hjs : w.joints = [])
    (hl : InLine w.eps w.bodies) (hm : ∀ b ∈ w.bodies, 0 < b.mass) (e : ℝ) (he0 : 0 ≤ e) (he : ∀ b ∈ w.bodies, b.restitution = e)
    (hF : ∀ t fl, forceCat H t w.bodies.length = .ok fl → ∀ k < w.bodies.length, (fl.getD k 0).x = 0)
    (n : ℕ) (dt : ℝ) (hst : w.step_dt (pdipmEnv 2 H lcp mi (diffCollide fuel (fun _ => []) pairs)) n dt = .done w')
    (s r : ℕ) (hs : s + r < w.bodies.length) (a u : ℝ) (hu : 0 ≤ u)
    (hv : ∀ k < w.bodies.length, (twist w.v k).x = if k = s then a + u else a)
    (hcl : ∀ k, s ≤ k → k < s + r → rowGap w.bodies k ≤ w.eps)
    (hop : s + r + 1 < w.bodies.length → w.eps < rowGap w.bodies (s + r)) :
    ∀ k < w.bodies.length, (twist w'.v k).x = rowAfter w.bodies e a u s r k := by
  have hinv : EngineInv w := ⟨h.good, h.joints, h.contactsOk hp, h.cache⟩
  obtain ⟨fl, l, pn, p, q, g, hfl, hlaw⟩ := step_law hx hinv hst
  rw [hjs] at hlaw
  obtain ⟨hc1, hc2⟩ := C107_contacts fuel pairs hp w h hl
  refine C107_law _ _ _ _ _ _ _ _ _ _ hlaw (fun k hk => hm _ (bodyAt_mem hk)) hc1 e he0 ?_ ?_ s r hs a u hu hv ?_ ?_
  · intro c hc
    obtain ⟨v1, v2, -⟩ := h.contactsOk hp c hc
    unfold meanRestitution
    rw [he _ (bodyAt_mem v1), he _ (bodyAt_mem v2)]
    ring
  · intro k hk
    show (dt • fl.getD k 0).x = 0
    rw [V3.smul_x, hF _ _ hfl k hk, mul_zero]
  · exact fun k h1 h2 => (hc2 k (by omega)).2 (hcl k h1 h2)
  · intro h1 h2
    exact absurd ((hc2 _ h1).1 h2) (not_le.2 (hop h1))

/-! ## The library's world -/

variable {S : RowScene} {eps tol : ℝ}

theorem balls_length : (S.balls eps).length = S.N := by simp [RowScene.balls]

theorem balls_at {k : ℕ} (hk : k < S.N) : bodyAt (S.balls eps) k = S.ball eps k := by
  simp [bodyAt, RowScene.balls, List.getD_eq_getElem?_getD, hk]

theorem balls_circle (hS : S.Valid eps tol) : ∀ b ∈ S.balls eps, CircleBody eps b := by
  intro b hb
  obtain ⟨k, -, rfl⟩ := List.mem_map.1 hb
  refine ⟨⟨_, [], .circle _ _ _, rfl⟩, rfl, (hS.rad k).1.le, ?_⟩
  show eps ≤ 2 * eps
  linarith [hS.eps]

theorem ball_pos (k : ℕ) : (S.ball eps k).pos = (S.x k, S.y) := by
  simp [RowScene.ball, mkCircle, Body.pos, Arg.toV3, V3.xy]

theorem row_far (hS : S.Valid eps tol) (i : ℕ) : ∀ j, i + 2 ≤ j → S.r i + S.r j + eps < S.x j - S.x i := by
  intro j
  induction j with
  | zero => intro h; omega
  | succ j ih =>
    intro h
    have hr := hS.row j
    rcases Nat.lt_or_ge j (i + 2) with h1 | h1
    · have : j = i + 1 := by omega
      subst this
      have h0 := hS.row i
      have := (hS.rad (i + 1)).2.1
      linarith
    · have h0 := ih h1
      have := (hS.rad j).1
      linarith

theorem balls_inline (hS : S.Valid eps tol) : InLine eps (S.balls eps) := by
  refine ⟨fun k hk => ?_, fun k hk => ?_, fun i j hij hj => ?_⟩
  · rw [balls_length] at hk
    rw [balls_at hk, balls_at (by omega), ball_pos, ball_pos]
  · rw [balls_length] at hk
    rw [balls_at (by omega), balls_at hk, ball_pos, ball_pos]
    have := hS.row k
    have h1 := (hS.rad k).1
    have h2 := (hS.rad (k + 1)).1
    show S.x k < S.x (k + 1)
    linarith
  · rw [balls_length] at hj
    rw [balls_at (by omega), balls_at hj, ball_pos, ball_pos]
    exact row_far hS i j hij

/-- The constructor accepts the row. -/
theorem row_initial (hS : S.Valid eps tol) (fuel : ℕ) {pairs : List Body → List (ℕ × ℕ)} (hp : BroadPhase pairs) (H : ForceHeap)
    (lcp : LcpSolver) (mi : ℕ) (fnd : Finder) (dt : ℝ) :
    ∃ w, mkWorld (pdipmEnv 2 H lcp mi (diffCollide fuel (fun _ => []) pairs)) none fnd (S.balls eps) [] dt eps tol false true = .done w ∧
      CircleScene fuel (fun _ => []) pairs w ∧ w.bodies = S.balls eps ∧ w.joints = [] ∧ w.eps = eps ∧ w.tol = tol ∧
      (∀ k < S.N, twist w.v k = (S.ball eps k).v) ∧ ∀ c ∈ w.contacts, c.pen ≤ 0 := by
  have hN := hS.s
  have hbod : (initWorld (none : Option Mat) fnd (S.balls eps) [] dt eps tol false true).bodies = S.balls eps := by
    apply List.ext_getElem
    · simp [initWorld, World.set_v]
    · intro i h1 h2
      simp only [initWorld, World.set_v, List.getElem_map, List.getElem_zipIdx]
      rw [Nat.zero_add, cat3_slice _ i (by simpa using h2), List.getElem_map]
  have hcirc : ∀ i < (S.balls eps).length, (bodyAt (S.balls eps) i).isCircle = true :=
    fun i hi => (balls_circle hS _ (bodyAt_mem hi)).circle
  have hpen : ∀ c ∈ circleContacts (fun _ => []) eps (S.balls eps) (pairs (S.balls eps)), c.pen ≤ 0 := by
    intro c hc
    obtain ⟨h1, -, h3, -⟩ := circleContacts_mem hc
    obtain ⟨v1, v2, v3⟩ := hp.valid _ _ h1
    simp only at v1 v2 v3
    have key : ∀ i j, i < j → j < S.N → S.r i + S.r j ≤ S.x j - S.x i := by
      intro i j hij hj
      rcases Nat.lt_or_ge j (i + 2) with h | h
      · have : j = i + 1 := by omega
        subst this
        linarith [hS.row i]
      · linarith [row_far hS i j h, hS.eps]
    rw [h3, overlapDepth]
    have hl := balls_inline (S := S) (eps := eps) hS
    rw [balls_length] at v1 v2
    have hrad : ∀ k < S.N, (bodyAt (S.balls eps) k).rad = S.r k := fun k hk => by rw [balls_at hk]; rfl
    have hx : ∀ k < S.N, (bodyAt (S.balls eps) k).pos.1 = S.x k := fun k hk => by rw [balls_at hk, ball_pos]
    rcases Nat.lt_or_gt_of_ne v3 with hlt | hlt
    · rw [(inline_dist hl hlt (by rw [balls_length]; exact v2)).1, hrad _ v1, hrad _ v2, hx _ v1, hx _ v2]
      linarith [key _ _ hlt v2]
    · rw [(inline_dist hl hlt (by rw [balls_length]; exact v1)).2, hrad _ v1, hrad _ v2, hx _ v1, hx _ v2]
      linarith [key _ _ hlt v1]
  have hmk : mkWorld (pdipmEnv 2 H lcp mi (diffCollide fuel (fun _ => []) pairs)) none fnd (S.balls eps) [] dt eps tol false true =
      .done { initWorld (none : Option Mat) fnd (S.balls eps) [] dt eps tol false true with
        contacts := circleContacts (fun _ => []) eps (S.balls eps) (pairs (S.balls eps)), fnd := fnd } := by
    unfold mkWorld
    rw [if_neg (by rw [balls_length]; omega), if_pos (by simp)]
    unfold World.find_contacts
    have : (pdipmEnv 2 H lcp mi (diffCollide fuel (fun _ => []) pairs)).collide
        (initWorld (none : Option Mat) fnd (S.balls eps) [] dt eps tol false true).eps
        (initWorld (none : Option Mat) fnd (S.balls eps) [] dt eps tol false true).fnd
        (initWorld (none : Option Mat) fnd (S.balls eps) [] dt eps tol false true).bodies =
        .ok (fnd, circleContacts (fun _ => []) eps (S.balls eps) (pairs (S.balls eps))) := by
      rw [hbod]; exact collide_circles hp hcirc _
    rw [this]
    simp only [Run.bind, if_true]
    rw [if_pos]
    intro c hc
    exact (hpen c hc).trans hS.tol.le
  have hsc := C27_constructed fuel (fun _ => []) pairs H lcp mi fnd (S.balls eps) [] dt eps tol _ hS.eps
    (by linarith [hS.eps, hS.tol]) (balls_circle hS) (by
      intro i hi j hj _
      rw [balls_length] at hi hj
      rw [balls_at hi, balls_at hj]
      have h1 := (hS.rad i).2.2
      have h2 := (hS.rad j).1
      show tol < S.r i + S.r j
      linarith) (by simp) hmk
  refine ⟨_, hmk, hsc, hbod, rfl, rfl, rfl, ?_, hpen⟩
  intro k hk
  have := cat3_slice ((S.balls eps).map Body.v) k (by simpa [balls_length] using hk)
  rw [List.getElem_map] at this
  have hb : (S.balls eps)[k]'(by rw [balls_length]; exact hk) = S.ball eps k := by simp [RowScene.balls]
  rw [hb, slice3_twist] at this
  exact this

/-- C107: the library's strict world of a row of balls and its first step exist, and the step does what `C107_step` says. -/
theorem C107_runs (S : RowScene) (eps tol : ℝ) (hS : S.Valid eps tol) (fuel : ℕ) (pairs : List Body → List (ℕ × ℕ))
    (hp : BroadPhase pairs) (H : ForceHeap) (hH : ForcesOk H S.N)
    (hF : ∀ t fl, forceCat H t S.N = .ok fl → ∀ k < S.N, (fl.getD k 0).x = 0) (mi : ℕ) (fnd : Finder) (dt : ℝ) (hdt : 0 ≤ dt)
    (r : ℕ) (hr : S.s + r < S.N) (hcl : ∀ k, S.s ≤ k → k < S.s + r → rowGap (S.balls eps) k ≤ eps)
    (hop : S.s + r + 1 < S.N → eps < rowGap (S.balls eps) (S.s + r)) :
    ∃ w, mkWorld (pdipmEnv 2 H exactLcp mi (diffCollide fuel (fun _ => []) pairs)) none fnd (S.balls eps) [] dt eps tol false true =
        .done w ∧ (∃ n w', w.step_dt (pdipmEnv 2 H exactLcp mi (diffCollide fuel (fun _ => []) pairs)) n dt = .done w') ∧
      ∀ n w', w.step_dt (pdipmEnv 2 H exactLcp mi (diffCollide fuel (fun _ => []) pairs)) n dt = .done w' →
        ∀ k < S.N, (twist w'.v k).x = rowAfter (S.balls eps) S.e S.a S.u S.s r k := by
  obtain ⟨w, hw, hsc, hb, hj, he, ht, hv, hpen⟩ := row_initial hS fuel hp H exactLcp mi fnd dt
  have hlen : w.bodies.length = S.N := by rw [hb, balls_length]
  have hpos : ∀ b ∈ w.bodies, 0 < b.mass ∧ 0 < b.ang_inertia ∧ 0 ≤ b.fric_coeff ∧ b.restitution = S.e := by
    intro b hbb
    rw [hb] at hbb
    obtain ⟨k, -, rfl⟩ := List.mem_map.1 hbb
    have hm := hS.mass k
    have hr := (hS.rad k).1
    refine ⟨hm, ?_, hS.fric k, rfl⟩
    show 0 < circleInertia (S.r k) (S.m k)
    unfold circleInertia
    positivity
  obtain ⟨q, hq⟩ := C74_circles_engine_answers fuel (fun _ => []) pairs hp H mi w hsc hj (fun b hb => ⟨(hpos b hb).1, (hpos b hb).2.1⟩)
    (fun b hb => (hpos b hb).2.2.1) (by rw [hlen]; exact hH) dt
  obtain ⟨n, w', hst⟩ := C27_strict_terminates fuel (fun _ => []) (by simp) pairs hp H exactLcp exactLcp_exact mi w hsc dt hdt q hq
    (fun c hc => Or.inl (by rw [ht]; exact (hpen c hc).trans_lt hS.tol))
  refine ⟨w, hw, ⟨n, w', hst⟩, ?_⟩
  intro n w' hst
  have := C107_step fuel pairs hp H exactLcp exactLcp_exact mi w w' hsc hj (by rw [he, hb]; exact balls_inline hS)
    (fun b hb => (hpos b hb).1) S.e hS.e (fun b hb => (hpos b hb).2.2.2) (by rw [hlen]; exact hF) n dt hst S.s r
    (by rw [hlen]; exact hr) S.a S.u hS.u (by
      intro k hk
      rw [hlen] at hk
      rw [hv k hk]
      rfl) (by rw [hb, he]; exact hcl) (by rw [hb, he, balls_length]; exact hop)
  rw [hb, balls_length] at this
  exact this

theorem cradle_valid {n : ℕ} {gap : ℕ → ℝ} {r m mu e u eps tol : ℝ} (hg : ∀ k, 0 ≤ gap k) (hr : 0 < r) (hr2 : eps < 2 * r)
    (hr3 : tol < r) (hm : 0 < m) (hmu : 0 ≤ mu) (he : 0 ≤ e) (hu : 0 ≤ u) (heps : 0 ≤ eps) (htol : 0 < tol) :
    (cradle n gap r m mu e u).Valid eps tol := by
  refine ⟨fun _ => ⟨hr, hr2, hr3⟩, fun _ => hm, fun _ => hmu, he, Nat.succ_pos n, hu, heps, htol, fun k => ?_⟩
  show (∑ i ∈ Finset.range k, (2 * r + gap i)) + r + r ≤ ∑ i ∈ Finset.range (k + 1), (2 * r + gap i)
  rw [Finset.sum_range_succ]
  linarith [hg k]

theorem cradle_gap {n : ℕ} {gap : ℕ → ℝ} {r m mu e u eps : ℝ} {k : ℕ} (hk : k < n) :
    rowGap ((cradle n gap r m mu e u).balls eps) k = gap k := by
  unfold rowGap
  rw [balls_at (show k + 1 < n + 1 by omega), balls_at (show k < n + 1 by omega), ball_pos, ball_pos]
  show (∑ i ∈ Finset.range (k + 1), (2 * r + gap i)) - (∑ i ∈ Finset.range k, (2 * r + gap i)) - r - r = _
  rw [Finset.sum_range_succ]
  ring

theorem cradle_after {n : ℕ} {gap : ℕ → ℝ} {r m mu u eps : ℝ} (hm : 0 < m) {j : ℕ} (hj : j ≤ n) (k : ℕ) :
    rowAfter ((cradle n gap r m mu 1 u).balls eps) 1 0 u 0 j k =
      if k = 0 then (1 - j) / (1 + j) * u else if k ≤ j then 2 / (1 + j) * u else 0 := by
  have hM : groupMass ((cradle n gap r m mu 1 u).balls eps) 0 j = j * m := by
    unfold groupMass
    rw [Finset.sum_congr rfl (g := fun _ => m)]
    · simp
    · intro i hi
      have := Finset.mem_range.1 hi
      rw [balls_at (show 0 + 1 + i < n + 1 by omega)]
      rfl
  have h0 : (bodyAt ((cradle n gap r m mu 1 u).balls eps) 0).mass = m := by
    rw [balls_at (show 0 < n + 1 by omega)]; rfl
  have hj1 : (0 : ℝ) < 1 + j := by positivity
  unfold rowAfter
  rw [hM, h0]
  by_cases hk : k = 0
  · rw [if_pos hk, if_pos hk]
    unfold hitterSpeed
    rw [zero_add, show m + j * m = m * (1 + j) by ring]
    field_simp
  · rw [if_neg hk, if_neg hk]
    by_cases hk2 : k ≤ j
    · rw [if_pos ⟨by omega, by omega⟩, if_pos hk2]
      unfold struckSpeed
      rw [zero_add, show m + j * m = m * (1 + j) by ring]
      field_simp
      ring
    · rw [if_neg (by omega), if_neg hk2]

/-- The world of the cradle. -/
abbrev cradleEnv (mi : ℕ) (pairs : List Body → List (ℕ × ℕ)) : Env (Option Mat) Finder :=
  pdipmEnv 2 noForces exactLcp mi (diffCollide 0 (fun _ => []) pairs)

section

variable (n : ℕ) (gap : ℕ → ℝ) (hg : ∀ k, 0 ≤ gap k) (r m mu u eps tol : ℝ) (hr : 0 < r) (hr2 : eps < 2 * r)
    (hr3 : tol < r) (hm : 0 < m) (hmu : 0 ≤ mu) (hu : 0 ≤ u) (heps : 0 ≤ eps) (htol : 0 < tol) (pairs : List Body → List (ℕ × ℕ))
    (hp : BroadPhase pairs) (mi : ℕ) (fnd : Finder) (dt : ℝ) (hdt : 0 ≤ dt)

include hg hr hr2 hr3 hm hmu hu heps htol hp hdt

theorem cradle_steps (j : ℕ) (hj : j ≤ n) (hcl : ∀ k < j, gap k ≤ eps) (hop : j < n → eps < gap j) :
    ∃ w, mkWorld (cradleEnv mi pairs) none fnd ((cradle n gap r m mu 1 u).balls eps) [] dt eps tol false true = .done w ∧
      (∃ N w', w.step_dt (cradleEnv mi pairs) N dt = .done w') ∧ ∀ N w', w.step_dt (cradleEnv mi pairs) N dt = .done w' →
      ∀ k ≤ n, (twist w'.v k).x = if k = 0 then (1 - j) / (1 + j) * u else if k ≤ j then 2 / (1 + j) * u else 0 := by
  obtain ⟨w, h1, h2, h3⟩ := C107_runs (cradle n gap r m mu 1 u) eps tol
    (cradle_valid hg hr hr2 hr3 hm hmu zero_le_one hu heps htol) 0 pairs hp noForces
    (fun t => ⟨_, noForces_cat t _⟩) (by
      intro t fl hfl k hk
      rw [noForces_cat] at hfl
      cases hfl
      simp [List.getD_eq_getElem?_getD, hk]) mi fnd dt hdt j (show 0 + j < n + 1 by omega) (by
      intro k _ hk
      have hk : k < 0 + j := hk
      rw [cradle_gap (by omega)]
      exact hcl k (by omega)) (by
      intro h
      have h : 0 + j + 1 < n + 1 := h
      show eps < rowGap _ (0 + j)
      rw [zero_add, cradle_gap (by omega)]
      exact hop (by omega))
  refine ⟨w, h1, h2, fun N w' hst k hk => ?_⟩
  rw [h3 N w' hst k (show k < n + 1 by omega)]
  exact cradle_after hm hj k

theorem cradle_step (j : ℕ) (hj : j ≤ n) (hcl : ∀ k < j, gap k ≤ eps) (hop : j < n → eps < gap j) :
    ∃ w N w', mkWorld (cradleEnv mi pairs) none fnd ((cradle n gap r m mu 1 u).balls eps) [] dt eps tol false true = .done w ∧
      w.step_dt (cradleEnv mi pairs) N dt = .done w' ∧
      ∀ k ≤ n, (twist w'.v k).x = if k = 0 then (1 - j) / (1 + j) * u else if k ≤ j then 2 / (1 + j) * u else 0 := by
  obtain ⟨w, h1, ⟨N, w', h2⟩, h3⟩ := cradle_steps n gap hg r m mu u eps tol hr hr2 hr3 hm hmu hu heps htol pairs hp mi fnd dt hdt j hj
    hcl hop
  exact ⟨w, N, w', h1, h2, h3 N w' h2⟩

/-- C107: Newton's cradle with the balls within `eps` of each other, all contacts elastic: the first ball recoils and the `n` others
leave together with the speed `2 u / (n + 1)`; momentum and energy are those before the step. -/
theorem C107_cradle (hn : 2 ≤ n) (hpos : 0 < u) (hcl : ∀ k < n, gap k ≤ eps) :
    ∃ w N w', mkWorld (cradleEnv mi pairs) none fnd ((cradle n gap r m mu 1 u).balls eps) [] dt eps tol false true = .done w ∧
      w.step_dt (cradleEnv mi pairs) N dt = .done w' ∧ (twist w'.v 0).x = (1 - n) / (1 + n) * u ∧ (twist w'.v 0).x < 0 ∧
      (∀ k, 1 ≤ k → k ≤ n → (twist w'.v k).x = 2 / (1 + n) * u ∧ 0 < (twist w'.v k).x ∧ (twist w'.v k).x < u) ∧
      ∑ k ∈ Finset.range (n + 1), m * (twist w'.v k).x = m * u ∧
      ∑ k ∈ Finset.range (n + 1), m / 2 * (twist w'.v k).x ^ 2 = m / 2 * u ^ 2 := by
  obtain ⟨w, N, w', h1, h2, h3⟩ := cradle_step n gap hg r m mu u eps tol hr hr2 hr3 hm hmu hu heps htol pairs hp mi fnd dt hdt n le_rfl
    hcl (fun h => absurd h (lt_irrefl _))
  have hn' : (2 : ℝ) ≤ n := by exact_mod_cast hn
  have hn1 : (0 : ℝ) < 1 + n := by linarith
  have h0 := h3 0 (by omega)
  rw [if_pos rfl] at h0
  have hk : ∀ k, 1 ≤ k → k ≤ n → (twist w'.v k).x = 2 / (1 + n) * u := by
    intro k hk1 hk2
    rw [h3 k hk2, if_neg (by omega), if_pos hk2]
  refine ⟨w, N, w', h1, h2, h0, ?_, fun k hk1 hk2 => ⟨hk k hk1 hk2, ?_, ?_⟩, ?_, ?_⟩
  · rw [h0]
    apply mul_neg_of_neg_of_pos _ hpos
    exact div_neg_of_neg_of_pos (by linarith) hn1
  · rw [hk k hk1 hk2]; positivity
  · rw [hk k hk1 hk2, mul_comm]
    apply mul_lt_of_lt_one_right hpos
    rw [div_lt_one hn1]; linarith
  · rw [Finset.sum_range_succ', h0, Finset.sum_congr rfl (g := fun _ => m * (2 / (1 + n) * u))]
    · simp only [Finset.sum_const, Finset.card_range, nsmul_eq_mul]
      field_simp
      ring
    · intro k hkk
      rw [hk (k + 1) (by omega) (by have := Finset.mem_range.1 hkk; omega)]
  · rw [Finset.sum_range_succ', h0, Finset.sum_congr rfl (g := fun _ => m / 2 * (2 / (1 + n) * u) ^ 2)]
    · simp only [Finset.sum_const, Finset.card_range, nsmul_eq_mul]
      field_simp
      ring
    · intro k hkk
      rw [hk (k + 1) (by omega) (by have := Finset.mem_range.1 hkk; omega)]

/-- C107: with the second gap open the first two balls exchange their velocities and the others stay at rest. -/
theorem C107_exchange (hn : 1 ≤ n) (hcl : gap 0 ≤ eps) (hop : eps < gap 1) :
    ∃ w N w', mkWorld (cradleEnv mi pairs) none fnd ((cradle n gap r m mu 1 u).balls eps) [] dt eps tol false true = .done w ∧
      w.step_dt (cradleEnv mi pairs) N dt = .done w' ∧ (twist w'.v 0).x = 0 ∧ (twist w'.v 1).x = u ∧
      ∀ k, 2 ≤ k → k ≤ n → (twist w'.v k).x = 0 := by
  obtain ⟨w, N, w', h1, h2, h3⟩ := cradle_step n gap hg r m mu u eps tol hr hr2 hr3 hm hmu hu heps htol pairs hp mi fnd dt hdt 1 hn
    (fun k hk => by rw [show k = 0 by omega]; exact hcl) (fun _ => hop)
  refine ⟨w, N, w', h1, h2, ?_, ?_, fun k hk1 hk2 => ?_⟩
  · rw [h3 0 (by omega)]; simp
  · rw [h3 1 (by omega)]; simp; norm_num
  · rw [h3 k hk2, if_neg (by omega), if_neg (by omega)]

end

/-- C107: the velocity of the third ball after a step jumps, as a function of the gap in front of it, from `2 u / 3` to `0` when the
gap exceeds `eps`: no function that agrees with the library is continuous there. -/
theorem C107_jump (r m mu u eps tol : ℝ) (hr : 0 < r) (hr2 : eps < 2 * r) (hr3 : tol < r) (hm : 0 < m) (hmu : 0 ≤ mu) (hu : 0 < u)
    (heps : 0 ≤ eps) (htol : 0 < tol) (pairs : List Body → List (ℕ × ℕ)) (hp : BroadPhase pairs) (mi : ℕ) (fnd : Finder) (dt : ℝ)
    (hdt : 0 ≤ dt) (V : ℝ → ℝ)
    (hV : ∀ g, 0 ≤ g → ∀ w N w',
      mkWorld (cradleEnv mi pairs) none fnd ((cradle 2 (fun k => if k = 0 then 0 else g) r m mu 1 u).balls eps) [] dt eps tol false true =
        .done w → w.step_dt (cradleEnv mi pairs) N dt = .done w' → V g = (twist w'.v 2).x) :
    V eps = 2 / 3 * u ∧ (∀ g, eps < g → V g = 0) ∧ ¬ ContinuousAt V eps := by
  have h1 : V eps = 2 / 3 * u := by
    obtain ⟨w, N, w', h1, h2, h3⟩ := cradle_step 2 (fun k => if k = 0 then 0 else eps) (fun k => by split_ifs <;> linarith)
      r m mu u eps tol hr hr2 hr3 hm hmu hu.le heps htol pairs hp mi fnd dt hdt 2 le_rfl
      (fun k _ => by split_ifs <;> linarith) (fun h => absurd h (lt_irrefl _))
    rw [hV eps heps w N w' h1 h2, h3 2 le_rfl]
    norm_num
  have h2 : ∀ g, eps < g → V g = 0 := by
    intro g hg
    obtain ⟨w, N, w', h1, h2, h3⟩ := cradle_step 2 (fun k => if k = 0 then 0 else g) (fun k => by split_ifs <;> linarith)
      r m mu u eps tol hr hr2 hr3 hm hmu hu.le heps htol pairs hp mi fnd dt hdt 1 (by norm_num)
      (fun k hk => by rw [if_pos (by omega)]; exact heps) (fun _ => by rw [if_neg one_ne_zero]; exact hg)
    rw [hV g (by linarith) w N w' h1 h2, h3 2 le_rfl]
    norm_num
  refine ⟨h1, h2, fun hc => ?_⟩
  have hlim : Filter.Tendsto V (nhdsWithin eps (Set.Ioi eps)) (nhds (V eps)) := hc.tendsto.mono_left nhdsWithin_le_nhds
  have h0 : Filter.Tendsto V (nhdsWithin eps (Set.Ioi eps)) (nhds 0) := by
    apply Filter.Tendsto.congr' _ tendsto_const_nhds
    filter_upwards [self_mem_nhdsWithin] with g hg
    exact (h2 g hg).symm
  have := tendsto_nhds_unique hlim h0
  rw [h1] at this
  linarith

/-- Five touching balls of radius 30, the library's `eps = 0.1`, `tol = 1e-6`-like data: the first recoils with 60 of its speed of 100,
the others leave with 40. -/
example (mi : ℕ) (fnd : Finder) : ∃ w N w',
    mkWorld (cradleEnv mi allPairs) none fnd ((cradle 4 (fun _ => 0) 30 1 (9 / 10) 1 100).balls (1 / 10)) [] (1 / 30) (1 / 10)
      (1 / 1000000) false true = .done w ∧ w.step_dt (cradleEnv mi allPairs) N (1 / 30) = .done w' ∧
      (twist w'.v 0).x = -60 ∧ (twist w'.v 4).x = 40 := by
  obtain ⟨w, N, w', h1, h2, h3, -, h4, -⟩ := C107_cradle 4 (fun _ => 0) (fun _ => le_rfl) 30 1 (9 / 10) 100 (1 / 10) (1 / 1000000)
    (by norm_num) (by norm_num) (by norm_num) (by norm_num) (by norm_num) (by norm_num) (by norm_num) (by norm_num) allPairs
    allPairs_broad mi fnd (1 / 30) (by norm_num) (by norm_num) (by norm_num) (fun _ _ => by norm_num)
  refine ⟨w, N, w', h1, h2, ?_, ?_⟩
  · rw [h3]; norm_num
  · rw [(h4 4 (by norm_num) le_rfl).1]; norm_num

/-- The same row with the balls half a unit apart behind the second: the second takes the speed of the first. -/
example (mi : ℕ) (fnd : Finder) : ∃ w N w',
    mkWorld (cradleEnv mi allPairs) none fnd ((cradle 4 (fun k => if k = 0 then 0 else 1 / 2) 30 1 (9 / 10) 1 100).balls (1 / 10)) []
      (1 / 30) (1 / 10) (1 / 1000000) false true = .done w ∧ w.step_dt (cradleEnv mi allPairs) N (1 / 30) = .done w' ∧
      (twist w'.v 0).x = 0 ∧ (twist w'.v 1).x = 100 ∧ (twist w'.v 4).x = 0 := by
  obtain ⟨w, N, w', h1, h2, h3, h4, h5⟩ := C107_exchange 4 (fun k => if k = 0 then 0 else 1 / 2)
    (fun k => by split_ifs <;> norm_num) 30 1 (9 / 10) 100 (1 / 10) (1 / 1000000)
    (by norm_num) (by norm_num) (by norm_num) (by norm_num) (by norm_num) (by norm_num) (by norm_num) (by norm_num) allPairs
    allPairs_broad mi fnd (1 / 30) (by norm_num) (by norm_num) (by norm_num) (by norm_num)
  exact ⟨w, N, w', h1, h2, h3, h4, h5 4 (by norm_num) le_rfl⟩

/-- The function of `C107_jump` for three balls of radius 30. -/
example (mi : ℕ) (fnd : Finder) : ∃ V : ℝ → ℝ, (∀ g, 0 ≤ g → ∀ w N w',
    mkWorld (cradleEnv mi allPairs) none fnd ((cradle 2 (fun k => if k = 0 then 0 else g) 30 1 (9 / 10) 1 3).balls (1 / 10)) [] (1 / 30)
      (1 / 10) (1 / 1000000) false true = .done w → w.step_dt (cradleEnv mi allPairs) N (1 / 30) = .done w' →
      V g = (twist w'.v 2).x) ∧ V (1 / 10) = 2 ∧ ¬ ContinuousAt V (1 / 10) := by
  have hV : ∀ g, 0 ≤ g → ∀ w N w',
      mkWorld (cradleEnv mi allPairs) none fnd ((cradle 2 (fun k => if k = 0 then 0 else g) 30 1 (9 / 10) 1 3).balls (1 / 10)) []
        (1 / 30) (1 / 10) (1 / 1000000) false true = .done w → w.step_dt (cradleEnv mi allPairs) N (1 / 30) = .done w' →
        (fun g : ℝ => if g ≤ 1 / 10 then (2 : ℝ) else 0) g = (twist w'.v 2).x := by
    intro g hg w N w' h1 h2
    have key := fun (j : ℕ) (hj : j ≤ 2) (hcl : ∀ k < j, (if k = 0 then (0 : ℝ) else g) ≤ 1 / 10)
      (hop : j < 2 → (1 : ℝ) / 10 < if j = 0 then 0 else g) =>
      cradle_steps 2 (fun k => if k = 0 then 0 else g) (fun k => by split_ifs <;> linarith) 30 1 (9 / 10) 3 (1 / 10)
        (1 / 1000000) (by norm_num) (by norm_num) (by norm_num) (by norm_num) (by norm_num) (by norm_num) (by norm_num) (by norm_num)
        allPairs allPairs_broad mi fnd (1 / 30) (by norm_num) j hj hcl hop
    by_cases hle : g ≤ 1 / 10
    · obtain ⟨w0, h3, -, h4⟩ := key 2 le_rfl (fun k _ => by split_ifs <;> linarith) (fun h => absurd h (lt_irrefl _))
      cases h1.symm.trans h3
      rw [h4 N w' h2 2 le_rfl]
      simp only [hle, if_true]
      norm_num
    · obtain ⟨w0, h3, -, h4⟩ := key 1 (by norm_num) (fun k hk => by rw [if_pos (by omega)]; norm_num)
        (fun _ => by rw [if_neg one_ne_zero]; linarith)
      cases h1.symm.trans h3
      rw [h4 N w' h2 2 le_rfl]
      simp only [hle, if_false]
      norm_num
  refine ⟨_, hV, by norm_num, ?_⟩
  exact (C107_jump 30 1 (9 / 10) 3 (1 / 10) (1 / 1000000) (by norm_num) (by norm_num) (by norm_num) (by norm_num) (by norm_num)
    (by norm_num) (by norm_num) (by norm_num) allPairs allPairs_broad mi fnd (1 / 30) (by norm_num) _ hV).2.2

end LcpPhysics
