import Verif.Spec.Billiard
import Verif.Lemmas.Billiard
import Verif.Lemmas.LevelBox
import Verif.Props.Impact
import Verif.Props.CircleWorld
import Verif.Props.FrictionSolvable
import Verif.Props.Shortened

/-!
# C129: two discs that fly freely

Without forces, constraints and friction, with an exact solver, in a strict world without post-stabilization.
-/

noncomputable section

namespace LcpPhysics
open Spec

/-- The broad phase presents a pair once. -/
def OncePairs (pairs : List Body → List (ℕ × ℕ)) : Prop := ∀ bs, bs.length = 2 → (pairs bs).length ≤ 1

/-- The world of two discs between steps. -/
structure Discs (cfuel : ℕ) (pairs : List Body → List (ℕ × ℕ)) (P : TwoDiscs) (w : World (Option Mat) Finder) : Prop where
  scene : CircleScene cfuel (fun _ => []) pairs w
  two : w.bodies.length = 2
  free : w.joints = []
  mass0 : (bodyAt w.bodies 0).mass = P.m0
  mass1 : (bodyAt w.bodies 1).mass = P.m1
  inertia0 : 0 < (bodyAt w.bodies 0).ang_inertia
  inertia1 : 0 < (bodyAt w.bodies 1).ang_inertia
  rad0 : (bodyAt w.bodies 0).rad = P.r0
  rad1 : (bodyAt w.bodies 1).rad = P.r1
  rest : ((bodyAt w.bodies 0).restitution + (bodyAt w.bodies 1).restitution) / 2 = P.e
  fric0 : (bodyAt w.bodies 0).fric_coeff = 0
  fric1 : (bodyAt w.bodies 1).fric_coeff = 0

variable {cfuel : ℕ} {pairs : List Body → List (ℕ × ℕ)} {P : TwoDiscs}

/-- What the search finds among two discs. -/
def Found (R eps : ℝ) (q : V2) (cs : List Contact) : Prop :=
  (R + eps < len q ∧ cs = []) ∨
  (len q ≤ R + eps ∧ ∃ c, cs = [c] ∧ c.pen = R - len q ∧ (∃ s : ℝ, c.p1 = s • c.normal) ∧ (∃ s : ℝ, c.p2 = s • c.normal) ∧
    ((c.i1 = 0 ∧ c.i2 = 1 ∧ c.normal = (1 / len q) • q) ∨ (c.i1 = 1 ∧ c.i2 = 0 ∧ c.normal = (1 / len q) • (-q))))

theorem circleCircle_length (eps r1 r2 : ℝ) (p1 p2 : V2) : (circleCircle eps r1 r2 p1 p2).length ≤ 1 := by
  unfold circleCircle
  simp only
  split_ifs <;> simp

theorem two_found (hp : BroadPhase pairs) (ho : OncePairs pairs) {eps : ℝ} (heps : 0 ≤ eps) {bs : List Body}
    (hl : bs.length = 2) (hb : ∀ b ∈ bs, CircleBody eps b) :
    Found ((bodyAt bs 0).rad + (bodyAt bs 1).rad) eps (between bs) (circleContacts (fun _ => []) eps bs (pairs bs)) := by
  have hle := ho bs hl
  rcases lt_or_ge ((bodyAt bs 0).rad + (bodyAt bs 1).rad + eps) (len (between bs)) with hfar | hnear
  · refine Or.inl ⟨hfar, ?_⟩
    unfold circleContacts
    refine List.flatMap_eq_nil_iff.2 fun p hpm => ?_
    obtain ⟨v1, v2, v3⟩ := hp.valid bs p hpm
    simp only [List.not_mem_nil, if_false, List.map_eq_nil_iff]
    by_contra hne
    have := (C11_circle_contact_iff _ _ _ _ _).1 hne
    have hd : Spec.dist (bodyAt bs p.1).pos (bodyAt bs p.2).pos = len (between bs) ∧
        (bodyAt bs p.1).rad + (bodyAt bs p.2).rad = (bodyAt bs 0).rad + (bodyAt bs 1).rad := by
      have : (p.1 = 0 ∧ p.2 = 1) ∨ (p.1 = 1 ∧ p.2 = 0) := by omega
      rcases this with ⟨a, b⟩ | ⟨a, b⟩
      · rw [a, b]; exact ⟨rfl, rfl⟩
      · rw [a, b, Spec.dist_comm]; exact ⟨rfl, add_comm _ _⟩
    rw [hd.1] at this
    linarith [hd.2]
  · refine Or.inr ⟨hnear, ?_⟩
    obtain ⟨c, hc, hij⟩ := near_reported (nc := fun _ => []) (fun _ _ h => absurd h (List.not_mem_nil)) hp heps hb
      (i := 0) (j := 1) (by omega) (by omega) (by omega) (List.not_mem_nil) (by
        unfold overlapDepth Spec.dist
        change _ ≤ _ - len (between bs)
        linarith)
    obtain ⟨-, -, m3, m4, m5, m6, -⟩ := circleContacts_mem hc
    have hlen : (circleContacts (fun _ => []) eps bs (pairs bs)).length ≤ 1 := by
      unfold circleContacts
      match hps : pairs bs, hle with
      | [], _ => simp
      | [p], _ =>
        simp only [List.flatMap_cons, List.flatMap_nil, List.append_nil, List.not_mem_nil, if_false, List.length_map]
        exact circleCircle_length _ _ _ _ _
    refine ⟨c, ?_, ?_, m5, m6, ?_⟩
    · match hcs : circleContacts (fun _ => []) eps bs (pairs bs), hlen with
      | [], _ => rw [hcs] at hc; simp at hc
      | [c'], _ =>
        rw [hcs, List.mem_singleton] at hc
        rw [hc]
    · rw [m3]
      rcases hij with ⟨a, b⟩ | ⟨a, b⟩
      · rw [a, b]; rfl
      · rw [a, b, overlapDepth_comm]; rfl
    · rcases hij with ⟨a, b⟩ | ⟨a, b⟩
      · refine Or.inl ⟨a, b, ?_⟩
        rw [m4, a, b]; rfl
      · refine Or.inr ⟨a, b, ?_⟩
        rw [m4, a, b, Spec.dist_comm]
        unfold between Spec.dist
        rw [neg_sub]

/-- No force acts on either disc. -/
def NoPush (H : ForceHeap) : Prop := ∀ t, forceCat H t 2 = .ok [0, 0]

theorem Discs.found (hp : BroadPhase pairs) (ho : OncePairs pairs) {w : World (Option Mat) Finder}
    (h : Discs cfuel pairs P w) : Found P.R w.eps (between w.bodies) w.contacts := by
  rw [h.scene.contacts_eq hp]
  have := two_found hp ho h.scene.eps h.two h.scene.bodies
  rwa [h.rad0, h.rad1] at this

/-- The discs are not deeper in each other than `tol`. -/
theorem Discs.apart (hp : BroadPhase pairs) (ho : OncePairs pairs) {w : World (Option Mat) Finder}
    (h : Discs cfuel pairs P w) : P.R - w.tol ≤ len (between w.bodies) := by
  have ht := h.scene.tol
  rcases h.found hp ho with ⟨h1, -⟩ | ⟨-, c, hc, h2, -⟩
  · linarith
  · have := h.scene.nopen c (by rw [hc]; simp)
    linarith

theorem Discs.tol_lt {w : World (Option Mat) Finder} (h : Discs cfuel pairs P w) : w.tol < P.R := by
  have := h.scene.radii 0 (by rw [h.two]; omega) 1 (by rw [h.two]; omega) (by omega)
  rwa [h.rad0, h.rad1] at this

theorem freeTwist_none {bs : List Body} {v : Vec} {dt : ℝ} {i : ℕ} (hi : i < 2) :
    freeTwist bs (impulse [0, 0] dt) v i = twist v i := by
  unfold freeTwist impulse
  interval_cases i <;> apply V3.ext <;> simp

theorem accepts_found {w : World (Option Mat) Finder} (hst : w.strict_no_pen = true) (htol : -w.eps ≤ w.tol) {R d : ℝ}
    {q : V2} {cs : List Contact} (h : Found R w.eps q cs) : w.accepts d cs ↔ R - w.tol ≤ len q := by
  unfold World.accepts
  rw [hst]
  simp only [Bool.true_eq_false, false_and, or_false]
  rcases h with ⟨h1, rfl⟩ | ⟨-, c, rfl, h1, -⟩
  · simp only [List.not_mem_nil, false_imp_iff, implies_true, true_iff]
    linarith
  · simp only [List.mem_singleton, forall_eq]
    rw [h1]
    constructor <;> intro h <;> linarith

/-- What an impulse along the line of centres does to the two velocities. -/
theorem kick_pair {m0 m1 e L k : ℝ} (hm0 : 0 < m0) (hm1 : 0 < m1) (he : 0 ≤ e) {q u0 u1 u0' u1' : V2} (hL : 0 < L)
    (hq : Spec.inner q q = L ^ 2)
    (hk : k = max 0 (-((1 + e) * (Spec.inner q (u0 - u1) / L)) / (1 / m0 + 1 / m1)))
    (h0 : u0' = u0 + (k / (m0 * L)) • q) (h1 : u1' = u1 - (k / (m1 * L)) • q) :
    m0 • u0' + m1 • u1' = m0 • u0 + m1 • u1 ∧
    (Spec.inner q (u0 - u1) < 0 → u0' - u1' = struck e q (u0 - u1)) ∧
    (¬ Spec.inner q (u0 - u1) < 0 → u0' - u1' = u0 - u1) := by
  have hM : 0 < 1 / m0 + 1 / m1 := by positivity
  refine ⟨?_, fun hn => ?_, fun hn => ?_⟩
  · rw [h0, h1]
    have : m0 • (k / (m0 * L)) • q = m1 • (k / (m1 * L)) • q := by
      rw [smul_smul, smul_smul]
      congr 1
      field_simp
    rw [smul_add, smul_sub, this]
    module
  · have hk' : k = -((1 + e) * (Spec.inner q (u0 - u1) / L)) / (1 / m0 + 1 / m1) := by
      rw [hk, max_eq_right]
      refine div_nonneg ?_ hM.le
      have : Spec.inner q (u0 - u1) / L < 0 := div_neg_of_neg_of_pos hn hL
      nlinarith
    rw [h0, h1]
    unfold struck
    rw [hq]
    have : k / (m0 * L) + k / (m1 * L) = -((1 + e) * Spec.inner q (u0 - u1) / L ^ 2) := by
      rw [hk']
      have : m1 + m0 ≠ 0 := by positivity
      field_simp
      ring
    have e2 : (-((1 + e) * Spec.inner q (u0 - u1) / L ^ 2)) • q = (k / (m0 * L)) • q + (k / (m1 * L)) • q := by
      rw [← this, add_smul]
    rw [neg_smul] at e2
    have e3 : (u0 - u1) - ((1 + e) * Spec.inner q (u0 - u1) / L ^ 2) • q =
        (u0 - u1) + ((k / (m0 * L)) • q + (k / (m1 * L)) • q) := by rw [← e2]; abel
    rw [e3]; abel
  · have hk' : k = 0 := by
      rw [hk, max_eq_left]
      refine div_nonpos_of_nonpos_of_nonneg ?_ hM.le
      have : 0 ≤ Spec.inner q (u0 - u1) / L := div_nonneg (not_lt.1 hn) hL.le
      nlinarith
    rw [h0, h1, hk']
    simp

theorem normalVel_along (c : Contact) (v : Vec) : along1 c (twist v c.i1) - along2 c (twist v c.i2) = normalVel c v := by
  unfold along1 along2 normalVel contactVel
  rw [inner_sub_right]

/-- The velocities of the discs after the engine: textbook impulse. -/
theorem discs_law (hp : BroadPhase pairs) (ho : OncePairs pairs) (hm0 : 0 < P.m0) (hm1 : 0 < P.m1) (he : 0 ≤ P.e)
    {w : World (Option Mat) Finder} (h : Discs cfuel pairs P w) {dt : ℝ} {v l : Vec} {pn a b g : ℕ → ℝ}
    (law : ContactLaw w.bodies w.joints w.contacts (impulse [0, 0] dt) w.v v l pn a b g) :
    (twist v 0).r = (twist w.v 0).r ∧ (twist v 1).r = (twist w.v 1).r ∧
    P.m0 • drift v 0 + P.m1 • drift v 1 = P.m0 • drift w.v 0 + P.m1 • drift w.v 1 ∧
    (Strikes P.R w.eps (between w.bodies) (closing w.v) → closing v = struck P.e (between w.bodies) (closing w.v)) ∧
    (¬ Strikes P.R w.eps (between w.bodies) (closing w.v) → closing v = closing w.v) := by
  have hpos : ∀ i < 2, 0 < (bodyAt w.bodies i).mass ∧ 0 < (bodyAt w.bodies i).ang_inertia := by
    intro i hi
    interval_cases i
    · rw [h.mass0]; exact ⟨hm0, h.inertia0⟩
    · rw [h.mass1]; exact ⟨hm1, h.inertia1⟩
  rcases h.found hp ho with ⟨hfar, hcs⟩ | ⟨hnear, c, hcs, -, ⟨s1, hs1⟩, ⟨s2, hs2⟩, hor⟩
  · have key : ∀ i < 2, twist v i = twist w.v i := by
      intro i hi
      rw [free_body_at law i (by rw [h.two]; exact hi) (by rw [h.free]; simp) (by rw [hcs]; simp) (hpos i hi),
        freeTwist_none hi]
    have k0 := key 0 (by omega)
    have k1 := key 1 (by omega)
    refine ⟨by rw [k0], by rw [k1], by unfold drift; rw [k0, k1], fun hs => absurd hs.1 (not_le.2 hfar), fun _ => ?_⟩
    unfold closing drift
    rw [k0, k1]
  set q := between w.bodies with hqdef
  have hq0 : q ≠ 0 := ne_zero_of_far h.tol_lt (h.apart hp ho)
  have hL := len_pos hq0
  have hi : c.i1 < 2 ∧ c.i2 < 2 ∧ c.i1 ≠ c.i2 := by
    rcases hor with ⟨a, b, -⟩ | ⟨a, b, -⟩ <;> rw [a, b] <;> omega
  have hmu : meanFriction w.bodies c = 0 := by
    unfold meanFriction
    rcases hor with ⟨a, b, -⟩ | ⟨a, b, -⟩ <;> rw [a, b, h.fric0, h.fric1] <;> norm_num
  have hre : meanRestitution w.bodies c = P.e := by
    unfold meanRestitution
    rw [← h.rest]
    rcases hor with ⟨a, b, -⟩ | ⟨a, b, -⟩ <;> rw [a, b] <;> ring
  have hnn : Spec.inner c.normal c.normal = 1 := by
    have e1 : Spec.inner q q = len q ^ 2 := (len_sq q).symm
    have hL' := hL.ne'
    rcases hor with ⟨-, -, hn⟩ | ⟨-, -, hn⟩
    · rw [hn, inner_smul_left, inner_smul_right, e1]
      field_simp
    · rw [hn, inner_smul_left, inner_smul_right, inner_neg_left, inner_neg_right, neg_neg, e1]
      field_simp
  have hn0 : c.normal ≠ 0 := by
    intro hz
    rw [hz, inner_zero_left] at hnn
    norm_num at hnn
  have hk0 : 0 < w.contacts.length := by rw [hcs]; simp
  have hck : w.contacts[0] = c := by simp [hcs]
  obtain ⟨t1, t2, t3⟩ := C80_impulse_of_two _ _ _ _ _ _ _ _ _ _ _ law 0 hk0 (by rw [hck, h.two]; exact hi)
    (by rw [h.free]; simp) (by intro q hq hq0; rw [hcs, List.length_singleton] at hq; omega) (by rw [hck]; exact hn0) (by rw [hck]; exact hmu)
    (by rw [hck]; exact ⟨(hpos _ hi.1).1, (hpos _ hi.1).2, (hpos _ hi.2.1).1, (hpos _ hi.2.1).2⟩)
  rw [hck] at t1 t2 t3
  rw [freeTwist_none hi.1] at t1 t2
  rw [freeTwist_none hi.2.1] at t1 t3
  rw [normalVel_along, hre] at t1
  have d1 : Spec.det c.p1 c.normal = 0 := by
    rw [hs1]; unfold Spec.det; simp only [Prod.smul_fst, Prod.smul_snd, smul_eq_mul]; ring
  have d2 : Spec.det c.p2 c.normal = 0 := by
    rw [hs2]; unfold Spec.det; simp only [Prod.smul_fst, Prod.smul_snd, smul_eq_mul]; ring
  have hvn : normalVel c w.v = Spec.inner q (closing w.v) / len q := by
    rw [circle_normalVel ⟨s1, hs1⟩ ⟨s2, hs2⟩]
    rcases hor with ⟨a, b, hn⟩ | ⟨a, b, hn⟩
    · rw [a, b, hn, inner_smul_left]
      unfold closing drift
      ring
    · rw [a, b, hn, inner_smul_left, inner_neg_left]
      unfold closing drift Spec.inner
      simp only [Prod.fst_sub, Prod.snd_sub]
      ring
  have hy : yield1 w.bodies c + yield2 w.bodies c = 1 / P.m0 + 1 / P.m1 := by
    unfold yield1 yield2
    rw [hnn, d1, d2]
    rcases hor with ⟨a, b, -⟩ | ⟨a, b, -⟩ <;> rw [a, b, h.mass0, h.mass1] <;> ring
  rw [hvn, hy] at t1
  have hrot : (twist v 0).r = (twist w.v 0).r ∧ (twist v 1).r = (twist w.v 1).r := by
    unfold kicked at t2 t3
    rw [d1] at t2
    rw [d2] at t3
    rcases hor with ⟨a, b, -⟩ | ⟨a, b, -⟩
    · rw [a] at t2; rw [b] at t3; rw [t2, t3]; simp
    · rw [a] at t2; rw [b] at t3; rw [t2, t3]; simp
  have h0 : drift v 0 = drift w.v 0 + (pn 0 / (P.m0 * len q)) • q := by
    have hL' := hL.ne'
    unfold kicked at t2 t3
    rcases hor with ⟨a, b, hn⟩ | ⟨a, b, hn⟩
    · rw [a, hn, h.mass0] at t2
      unfold drift
      rw [t2]
      ext <;> simp <;> field_simp
    · rw [b, hn, h.mass0] at t3
      unfold drift
      rw [t3]
      ext <;> simp <;> field_simp
  have h1 : drift v 1 = drift w.v 1 - (pn 0 / (P.m1 * len q)) • q := by
    have hL' := hL.ne'
    unfold kicked at t2 t3
    rcases hor with ⟨a, b, hn⟩ | ⟨a, b, hn⟩
    · rw [b, hn, h.mass1] at t3
      unfold drift
      rw [t3]
      ext <;> simp <;> (field_simp; ring)
    · rw [a, hn, h.mass1] at t2
      unfold drift
      rw [t2]
      ext <;> simp <;> field_simp <;> ring
  obtain ⟨k1, k2, k3⟩ := kick_pair hm0 hm1 he hL (len_sq q).symm (by
    rw [t1]
    unfold closing
    congr 2
    ring) h0 h1
  refine ⟨hrot.1, hrot.2, k1, fun hs => k2 hs.2, fun hs => k3 fun hc => hs ⟨hnear, hc⟩⟩

/-- The discs after a trial of the length `d` with the velocities `v`. -/
theorem tried_discs {w : World (Option Mat) Finder} (h : Discs cfuel pairs P w) (e : Option Mat) (v : Vec) (d : ℝ) :
    let bs := (({ w with eng := e } : World (Option Mat) Finder).set_v v).bodies.map fun b => b.move d
    bs.length = 2 ∧ (∀ i < 2, (bodyAt bs i).pos = (bodyAt w.bodies i).pos + d • drift v i) ∧
      between bs = between w.bodies + d • closing v ∧ (bodyAt bs 0).rad = P.r0 ∧ (bodyAt bs 1).rad = P.r1 := by
  intro bs
  obtain ⟨hl, hb⟩ := tried_bodies w e v d
  have htw : ∀ k, twist v k = slice3 v k := by
    intro k; simp only [twist, slice3, mul_comm 3 k]
  have hpos : ∀ i < 2, (bodyAt bs i).pos = (bodyAt w.bodies i).pos + d • drift v i := by
    intro i hi
    rw [hb i (by rw [h.two]; exact hi), tried_pos]
    unfold drift
    rw [htw]
  have hrad : ∀ i < 2, (bodyAt bs i).rad = (bodyAt w.bodies i).rad := by
    intro i hi
    have hi' : i < w.bodies.length := by rw [h.two]; exact hi
    rw [hb i hi', circle_rad_op (circleBody_op (h.scene.bodies _ (bodyAt_mem hi')) _).circle,
      circle_rad_op (h.scene.bodies _ (bodyAt_mem hi')).circle]
  refine ⟨hl.trans h.two, hpos, ?_, (hrad 0 (by omega)).trans h.rad0, (hrad 1 (by omega)).trans h.rad1⟩
  unfold between closing
  rw [hpos 0 (by omega), hpos 1 (by omega)]
  module

theorem tried_found (hp : BroadPhase pairs) (ho : OncePairs pairs) {w : World (Option Mat) Finder}
    (h : Discs cfuel pairs P w) (e : Option Mat) (v : Vec) (d : ℝ) (f : Finder) :
    ∃ f' cs, diffCollide cfuel (fun _ => []) pairs w.eps f
      ((({ w with eng := e } : World (Option Mat) Finder).set_v v).bodies.map fun b => b.move d) = .ok (f', cs) ∧
      Found P.R w.eps (between w.bodies + d • closing v) cs := by
  obtain ⟨hl, -, hb, r0, r1⟩ := tried_discs h e v d
  have hc := tried_circle h.scene e v d
  refine ⟨f, _, collide_circles hp (fun i hi => (hc _ (bodyAt_mem hi)).circle) f, ?_⟩
  have := two_found hp ho h.scene.eps hl hc
  rwa [hb, r0, r1] at this

/-- The total momentum of two discs. -/
def pairMomentum (P : TwoDiscs) (v : Vec) : V2 := P.m0 • drift v 0 + P.m1 • drift v 1

/-- Their centre of mass, times the total mass. -/
def pairCentre (P : TwoDiscs) (bs : List Body) : V2 := P.m0 • (bodyAt bs 0).pos + P.m1 • (bodyAt bs 1).pos

theorem discs_step (hp : BroadPhase pairs) (ho : OncePairs pairs) (hm0 : 0 < P.m0) (hm1 : 0 < P.m1) (he : 0 ≤ P.e)
    {H : ForceHeap} (hH : NoPush H) {lcp : LcpSolver} (hx : Exact lcp) {mi : ℕ} {w w' : World (Option Mat) Finder}
    (h : Discs cfuel pairs P w) {dt : ℝ} {fuel : ℕ}
    (hstep : w.step_dt (pdipmEnv 2 H lcp mi (diffCollide cfuel (fun _ => []) pairs)) fuel dt = .done w') :
    Discs cfuel pairs P w' ∧ w'.eps = w.eps ∧ w'.tol = w.tol ∧ ∃ d, w'.t = w.t + d ∧
      Glides P.R w.eps w.tol P.e dt (between w.bodies) (closing w.v) (between w'.bodies) (closing w'.v) d ∧
      (twist w'.v 0).r = (twist w.v 0).r ∧ (twist w'.v 1).r = (twist w.v 1).r ∧
      pairMomentum P w'.v = pairMomentum P w.v ∧ pairCentre P w'.bodies = pairCentre P w.bodies + d • pairMomentum P w'.v := by
  have hsc := circleScene_step h.scene hstep
  have hst := step_dt_statics h.scene.good hstep
  obtain ⟨-, p2, p3, -, -, p6, p7⟩ := step_dt_params h.scene.good hstep
  obtain ⟨e, v, k, w1, w2, hsol, -, rfl, -, ⟨fk, f', cs, hcs, hacc, rfl⟩, hrej, hend⟩ := step_dt_done h.scene.good hstep
  obtain ⟨fl, l, pn, a, b, gs, hfl, law⟩ :=
    C38_engine_contact_law H lcp mi w dt e v h.scene.joints (h.scene.contactsOk hp) h.scene.cache.ok hx hsol
  rw [h.two, hH w.t] at hfl
  injection hfl with hfl
  subst hfl
  obtain ⟨l1, l2, l3, l4, l5⟩ := discs_law hp ho hm0 hm1 he h law
  rcases hend with ⟨-, rfl⟩ | ⟨hp', -⟩
  swap
  · rw [h.scene.nostab] at hp'; cases hp'
  obtain ⟨b1, b2, b3, b4, b5⟩ := tried_discs h e v (dt / 2 ^ k)
  have fnd : ∀ (j : ℕ) f f' cs, diffCollide cfuel (fun _ => []) pairs w.eps f
      ((({ w with eng := e } : World (Option Mat) Finder).set_v v).bodies.map fun b => b.move (dt / 2 ^ j)) = .ok (f', cs) →
        Found P.R w.eps (between w.bodies + (dt / 2 ^ j) • closing v) cs := by
    intro j f f' cs hc
    obtain ⟨f'', cs', hc', ha⟩ := tried_found hp ho h e v (dt / 2 ^ j) f
    rw [hc'] at hc
    injection hc with hc
    injection hc with _ hc
    rw [← hc]; exact ha
  have c0 := sameStatics_bodyAt hst 0
  have c1 := sameStatics_bodyAt hst 1
  simp only [Body.consts, Prod.mk.injEq] at c0 c1
  have hw1 : (({ w with eng := e } : World (Option Mat) Finder).set_v v).strict_no_pen = true := h.scene.strict
  have htol : -w.eps ≤ w.tol := h.scene.tol
  refine ⟨⟨hsc, p6.trans h.two, List.eq_nil_of_length_eq_zero (p7.trans (by rw [h.free]; rfl)), c0.1.trans h.mass0,
    c1.1.trans h.mass1, by rw [c0.2.1]; exact h.inertia0, by rw [c1.2.1]; exact h.inertia1, b4, b5, ?_,
    c0.2.2.2.trans h.fric0, c1.2.2.2.trans h.fric1⟩, p2, p3, dt / 2 ^ k, rfl, ⟨l4, l5, k, rfl, b3, ?_, fun i hi => ?_⟩,
    l1, l2, l3, ?_⟩
  · rw [c0.2.2.1, c1.2.2.1]; exact h.rest
  · have := (accepts_found (w := ({ w with eng := e } : World (Option Mat) Finder).set_v v) hw1 htol (fnd k _ _ _ hcs)).1 hacc
    rw [← b3] at this
    exact this
  · obtain ⟨fj, fj', cs', hc', hno⟩ := hrej i hi
    have := mt (accepts_found (w := ({ w with eng := e } : World (Option Mat) Finder).set_v v) (d := dt / 2 ^ i) hw1 htol
      (fnd i fj fj' cs' hc')).2 hno
    exact not_le.1 this
  · unfold pairCentre pairMomentum
    have q0 := b2 0 (by omega)
    have q1 := b2 1 (by omega)
    change P.m0 • (bodyAt ((({ w with eng := e } : World (Option Mat) Finder).set_v v).bodies.map fun b => b.move (dt / 2 ^ k)) 0).pos +
      P.m1 • (bodyAt ((({ w with eng := e } : World (Option Mat) Finder).set_v v).bodies.map fun b => b.move (dt / 2 ^ k)) 1).pos = _
    rw [q0, q1]
    change _ = _ + (dt / 2 ^ k) • (P.m0 • drift v 0 + P.m1 • drift v 1)
    module

/-! ## The theorems -/

/-- Two discs, no forces, an exact solver and a broad phase that misses no pair and presents none twice. -/
structure DiscSetting (P : TwoDiscs) (H : ForceHeap) (lcp : LcpSolver) (pairs : List Body → List (ℕ × ℕ)) : Prop where
  m0 : 0 < P.m0
  m1 : 0 < P.m1
  e : 0 ≤ P.e
  broad : BroadPhase pairs
  once : OncePairs pairs
  forces : NoPush H
  exact : Exact lcp

/-- The velocities of the discs from their relative velocity and the momentum. -/
theorem drift_split {m0 m1 k : ℝ} (h0 : 0 < m0) (h1 : 0 < m1) {u0 u1 u0' u1' q : V2}
    (hm : m0 • u0' + m1 • u1' = m0 • u0 + m1 • u1) (hc : u0' - u1' = u0 - u1 - k • q) :
    u0' = u0 - (m1 / (m0 + m1) * k) • q ∧ u1' = u1 + (m0 / (m0 + m1) * k) • q := by
  have hM : m0 + m1 ≠ 0 := by positivity
  have e1 := congrArg Prod.fst hm
  have e2 := congrArg Prod.snd hm
  have e3 := congrArg Prod.fst hc
  have e4 := congrArg Prod.snd hc
  simp only [Prod.fst_add, Prod.snd_add, Prod.fst_sub, Prod.snd_sub, Prod.smul_fst, Prod.smul_snd, smul_eq_mul] at e1 e2 e3 e4
  constructor <;> ext <;>
    simp only [Prod.fst_add, Prod.snd_add, Prod.fst_sub, Prod.snd_sub, Prod.smul_fst, Prod.smul_snd, smul_eq_mul] <;>
    field_simp
  · linear_combination e1 + m1 * e3
  · linear_combination e2 + m1 * e4
  · linear_combination e1 - m0 * e3
  · linear_combination e2 - m0 * e4

/-- C129, a step: if the discs are within the contact distance and come nearer, each of them gets the textbook impulse
along the line of centres, and otherwise none; they do not begin to spin; the step is the first of `dt, dt/2, dt/4, …` at
whose end they are not deeper in each other than `tol`. -/
theorem C129_step (P : TwoDiscs) (H : ForceHeap) (lcp : LcpSolver) (pairs : List Body → List (ℕ × ℕ))
    (D : DiscSetting P H lcp pairs) (mi cfuel fuel : ℕ) (dt : ℝ) (w w' : World (Option Mat) Finder)
    (h : Discs cfuel pairs P w)
    (hstep : w.step_dt (pdipmEnv 2 H lcp mi (diffCollide cfuel (fun _ => []) pairs)) fuel dt = .done w') :
    let q := between w.bodies
    let κ := (1 + P.e) * Spec.inner q (closing w.v) / Spec.inner q q
    (twist w'.v 0).r = (twist w.v 0).r ∧ (twist w'.v 1).r = (twist w.v 1).r ∧
    (Strikes P.R w.eps q (closing w.v) → drift w'.v 0 = drift w.v 0 - (P.m1 / (P.m0 + P.m1) * κ) • q ∧
      drift w'.v 1 = drift w.v 1 + (P.m0 / (P.m0 + P.m1) * κ) • q) ∧
    (¬ Strikes P.R w.eps q (closing w.v) → drift w'.v 0 = drift w.v 0 ∧ drift w'.v 1 = drift w.v 1) ∧
    ∃ j : ℕ, w'.t = w.t + dt / 2 ^ j ∧ between w'.bodies = q + (dt / 2 ^ j) • closing w'.v ∧
      P.R - w.tol ≤ len (between w'.bodies) ∧ ∀ i < j, len (q + (dt / 2 ^ i) • closing w'.v) < P.R - w.tol := by
  obtain ⟨-, -, -, d, ht, ⟨g1, g2, j, rfl, g3, g4, g5⟩, r0, r1, hm, -⟩ :=
    discs_step D.broad D.once D.m0 D.m1 D.e D.forces D.exact h hstep
  refine ⟨r0, r1, fun hs => drift_split D.m0 D.m1 hm (g1 hs), fun hs => ?_, j, ht, g3, g4, g5⟩
  have := drift_split (k := 0) (q := 0) D.m0 D.m1 hm (by rw [zero_smul, sub_zero]; exact g2 hs)
  simpa using this

/-- What is known of a run of two discs. -/
theorem discs_run {H : ForceHeap} {lcp : LcpSolver} (D : DiscSetting P H lcp pairs) {mi n : ℕ} {dt : ℝ} (hdt : 0 < dt)
    {ws : ℕ → World (Option Mat) Finder} (h : Discs cfuel pairs P (ws 0))
    (hrun : Steps (pdipmEnv 2 H lcp mi (diffCollide cfuel (fun _ => []) pairs)) dt n ws) : ∀ k ≤ n,
    Discs cfuel pairs P (ws k) ∧ (ws k).eps = (ws 0).eps ∧ (ws k).tol = (ws 0).tol ∧ (ws 0).t ≤ (ws k).t ∧
    ((closing (ws k).v = closing (ws 0).v ∧
        between (ws k).bodies = between (ws 0).bodies + ((ws k).t - (ws 0).t) • closing (ws 0).v) ∨
      StruckOnce P.R (ws 0).eps (ws 0).tol P.e (between (ws 0).bodies) (closing (ws 0).v) ((ws k).t - (ws 0).t)
        (between (ws k).bodies) (closing (ws k).v)) ∧
    ((twist (ws k).v 0).r = (twist (ws 0).v 0).r ∧ (twist (ws k).v 1).r = (twist (ws 0).v 1).r ∧
      pairMomentum P (ws k).v = pairMomentum P (ws 0).v ∧
      pairCentre P (ws k).bodies = pairCentre P (ws 0).bodies + ((ws k).t - (ws 0).t) • pairMomentum P (ws 0).v) := by
  intro k
  induction k with
  | zero => intro _; exact ⟨h, rfl, rfl, le_rfl, Or.inl ⟨rfl, by simp⟩, rfl, rfl, rfl, by simp⟩
  | succ k ih =>
    intro hk
    obtain ⟨i1, i2, i3, i4, i5, i6, i7, i8, i9⟩ := ih (by omega)
    obtain ⟨fuel, hs⟩ := hrun k (by omega)
    obtain ⟨s1, s2, s3, d, ht, hg, r0, r1, hm, hc⟩ := discs_step D.broad D.once D.m0 D.m1 D.e D.forces D.exact i1 hs
    have hd := glides_pos hdt hg
    have hq := i1.apart D.broad D.once
    have htl := i1.tol_lt
    rw [i3] at hq htl
    rw [i2, i3] at hg
    have hp := glides_path hdt htl D.e (sub_nonneg.2 i4) hq i5 hg
    have e1 : (ws (k + 1)).t - (ws 0).t = (ws k).t - (ws 0).t + d := by rw [ht]; ring
    refine ⟨s1, s2.trans i2, s3.trans i3, by rw [ht]; linarith, by rw [e1]; exact hp, r0.trans i6, r1.trans i7, hm.trans i8, ?_⟩
    rw [hc, i9, hm, i8, e1]
    module

/-- C129, a run of any length: the discs fly freely, but for at most one impact; they never begin to spin; their momentum
is kept, and their centre of mass moves uniformly by the clock of the world. -/
theorem C129_once (P : TwoDiscs) (H : ForceHeap) (lcp : LcpSolver) (pairs : List Body → List (ℕ × ℕ))
    (D : DiscSetting P H lcp pairs) (mi cfuel n : ℕ) (dt : ℝ) (hdt : 0 < dt) (ws : ℕ → World (Option Mat) Finder)
    (h : Discs cfuel pairs P (ws 0))
    (hrun : Steps (pdipmEnv 2 H lcp mi (diffCollide cfuel (fun _ => []) pairs)) dt n ws) (k : ℕ) (hk : k ≤ n) :
    ((closing (ws k).v = closing (ws 0).v ∧
        between (ws k).bodies = between (ws 0).bodies + ((ws k).t - (ws 0).t) • closing (ws 0).v) ∨
      StruckOnce P.R (ws 0).eps (ws 0).tol P.e (between (ws 0).bodies) (closing (ws 0).v) ((ws k).t - (ws 0).t)
        (between (ws k).bodies) (closing (ws k).v)) ∧
    (twist (ws k).v 0).r = (twist (ws 0).v 0).r ∧ (twist (ws k).v 1).r = (twist (ws 0).v 1).r ∧
    pairMomentum P (ws k).v = pairMomentum P (ws 0).v ∧
    pairCentre P (ws k).bodies = pairCentre P (ws 0).bodies + ((ws k).t - (ws 0).t) • pairMomentum P (ws 0).v :=
  (discs_run D hdt h hrun k hk).2.2.2.2

/-- C129, what an impact does: the square of the relative speed goes down as for discs that touch at the distance `ρ` of
their centres, which is the sum of the radii up to the contact distance and the tolerance; in a head-on impact the
velocity is turned round and multiplied by the restitution. -/
theorem C129_loss (P : TwoDiscs) (H : ForceHeap) (lcp : LcpSolver) (pairs : List Body → List (ℕ × ℕ))
    (D : DiscSetting P H lcp pairs) (mi cfuel n : ℕ) (dt : ℝ) (hdt : 0 < dt) (ws : ℕ → World (Option Mat) Finder)
    (h : Discs cfuel pairs P (ws 0))
    (hrun : Steps (pdipmEnv 2 H lcp mi (diffCollide cfuel (fun _ => []) pairs)) dt n ws) (k : ℕ) (hk : k ≤ n)
    (hne : closing (ws k).v ≠ closing (ws 0).v) :
    let v0 := closing (ws 0).v
    let L := Spec.det (between (ws 0).bodies) v0
    (∃ ρ, P.R - (ws 0).tol ≤ ρ ∧ ρ ≤ P.R + (ws 0).eps ∧
      Spec.inner (closing (ws k).v) (closing (ws k).v) =
        Spec.inner v0 v0 - (1 - P.e ^ 2) * (Spec.inner v0 v0 - L ^ 2 / ρ ^ 2)) ∧
    (L = 0 → closing (ws k).v = -P.e • v0) := by
  intro v0 L
  have htl := h.tol_lt
  rcases (discs_run D hdt h hrun k hk).2.2.2.2.1 with ⟨h1, -⟩ | ⟨τ, -, -, h3, h4, h5, -⟩
  · exact absurd h1 hne
  have hp := ne_zero_of_far htl h3
  refine ⟨⟨_, h3, h4.1, ?_⟩, fun hL => ?_⟩
  · rw [h5, struck_speed hp, det_along, len_sq]
  · rw [h5]
    have hd : Spec.det (between (ws 0).bodies + τ • v0) v0 = 0 := (det_along _ _ _).trans hL
    set p := between (ws 0).bodies + τ • v0
    have hpp := (inner_self_pos hp).ne'
    unfold struck
    have key : (Spec.inner p v0) • p = (Spec.inner p p) • v0 := by
      unfold Spec.det at hd
      unfold Spec.inner
      ext <;> simp only [Prod.smul_fst, Prod.smul_snd, smul_eq_mul]
      · linear_combination p.2 * hd
      · linear_combination (-p.1) * hd
    have : ((1 + P.e) * Spec.inner p v0 / Spec.inner p p) • p = (1 + P.e) • v0 := by
      rw [mul_div_assoc, mul_smul, div_eq_inv_mul, mul_smul, key, smul_smul (Spec.inner p p)⁻¹, inv_mul_cancel₀ hpp, one_smul]
    rw [show closing (ws 0).v = v0 from rfl, this]
    module

/-- C129, no hit is missed by short steps: if the discs come nearer, and the way of a step and the distance at which their
centres would pass are the sides of a right-angled triangle whose hypotenuse is not longer than the sum of the radii and the
contact distance, then they have struck before they would have passed, after a bounded number of steps. -/
theorem C129_hit (P : TwoDiscs) (H : ForceHeap) (lcp : LcpSolver) (pairs : List Body → List (ℕ × ℕ))
    (D : DiscSetting P H lcp pairs) (mi cfuel n : ℕ) (dt : ℝ) (hdt : 0 < dt) (ws : ℕ → World (Option Mat) Finder)
    (h : Discs cfuel pairs P (ws 0))
    (hrun : Steps (pdipmEnv 2 H lcp mi (diffCollide cfuel (fun _ => []) pairs)) dt n ws)
    (hin : Spec.inner (between (ws 0).bodies) (closing (ws 0).v) < 0)
    (hshort : (dt * Spec.inner (closing (ws 0).v) (closing (ws 0).v)) ^ 2 +
      Spec.det (between (ws 0).bodies) (closing (ws 0).v) ^ 2 ≤
        (P.R + (ws 0).eps) ^ 2 * Spec.inner (closing (ws 0).v) (closing (ws 0).v))
    (k : ℕ) (hk : k ≤ n)
    (hlong : -Spec.inner (between (ws 0).bodies) (closing (ws 0).v) ≤
      k * min dt (((ws 0).eps + (ws 0).tol) / (2 * len (closing (ws 0).v))) *
        Spec.inner (closing (ws 0).v) (closing (ws 0).v)) :
    StruckOnce P.R (ws 0).eps (ws 0).tol P.e (between (ws 0).bodies) (closing (ws 0).v) ((ws k).t - (ws 0).t)
      (between (ws k).bodies) (closing (ws k).v) := by
  set q0 := between (ws 0).bodies
  set v0 := closing (ws 0).v
  set δ := min dt (((ws 0).eps + (ws 0).tol) / (2 * len v0))
  have htl := h.tol_lt
  have heps := h.scene.eps
  have htol := h.scene.tol
  have hv0 : 0 < Spec.inner v0 v0 := by
    refine inner_self_pos fun hz => ?_
    rw [hz] at hin
    simp [Spec.inner] at hin
  have hlv : 0 < len v0 := by
    rw [len_eq_sqrt_inner]; exact Real.sqrt_pos.2 hv0
  have key : ∀ k ≤ n, StruckOnce P.R (ws 0).eps (ws 0).tol P.e q0 v0 ((ws k).t - (ws 0).t) (between (ws k).bodies) (closing (ws k).v) ∨
      (closing (ws k).v = v0 ∧ between (ws k).bodies = q0 + ((ws k).t - (ws 0).t) • v0 ∧
        Spec.inner (between (ws k).bodies) v0 < 0 ∧ k * δ ≤ (ws k).t - (ws 0).t) := by
    intro k
    induction k with
    | zero => intro _; exact Or.inr ⟨rfl, by simp [q0], hin, by simp⟩
    | succ k ih =>
      intro hk
      obtain ⟨i1, i2, i3, i4, -, -⟩ := discs_run D hdt h hrun k (by omega)
      obtain ⟨fuel, hs⟩ := hrun k (by omega)
      obtain ⟨s1, s2, s3, d, ht, hg, -⟩ := discs_step D.broad D.once D.m0 D.m1 D.e D.forces D.exact i1 hs
      have hd := glides_pos hdt hg
      have hq := i1.apart D.broad D.once
      rw [i3] at hq
      rw [i2, i3] at hg
      have e1 : (ws (k + 1)).t - (ws 0).t = (ws k).t - (ws 0).t + d := by rw [ht]; ring
      rw [e1]
      rcases ih (by omega) with hh | ⟨h1, h2, h3, h4⟩
      · left
        have hs : ¬ Strikes P.R (ws 0).eps (between (ws k).bodies) (closing (ws k).v) :=
          fun hs => absurd hs.2 (not_lt.2 (once_free htl D.e hh))
        obtain ⟨τ, a1, a2, a3, a4, a5, a6⟩ := hh
        obtain ⟨-, g2, j, -, g3, -⟩ := hg
        refine ⟨τ, a1, by linarith, a3, a4, (g2 hs).trans a5, ?_⟩
        rw [g3, g2 hs, a6]
        module
      · by_cases hs : Strikes P.R (ws 0).eps (between (ws k).bodies) (closing (ws k).v)
        · left
          obtain ⟨g1, -, j, -, g3, -⟩ := hg
          refine ⟨(ws k).t - (ws 0).t, sub_nonneg.2 i4, by linarith, ?_, ?_, ?_, ?_⟩
          · rw [← h2]; exact hq
          · rw [← h2, ← h1]; exact hs
          · rw [← h2, ← h1]; exact g1 hs
          · rw [g3, h2]; congr 2; ring
        · right
          have hfar : P.R + (ws 0).eps < len (between (ws k).bodies) := by
            by_contra hc
            exact hs ⟨not_lt.1 hc, by rw [h1]; exact h3⟩
          have hlen := glides_long hdt hfar hs hg
          obtain ⟨-, g2, j, -, g3, -⟩ := hg
          have hv := (g2 hs).trans h1
          rw [hv] at g3
          refine ⟨hv, by rw [g3, h2]; module, ?_, ?_⟩
          · rw [g3]
            refine approach_kept (dt := dt) (by linarith) hd.1.le hd.2 hfar h3 ?_
            rw [h2, det_along]
            exact hshort
          · have : δ ≤ d := by
              rcases hlen with hl | hl
              · rw [hl]; exact min_le_left _ _
              · refine (min_le_right _ _).trans ?_
                rw [h1] at hl
                rw [div_le_iff₀ (by linarith)]
                linarith
            push_cast
            linarith
  rcases key k hk with hh | ⟨-, h2, h3, h4⟩
  · exact hh
  · exfalso
    rw [h2, inner_along] at h3
    have := mul_le_mul_of_nonneg_right h4 hv0.le
    linarith

/-- C129, near misses are hits: discs whose centres would pass at a distance between the sum of the radii and this sum and the
contact distance, and which therefore do not touch, act on each other. -/
theorem C129_near_miss (P : TwoDiscs) (H : ForceHeap) (lcp : LcpSolver) (pairs : List Body → List (ℕ × ℕ))
    (D : DiscSetting P H lcp pairs) (mi cfuel n : ℕ) (dt : ℝ) (hdt : 0 < dt) (ws : ℕ → World (Option Mat) Finder)
    (h : Discs cfuel pairs P (ws 0))
    (hrun : Steps (pdipmEnv 2 H lcp mi (diffCollide cfuel (fun _ => []) pairs)) dt n ws)
    (hin : Spec.inner (between (ws 0).bodies) (closing (ws 0).v) < 0)
    (hmiss : P.R ^ 2 * Spec.inner (closing (ws 0).v) (closing (ws 0).v) <
      Spec.det (between (ws 0).bodies) (closing (ws 0).v) ^ 2)
    (hshort : (dt * Spec.inner (closing (ws 0).v) (closing (ws 0).v)) ^ 2 +
      Spec.det (between (ws 0).bodies) (closing (ws 0).v) ^ 2 ≤
        (P.R + (ws 0).eps) ^ 2 * Spec.inner (closing (ws 0).v) (closing (ws 0).v))
    (k : ℕ) (hk : k ≤ n)
    (hlong : -Spec.inner (between (ws 0).bodies) (closing (ws 0).v) ≤
      k * min dt (((ws 0).eps + (ws 0).tol) / (2 * len (closing (ws 0).v))) *
        Spec.inner (closing (ws 0).v) (closing (ws 0).v)) :
    (∀ t : ℝ, P.R < len (between (ws 0).bodies + t • closing (ws 0).v)) ∧ closing (ws k).v ≠ closing (ws 0).v := by
  set q0 := between (ws 0).bodies
  set v0 := closing (ws 0).v
  have hv0 : 0 < Spec.inner v0 v0 := by
    refine inner_self_pos fun hz => ?_
    rw [hz] at hin
    simp [Spec.inner] at hin
  constructor
  · intro t
    have h1 := lagrange (q0 + t • v0) v0
    rw [det_along, ← len_sq] at h1
    have h2 : P.R ^ 2 * Spec.inner v0 v0 < len (q0 + t • v0) ^ 2 * Spec.inner v0 v0 := by
      rw [← h1]; nlinarith [sq_nonneg (Spec.inner (q0 + t • v0) v0)]
    exact lt_of_pow_lt_pow_left₀ 2 (len_nonneg _) (lt_of_mul_lt_mul_right h2 hv0.le)
  · obtain ⟨τ, -, -, h3, h4, h5, -⟩ := C129_hit P H lcp pairs D mi cfuel n dt hdt ws h hrun hin hshort k hk hlong
    intro hc
    have hp := ne_zero_of_far h.tol_lt h3
    have := inner_struck (e := P.e) (v := v0) hp
    rw [← h5, hc] at this
    nlinarith [D.e, h4.2]

/-- C129, fast discs are not noticed: as long as the discs are not within the contact distance at the end of a step of free
flight, they fly freely, whatever is between the ends of the step. -/
theorem C129_unseen (P : TwoDiscs) (H : ForceHeap) (lcp : LcpSolver) (pairs : List Body → List (ℕ × ℕ))
    (D : DiscSetting P H lcp pairs) (mi cfuel n : ℕ) (dt : ℝ) (hdt : 0 < dt) (ws : ℕ → World (Option Mat) Finder)
    (h : Discs cfuel pairs P (ws 0))
    (hrun : Steps (pdipmEnv 2 H lcp mi (diffCollide cfuel (fun _ => []) pairs)) dt n ws)
    (hfar : ∀ k : ℕ, k ≤ n → P.R + (ws 0).eps < len (between (ws 0).bodies + (k * dt) • closing (ws 0).v)) (k : ℕ) (hk : k ≤ n) :
    (ws k).t = (ws 0).t + k * dt ∧ closing (ws k).v = closing (ws 0).v ∧
      between (ws k).bodies = between (ws 0).bodies + (k * dt) • closing (ws 0).v := by
  induction k with
  | zero => simp
  | succ k ih =>
    obtain ⟨h1, h2, h3⟩ := ih (by omega)
    obtain ⟨i1, i2, i3, -⟩ := discs_run D hdt h hrun k (by omega)
    obtain ⟨fuel, hs⟩ := hrun k (by omega)
    obtain ⟨-, -, -, d, ht, ⟨-, g2, j, rfl, g3, -, g5⟩, -⟩ := discs_step D.broad D.once D.m0 D.m1 D.e D.forces D.exact i1 hs
    have hns : ¬ Strikes P.R (ws k).eps (between (ws k).bodies) (closing (ws k).v) := by
      rintro ⟨hs, -⟩
      rw [i2, h3] at hs
      exact absurd hs (not_le.2 (hfar k (by omega)))
    have hv := g2 hns
    have e1 : between (ws 0).bodies + (((k + 1 : ℕ) : ℝ) * dt) • closing (ws 0).v =
        between (ws k).bodies + (dt / 2 ^ 0) • closing (ws (k + 1)).v := by
      rw [hv, h2, h3]
      push_cast
      rw [pow_zero, div_one]
      module
    have hj : j = 0 := by
      by_contra hj
      have := g5 0 (by omega)
      rw [← e1, i3] at this
      have := hfar (k + 1) hk
      have := h.scene.tol
      linarith
    subst hj
    refine ⟨by rw [ht, h1]; push_cast; ring, hv.trans h2, by rw [e1, g3]⟩

/-- A step from a state between steps returns. -/
theorem discs_returns {H : ForceHeap} (D : DiscSetting P H exactLcp pairs) (mi : ℕ) {dt : ℝ} (hdt : 0 < dt)
    {w : World (Option Mat) Finder} (h : Discs cfuel pairs P w) :
    ∃ fuel w', w.step_dt (pdipmEnv 2 H exactLcp mi (diffCollide cfuel (fun _ => []) pairs)) fuel dt = .done w' := by
  have hall : ∀ b ∈ w.bodies, b = bodyAt w.bodies 0 ∨ b = bodyAt w.bodies 1 := by
    intro b hb
    obtain ⟨i, hi, rfl⟩ := mem_bodyAt hb
    rw [h.two] at hi
    interval_cases i
    · exact Or.inl rfl
    · exact Or.inr rfl
  obtain ⟨⟨e, v⟩, hr⟩ := C74_circles_engine_answers cfuel (fun _ => []) pairs D.broad H mi w h.scene h.free
    (by
      intro b hb
      rcases hall b hb with rfl | rfl
      · rw [h.mass0]; exact ⟨D.m0, h.inertia0⟩
      · rw [h.mass1]; exact ⟨D.m1, h.inertia1⟩)
    (by
      intro b hb
      rcases hall b hb with rfl | rfl
      · rw [h.fric0]
      · rw [h.fric1])
    (fun t => ⟨[0, 0], by rw [h.two]; exact D.forces t⟩) dt
  refine C27_terminates_unless_pressed cfuel (fun _ => []) (fun _ _ h => absurd h List.not_mem_nil) pairs D.broad H exactLcp mi w
    h.scene dt hdt.le (e, v) hr ?_
  obtain ⟨fl, l, pn, a, b, gs, hfl, law⟩ :=
    C38_engine_contact_law H exactLcp mi w dt e v h.scene.joints (h.scene.contactsOk D.broad) h.scene.cache.ok exactLcp_exact hr
  rw [h.two, D.forces w.t] at hfl
  injection hfl with hfl
  subst hfl
  obtain ⟨-, -, -, l4, l5⟩ := discs_law D.broad D.once D.m0 D.m1 D.e h law
  intro c hc
  right
  rcases h.found D.broad D.once with ⟨-, hcs⟩ | ⟨hnear, c', hcs, -, hs1, hs2, hor⟩
  · rw [hcs] at hc; cases hc
  rw [hcs, List.mem_singleton] at hc
  subst hc
  set q := between w.bodies
  have hq0 : q ≠ 0 := ne_zero_of_far h.tol_lt (h.apart D.broad D.once)
  have hL := len_pos hq0
  have hvn : normalVel c v = Spec.inner q (closing v) / len q := by
    rw [circle_normalVel hs1 hs2]
    rcases hor with ⟨a, b, hn⟩ | ⟨a, b, hn⟩
    · rw [a, b, hn, inner_smul_left]
      unfold closing drift
      ring
    · rw [a, b, hn, inner_smul_left, inner_neg_left]
      unfold closing drift Spec.inner
      simp only [Prod.fst_sub, Prod.snd_sub]
      ring
  show 0 ≤ normalVel c v
  rw [hvn]
  refine div_nonneg ?_ hL.le
  by_cases hs : Strikes P.R w.eps q (closing w.v)
  · rw [l4 hs, inner_struck hq0]
    nlinarith [D.e, hs.2]
  · rw [l5 hs]
    by_contra hc
    exact hs ⟨hnear, not_le.1 hc⟩

/-- C129: such runs exist, of any length. -/
theorem C129_runs (P : TwoDiscs) (H : ForceHeap) (pairs : List Body → List (ℕ × ℕ))
    (D : DiscSetting P H exactLcp pairs) (mi cfuel : ℕ) (dt : ℝ) (hdt : 0 < dt) (w : World (Option Mat) Finder)
    (h : Discs cfuel pairs P w) (n : ℕ) :
    ∃ ws, ws 0 = w ∧ Steps (pdipmEnv 2 H exactLcp mi (diffCollide cfuel (fun _ => []) pairs)) dt n ws := by
  induction n with
  | zero => exact ⟨fun _ => w, rfl, fun k hk => by omega⟩
  | succ n ih =>
    obtain ⟨ws, h0, hst⟩ := ih
    obtain ⟨hd, -⟩ := discs_run D hdt (by rw [h0]; exact h) hst n le_rfl
    obtain ⟨fuel, w', hw'⟩ := discs_returns D mi hdt hd
    refine ⟨fun k => if k ≤ n then ws k else w', by simp [h0], fun k hk => ?_⟩
    rcases Nat.lt_succ_iff_lt_or_eq.1 hk with hlt | heq
    · obtain ⟨f, hf⟩ := hst k hlt
      exact ⟨f, by simp only [hlt.le, if_true, Nat.succ_le_of_lt hlt]; exact hf⟩
    · subst heq
      exact ⟨fuel, by simpa using hw'⟩

/-! ## Concrete runs -/

theorem allPairs_once : OncePairs allPairs := by
  intro bs h
  simp [allPairs, h, List.range_succ]

theorem init_bodies (fnd : Finder) (bs : List Body) (dt eps tol : ℝ) :
    (initWorld (none : Option Mat) fnd bs [] dt eps tol false true).bodies = bs := by
  apply List.ext_getElem
  · simp [initWorld, World.set_v]
  · intro i hi hi'
    unfold initWorld at hi ⊢
    rw [set_v_getElem]
    have : slice3 (cat3 (bs.map Body.v)) i = bs[i].v := by
      rw [cat3_slice _ _ (by simpa using hi'), List.getElem_map]
    simp only [this]

/-- Two discs of radius 1 and mass 1 without friction. -/
def discBodies (e : ℝ) (p0 p1 u0 u1 : V2) : List Body :=
  [mkCircle (.two p0) 1 { vel := .three ⟨0, u0.1, u0.2⟩, restitution := e, fric_coeff := 0 },
   mkCircle (.two p1) 1 { vel := .three ⟨0, u1.1, u1.2⟩, restitution := e, fric_coeff := 0 }]

def unitDiscs (e : ℝ) : TwoDiscs := { m0 := 1, m1 := 1, r0 := 1, r1 := 1, e := e }

/-- Nothing pushes. -/
def idleForces : ForceHeap := { obj := fun _ => .external (fun _ => 0) 0, attached := fun _ => [] }

theorem idle_none : NoPush idleForces := by
  intro t
  have h : ∀ i, idleForces.apply_forces i t = some 0 := by intro i; simp [ForceHeap.apply_forces, idleForces]
  simp [forceCat, h]

theorem unit_setting (e : ℝ) (he : 0 ≤ e) : DiscSetting (unitDiscs e) idleForces exactLcp allPairs :=
  ⟨by norm_num [unitDiscs], by norm_num [unitDiscs], he, allPairs_broad, allPairs_once, idle_none, exactLcp_exact⟩

/-- Two discs of radius 1 without friction, with the masses `m0` and `m1`. -/
def massBodies (m0 m1 e : ℝ) (p0 p1 u0 u1 : V2) : List Body :=
  [mkCircle (.two p0) 1 { vel := .three ⟨0, u0.1, u0.2⟩, mass := m0, restitution := e, fric_coeff := 0 },
   mkCircle (.two p1) 1 { vel := .three ⟨0, u1.1, u1.2⟩, mass := m1, restitution := e, fric_coeff := 0 }]

/-- The constructor makes a world of two discs that are apart. -/
theorem mass_made (m0 m1 e dt eps tol : ℝ) (hm0 : 0 < m0) (hm1 : 0 < m1) (heps : 0 ≤ eps) (heps' : eps ≤ 1 / 5) (p0 p1 u0 u1 : V2) (htol : 0 ≤ tol) (ht2 : tol < 2) (hfar : 2 + eps < len (p0 - p1))
    (H : ForceHeap) (lcp : LcpSolver) (mi cfuel : ℕ) (fnd : Finder) :
    ∃ w, mkWorld (pdipmEnv 2 H lcp mi (diffCollide cfuel (fun _ => []) allPairs)) none fnd (massBodies m0 m1 e p0 p1 u0 u1) [] dt eps
      tol false true = .done w ∧ Discs cfuel allPairs { m0 := m0, m1 := m1, r0 := 1, r1 := 1, e := e } w ∧ w.eps = eps ∧ w.tol = tol ∧ w.t = 0 ∧
      between w.bodies = p0 - p1 ∧ closing w.v = u0 - u1 := by
  set bs := massBodies m0 m1 e p0 p1 u0 u1 with hbs
  have hcb : ∀ b ∈ bs, CircleBody eps b := by
    intro b hb
    simp only [hbs, massBodies, List.mem_cons, List.not_mem_nil, or_false] at hb
    rcases hb with rfl | rfl <;>
    · refine ⟨⟨_, [], .circle _ _ _, rfl⟩, rfl, ?_, ?_⟩
      · change (0 : ℝ) ≤ 1; norm_num
      · change eps ≤ 2 * 0.1; linarith
  have hbt : between bs = p0 - p1 := rfl
  have hcon : circleContacts (fun _ => []) eps bs (allPairs bs) = [] := by
    rcases two_found allPairs_broad allPairs_once (eps := eps) heps (bs := bs) rfl hcb with ⟨-, h⟩ | ⟨h, -⟩
    · exact h
    · exfalso
      rw [hbt] at h
      change len (p0 - p1) ≤ 1 + 1 + eps at h
      linarith
  let w : World (Option Mat) Finder :=
    { initWorld (none : Option Mat) fnd bs [] dt eps tol false true with contacts := [], fnd := fnd }
  have hmk : mkWorld (pdipmEnv 2 H lcp mi (diffCollide cfuel (fun _ => []) allPairs)) none fnd bs [] dt eps
      tol false true = .done w := by
    unfold mkWorld
    rw [if_neg (by simp [hbs, massBodies]), if_pos (by simp)]
    unfold World.find_contacts
    have hcol : (pdipmEnv 2 H lcp mi (diffCollide cfuel (fun _ => []) allPairs)).collide
        (initWorld (none : Option Mat) fnd bs [] dt eps tol false true).eps
        (initWorld (none : Option Mat) fnd bs [] dt eps tol false true).fnd
        (initWorld (none : Option Mat) fnd bs [] dt eps tol false true).bodies = .ok (fnd, []) := by
      rw [init_bodies]
      change diffCollide cfuel (fun _ => []) allPairs eps fnd bs = _
      rw [collide_circles allPairs_broad fun i hi => (hcb _ (bodyAt_mem hi)).circle, hcon]
    rw [hcol]
    simp only [Run.bind_done]
    rw [if_pos trivial, if_pos]
    intro c hc
    cases hc
  have hwb : w.bodies = bs := init_bodies fnd bs dt eps tol
  have hsc := C27_constructed cfuel (fun _ => []) allPairs H lcp mi fnd bs [] dt eps tol w heps (by linarith) hcb
    (by
      intro i hi j hj hij
      have hi : i < 2 := hi
      have hj : j < 2 := hj
      have : ∀ k < 2, (bodyAt bs k).rad = 1 := by intro k hk; interval_cases k <;> rfl
      rw [this i hi, this j hj]
      linarith) (by simp) hmk
  have hI : 0 < (mkCircle (.two p0) 1 { vel := .three ⟨0, u0.1, u0.2⟩, mass := m0, restitution := e, fric_coeff := 0 }).ang_inertia := by
    change 0 < _ * 1 * 1 / 2
    positivity
  have hI' : 0 < (mkCircle (.two p1) 1 { vel := .three ⟨0, u1.1, u1.2⟩, mass := m1, restitution := e, fric_coeff := 0 }).ang_inertia := by
    change 0 < _ * 1 * 1 / 2
    positivity
  refine ⟨w, hmk, ⟨hsc, by rw [hwb]; rfl, rfl, by rw [hwb]; rfl, by rw [hwb]; rfl, by rw [hwb]; exact hI, by rw [hwb]; exact hI',
    by rw [hwb]; rfl, by rw [hwb]; rfl, ?_, by rw [hwb]; rfl, by rw [hwb]; rfl⟩, rfl, rfl, rfl, by rw [hwb, hbt], ?_⟩
  · rw [hwb]
    change (e + e) / 2 = e
    ring
  · have hwv : w.v = cat3 (bs.map Body.v) := rfl
    unfold closing drift
    rw [hwv]
    ext <;> simp [twist, cat3, hbs, massBodies, mkCircle, Arg.toV3]

/-- The same for discs of mass 1. -/
theorem discs_made (e dt eps tol : ℝ) (heps : 0 ≤ eps) (heps' : eps ≤ 1 / 5) (p0 p1 u0 u1 : V2) (htol : 0 ≤ tol) (ht2 : tol < 2)
    (hfar : 2 + eps < len (p0 - p1)) (H : ForceHeap) (lcp : LcpSolver) (mi cfuel : ℕ) (fnd : Finder) :
    ∃ w, mkWorld (pdipmEnv 2 H lcp mi (diffCollide cfuel (fun _ => []) allPairs)) none fnd (discBodies e p0 p1 u0 u1) [] dt eps
      tol false true = .done w ∧ Discs cfuel allPairs (unitDiscs e) w ∧ w.eps = eps ∧ w.tol = tol ∧ w.t = 0 ∧
      between w.bodies = p0 - p1 ∧ closing w.v = u0 - u1 :=
  mass_made 1 1 e dt eps tol one_pos one_pos heps heps' p0 p1 u0 u1 htol ht2 hfar H lcp mi cfuel fnd

/-- Head-on with restitution 1: 400 steps after they have been set off the discs have exchanged their velocities. -/
example (mi cfuel : ℕ) (fnd : Finder) : ∃ ws : ℕ → World (Option Mat) Finder,
    mkWorld (pdipmEnv 2 idleForces exactLcp mi (diffCollide cfuel (fun _ => []) allPairs)) none fnd
      (discBodies 1 (-5, 0) (0, 0) (1, 0) (0, 0)) [] (1 / 30) (1 / 10) (1 / 1000000) false true = .done (ws 0) ∧
    Steps (pdipmEnv 2 idleForces exactLcp mi (diffCollide cfuel (fun _ => []) allPairs)) (1 / 30) 400 ws ∧
    closing (ws 0).v = (1, 0) ∧ closing (ws 400).v = (-1, 0) := by
  have D := unit_setting 1 (by norm_num)
  obtain ⟨w, h1, h2, h3, h4, -, h6, h7⟩ := discs_made 1 (1 / 30) (1 / 10) (1 / 1000000) (by norm_num) (by norm_num) (-5, 0) (0, 0) (1, 0) (0, 0) (by norm_num) (by norm_num)
    (by rw [show (((-5 : ℝ), (0 : ℝ)) - (0, 0)) = (-5, 0) by simp, len_x]; norm_num) idleForces exactLcp mi cfuel fnd
  obtain ⟨ws, rfl, hst⟩ := C129_runs _ _ _ D mi cfuel (1 / 30) (by norm_num) w h2 400
  have hq : between (ws 0).bodies = (-5, 0) := by rw [h6]; simp
  have hv : closing (ws 0).v = (1, 0) := by rw [h7]; simp
  have hl1 : len ((1 : ℝ), (0 : ℝ)) = 1 := by rw [len_x]; norm_num
  refine ⟨ws, h1, hst, hv, ?_⟩
  have hit := C129_hit _ _ _ _ D mi cfuel 400 (1 / 30) (by norm_num) ws h2 hst (by rw [hq, hv]; norm_num [Spec.inner])
    (by rw [hq, hv, h3]; norm_num [Spec.inner, Spec.det, unitDiscs, TwoDiscs.R]) 400 le_rfl (by
      rw [hq, hv, h3, h4, hl1, min_eq_left (by norm_num)]; norm_num [Spec.inner])
  have hne : closing (ws 400).v ≠ closing (ws 0).v := by
    obtain ⟨τ, -, -, a3, a4, a5, -⟩ := hit
    intro hc
    have hp := ne_zero_of_far h2.tol_lt a3
    have := inner_struck (e := (unitDiscs 1).e) (v := closing (ws 0).v) hp
    rw [← a5, hc] at this
    have h1 : (unitDiscs 1).e = 1 := rfl
    rw [h1] at this
    linarith [a4.2]
  rw [(C129_loss _ _ _ _ D mi cfuel 400 (1 / 30) (by norm_num) ws h2 hst 400 le_rfl hne).2 (by rw [hq, hv]; norm_num [Spec.det]), hv]
  simp [unitDiscs]

/-- A near miss with the default constants: the centres would pass at the distance 2.05, the radii are 1. -/
example (mi cfuel : ℕ) (fnd : Finder) : ∃ ws : ℕ → World (Option Mat) Finder,
    mkWorld (pdipmEnv 2 idleForces exactLcp mi (diffCollide cfuel (fun _ => []) allPairs)) none fnd
      (discBodies (1 / 2) (-5, 41 / 20) (0, 0) (1, 0) (0, 0)) [] (1 / 30) (1 / 10) (1 / 1000000) false true = .done (ws 0) ∧
    Steps (pdipmEnv 2 idleForces exactLcp mi (diffCollide cfuel (fun _ => []) allPairs)) (1 / 30) 400 ws ∧
    (∀ t : ℝ, 2 < len (((-5 : ℝ), (41 / 20 : ℝ)) + t • ((1 : ℝ), (0 : ℝ)))) ∧ closing (ws 400).v ≠ (1, 0) := by
  have D := unit_setting (1 / 2) (by norm_num)
  obtain ⟨w, h1, h2, h3, h4, -, h6, h7⟩ := discs_made (1 / 2) (1 / 30) (1 / 10) (1 / 1000000) (by norm_num) (by norm_num) (-5, 41 / 20) (0, 0) (1, 0) (0, 0) (by norm_num)
    (by norm_num) (by
      unfold len
      refine Real.lt_sqrt_of_sq_lt ?_
      norm_num) idleForces exactLcp mi cfuel fnd
  obtain ⟨ws, rfl, hst⟩ := C129_runs _ _ _ D mi cfuel (1 / 30) (by norm_num) w h2 400
  have hq : between (ws 0).bodies = (-5, 41 / 20) := by rw [h6]; simp
  have hv : closing (ws 0).v = (1, 0) := by rw [h7]; simp
  have hl1 : len ((1 : ℝ), (0 : ℝ)) = 1 := by rw [len_x]; norm_num
  have := C129_near_miss _ _ _ _ D mi cfuel 400 (1 / 30) (by norm_num) ws h2 hst (by rw [hq, hv]; norm_num [Spec.inner])
    (by rw [hq, hv]; norm_num [Spec.inner, Spec.det, unitDiscs, TwoDiscs.R])
    (by rw [hq, hv, h3]; norm_num [Spec.inner, Spec.det, unitDiscs, TwoDiscs.R]) 400 le_rfl (by
      rw [hq, hv, h3, h4, hl1, min_eq_left (by norm_num)]; norm_num [Spec.inner])
  rw [hq, hv] at this
  refine ⟨ws, h1, hst, fun t => ?_, this.2⟩
  have h5 := this.1 t
  norm_num [unitDiscs, TwoDiscs.R] at h5 ⊢
  exact h5

/-- A disc passes through another one: it moves by 20 in a step, and the other one is right in its way. -/
example (e : ℝ) (he : 0 ≤ e) (mi cfuel n : ℕ) (fnd : Finder) : ∃ ws : ℕ → World (Option Mat) Finder,
    mkWorld (pdipmEnv 2 idleForces exactLcp mi (diffCollide cfuel (fun _ => []) allPairs)) none fnd
      (discBodies e (-10, 0) (0, 0) (20, 0) (0, 0)) [] 1 (1 / 10) (1 / 1000000) false true = .done (ws 0) ∧
    Steps (pdipmEnv 2 idleForces exactLcp mi (diffCollide cfuel (fun _ => []) allPairs)) 1 n ws ∧
    between (ws 0).bodies + (1 / 2 : ℝ) • closing (ws 0).v = 0 ∧
    ∀ k ≤ n, (ws k).t = k ∧ closing (ws k).v = (20, 0) ∧ between (ws k).bodies = (20 * (k : ℝ) - 10, 0) := by
  have D := unit_setting e he
  obtain ⟨w, h1, h2, h3, h4, h5, h6, h7⟩ := discs_made e 1 (1 / 10) (1 / 1000000) (by norm_num) (by norm_num) (-10, 0) (0, 0) (20, 0) (0, 0) (by norm_num)
    (by norm_num) (by rw [show (((-10 : ℝ), (0 : ℝ)) - (0, 0)) = (-10, 0) by simp, len_x]; norm_num) idleForces exactLcp mi cfuel fnd
  obtain ⟨ws, rfl, hst⟩ := C129_runs _ _ _ D mi cfuel 1 (by norm_num) w h2 n
  have hq : between (ws 0).bodies = (-10, 0) := by rw [h6]; simp
  have hv : closing (ws 0).v = (20, 0) := by rw [h7]; simp
  have hpos : ∀ k : ℕ, (((-10 : ℝ), (0 : ℝ)) + ((k : ℝ) * 1) • ((20 : ℝ), (0 : ℝ))) = (20 * (k : ℝ) - 10, 0) := by
    intro k
    ext <;> simp
    ring
  refine ⟨ws, h1, hst, by rw [hq, hv]; ext <;> norm_num, fun k hk => ?_⟩
  obtain ⟨a1, a2, a3⟩ := C129_unseen _ _ _ _ D mi cfuel n 1 (by norm_num) ws h2 hst (by
    intro k _
    rw [hq, hv, h3, hpos, len_x]
    change (1 : ℝ) + 1 + 1 / 10 < _
    rcases Nat.eq_zero_or_pos k with rfl | hk
    · norm_num
    · have : (1 : ℝ) ≤ k := by exact_mod_cast hk
      rw [abs_of_pos (by linarith)]
      linarith) k hk
  refine ⟨by rw [a1, h5]; ring, a2.trans hv, ?_⟩
  rw [a3, hq, hv, hpos]

end LcpPhysics
