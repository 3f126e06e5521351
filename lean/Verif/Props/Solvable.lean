import Verif.Lemmas.Farkas
import Verif.Props.Engine
import Verif.Props.PostStab
import Verif.Props.Conservation
import Verif.Props.EngineExamples
import Verif.Model.Contacts

/-!
# C74: which contact problems have a solution

The engine theorems (C38-C43) speak about exact solutions of the contact problem.  Without friction
one exists exactly when some velocity satisfies the joints and all restitution bounds, in particular
for a common restitution coefficient; it is then unique (C43).  With different coefficients the
problem the engine poses can be infeasible.
-/

noncomputable section

namespace LcpPhysics
open Spec

variable {σ φ : Type}

/-- Feasible LCPs with `F = 0` and a positive diagonal `Q` are solvable. -/
theorem mlcp_exists (n neq m : ℕ) (Q : Mat) (d : ℕ → ℝ) (hd : ∀ k < n, 0 < d k)
    (hQ : ∀ (x : Vec) (k : ℕ), k < n → mv Q n x k = d k * x k) (p : Vec) (G : Mat) (h : Vec) (A : Mat)
    (b x0 : Vec) (hG : ∀ i < m, mv G n x0 i ≤ h i) (hA : ∀ i < neq, mv A n x0 i = b i) :
    ∃ x s z y, IsMlcp n neq m Q p G h A b (fun _ _ => 0) x s z y := by
  have key : ∀ (C : Mat) (x : Vec) (i : ℕ), form (fun k : Fin n => C i k) (fun k => x k) = mv C n x i :=
    fun C x i => by rw [form_apply, mv, ← Fin.sum_univ_eq_sum_range (fun k => C i k * x k) n]
  obtain ⟨x, z, y, h1, h2, h3, h4, h5⟩ := exists_kkt (n := n) (ι := Fin m) (κ := Fin neq)
    (fun k => d k) (fun k => p k) (fun k => hd k k.2) (fun i k => G i k) (fun i => h i)
    (fun i k => A i k) (fun i => b i) (fun k => x0 k)
    (fun i => by rw [key]; exact hG i i.2) (fun i => by rw [key]; exact hA i i.2)
  let ext {N : ℕ} (v : Fin N → ℝ) : Vec := fun k => if hk : k < N then v ⟨k, hk⟩ else 0
  have hext : ∀ {N : ℕ} (v : Fin N → ℝ) (k : Fin N), ext v k = v k := fun v k => by simp [ext]
  have hx : (fun k : Fin n => ext x k) = x := funext fun k => hext x k
  have hmv : ∀ (C : Mat) (i : ℕ), mv C n (ext x) i = form (fun k : Fin n => C i k) x := fun C i => by
    rw [← key, hx]
  refine ⟨ext x, fun i => h i - mv G n (ext x) i, ext z, ext y, ?_, ?_, ?_, ?_, ?_, ?_⟩
  · intro k hk
    have := h1 ⟨k, hk⟩
    rw [hQ _ k hk, tmv, tmv, ← Fin.sum_univ_eq_sum_range (fun i => G i k * ext z i) m,
      ← Fin.sum_univ_eq_sum_range (fun i => A i k * ext y i) neq]
    simp only [hext]
    have e : ext x k = x ⟨k, hk⟩ := hext x ⟨k, hk⟩
    rw [e]
    simp only [mul_comm (G _ _), mul_comm (A _ _)]
    exact this
  · intro i hi
    have : mv (fun _ _ => 0) m (ext z) i = 0 := by simp [mv]
    rw [this]; ring
  · intro i hi
    rw [hmv]; exact h3 ⟨i, hi⟩
  · intro i hi
    have := h2 ⟨i, hi⟩
    rw [hmv]; exact sub_nonneg.2 this
  · intro i hi
    have := h4 ⟨i, hi⟩
    rw [show ext z i = z ⟨i, hi⟩ from hext z ⟨i, hi⟩]; exact this
  · intro i hi
    have := h5 ⟨i, hi⟩
    rw [hmv, show ext z i = z ⟨i, hi⟩ from hext z ⟨i, hi⟩, mul_comm]; exact this

/-- The diagonal of the mass matrix. -/
def massDiag (bs : List Body) (k : ℕ) : ℝ :=
  if k % 3 = 0 then (bodyAt bs (k / 3)).ang_inertia else (bodyAt bs (k / 3)).mass

theorem mv_M_diag (w : World σ φ) (x : Vec) (k : ℕ) (hk : k < 3 * w.bodies.length) :
    mv w.M (3 * w.bodies.length) x k = massDiag w.bodies k * x k := by
  have hm : k / 3 < w.bodies.length := by omega
  have hb : bodyAt w.bodies (k / 3) = w.bodies[k / 3] := by
    simp [bodyAt, List.getD_eq_getElem?_getD, hm]
  obtain ⟨h1, h2, h3⟩ := M_mv w x (k / 3) hm
  have : k = 3 * (k / 3) ∨ k = 3 * (k / 3) + 1 ∨ k = 3 * (k / 3) + 2 := by omega
  unfold massDiag
  rw [hb]
  rcases this with h | h | h
  · rw [if_pos (by omega)]; rw [← h] at h1; exact h1
  · rw [if_neg (by omega)]; rw [← h] at h2; exact h2
  · rw [if_neg (by omega)]; rw [← h] at h3; exact h3

theorem massDiag_pos (w : World σ φ) (hpos : ∀ b ∈ w.bodies, 0 < b.mass ∧ 0 < b.ang_inertia) (k : ℕ)
    (hk : k < 3 * w.bodies.length) : 0 < massDiag w.bodies k := by
  have hm : k / 3 < w.bodies.length := by omega
  have hb : bodyAt w.bodies (k / 3) = w.bodies[k / 3] := by
    simp [bodyAt, List.getD_eq_getElem?_getD, hm]
  have := hpos _ (List.getElem_mem hm)
  unfold massDiag
  rw [hb]
  split_ifs
  exacts [this.2, this.1]

/-- Some velocity satisfies the joints and every restitution bound. -/
def Feasible (bs : List Body) (js : List Joint) (cs : List Contact) (v : Vec) : Prop :=
  ∃ u : Vec, (∀ r ∈ jointVels js u, r = 0) ∧ ∀ c ∈ cs,
    0 ≤ normalVel c u + meanRestitution bs c * normalVel c v

theorem normalVel_smul (c : Contact) (a : ℝ) (v : Vec) :
    normalVel c (fun k => a * v k) = a * normalVel c v := by
  simp only [normalVel, contactVel, pointVel, twist, Spec.inner, Prod.fst_sub, Prod.snd_sub]; ring

/-- C74: without friction, a feasible contact problem has a solution. -/
theorem C74_frictionless_solvable (w : World σ φ) (hj : JointsOk w) (hc : ContactsOk w)
    (hpos : ∀ b ∈ w.bodies, 0 < b.mass ∧ 0 < b.ang_inertia)
    (hmu : ∀ c ∈ w.contacts, meanFriction w.bodies c = 0) (f : ℕ → V3)
    (hf : Feasible w.bodies w.joints w.contacts w.v) :
    ∃ v' l pn a b g, ContactLaw w.bodies w.joints w.contacts f w.v v' l pn a b g := by
  obtain ⟨u0, hu1, hu2⟩ := hf
  set n := 3 * w.bodies.length with hn
  let F : Vec := fun k => if k % 3 = 0 then (f (k / 3)).r else if k % 3 = 1 then (f (k / 3)).x
    else (f (k / 3)).y
  have hF : ∀ i < w.bodies.length,
      F (3 * i) = (f i).r ∧ F (3 * i + 1) = (f i).x ∧ F (3 * i + 2) = (f i).y := fun i _ => by
    refine ⟨?_, ?_, ?_⟩
    · simp [F]
    · have h1 : (3 * i + 1) % 3 = 1 := by omega
      have h2 : (3 * i + 1) / 3 = i := by omega
      simp [F, h1, h2]
    · have h1 : (3 * i + 2) % 3 = 2 := by omega
      have h2 : (3 * i + 2) / 3 = i := by omega
      simp [F, h1, h2]
  obtain ⟨x, s, z, y, H⟩ := mlcp_exists n w.num_constraints w.contacts.length w.M
    (massDiag w.bodies) (massDiag_pos w hpos) (mv_M_diag w) (fun k => mv w.M n w.v k + F k) w.Jc
    (fun i => mv w.Jc n w.v i * w.restitutions i) w.Je (fun _ => 0) (fun k => -u0 k)
    (fun i hi => by
      have := hu2 _ (List.getElem_mem hi)
      rw [C33_normal_jacobian w hc _ i hi, C33_normal_jacobian w hc _ i hi, normalVel_neg]
      have hr : w.restitutions i = meanRestitution w.bodies w.contacts[i] := by
        unfold World.restitutions meanRestitution World.body
        rw [List.getElem?_eq_getElem hi]
      rw [hr]; linarith)
    (fun i hi => by
      rw [mv_neg, neg_eq_zero]
      exact (C32_kernel w hj u0).2 (fun j hj' x hx => hu1 x (List.mem_flatMap.2 ⟨j, hj', hx⟩)) i hi)
  have hrest : ∀ (i : ℕ) (hi : i < w.contacts.length),
      s i = normalVel w.contacts[i] (fun k => -x k) +
        meanRestitution w.bodies w.contacts[i] * normalVel w.contacts[i] w.v := fun i hi => by
    have := H.ineq i hi
    rw [C33_normal_jacobian w hc _ i hi, C33_normal_jacobian w hc _ i hi] at this
    have hr : w.restitutions i = meanRestitution w.bodies w.contacts[i] := by
      unfold World.restitutions meanRestitution World.body
      rw [List.getElem?_eq_getElem hi]
    have h0 : mv (fun _ _ => 0) w.contacts.length z i = 0 := by simp [mv]
    rw [hr, h0] at this
    rw [normalVel_neg]; linarith
  refine ⟨fun k => -x k, y, z, fun _ => 0, fun _ => 0,
    fun i => |(w.contacts[i]?.elim 0 fun c => slipVel c fun k => -x k)|, ?_, ?_, ?_, ?_, ?_, ?_⟩
  · intro u
    have h1 : ∑ k ∈ Finset.range n, u k * (mv w.M n x k + (mv w.M n w.v k + F k) +
        tmv w.Jc w.contacts.length z k + tmv w.Je w.num_constraints y k) = 0 :=
      Finset.sum_eq_zero fun k hk => by rw [H.stat k (Finset.mem_range.1 hk), mul_zero]
    have h2 : ∑ k ∈ Finset.range n, u k * tmv w.Jc w.contacts.length z k =
        contactPower w.contacts z (fun i => (fun _ => (0 : ℝ)) i - (fun _ => 0) i) u := by
      rw [adjoint]
      unfold contactPower
      refine Finset.sum_congr rfl fun i hi => ?_
      have hi := Finset.mem_range.1 hi
      rw [C33_normal_jacobian w hc _ i hi, List.getElem?_eq_getElem hi]
      simp
    have h3 : momentumPower w.bodies u (fun k => -x k) = -momentumPower w.bodies u x :=
      momentumPower_neg _ _ _
    rw [h3, ← h2, ← sum_Je w hj, ← sum_force _ f F u hF, ← sum_mv_M, ← sum_mv_M]
    simp only [mul_add, Finset.sum_add_distrib] at h1
    linarith
  · intro r hr
    obtain ⟨j, hj', hr⟩ := List.mem_flatMap.1 hr
    refine (C32_kernel w hj fun k => -x k).1 (fun i hi => ?_) j hj' r hr
    rw [mv_neg, H.eq i hi, neg_zero]
  · intro i hi
    exact ⟨H.z_nonneg i hi, le_rfl, le_rfl, abs_nonneg _⟩
  · intro i hi
    refine ⟨hrest i hi ▸ H.s_nonneg i hi, ?_⟩
    rw [← hrest i hi, mul_comm]; exact H.compl i hi
  · intro i hi
    rw [List.getElem?_eq_getElem hi]
    refine ⟨?_, zero_mul _, ?_, zero_mul _⟩
    · have := neg_abs_le (slipVel w.contacts[i] fun k => -x k)
      simp only [Option.elim]; linarith
    · have := le_abs_self (slipVel w.contacts[i] fun k => -x k)
      simp only [Option.elim]; linarith
  · intro i hi
    rw [hmu _ (List.getElem_mem hi)]
    simp

/-- C74: feasibility is also necessary, with or without friction. -/
theorem C74_feasible_necessary (bs : List Body) (js : List Joint) (cs : List Contact) (f : ℕ → V3)
    (v v' l : Vec) (pn a b g : ℕ → ℝ) (h : ContactLaw bs js cs f v v' l pn a b g) :
    Feasible bs js cs v := by
  refine ⟨v', h.joints, fun c hc => ?_⟩
  obtain ⟨i, hi, rfl⟩ := List.getElem_of_mem hc
  exact (h.restitution i hi).1

/-- C74: with a common restitution coefficient every state that satisfies the joints is feasible, so a
frictionless step always has exactly one resulting velocity. -/
theorem C74_common_restitution (w : World σ φ) (hj : JointsOk w) (hc : ContactsOk w)
    (hpos : ∀ b ∈ w.bodies, 0 < b.mass ∧ 0 < b.ang_inertia)
    (hmu : ∀ c ∈ w.contacts, meanFriction w.bodies c = 0) (e : ℝ)
    (he : ∀ c ∈ w.contacts, meanRestitution w.bodies c = e)
    (hjv : ∀ r ∈ jointVels w.joints w.v, r = 0) (f : ℕ → V3) :
    ∃ v' l pn a b g, ContactLaw w.bodies w.joints w.contacts f w.v v' l pn a b g ∧
      ∀ v'' l' pn' a' b' g', ContactLaw w.bodies w.joints w.contacts f w.v v'' l' pn' a' b' g' →
        ∀ k < 3 * w.bodies.length, v'' k = v' k := by
  obtain ⟨v', l, pn, a, b, g, h⟩ := C74_frictionless_solvable w hj hc hpos hmu f
    ⟨fun k => -e * w.v k, fun r hr => by
      obtain ⟨j, hj', hr⟩ := List.mem_flatMap.1 hr
      refine (C32_kernel w hj fun k => -e * w.v k).1 (fun i hi => ?_) j hj' r hr
      have : mv w.Je (3 * w.bodies.length) w.v i = 0 :=
        (C32_kernel w hj w.v).2 (fun j hj' x hx => hjv x (List.mem_flatMap.2 ⟨j, hj', hx⟩)) i hi
      unfold mv at this ⊢
      simp only [mul_left_comm _ (-e)]
      rw [← Finset.mul_sum, this, mul_zero], fun c hc' => by
      rw [normalVel_smul, he c hc']
      linarith⟩
  refine ⟨v', l, pn, a, b, g, h, fun v'' l' pn' a' b' g' h' k hk => ?_⟩
  refine C43_frictionless_unique w.bodies w.joints w.contacts f w.v v'' v' l' l pn' a' b' g' pn a b g
    (fun i hi => ?_) hmu h' h k hk
  have : bodyAt w.bodies i = w.bodies[i] := by simp [bodyAt, List.getD_eq_getElem?_getD, hi]
  rw [this]
  exact hpos _ (List.getElem_mem hi)

/-- C74: inelastic frictionless contact problems are solvable from any state. -/
theorem C74_inelastic (w : World σ φ) (hj : JointsOk w) (hc : ContactsOk w)
    (hpos : ∀ b ∈ w.bodies, 0 < b.mass ∧ 0 < b.ang_inertia)
    (hmu : ∀ c ∈ w.contacts, meanFriction w.bodies c = 0)
    (he : ∀ c ∈ w.contacts, meanRestitution w.bodies c = 0) (f : ℕ → V3) :
    ∃ v' l pn a b g, ContactLaw w.bodies w.joints w.contacts f w.v v' l pn a b g := by
  refine C74_frictionless_solvable w hj hc hpos hmu f ⟨fun _ => 0, fun r hr => ?_, fun c hc' => ?_⟩
  · obtain ⟨j, hj', hr⟩ := List.mem_flatMap.1 hr
    refine (C32_kernel w hj fun _ => 0).1 (fun i _ => ?_) j hj' r hr
    simp [mv]
  · have := normalVel_smul c 0 (fun _ => 0)
    simp only [mul_zero, zero_mul] at this
    rw [this, he c hc']; simp

/-! ## Post-stabilization -/

/-- C62: the post-stabilization problem has a solution exactly when some displacement meets its
constraints. -/
theorem C62_post_stab_solvable (w : World σ φ) (hj : JointsOk w) (hc : ContactsOk w)
    (hpos : ∀ b ∈ w.bodies, 0 < b.mass ∧ 0 < b.ang_inertia) :
    (∃ dp l pn, PostStabLaw w.bodies w.joints w.contacts w.v dp l pn) ↔
      ∃ d : Vec, (∀ x ∈ jointVels w.joints (d + w.v), x = 0) ∧ ∀ c ∈ w.contacts,
        0 ≤ normalVel c d + (1 - meanRestitution w.bodies c) * normalVel c w.v := by
  constructor
  · rintro ⟨dp, l, pn, h⟩
    refine ⟨dp, h.joints, fun c hc => ?_⟩
    obtain ⟨i, hi, rfl⟩ := List.getElem_of_mem hc
    exact (h.contacts i hi).1
  rintro ⟨d, hd1, hd2⟩
  set n := 3 * w.bodies.length with hn
  have hr : ∀ (i : ℕ) (hi : i < w.contacts.length),
      w.restitutions i = meanRestitution w.bodies w.contacts[i] := fun i hi => by
    unfold World.restitutions meanRestitution World.body
    rw [List.getElem?_eq_getElem hi]
  obtain ⟨x, s, z, y, H⟩ := mlcp_exists n w.num_constraints w.contacts.length w.M
    (massDiag w.bodies) (massDiag_pos w hpos) (mv_M_diag w) (fun _ => 0) w.Jc
    (fun i => mv w.Jc n w.v i + mv w.Jc n w.v i * -w.restitutions i) w.Je (mv w.Je n w.v)
    (fun k => -d k)
    (fun i hi => by
      have := hd2 _ (List.getElem_mem hi)
      rw [C33_normal_jacobian w hc _ i hi, C33_normal_jacobian w hc _ i hi, normalVel_neg, hr i hi]
      linarith)
    (fun i hi => by
      have := (C32_kernel w hj (d + w.v)).2
        (fun j hj' x hx => hd1 x (List.mem_flatMap.2 ⟨j, hj', hx⟩)) i hi
      rw [mv_add] at this
      rw [mv_neg]; linarith)
  refine ⟨fun k => -x k, y, z, ?_, ?_, ?_, ?_⟩
  · intro u
    rw [momentumPower_neg, ← sum_mv_M w, ← sum_Je w hj, ← sum_Jc w hc, ← Finset.sum_neg_distrib,
      ← Finset.sum_add_distrib]
    refine Finset.sum_congr rfl fun k hk => ?_
    have := H.stat k (Finset.mem_range.1 hk)
    have e : mv w.M (3 * w.bodies.length) x k =
      -(tmv w.Jc w.contacts.length z k + tmv w.Je w.num_constraints y k) := by linarith
    rw [e]; ring
  · intro r hr
    obtain ⟨j, hj', hr⟩ := List.mem_flatMap.1 hr
    refine (C32_kernel w hj ((fun k => -x k) + w.v)).1 (fun i hi => ?_) j hj' r hr
    rw [mv_add, mv_neg, H.eq i hi]; ring
  · intro i hi; exact H.z_nonneg i hi
  · intro i hi
    have e := H.ineq i hi
    have h0 : mv (fun _ _ => 0) w.contacts.length z i = 0 := by simp [mv]
    rw [C33_normal_jacobian w hc _ i hi, C33_normal_jacobian w hc _ i hi, hr i hi, h0] at e
    have hs : s i = normalVel w.contacts[i] (fun k => -x k) +
        (1 - meanRestitution w.bodies w.contacts[i]) * normalVel w.contacts[i] w.v := by
      rw [normalVel_neg]; linarith
    refine ⟨hs ▸ H.s_nonneg i hi, ?_⟩
    rw [← hs, mul_comm]; exact H.compl i hi

/-- C62: post-stabilization reads velocities only. If they satisfy the joints and no contact is
approaching it does nothing, however deep the bodies overlap. -/
theorem C62_post_stab_idle (bs : List Body) (js : List Joint) (cs : List Contact) (v dp l : Vec)
    (pn : ℕ → ℝ) (hpos : ∀ i < bs.length, 0 < (bodyAt bs i).mass ∧ 0 < (bodyAt bs i).ang_inertia)
    (hjv : ∀ x ∈ jointVels js v, x = 0) (hcv : ∀ c ∈ cs, 0 ≤ normalVel c v)
    (he : ∀ c ∈ cs, meanRestitution bs c ≤ 1) (h : PostStabLaw bs js cs v dp l pn) :
    ∀ k < 3 * bs.length, dp k = 0 := by
  have := C62_post_stab_minimal bs js cs v dp l pn h 0 (by rw [zero_add]; exact hjv)
    (fun i hi => by
      have h1 := hcv _ (List.getElem_mem hi)
      have h2 := he _ (List.getElem_mem hi)
      have h3 : normalVel cs[i] 0 = 0 := by
        simp [normalVel, contactVel, pointVel, twist, Spec.inner]
      rw [h3, zero_add]
      exact mul_nonneg (by linarith) h1)
  have h0 : momentumPower bs (0 : Vec) 0 = 0 := by simp [momentumPower, twist]
  have h1 := momentumPower_nonneg bs
    (fun i hi => ⟨(hpos i hi).1.le, (hpos i hi).2.le⟩) (0 - dp)
  have h2 := momentumPower_nonneg bs
    (fun i hi => ⟨(hpos i hi).1.le, (hpos i hi).2.le⟩) dp
  exact momentumPower_pos_imp_zero bs hpos dp (by linarith)

/-- Two unit circles at rest, one inside the other up to a tenth: nothing happens. -/
example : PostStabLaw [unitCircle 0 0 0, unitCircle (1 / 10) 0 0] []
    [{ normal := (-1, 0), p1 := (1 / 20, 0), p2 := (-1 / 20, 0), pen := 19 / 10, i1 := 0, i2 := 1 }]
    (fun _ => 0) (fun _ => 0) (fun _ => 0) (fun _ => 0) := by
  refine ⟨fun u => ?_, ?_, ?_, ?_⟩
  · simp [momentumPower, jointPower, jointVels, contactPower, twist]
  · simp [jointVels]
  · simp
  · intro i hi
    simp [normalVel, contactVel, pointVel, twist, Spec.inner]

/-- C74: the assumption of an exact solver (C38-C43) can be met: there is an exact solver with which
`solve_dynamics` returns whenever the contact problem has a solution. -/
theorem C74_exact_engine_returns (H : ForceHeap) (mi : ℕ) (w : World (Option Mat) φ) (dt : ℝ)
    (hj : JointsOk w) (hc : ContactsOk w) (hne : w.contacts ≠ []) (fl : List V3)
    (hf : forceCat H w.t w.bodies.length = .ok fl) (v' l : Vec) (pn a b g : ℕ → ℝ)
    (hlaw : ContactLaw w.bodies w.joints w.contacts (impulse fl dt) w.v v' l pn a b g) :
    Exact exactLcp ∧ ∃ r, pdipmSolve 2 H exactLcp mi w dt = .ok r := by
  refine ⟨exactLcp_exact, ?_⟩
  have hJ : w.Jf 2 = .ok (JfLoop w.contacts 0 fun _ _ => 0) := by simp [World.Jf]
  have hlen := (forceCat_length hf).1
  obtain ⟨s, hs⟩ := C34_lcp_complete w hj hc _ hJ (impulse fl dt) (fun k => dt * cat3 fl k)
    (fun i hi => impulse_entries fl dt i (by omega))
    (fun k => if k < 3 * w.bodies.length then mv w.M (3 * w.bodies.length) w.v k + dt * cat3 fl k else 0)
    (fun k hk => if_pos hk) v' l pn a b g hlaw
  unfold pdipmSolve
  simp only [hf, hne, if_false, hJ]
  unfold exactLcp
  rw [dif_pos ⟨_, s, _, l, hs⟩]
  exact ⟨_, rfl⟩

/-- C74: conversely an exact solver raises on every infeasible problem. -/
theorem C74_exact_engine_raises (H : ForceHeap) (lcp : LcpSolver) (hx : Exact lcp) (mi : ℕ)
    (w : World (Option Mat) φ) (dt : ℝ) (hj : JointsOk w) (hc : ContactsOk w) (hcache : CacheOk w)
    (hinf : ¬Feasible w.bodies w.joints w.contacts w.v) :
    ∃ err, pdipmSolve 2 H lcp mi w dt = .error err := by
  cases h : pdipmSolve 2 H lcp mi w dt with
  | error err => exact ⟨err, rfl⟩
  | ok r =>
    obtain ⟨fl, l, pn, a, b, g, -, hl⟩ := C38_engine_contact_law H lcp mi w dt r.1 r.2 hj hc hcache hx h
    exact absurd (C74_feasible_necessary _ _ _ _ _ _ _ _ _ _ _ hl) hinf

/-! ## A ball between two walls of different restitution -/

/-- Three unit circles in a row, the outer ones fixed. -/
def squeezeBodies (r1 r r2 : ℝ) : List Body := [unitCircle (-2) r1 0, unitCircle 0 r 0, unitCircle 2 r2 0]

/-- The contacts of the middle circle with its neighbours, as the contact search reports them. -/
def squeezeContacts : List Contact :=
  [{ normal := (1, 0), p1 := (-1, 0), p2 := (1, 0), pen := 0, i1 := 1, i2 := 0 },
   { normal := (-1, 0), p1 := (1, 0), p2 := (-1, 0), pen := 0, i1 := 1, i2 := 2 }]

/-- The middle circle moves to the left with speed `s`. -/
def squeezeWorld (r1 r r2 s : ℝ) : World (Option Mat) Unit :=
  { t := 0, dt := 1, eps := 0, tol := 0, post_stab := false, strict_no_pen := true,
    bodies := squeezeBodies r1 r r2,
    joints := [mkTotal (squeezeBodies r1 r r2) 0, mkTotal (squeezeBodies r1 r r2) 2],
    v := fun k => if k = 4 then -s else 0, contacts := squeezeContacts, eng := none, fnd := () }

/-- The contacts are those of the real search. -/
example : circleCircle 0 1 1 (0, 0) (-2, 0) =
    [{ normal := (1, 0), p1 := (-1, 0), p2 := (1, 0), pen := 0, nan := false }] := by
  have h : nrm ((0, 0) - (-2, 0) : V2) = 2 := by
    rw [show ((0, 0) - (-2, 0) : V2) = (2, 0) by ext <;> simp]
    unfold nrm; simp
  simp only [circleCircle, h]
  norm_num [Pt.mk.injEq]

/-- C74: a ball that touches two fixed walls and moves towards the one with the larger restitution.
The first wall asks for a rebound, the second forbids it: no velocity is feasible, whatever the masses
of impulses; every velocity violates one of the two bounds by at least `s (r1 - r2) / 4`. -/
theorem C74_mixed_restitution_infeasible (r1 r r2 s : ℝ) (hr : r2 < r1) (hs : 0 < s) :
    ¬Feasible (squeezeWorld r1 r r2 s).bodies (squeezeWorld r1 r r2 s).joints
      (squeezeWorld r1 r r2 s).contacts (squeezeWorld r1 r r2 s).v ∧
    ∀ u : Vec, (∀ x ∈ jointVels (squeezeWorld r1 r r2 s).joints u, x = 0) →
      ∃ c ∈ (squeezeWorld r1 r r2 s).contacts,
        normalVel c u + meanRestitution (squeezeWorld r1 r r2 s).bodies c *
          normalVel c (squeezeWorld r1 r r2 s).v ≤ -(s * (r1 - r2) / 4) := by
  have key : ∀ u : Vec, (∀ x ∈ jointVels (squeezeWorld r1 r r2 s).joints u, x = 0) →
      ∃ c ∈ (squeezeWorld r1 r r2 s).contacts,
        normalVel c u + meanRestitution (squeezeWorld r1 r r2 s).bodies c *
          normalVel c (squeezeWorld r1 r r2 s).v ≤ -(s * (r1 - r2) / 4) := by
    intro u hu
    simp [squeezeWorld, jointVels, jointVel, mkTotal, twist] at hu
    obtain ⟨h1, h2, h3, h4, h5, h6⟩ := hu
    by_contra hcon
    push Not at hcon
    have c1 := hcon _ (List.mem_cons_self ..)
    have c2 := hcon _ (List.mem_cons_of_mem _ (List.mem_cons_self ..))
    simp [squeezeWorld, squeezeBodies, normalVel, contactVel, pointVel, twist, Spec.inner,
      meanRestitution, bodyAt, unitCircle, h1, h2, h3, h4, h5, h6] at c1 c2
    nlinarith
  refine ⟨?_, key⟩
  rintro ⟨u, hu, hc⟩
  obtain ⟨c, hmem, hle⟩ := key u hu
  have := hc c hmem
  have : 0 < s * (r1 - r2) / 4 := by
    have := mul_pos hs (sub_pos.2 hr)
    linarith
  linarith

/-- C74: so every exact solver raises on this world; no solver at all can return a velocity that obeys
the restitution law. -/
theorem C74_mixed_restitution_raises (H : ForceHeap) (lcp : LcpSolver) (hx : Exact lcp) (mi : ℕ)
    (r1 r r2 s dt : ℝ) (hr : r2 < r1) (hs : 0 < s) :
    ∃ err, pdipmSolve 2 H lcp mi (squeezeWorld r1 r r2 s) dt = .error err := by
  refine C74_exact_engine_raises H lcp hx mi _ dt ?_ ?_ ?_
    (C74_mixed_restitution_infeasible r1 r r2 s hr hs).1
  · intro j hj
    simp [squeezeWorld, mkTotal] at hj
    rcases hj with rfl | rfl <;> simp [squeezeWorld, squeezeBodies]
  · intro c hc
    simp [squeezeWorld, squeezeContacts] at hc
    rcases hc with rfl | rfl <;> simp [squeezeWorld, squeezeBodies]
  · intro inv h
    simp [squeezeWorld] at h

/-! ## Instances -/

/-- The same ball between walls of equal restitution: exactly one velocity results. -/
example (r s : ℝ) (f : ℕ → V3) : ∃ v' l pn a b g,
    ContactLaw (squeezeWorld r r r s).bodies (squeezeWorld r r r s).joints (squeezeWorld r r r s).contacts
      f (squeezeWorld r r r s).v v' l pn a b g := by
  obtain ⟨v', l, pn, a, b, g, h, -⟩ := C74_common_restitution (squeezeWorld r r r s)
    (by
      intro j hj
      simp [squeezeWorld, mkTotal] at hj
      rcases hj with rfl | rfl <;> simp [squeezeWorld, squeezeBodies])
    (by
      intro c hc
      simp [squeezeWorld, squeezeContacts] at hc
      rcases hc with rfl | rfl <;> simp [squeezeWorld, squeezeBodies])
    (by
      intro b hb
      simp [squeezeWorld, squeezeBodies] at hb
      rcases hb with rfl | rfl | rfl <;> simp [unitCircle])
    (by
      intro c hc
      simp [squeezeWorld, squeezeContacts] at hc
      rcases hc with rfl | rfl <;> simp [squeezeWorld, squeezeBodies, meanFriction, bodyAt, unitCircle])
    r
    (by
      intro c hc
      simp [squeezeWorld, squeezeContacts] at hc
      rcases hc with rfl | rfl <;> simp [squeezeWorld, squeezeBodies, meanRestitution, bodyAt, unitCircle])
    (by simp [squeezeWorld, jointVels, jointVel, mkTotal, twist]) f
  exact ⟨v', l, pn, a, b, g, h⟩

end LcpPhysics
