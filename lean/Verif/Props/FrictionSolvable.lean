import Verif.Lemmas.FrictionExists
import Verif.Props.Solvable
import Verif.Props.FrictionWitness
import Verif.Props.CircleWorld

/-!
# C74: contact problems with friction that have a solution

With friction the problem is neither monotone nor are its solutions unique (C43), yet a solution exists
whenever some velocity satisfies the joints and lets every contact separate within its friction cone.
-/

noncomputable section

namespace LcpPhysics
open Spec

variable {σ φ : Type}

/-- Some velocity satisfies the joints and at each contact exceeds the restitution bound by the friction
coefficient times its slip. -/
def ConeFeasible (bs : List Body) (js : List Joint) (cs : List Contact) (v : Vec) : Prop :=
  ∃ u : Vec, (∀ r ∈ jointVels js u, r = 0) ∧ ∀ c ∈ cs,
    meanFriction bs c * |slipVel c u| ≤ normalVel c u + meanRestitution bs c * normalVel c v

/-- Some velocity satisfies the joints and separates every contact strictly within its friction cone. -/
def Separable (bs : List Body) (js : List Joint) (cs : List Contact) : Prop :=
  ∃ u : Vec, (∀ r ∈ jointVels js u, r = 0) ∧ ∀ c ∈ cs, meanFriction bs c * |slipVel c u| < normalVel c u

/-- C74: with any non-negative friction, a contact problem that is feasible within the friction cones has a
solution. -/
theorem C74_friction_solvable (w : World σ φ) (hj : JointsOk w) (hc : ContactsOk w)
    (hpos : ∀ b ∈ w.bodies, 0 < b.mass ∧ 0 < b.ang_inertia)
    (hmu : ∀ c ∈ w.contacts, 0 ≤ meanFriction w.bodies c) (f : ℕ → V3)
    (hf : ConeFeasible w.bodies w.joints w.contacts w.v) :
    ∃ v' l pn a b g, ContactLaw w.bodies w.joints w.contacts f w.v v' l pn a b g := by
  obtain ⟨u0, hu1, hu2⟩ := hf
  set n := 3 * w.bodies.length with hn
  set m := w.contacts.length with hm
  let F : Vec := fun k => if k % 3 = 0 then (f (k / 3)).r else if k % 3 = 1 then (f (k / 3)).x
    else (f (k / 3)).y
  have hF : ∀ i < w.bodies.length,
      F (3 * i) = (f i).r ∧ F (3 * i + 1) = (f i).x ∧ F (3 * i + 2) = (f i).y := fun i _ => by
    refine ⟨?_, ?_, ?_⟩
    · simp [F]
    · have h1 : (3 * i + 1) % 3 = 1 := by omega
      have h2 : (3 * i + 1) / 3 = i := by omega
      simp [F, h1, h2]
    · have h1 : (3 * i + 2) % 3 = 2 := by omega
      have h2 : (3 * i + 2) / 3 = i := by omega
      simp [F, h1, h2]
  let Jf := JfLoop w.contacts 0 fun _ _ => 0
  have hJ : w.Jf 2 = .ok Jf := by simp [World.Jf, Jf]
  have key : ∀ (C : Mat) (x : Vec) (i : ℕ), form (fun k : Fin n => C i k) (fun k => x k) = mv C n x i :=
    fun C x i => by rw [form_apply, mv, ← Fin.sum_univ_eq_sum_range (fun k => C i k * x k) n]
  have keyN : ∀ (x : Vec) (i : Fin m), form (fun k : Fin n => w.Jc i k) (fun k => x k) =
      normalVel w.contacts[i] x := fun x i => by
    rw [key]; exact C33_normal_jacobian w hc x i i.2
  have keyT : ∀ (x : Vec) (i : Fin m), form (fun k : Fin n => Jf (2 * i) k) (fun k => x k) =
      slipVel w.contacts[i] x := fun x i => by
    rw [key]; exact (C33_friction_jacobian w hc Jf hJ x i i.2).1
  obtain ⟨u, a, c, l, hdyn, hjz, hcon⟩ := exists_friction (n := n) (ι := Fin m)
    (κ := Fin w.num_constraints) (fun k => massDiag w.bodies k) (fun k => mv w.M n w.v k + F k)
    (fun k => massDiag_pos w hpos k k.2) (fun i k => w.Jc i k) (fun i k => Jf (2 * i) k)
    (fun i k => w.Je i k) (fun i => -(meanRestitution w.bodies w.contacts[i] * normalVel w.contacts[i] w.v))
    (fun i => meanFriction w.bodies w.contacts[i]) (fun i => hmu _ (List.getElem_mem _)) (fun k => u0 k)
    (fun i => by
      rw [key]
      exact (C32_kernel w hj u0).2 (fun j hj' x hx => hu1 x (List.mem_flatMap.2 ⟨j, hj', hx⟩)) i i.2)
    (fun i => by
      rw [keyN, keyT]
      have := hu2 _ (List.getElem_mem i.2)
      simp only [Fin.getElem_fin] at this ⊢
      linarith)
  let ext {N : ℕ} (v : Fin N → ℝ) : Vec := fun k => if hk : k < N then v ⟨k, hk⟩ else 0
  have hext : ∀ {N : ℕ} (v : Fin N → ℝ) (k : Fin N), ext v k = v k := fun v k => by simp [ext]
  have hx : (fun k : Fin n => ext u k) = u := funext fun k => hext u k
  have hN : ∀ i : Fin m, form (fun k : Fin n => w.Jc i k) u = normalVel w.contacts[i] (ext u) := fun i => by
    rw [← keyN, hx]
  have hT : ∀ i : Fin m, form (fun k : Fin n => Jf (2 * i) k) u = slipVel w.contacts[i] (ext u) := fun i => by
    rw [← keyT, hx]
  have hA : ∀ i : Fin w.num_constraints, form (fun k : Fin n => w.Je i k) u = mv w.Je n (ext u) i := fun i => by
    rw [← key, hx]
  let mu : Fin m → ℝ := fun i => meanFriction w.bodies w.contacts[i]
  refine ⟨ext u, ext l, ext fun i => a i + c i, ext fun i => mu i * c i, ext fun i => mu i * a i,
    ext fun i : Fin m => |slipVel w.contacts[i] (ext u)|, ?_, ?_, ?_, ?_, ?_, ?_⟩
  · intro x
    have h1 : ∀ k : Fin n, mv w.M n (ext u) k = mv w.M n w.v k + F k + tmv w.Jc m (ext fun i => a i + c i) k +
        tmv (fun i j => Jf (2 * i) j) m (ext fun i => mu i * c i - mu i * a i) k +
        tmv w.Je w.num_constraints (ext l) k := fun k => by
      have := hdyn k
      rw [mv_M_diag w (ext u) k k.2, hext, this]
      simp only [tmv]
      rw [← Fin.sum_univ_eq_sum_range (fun i => w.Jc i k * ext (fun i => a i + c i) i) m,
        ← Fin.sum_univ_eq_sum_range (fun i => Jf (2 * i) k * ext (fun i => mu i * c i - mu i * a i) i) m,
        ← Fin.sum_univ_eq_sum_range (fun i => w.Je i k * ext l i) w.num_constraints]
      simp only [hext]
      have e1 : ∑ i, a i * (w.Jc i k - mu i * Jf (2 * i) k) + ∑ i, c i * (w.Jc i k + mu i * Jf (2 * i) k) =
          ∑ i : Fin m, w.Jc i k * (a i + c i) + ∑ i : Fin m, Jf (2 * i) k * (mu i * c i - mu i * a i) := by
        rw [← Finset.sum_add_distrib, ← Finset.sum_add_distrib]
        exact Finset.sum_congr rfl fun i _ => by ring
      have e2 : ∑ j, l j * w.Je j k = ∑ j : Fin w.num_constraints, w.Je j k * l j :=
        Finset.sum_congr rfl fun i _ => by ring
      simp only [mu] at e1 ⊢
      linarith
    have h2 : ∑ k ∈ Finset.range n, x k * tmv w.Jc m (ext fun i => a i + c i) k +
        ∑ k ∈ Finset.range n, x k * tmv (fun i j => Jf (2 * i) j) m (ext fun i => mu i * c i - mu i * a i) k =
        contactPower w.contacts (ext fun i => a i + c i)
          (fun i => ext (fun i => mu i * c i) i - ext (fun i => mu i * a i) i) x := by
      rw [adjoint, adjoint, ← Finset.sum_add_distrib]
      unfold contactPower
      refine Finset.sum_congr rfl fun i hi => ?_
      have hi := Finset.mem_range.1 hi
      have e1 : mv (fun i j => Jf (2 * i) j) n x i = slipVel w.contacts[i] x :=
        (C33_friction_jacobian w hc Jf hJ x i hi).1
      rw [C33_normal_jacobian w hc _ i hi, e1, List.getElem?_eq_getElem hi]
      have hi' : i < m := hi
      simp [ext, hi']
    rw [← h2, ← sum_Je w hj, ← sum_force _ f F x hF, ← sum_mv_M, ← sum_mv_M]
    have h3 : ∑ k ∈ Finset.range n, x k * mv w.M n (ext u) k = ∑ k ∈ Finset.range n,
        x k * (mv w.M n w.v k + F k + tmv w.Jc m (ext fun i => a i + c i) k +
        tmv (fun i j => Jf (2 * i) j) m (ext fun i => mu i * c i - mu i * a i) k +
        tmv w.Je w.num_constraints (ext l) k) :=
      Finset.sum_congr rfl fun k hk => by rw [h1 ⟨k, Finset.mem_range.1 hk⟩]
    simp only [mul_add, Finset.sum_add_distrib] at h3
    linarith
  · intro r hr
    obtain ⟨j, hj', hr⟩ := List.mem_flatMap.1 hr
    refine (C32_kernel w hj (ext u)).1 (fun i hi => ?_) j hj' r hr
    have := hjz ⟨i, hi⟩
    rw [hA] at this
    exact this
  · intro i hi
    obtain ⟨h1, h2, -⟩ := hcon ⟨i, hi⟩
    have hmi := hmu _ (List.getElem_mem hi)
    have hi' : i < m := hi
    simp only [ext, dif_pos hi']
    exact ⟨add_nonneg h1 h2, mul_nonneg hmi h2, mul_nonneg hmi h1, abs_nonneg _⟩
  · intro i hi
    obtain ⟨h1, h2, h3, h4, h5⟩ := hcon ⟨i, hi⟩
    have hi' : i < m := hi
    rw [hN] at h3 h4 h5
    simp only [Fin.getElem_fin] at h3 h4 h5
    refine ⟨by linarith, ?_⟩
    simp only [ext, dif_pos hi']
    rcases h1.eq_or_lt with ha | ha
    · rcases h2.eq_or_lt with hb | hb
      · rw [← ha, ← hb]; simp
      · have := (h5 hb).1
        simp only [ext] at this
        rw [this]; ring
    · have := (h4 ha).1
      simp only [ext] at this
      rw [this]; ring
  · intro i hi
    obtain ⟨h1, h2, h3, h4, h5⟩ := hcon ⟨i, hi⟩
    have hi' : i < m := hi
    rw [hT] at h4 h5
    simp only [Fin.getElem_fin] at h4 h5
    have g : ext (fun i : Fin m => |slipVel w.contacts[i] (ext u)|) i = |slipVel w.contacts[i] (ext u)| :=
      hext (fun i : Fin m => |slipVel w.contacts[i] (ext u)|) ⟨i, hi'⟩
    have ga : ext (fun i => mu i * a i) i = mu ⟨i, hi'⟩ * a ⟨i, hi'⟩ :=
      hext (fun i => mu i * a i) ⟨i, hi'⟩
    have gc : ext (fun i => mu i * c i) i = mu ⟨i, hi'⟩ * c ⟨i, hi'⟩ :=
      hext (fun i => mu i * c i) ⟨i, hi'⟩
    rw [g, ga, gc]
    refine ⟨?_, ?_, ?_, ?_⟩
    · linarith [neg_abs_le (slipVel w.contacts[i] (ext u))]
    · rcases h2.eq_or_lt with hb | hb
      · rw [← hb]; ring
      · rw [abs_of_nonpos (h5 hb).2]; ring
    · linarith [le_abs_self (slipVel w.contacts[i] (ext u))]
    · rcases h1.eq_or_lt with hb | hb
      · rw [← hb]; ring
      · rw [abs_of_nonneg (h4 hb).2]; ring
  · intro i hi
    have hi' : i < m := hi
    have ga : ext (fun i => mu i * a i) i = mu ⟨i, hi'⟩ * a ⟨i, hi'⟩ :=
      hext (fun i => mu i * a i) ⟨i, hi'⟩
    have gc : ext (fun i => mu i * c i) i = mu ⟨i, hi'⟩ * c ⟨i, hi'⟩ :=
      hext (fun i => mu i * c i) ⟨i, hi'⟩
    have gp : ext (fun i => a i + c i) i = a ⟨i, hi'⟩ + c ⟨i, hi'⟩ :=
      hext (fun i => a i + c i) ⟨i, hi'⟩
    rw [ga, gc, gp]
    have e : meanFriction w.bodies w.contacts[i] * (a ⟨i, hi'⟩ + c ⟨i, hi'⟩) -
        (mu ⟨i, hi'⟩ * c ⟨i, hi'⟩ + mu ⟨i, hi'⟩ * a ⟨i, hi'⟩) = 0 := by
      simp only [mu, Fin.getElem_fin]; ring
    rw [e]; simp

theorem slipVel_smul (c : Contact) (a : ℝ) (v : Vec) :
    slipVel c (fun k => a * v k) = a * slipVel c v := by
  simp only [slipVel, contactVel, pointVel, twist, Spec.inner, Prod.fst_sub, Prod.snd_sub]; ring

theorem jointVels_smul (w : World σ φ) (hj : JointsOk w) (a : ℝ) (v : Vec)
    (h : ∀ r ∈ jointVels w.joints v, r = 0) : ∀ r ∈ jointVels w.joints (fun k => a * v k), r = 0 := by
  intro r hr
  obtain ⟨j, hj', hr⟩ := List.mem_flatMap.1 hr
  refine (C32_kernel w hj fun k => a * v k).1 (fun i hi => ?_) j hj' r hr
  have : mv w.Je (3 * w.bodies.length) v i = 0 :=
    (C32_kernel w hj v).2 (fun j hj' x hx => h x (List.mem_flatMap.2 ⟨j, hj', hx⟩)) i hi
  unfold mv at this ⊢
  simp only [mul_left_comm _ a]
  rw [← Finset.mul_sum, this, mul_zero]

/-- C74: if all approaching contacts are inelastic the problem is solvable, with any friction, any joints and any
forces. -/
theorem C74_friction_inelastic (w : World σ φ) (hj : JointsOk w) (hc : ContactsOk w)
    (hpos : ∀ b ∈ w.bodies, 0 < b.mass ∧ 0 < b.ang_inertia)
    (hmu : ∀ c ∈ w.contacts, 0 ≤ meanFriction w.bodies c)
    (he : ∀ c ∈ w.contacts, 0 ≤ meanRestitution w.bodies c * normalVel c w.v) (f : ℕ → V3) :
    ∃ v' l pn a b g, ContactLaw w.bodies w.joints w.contacts f w.v v' l pn a b g := by
  refine C74_friction_solvable w hj hc hpos hmu f ⟨fun _ => 0, fun r hr => ?_, fun c hc' => ?_⟩
  · obtain ⟨j, hj', hr⟩ := List.mem_flatMap.1 hr
    refine (C32_kernel w hj fun _ => 0).1 (fun i _ => ?_) j hj' r hr
    simp [mv]
  · have h1 := normalVel_smul c 0 (fun _ => 0)
    have h2 := slipVel_smul c 0 (fun _ => 0)
    simp only [mul_zero, zero_mul] at h1 h2
    rw [h1, h2]
    have := he c hc'
    simpa using this

/-- C74: if the contacts can be separated within their friction cones the problem is solvable for all velocities,
restitutions and forces. -/
theorem C74_friction_separable (w : World σ φ) (hj : JointsOk w) (hc : ContactsOk w)
    (hpos : ∀ b ∈ w.bodies, 0 < b.mass ∧ 0 < b.ang_inertia)
    (hmu : ∀ c ∈ w.contacts, 0 ≤ meanFriction w.bodies c)
    (hs : Separable w.bodies w.joints w.contacts) (f : ℕ → V3) :
    ∃ v' l pn a b g, ContactLaw w.bodies w.joints w.contacts f w.v v' l pn a b g := by
  obtain ⟨u, hu1, hu2⟩ := hs
  obtain ⟨s, hs0, hs⟩ : ∃ s : ℝ, 0 ≤ s ∧ ∀ c ∈ w.contacts,
      -(meanRestitution w.bodies c * normalVel c w.v) ≤
        s * (normalVel c u - meanFriction w.bodies c * |slipVel c u|) := by
    generalize w.contacts = cs at hu2
    clear hmu hc
    induction cs with
    | nil => exact ⟨0, le_rfl, by simp⟩
    | cons c cs ih =>
      obtain ⟨s, hs0, hs⟩ := ih fun c hc => hu2 c (List.mem_cons_of_mem _ hc)
      have hgap : ∀ c' ∈ c :: cs, 0 < normalVel c' u - meanFriction w.bodies c' * |slipVel c' u| :=
        fun c' hc' => by linarith [hu2 c' hc']
      set x := -(meanRestitution w.bodies c * normalVel c w.v) with hx
      set g := normalVel c u - meanFriction w.bodies c * |slipVel c u| with hg
      have hg0 : 0 < g := hgap c (List.mem_cons_self ..)
      refine ⟨max s (x / g), le_max_of_le_left hs0, fun c' hc' => ?_⟩
      rcases List.mem_cons.1 hc' with rfl | h
      · have := le_max_right s (x / g)
        rwa [div_le_iff₀ hg0] at this
      · exact (hs c' h).trans (mul_le_mul_of_nonneg_right (le_max_left _ _) (hgap c' hc').le)
  refine C74_friction_solvable w hj hc hpos hmu f ⟨fun k => s * u k, jointVels_smul w hj s u hu1, fun c hc' => ?_⟩
  rw [normalVel_smul, slipVel_smul, abs_mul, abs_of_nonneg hs0]
  have := hs c hc'
  linarith

/-! ## Circles -/

/-- C74: jointless circles with their contacts as the contact search reports them: the contact problem always has a
solution, whatever the friction and restitution coefficients, velocities and forces. -/
theorem C74_circles_solvable (fuel : ℕ) (nc : ℕ → List ℕ) (pairs : List Body → List (ℕ × ℕ))
    (hp : BroadPhase pairs) (w : World (Option Mat) Finder) (h : CircleScene fuel nc pairs w)
    (hjs : w.joints = []) (hpos : ∀ b ∈ w.bodies, 0 < b.mass ∧ 0 < b.ang_inertia)
    (hmu : ∀ b ∈ w.bodies, 0 ≤ b.fric_coeff) (f : ℕ → V3) :
    ∃ v' l pn a b g, ContactLaw w.bodies w.joints w.contacts f w.v v' l pn a b g := by
  have hok := h.contactsOk hp
  refine C74_friction_separable w h.joints hok hpos (fun c hc => ?_) ⟨fieldOf fun i =>
    ⟨0, (bodyAt w.bodies i).pos.1, (bodyAt w.bodies i).pos.2⟩, by simp [hjs, jointVels], fun c hc => ?_⟩ f
  · obtain ⟨h1, h2, -, -⟩ := hok c hc
    have e1 := hmu _ (bodyAt_mem h1)
    have e2 := hmu _ (bodyAt_mem h2)
    unfold meanFriction; linarith
  · obtain ⟨v1, v2, v3, -⟩ := hok c hc
    have hpen := h.nopen c hc
    have hrad := h.radii _ v1 _ v2 v3
    have hc' := hc
    rw [h.contacts_eq hp] at hc'
    obtain ⟨-, -, h3, h4, h5, h6, -⟩ := circleContacts_mem hc'
    set d := Spec.dist (bodyAt w.bodies c.i1).pos (bodyAt w.bodies c.i2).pos with hd
    have hd0 : 0 < d := by
      rw [h3, overlapDepth, ← hd] at hpen
      linarith
    obtain ⟨s1, h5⟩ := h5
    obtain ⟨s2, h6⟩ := h6
    have hd2 : d * d = Spec.inner ((bodyAt w.bodies c.i1).pos - (bodyAt w.bodies c.i2).pos)
        ((bodyAt w.bodies c.i1).pos - (bodyAt w.bodies c.i2).pos) := by
      rw [hd]; unfold Spec.dist; exact len_mul_self _
    have hsl : slipVel c (fieldOf fun i => ⟨0, (bodyAt w.bodies i).pos.1, (bodyAt w.bodies i).pos.2⟩) = 0 := by
      simp only [slipVel, contactVel, twist_fieldOf, pointVel, Spec.inner, tangent, Prod.fst_sub, Prod.snd_sub]
      rw [h4]
      simp only [Prod.fst_sub, Prod.snd_sub, Prod.smul_fst, Prod.smul_snd, smul_eq_mul]
      ring
    have hnv : normalVel c (fieldOf fun i => ⟨0, (bodyAt w.bodies i).pos.1, (bodyAt w.bodies i).pos.2⟩) = d := by
      have e : normalVel c (fieldOf fun i => ⟨0, (bodyAt w.bodies i).pos.1, (bodyAt w.bodies i).pos.2⟩) =
          1 / d * (d * d) := by
        rw [hd2]
        simp only [normalVel, contactVel, twist_fieldOf, pointVel, Spec.inner, Prod.fst_sub, Prod.snd_sub]
        rw [h4]
        simp only [Prod.fst_sub, Prod.snd_sub, Prod.smul_fst, Prod.smul_snd, smul_eq_mul]
        ring
      rw [e]; field_simp
    rw [hsl, hnv]
    simpa using hd0

/-- The forces on all bodies can be evaluated at all times. -/
def ForcesOk (H : ForceHeap) (n : ℕ) : Prop := ∀ t, ∃ fl, forceCat H t n = .ok fl

/-- C74: an exact solver answers in every such world. -/
theorem C74_circles_engine_answers (fuel : ℕ) (nc : ℕ → List ℕ) (pairs : List Body → List (ℕ × ℕ))
    (hp : BroadPhase pairs) (H : ForceHeap) (mi : ℕ) (w : World (Option Mat) Finder)
    (h : CircleScene fuel nc pairs w) (hjs : w.joints = [])
    (hpos : ∀ b ∈ w.bodies, 0 < b.mass ∧ 0 < b.ang_inertia) (hmu : ∀ b ∈ w.bodies, 0 ≤ b.fric_coeff)
    (hH : ForcesOk H w.bodies.length) (dt : ℝ) : ∃ r, pdipmSolve 2 H exactLcp mi w dt = .ok r := by
  obtain ⟨fl, hfl⟩ := hH w.t
  by_cases hne : w.contacts = []
  · exact C35_no_contact_succeeds 2 H exactLcp mi w dt h.joints hpos
      (by intro l _ r hr; simp [World.num_constraints, hjs] at hr) hne fl hfl
  · obtain ⟨v', l, pn, a, b, g, hl⟩ := C74_circles_solvable fuel nc pairs hp w h hjs hpos hmu (impulse fl dt)
    exact (C74_exact_engine_returns H mi w dt h.joints (h.contactsOk hp) hne fl hfl v' l pn a b g hl).2

/-- C27: jointless circles without restitution, with any friction and forces: from every state the world can reach,
every step returns and no overlap beyond `tol` ever occurs. -/
theorem C27_inelastic_circles_run (fuel : ℕ) (nc : ℕ → List ℕ) (hnc : ∀ i j, i ∈ nc j → j ∈ nc i)
    (pairs : List Body → List (ℕ × ℕ)) (hp : BroadPhase pairs) (H : ForceHeap) (mi : ℕ)
    (w0 w : World (Option Mat) Finder) (h : CircleScene fuel nc pairs w0) (hjs : w0.joints = [])
    (hb : ∀ b ∈ w0.bodies, 0 < b.mass ∧ 0 < b.ang_inertia ∧ 0 ≤ b.fric_coeff ∧ b.restitution = 0)
    (hH : ForcesOk H w0.bodies.length)
    (hr : Reaches (pdipmEnv 2 H exactLcp mi (diffCollide fuel nc pairs)) w0 w) (dt : ℝ) (hdt : 0 ≤ dt) :
    ∃ n w', w.step_dt (pdipmEnv 2 H exactLcp mi (diffCollide fuel nc pairs)) n dt = .done w' ∧
      NoOverlap nc w'.tol w'.bodies := by
  have h' := circleScene_reaches h hr
  have hst := (reaches_statics h.good hr).2
  have hb' : ∀ b ∈ w.bodies, 0 < b.mass ∧ 0 < b.ang_inertia ∧ 0 ≤ b.fric_coeff ∧ b.restitution = 0 := by
    intro b hbm
    have : b.consts ∈ w0.bodies.map Body.consts := hst.1 ▸ List.mem_map.2 ⟨b, hbm, rfl⟩
    obtain ⟨b0, hb0, hcon⟩ := List.mem_map.1 this
    have := hb b0 hb0
    simp only [Body.consts, Prod.mk.injEq] at hcon
    obtain ⟨e1, e2, e3, e4⟩ := hcon
    rw [e1, e2, e3, e4] at this
    exact this
  have hlen : w.bodies.length = w0.bodies.length := by
    simpa using congrArg List.length hst.1
  have hjs' : w.joints = [] := by
    have := congrArg List.length hst.2
    rw [hjs] at this
    simpa using this
  obtain ⟨r, hsolve⟩ := C74_circles_engine_answers fuel nc pairs hp H mi w h' hjs'
    (fun b hbm => ⟨(hb' b hbm).1, (hb' b hbm).2.1⟩) (fun b hbm => (hb' b hbm).2.2.1) (hlen ▸ hH) dt
  obtain ⟨n, w', hs⟩ := C27_inelastic_never_hangs fuel nc hnc pairs hp H exactLcp exactLcp_exact mi w0 w h
    (fun b hbm => (hb b hbm).2.2.2) hr dt hdt r hsolve
  exact ⟨n, w', hs, C27_never_interpenetrate fuel nc hnc pairs hp H exactLcp mi w0 w' h (hr.tail ⟨n, dt, hs⟩)⟩

/-! ## Instances -/

/-- The corner contact of `C43_friction_not_unique` with any friction and restitution: although not unique, a
solution exists for every velocity and every force. -/
example (e mu : ℝ) (hmu : 0 ≤ mu) (v : Vec) (f : ℕ → V3) : ∃ v' l pn a b g,
    ContactLaw (cornerBodies e mu) [mkTotal (cornerBodies e mu) 0] [corner] f v v' l pn a b g := by
  refine C74_friction_separable (σ := Unit) (φ := Unit)
    { t := 0, dt := 1, eps := 0, tol := 0, post_stab := false, strict_no_pen := true,
      bodies := cornerBodies e mu, joints := [mkTotal (cornerBodies e mu) 0], v := v, contacts := [corner],
      eng := (), fnd := () } ?_ ?_ ?_ ?_ ?_ f
  · intro j hj
    simp [mkTotal] at hj
    subst hj
    simp [cornerBodies]
  · intro c hc
    simp at hc
    subst hc
    simp [corner, cornerBodies]
  · intro b hb
    simp [cornerBodies] at hb
    rcases hb with rfl | rfl <;> simp [boxBody, pivot, mkCircle, circleInertia]
  · intro c hc
    simp at hc
    subst hc
    rw [corner_fric]; exact hmu
  · refine ⟨cornerVel 0 0 (-1), by simp [jointVels, jointVel, mkTotal, twist, cornerVel], ?_⟩
    intro c hc
    simp at hc
    subst hc
    rw [corner_slip, corner_normal]
    simp

theorem hangForces_ok : ForcesOk hangForces 2 := fun t => ⟨_, hang_forces t⟩

/-- The pushed circles of `C27_strict_can_hang`, now without restitution: every step returns. -/
example (fuel mi : ℕ) (fnd : Finder) (w : World (Option Mat) Finder)
    (hr : Reaches (pdipmEnv 2 hangForces exactLcp mi (diffCollide fuel (fun _ => []) allPairs)) (hangWorld 0 fnd) w)
    (dt : ℝ) (hdt : 0 ≤ dt) :=
  C27_inelastic_circles_run fuel (fun _ => []) (by simp) allPairs allPairs_broad hangForces mi (hangWorld 0 fnd) w
    (hang_scene fuel mi 0 fnd) rfl
    (by
      intro b hb
      simp only [hangWorld, hangBodies, List.mem_cons, List.not_mem_nil, or_false] at hb
      rcases hb with rfl | rfl <;> simp [mkCircle, circleInertia]) hangForces_ok hr dt hdt

end LcpPhysics
