import Verif.Spec.Image
import Verif.Props.Lockstep

/-!
# C114: the order in which the bodies are listed, and left and right, do not matter
-/

noncomputable section

namespace LcpPhysics
open Spec

/-! ## Velocities of the image, read in the original -/

/-- The velocities of the original that `v` is the image of (if `m * m = 1`). -/
def pull (m : ℝ) (p : Equiv.Perm ℕ) (v : Vec) : Vec :=
  fun k => (if k % 3 = 2 then 1 else m) * v (3 * p (k / 3) + k % 3)

theorem twist_pull (m : ℝ) (p : Equiv.Perm ℕ) (v : Vec) (i : ℕ) : twist (pull m p v) i = mirT m (twist v (p i)) := by
  have h0 : 3 * i % 3 = 0 := by omega
  have h1 : (3 * i + 1) % 3 = 1 := by omega
  have h2 : (3 * i + 2) % 3 = 2 := by omega
  have e0 : 3 * i / 3 = i := by omega
  have e1 : (3 * i + 1) / 3 = i := by omega
  have e2 : (3 * i + 2) / 3 = i := by omega
  unfold twist pull mirT
  simp only [h0, h1, h2, e0, e1, e2]
  norm_num

theorem vec_ext_twist {v w : Vec} (h : ∀ i, twist v i = twist w i) : v = w := by
  funext k
  have hk := h (k / 3)
  unfold twist at hk
  simp only [V3.mk.injEq] at hk
  have : k = 3 * (k / 3) ∨ k = 3 * (k / 3) + 1 ∨ k = 3 * (k / 3) + 2 := by omega
  rcases this with e | e | e <;> rw [e]
  exacts [hk.1, hk.2.1, hk.2.2]

theorem coords_of_twist {n : ℕ} {v w : Vec} (h : ∀ i < n, twist w i = twist v i) : ∀ k < 3 * n, w k = v k := by
  intro k hk
  have hk := h (k / 3) (by omega)
  unfold twist at hk
  simp only [V3.mk.injEq] at hk
  have : k = 3 * (k / 3) ∨ k = 3 * (k / 3) + 1 ∨ k = 3 * (k / 3) + 2 := by omega
  rcases this with e | e | e <;> rw [e]
  exacts [hk.1, hk.2.1, hk.2.2]

theorem mirT_mirT {m : ℝ} (hm : m * m = 1) (a : V3) : mirT m (mirT m a) = a := by
  unfold mirT
  apply V3.ext <;> simp only <;> try rw [← mul_assoc, hm, one_mul]

theorem mirV_mirV {m : ℝ} (hm : m * m = 1) (a : V2) : mirV m (mirV m a) = a := by
  unfold mirV
  ext <;> simp only
  rw [← mul_assoc, hm, one_mul]

theorem pull_push {m : ℝ} (hm : m * m = 1) (p : Equiv.Perm ℕ) (v : Vec) : pull m p (pull m p.symm v) = v :=
  vec_ext_twist fun i => by rw [twist_pull, twist_pull, mirT_mirT hm, Equiv.symm_apply_apply]

theorem pull_sub (m : ℝ) (p : Equiv.Perm ℕ) (v w : Vec) : pull m p (v - w) = pull m p v - pull m p w := by
  funext k; simp only [pull, Pi.sub_apply]; ring

theorem pull_add (m : ℝ) (p : Equiv.Perm ℕ) (v w : Vec) : pull m p (v + w) = pull m p v + pull m p w := by
  funext k; simp only [pull, Pi.add_apply]; ring

theorem velImage_iff {m : ℝ} (hm : m * m = 1) {p : Equiv.Perm ℕ} {n : ℕ} {v v' : Vec} :
    VelImage m p n v v' ↔ ∀ k < 3 * n, pull m p v' k = v k := by
  constructor
  · intro h
    refine coords_of_twist fun i hi => ?_
    rw [twist_pull, h i hi, mirT_mirT hm]
  · intro h i hi
    have := twist_congr h hi
    rw [twist_pull] at this
    rw [← this, mirT_mirT hm]

theorem sum_image {n : ℕ} {p : Equiv.Perm ℕ} (hp : ∀ i, p i < n ↔ i < n) (F : ℕ → ℝ) :
    ∑ i ∈ Finset.range n, F i = ∑ i ∈ Finset.range n, F (p i) := by
  symm
  refine Finset.sum_bij (fun i _ => p i) ?_ ?_ ?_ ?_
  · intro i hi; rw [Finset.mem_range] at hi ⊢; exact (hp i).2 hi
  · intro i _ j _ h; exact p.injective h
  · intro i hi
    rw [Finset.mem_range] at hi
    refine ⟨p.symm i, ?_, Equiv.apply_symm_apply _ _⟩
    rw [Finset.mem_range, ← hp, Equiv.apply_symm_apply]
    exact hi
  · intro i _; rfl

theorem momentum_image {m : ℝ} (hm : m * m = 1) {p : Equiv.Perm ℕ} {bs bs' : List Body}
    (hp : ∀ i, p i < bs.length ↔ i < bs.length) (hlen : bs'.length = bs.length)
    (hb : ∀ i < bs.length, (bodyAt bs' (p i)).mass = (bodyAt bs i).mass ∧
      (bodyAt bs' (p i)).ang_inertia = (bodyAt bs i).ang_inertia) (u v : Vec) :
    momentumPower bs' u v = momentumPower bs (pull m p u) (pull m p v) := by
  unfold momentumPower
  rw [hlen, sum_image hp]
  refine Finset.sum_congr rfl fun i hi => ?_
  obtain ⟨h1, h2⟩ := hb i (Finset.mem_range.1 hi)
  rw [h1, h2, twist_pull, twist_pull]
  simp only [mirT]
  linear_combination (-(bodyAt bs i).ang_inertia * (twist v (p i)).r * (twist u (p i)).r
    - (bodyAt bs i).mass * (twist v (p i)).x * (twist u (p i)).x) * hm

theorem force_image {m : ℝ} {p : Equiv.Perm ℕ} {n : ℕ} (hp : ∀ i, p i < n ↔ i < n) {f f' : ℕ → V3}
    (hf : ∀ i < n, f' (p i) = mirT m (f i)) (u : Vec) : forcePower n f' u = forcePower n f (pull m p u) := by
  unfold forcePower
  rw [sum_image hp]
  refine Finset.sum_congr rfl fun i hi => ?_
  rw [hf i (Finset.mem_range.1 hi), twist_pull]
  simp only [mirT]
  ring

theorem normalVel_image (m : ℝ) (p : Equiv.Perm ℕ) (c : Contact) (u : Vec) :
    normalVel (imageContact m p c) u = normalVel c (pull m p u) := by
  unfold normalVel contactVel
  rw [twist_pull, twist_pull]
  simp only [imageContact, pointVel, mirT, mirV, Spec.inner, Prod.fst_sub, Prod.snd_sub]
  ring

theorem jointVel_image {m : ℝ} (hm : m * m = 1) {p : Equiv.Perm ℕ} {j j' : Joint} (h : JointImage m p j j') (u : Vec) :
    (∀ x ∈ jointVel j' u, x = 0) ↔ ∀ x ∈ jointVel j (pull m p u), x = 0 := by
  obtain ⟨kind, i1, i2, pos, pos1, pos2, r1, rot1, rot2⟩ := j
  obtain ⟨kind', i1', i2', pos', pos1', pos2', r1', rot1', rot2'⟩ := j'
  obtain ⟨h1, h2, h3, h4, h5, h6, -⟩ := h
  simp only at h1 h2 h3 h4 h5 h6
  subst h1 h2 h3 h4 h5 h6
  rcases mul_self_eq_one_iff.1 hm with rfl | rfl <;> cases kind' <;> cases i2 <;>
    simp only [jointVel, twist_pull, mirT, mirV, pointVel, Option.map_none, Option.map_some, List.mem_cons,
      List.not_mem_nil, or_false, forall_eq_or_imp, forall_eq, Prod.fst_sub, Prod.snd_sub, V3.zero_r, V3.zero_x, V3.zero_y] <;>
    constructor <;> intro h <;>
    first
    | linarith
    | exact ⟨by linarith [h.1], by linarith [h.2]⟩
    | exact ⟨by linarith [h.1], by linarith [h.2.1], by linarith [h.2.2]⟩

/-! ## One impact and one correction -/

theorem contacts_pulled {m : ℝ} {p : Equiv.Perm ℕ} {cs cs' : List Contact} (hc : ContactsImage m p cs cs')
    {e e' : Contact → ℝ} (he : ∀ c ∈ cs, e' (imageContact m p c) = e c) (hfl : ∀ c, e' (flipped c) = e' c)
    {w w' : Vec} (h : ∀ c ∈ cs', 0 ≤ normalVel c w' + e' c * normalVel c w) :
    ∀ c ∈ cs, 0 ≤ normalVel c (pull m p w') + e c * normalVel c (pull m p w) := by
  intro c hcm
  rcases hc.1 _ (List.mem_map_of_mem hcm) with h1 | h1
  · have := h _ h1
    rwa [he c hcm, normalVel_image, normalVel_image] at this
  · have := h _ h1
    rwa [normalVel_flipped, normalVel_flipped, hfl, he c hcm, normalVel_image, normalVel_image] at this

theorem contacts_pushed {m : ℝ} (hm : m * m = 1) {p : Equiv.Perm ℕ} {cs cs' : List Contact}
    (hc : ContactsImage m p cs cs') {e e' : Contact → ℝ} (he : ∀ c ∈ cs, e' (imageContact m p c) = e c)
    (hfl : ∀ c, e' (flipped c) = e' c) {x w : Vec}
    (h : ∀ c ∈ cs, 0 ≤ normalVel c x + e c * normalVel c (pull m p w)) :
    ∀ c ∈ cs', 0 ≤ normalVel c (pull m p.symm x) + e' c * normalVel c w := by
  have key : ∀ c ∈ cs, 0 ≤ normalVel (imageContact m p c) (pull m p.symm x) +
      e' (imageContact m p c) * normalVel (imageContact m p c) w := by
    intro c hcm
    rw [he c hcm, normalVel_image, normalVel_image, pull_push hm]
    exact h c hcm
  intro c hcm
  rcases hc.2 c hcm with h1 | h1
  · obtain ⟨c0, h0, rfl⟩ := List.mem_map.1 h1
    exact key c0 h0
  · obtain ⟨c0, h0, h1⟩ := List.mem_map.1 h1
    have := key c0 h0
    rwa [h1, normalVel_flipped, normalVel_flipped, hfl] at this

/-- Two motions of a scene and of its image that obey the same laws are images of each other. -/
theorem image_unique {m : ℝ} (hm : m * m = 1) {p : Equiv.Perm ℕ} {bs bs' : List Body}
    (hp : ∀ i, p i < bs.length ↔ i < bs.length) (hlen : bs'.length = bs.length)
    (hb : ∀ i < bs.length, (bodyAt bs' (p i)).mass = (bodyAt bs i).mass ∧
      (bodyAt bs' (p i)).ang_inertia = (bodyAt bs i).ang_inertia)
    (hpos : ∀ i < bs.length, 0 < (bodyAt bs i).mass ∧ 0 < (bodyAt bs i).ang_inertia)
    {js js' : List Joint} {cs cs' : List Contact} {x w' l l' : Vec} {pn pt pn' pt' : ℕ → ℝ} {K K' : Vec → ℝ}
    (d1 : ∀ u, momentumPower bs u x = K u + jointPower js l u + contactPower cs pn pt u)
    (d2 : ∀ u, momentumPower bs' u w' = K' u + jointPower js' l' u + contactPower cs' pn' pt' u)
    (hK : ∀ u, K' u = K (pull m p u)) (hneg : ∀ u v : Vec, K (u - v) = -K (v - u))
    (j1 : ∀ r ∈ jointVels js (x - pull m p w'), r = 0)
    (j2 : ∀ r ∈ jointVels js' (w' - pull m p.symm x), r = 0)
    (c1 : contactPower cs pn pt (x - pull m p w') ≤ 0)
    (c2 : contactPower cs' pn' pt' (w' - pull m p.symm x) ≤ 0) : VelImage m p bs.length x w' := by
  have e1 := d1 (x - pull m p w')
  have e2 := d2 (w' - pull m p.symm x)
  rw [jointPower_zero js l _ j1] at e1
  rw [jointPower_zero js' l' _ j2, hK, momentum_image hm hp hlen hb, pull_sub, pull_push hm, hneg] at e2
  have e3 : momentumPower bs (pull m p w' - x) (pull m p w') = -momentumPower bs (x - pull m p w') (pull m p w') := by
    unfold momentumPower
    rw [← Finset.sum_neg_distrib]
    refine Finset.sum_congr rfl fun i _ => ?_
    simp only [twist, Pi.sub_apply]
    ring
  have hle : momentumPower bs (x - pull m p w') (x - pull m p w') ≤ 0 := by
    rw [momentumPower_sub bs (x - pull m p w') x (pull m p w')]
    linarith
  rw [velImage_iff hm]
  intro k hk
  have := momentumPower_pos_imp_zero bs hpos _ hle k hk
  simp only [Pi.sub_apply] at this
  linarith

theorem meanRestitution_image {m : ℝ} {p : Equiv.Perm ℕ} {bs bs' : List Body}
    (hb : ∀ i < bs.length, (bodyAt bs' (p i)).restitution = (bodyAt bs i).restitution) {c : Contact}
    (h1 : c.i1 < bs.length) (h2 : c.i2 < bs.length) :
    meanRestitution bs' (imageContact m p c) = meanRestitution bs c := by
  unfold meanRestitution imageContact
  simp only
  rw [hb _ h1, hb _ h2]

theorem jointVel_congr_below {n : ℕ} {v w : Vec} (h : ∀ k < 3 * n, w k = v k) {j : Joint} (h1 : j.i1 < n)
    (h2 : ∀ k ∈ j.i2, k < n) : jointVel j w = jointVel j v := by
  unfold jointVel
  rw [twist_congr h h1]
  cases hi2 : j.i2 with
  | none => rfl
  | some k => simp only; rw [twist_congr h (h2 k hi2)]

/-- C114: the velocities after a frictionless impact of the image are the image of the velocities after the impact. -/
theorem C114_impact (m : ℝ) (hm : m * m = 1) (p : Equiv.Perm ℕ) (bs bs' : List Body)
    (hp : ∀ i, p i < bs.length ↔ i < bs.length) (js js' : List Joint) (cs cs' : List Contact) (f f' : ℕ → V3)
    (v v' w w' l l' : Vec) (pn a b g pn' a' b' g' : ℕ → ℝ) (h1 : ContactLaw bs js cs f v v' l pn a b g)
    (h2 : ContactLaw bs' js' cs' f' w w' l' pn' a' b' g') (hlen : bs'.length = bs.length)
    (hb : ∀ i < bs.length, (bodyAt bs' (p i)).mass = (bodyAt bs i).mass ∧
      (bodyAt bs' (p i)).ang_inertia = (bodyAt bs i).ang_inertia ∧
      (bodyAt bs' (p i)).restitution = (bodyAt bs i).restitution)
    (hpos : ∀ i < bs.length, 0 < (bodyAt bs i).mass ∧ 0 < (bodyAt bs i).ang_inertia)
    (hf : ∀ i < bs.length, f' (p i) = mirT m (f i)) (hv : VelImage m p bs.length v w)
    (hj : JointsImage m p js js') (hc : ContactsImage m p cs cs')
    (hci : ∀ c ∈ cs, c.i1 < bs.length ∧ c.i2 < bs.length)
    (hmu : ∀ c ∈ cs, meanFriction bs c = 0) (hmu' : ∀ c ∈ cs', meanFriction bs' c = 0) :
    VelImage m p bs.length v' w' := by
  have hv' := (velImage_iff hm).1 hv
  have hb2 : ∀ i < bs.length, (bodyAt bs' (p i)).mass = (bodyAt bs i).mass ∧
      (bodyAt bs' (p i)).ang_inertia = (bodyAt bs i).ang_inertia := fun i hi => ⟨(hb i hi).1, (hb i hi).2.1⟩
  have he : ∀ c ∈ cs, meanRestitution bs' (imageContact m p c) = meanRestitution bs c := fun c hcm =>
    meanRestitution_image (fun i hi => (hb i hi).2.2) (hci c hcm).1 (hci c hcm).2
  have up : ∀ c ∈ cs, 0 ≤ normalVel c (pull m p w') + meanRestitution bs c * normalVel c v := by
    intro c hcm
    rw [← normalVel_congr hv' (hci c hcm).1 (hci c hcm).2]
    refine contacts_pulled hc he (meanRestitution_flipped bs') ?_ c hcm
    intro d hd
    obtain ⟨i, hi, rfl⟩ := List.mem_iff_getElem.1 hd
    exact (h2.restitution i hi).1
  have up' : ∀ c ∈ cs', 0 ≤ normalVel c (pull m p.symm v') + meanRestitution bs' c * normalVel c w := by
    refine contacts_pushed hm hc he (meanRestitution_flipped bs') ?_
    intro d hd
    rw [normalVel_congr hv' (hci d hd).1 (hci d hd).2]
    obtain ⟨i, hi, rfl⟩ := List.mem_iff_getElem.1 hd
    exact (h1.restitution i hi).1
  have zero : ∀ {bs : List Body} {js : List Joint} {cs : List Contact} {f : ℕ → V3} {v v' l : Vec}
      {pn a b g : ℕ → ℝ}, ContactLaw bs js cs f v v' l pn a b g → (∀ c ∈ cs, meanFriction bs c = 0) →
      ∀ i < cs.length, a i - b i = 0 := by
    intro bs js cs f v v' l pn a b g h hmu i hi
    obtain ⟨c1, -⟩ := h.cone i hi
    obtain ⟨-, na, nb, -⟩ := h.nonneg i hi
    rw [hmu _ (List.getElem_mem hi)] at c1
    linarith
  refine image_unique hm hp hlen hb2 hpos (K := fun u => momentumPower bs u v + forcePower bs.length f u)
    (K' := fun u => momentumPower bs' u w + forcePower bs'.length f' u) h1.dynamics h2.dynamics ?_ ?_ ?_ ?_
    (contactPower_diff_nonpos cs pn _ v v' _ (meanRestitution bs) (fun i hi => (h1.nonneg i hi).1)
      (zero h1 hmu) (fun i hi => (h1.restitution i hi).2) up)
    (contactPower_diff_nonpos cs' pn' _ w w' _ (meanRestitution bs') (fun i hi => (h2.nonneg i hi).1)
      (zero h2 hmu') (fun i hi => (h2.restitution i hi).2) up')
  · intro u
    rw [momentum_image hm hp hlen hb2, hlen, force_image hp hf, momentum_congr hv']
  · intro u u'
    simp only [momentumPower, forcePower]
    rw [neg_add, ← Finset.sum_neg_distrib, ← Finset.sum_neg_distrib]
    congr 1 <;> refine Finset.sum_congr rfl fun i _ => ?_ <;> simp only [twist, Pi.sub_apply] <;> ring
  · intro r hr
    obtain ⟨j, hjm, hr⟩ := List.mem_flatMap.1 hr
    obtain ⟨j', hjm', hi⟩ := hj.1 j hjm
    exact jointVel_diff j v' _ (fun x hx => h1.joints x (List.mem_flatMap.2 ⟨j, hjm, hx⟩))
      ((jointVel_image hm hi w').1 fun x hx => h2.joints x (List.mem_flatMap.2 ⟨j', hjm', hx⟩)) r hr
  · intro r hr
    obtain ⟨j', hjm', hr⟩ := List.mem_flatMap.1 hr
    obtain ⟨j, hjm, hi⟩ := hj.2 j' hjm'
    refine jointVel_diff j' w' _ (fun x hx => h2.joints x (List.mem_flatMap.2 ⟨j', hjm', hx⟩))
      ((jointVel_image hm hi _).2 ?_) r hr
    rw [pull_push hm]
    exact fun x hx => h1.joints x (List.mem_flatMap.2 ⟨j, hjm, hx⟩)

/-- C114: the same for the displacement of the post-stabilization. -/
theorem C114_correction (m : ℝ) (hm : m * m = 1) (p : Equiv.Perm ℕ) (bs bs' : List Body)
    (hp : ∀ i, p i < bs.length ↔ i < bs.length) (js js' : List Joint) (cs cs' : List Contact)
    (v w dp dp' l l' : Vec) (pn pn' : ℕ → ℝ) (h1 : PostStabLaw bs js cs v dp l pn)
    (h2 : PostStabLaw bs' js' cs' w dp' l' pn') (hlen : bs'.length = bs.length)
    (hb : ∀ i < bs.length, (bodyAt bs' (p i)).mass = (bodyAt bs i).mass ∧
      (bodyAt bs' (p i)).ang_inertia = (bodyAt bs i).ang_inertia ∧
      (bodyAt bs' (p i)).restitution = (bodyAt bs i).restitution)
    (hpos : ∀ i < bs.length, 0 < (bodyAt bs i).mass ∧ 0 < (bodyAt bs i).ang_inertia)
    (hv : VelImage m p bs.length v w) (hj : JointsImage m p js js')
    (hji : ∀ j ∈ js, j.i1 < bs.length ∧ ∀ k ∈ j.i2, k < bs.length) (hc : ContactsImage m p cs cs')
    (hci : ∀ c ∈ cs, c.i1 < bs.length ∧ c.i2 < bs.length) : VelImage m p bs.length dp dp' := by
  have hv' := (velImage_iff hm).1 hv
  have hb2 : ∀ i < bs.length, (bodyAt bs' (p i)).mass = (bodyAt bs i).mass ∧
      (bodyAt bs' (p i)).ang_inertia = (bodyAt bs i).ang_inertia := fun i hi => ⟨(hb i hi).1, (hb i hi).2.1⟩
  have he : ∀ c ∈ cs, 1 - meanRestitution bs' (imageContact m p c) = 1 - meanRestitution bs c := fun c hcm => by
    rw [meanRestitution_image (fun i hi => (hb i hi).2.2) (hci c hcm).1 (hci c hcm).2]
  have hfl : ∀ c, 1 - meanRestitution bs' (flipped c) = 1 - meanRestitution bs' c := fun c => by
    rw [meanRestitution_flipped]
  have up : ∀ c ∈ cs, 0 ≤ normalVel c (pull m p dp') + (1 - meanRestitution bs c) * normalVel c v := by
    intro c hcm
    rw [← normalVel_congr hv' (hci c hcm).1 (hci c hcm).2]
    refine contacts_pulled hc (e := fun c => 1 - meanRestitution bs c) (e' := fun c => 1 - meanRestitution bs' c)
      he hfl ?_ c hcm
    intro d hd
    obtain ⟨i, hi, rfl⟩ := List.mem_iff_getElem.1 hd
    exact (h2.contacts i hi).1
  have up' : ∀ c ∈ cs', 0 ≤ normalVel c (pull m p.symm dp) + (1 - meanRestitution bs' c) * normalVel c w := by
    refine contacts_pushed hm hc (e := fun c => 1 - meanRestitution bs c)
      (e' := fun c => 1 - meanRestitution bs' c) he hfl ?_
    intro d hd
    rw [normalVel_congr hv' (hci d hd).1 (hci d hd).2]
    obtain ⟨i, hi, rfl⟩ := List.mem_iff_getElem.1 hd
    exact (h1.contacts i hi).1
  have hadd : ∀ y : Vec, ∀ k < 3 * bs.length, (y + pull m p w) k = (y + v) k := by
    intro y k hk; simp [hv' k hk]
  refine image_unique hm hp hlen hb2 hpos (K := fun _ => 0) (K' := fun _ => 0)
    (by intro u; rw [h1.dynamics u, zero_add]) (by intro u; rw [h2.dynamics u, zero_add]) (fun _ => rfl) (by simp) ?_ ?_
    (contactPower_diff_nonpos cs pn _ v dp _ (fun c => 1 - meanRestitution bs c) h1.nonneg
      (fun _ _ => rfl) (fun i hi => (h1.contacts i hi).2) up)
    (contactPower_diff_nonpos cs' pn' _ w dp' _ (fun c => 1 - meanRestitution bs' c) h2.nonneg
      (fun _ _ => rfl) (fun i hi => (h2.contacts i hi).2) up')
  · intro r hr
    obtain ⟨j, hjm, hr⟩ := List.mem_flatMap.1 hr
    obtain ⟨j', hjm', hi⟩ := hj.1 j hjm
    have e1 : ∀ x ∈ jointVel j (dp + v), x = 0 := fun x hx => h1.joints x (List.mem_flatMap.2 ⟨j, hjm, hx⟩)
    have e2 := (jointVel_image hm hi (dp' + w)).1 fun x hx => h2.joints x (List.mem_flatMap.2 ⟨j', hjm', hx⟩)
    rw [pull_add, jointVel_congr_below (hadd _) (hji j hjm).1 (hji j hjm).2] at e2
    have e4 := jointVel_diff j _ _ e1 e2
    rw [add_sub_add_right_eq_sub] at e4
    exact e4 r hr
  · intro r hr
    obtain ⟨j', hjm', hr⟩ := List.mem_flatMap.1 hr
    obtain ⟨j, hjm, hi⟩ := hj.2 j' hjm'
    have e1 : ∀ x ∈ jointVel j' (dp' + w), x = 0 := fun x hx => h2.joints x (List.mem_flatMap.2 ⟨j', hjm', hx⟩)
    have e2 : ∀ x ∈ jointVel j' (pull m p.symm dp + w), x = 0 := by
      rw [jointVel_image hm hi, pull_add, pull_push hm, jointVel_congr_below (hadd _) (hji j hjm).1 (hji j hjm).2]
      exact fun x hx => h1.joints x (List.mem_flatMap.2 ⟨j, hjm, hx⟩)
    have e4 := jointVel_diff j' _ _ e1 e2
    rw [add_sub_add_right_eq_sub] at e4
    exact e4 r hr

/-! ## Moving -/

theorem bodyImage_move {m : ℝ} {b b' : Body} (h : BodyImage m b b') (d : ℝ) : BodyImage m (b.move d) (b'.move d) := by
  obtain ⟨r, h1, h2⟩ := h.shape
  have e : b.move d = b.baseSetP (b.p + d • b.v) false := by unfold Body.move Body.set_p; rw [h1]
  have e' : b'.move d = b'.baseSetP (b'.p + d • b'.v) false := by unfold Body.move Body.set_p; rw [h2]
  rw [e, e']
  refine ⟨?_, h.v, h.mass, h.ang_inertia, h.restitution, h.fric_coeff, ⟨r, h1, h2⟩⟩
  simp only [Body.baseSetP]
  rw [h.p, h.v]
  apply V3.ext <;> simp [mirT] <;> ring

theorem bodiesImage_move {m : ℝ} {p : Equiv.Perm ℕ} {bs bs' : List Body}
    (hp : ∀ i, p i < bs.length ↔ i < bs.length) (h : BodiesImage m p bs bs') (d : ℝ) :
    BodiesImage m p (bs.map fun b => b.move d) (bs'.map fun b => b.move d) := by
  refine ⟨by simp [h.1], fun i hi => ?_⟩
  rw [List.length_map] at hi
  rw [bodyAt_map _ _ _ hi, bodyAt_map _ _ _ (by rw [h.1]; exact (hp i).2 hi)]
  exact bodyImage_move (h.2 i hi) d

theorem bodiesImage_set_v {σ σ' φ φ' : Type} {m : ℝ} {p : Equiv.Perm ℕ} {w : World σ φ} {w' : World σ' φ'}
    (hp : ∀ i, p i < w.bodies.length ↔ i < w.bodies.length) (h : BodiesImage m p w.bodies w'.bodies) {v v' : Vec}
    (hv : VelImage m p w.bodies.length v v') : BodiesImage m p (w.set_v v).bodies (w'.set_v v').bodies := by
  have key : ∀ {σ φ : Type} (w : World σ φ) (v : Vec) (i : ℕ), i < w.bodies.length →
      bodyAt (w.set_v v).bodies i = { bodyAt w.bodies i with v := twist v i } := by
    intro σ φ w v i hi
    simp [bodyAt, List.getD_eq_getElem?_getD, World.set_v, hi, slice3, twist, mul_comm]
  refine ⟨by rw [set_v_length, set_v_length]; exact h.1, fun i hi => ?_⟩
  rw [set_v_length] at hi
  rw [key w v i hi, key w' v' (p i) (by rw [h.1]; exact (hp i).2 hi)]
  obtain ⟨h1, h2, h3, h4, h5, h6, h7⟩ := h.2 i hi
  exact ⟨h1, hv i hi, h3, h4, h5, h6, h7⟩

theorem mirV_add (m : ℝ) (a b : V2) : mirV m (a + b) = mirV m a + mirV m b := by
  unfold mirV; ext <;> simp; ring

theorem mirV_sub (m : ℝ) (a b : V2) : mirV m (a - b) = mirV m a - mirV m b := by
  unfold mirV; ext <;> simp; ring

theorem polar_turned {m : ℝ} (hm : m * m = 1) {r r' a a' : ℝ}
    (h : polar_to_cart r' a' = mirV m (polar_to_cart r a)) (th : ℝ) :
    polar_to_cart r' (a' + m * th) = mirV m (polar_to_cart r (a + th)) := by
  unfold polar_to_cart mirV at h ⊢
  simp only [Prod.mk.injEq] at h ⊢
  obtain ⟨h1, h2⟩ := h
  rcases mul_self_eq_one_iff.1 hm with rfl | rfl
  · simp only [one_mul] at h1 h2 ⊢
    rw [Real.cos_add, Real.sin_add, Real.cos_add, Real.sin_add]
    exact ⟨by linear_combination Real.cos th * h1 - Real.sin th * h2,
      by linear_combination Real.cos th * h2 + Real.sin th * h1⟩
  · rw [neg_one_mul, Real.cos_add, Real.sin_add, Real.cos_add, Real.sin_add, Real.cos_neg, Real.sin_neg]
    exact ⟨by linear_combination Real.cos th * h1 + Real.sin th * h2,
      by linear_combination Real.cos th * h2 - Real.sin th * h1⟩

theorem bodyImage_pos {m : ℝ} {b b' : Body} (h : BodyImage m b b') : b'.pos = mirV m b.pos := by
  unfold Body.pos V3.xy mirV
  rw [h.p]
  rfl

theorem mirV_zero (m : ℝ) : mirV m 0 = 0 := by unfold mirV; ext <;> simp

/-- The same wiring and, for hinges and pins, the same anchor. -/
theorem jointImage_update {m : ℝ} {p : Equiv.Perm ℕ} {bs bs' : List Body}
    (hb : BodiesImage m p bs bs') {j j' : Joint}
    (hj : JointImage m p j j') (h1 : j.i1 < bs.length) (h2 : ∀ k ∈ j.i2, k < bs.length) {s s' q q' : ℝ}
    (ha : j'.kind = .revolute ∨ j'.kind = .total → polar_to_cart j'.r1 s' = mirV m (polar_to_cart j.r1 s)) :
    JointImage m p (({ j with rot1 := s, rot2 := q } : Joint).update_pos bs)
      (({ j' with rot1 := s', rot2 := q' } : Joint).update_pos bs') := by
  have e1 := bodyImage_pos (hb.2 _ h1)
  have e2 : ∀ k ∈ j.i2, (bodyAt bs' (p k)).pos = mirV m (bodyAt bs k).pos := fun k hk =>
    bodyImage_pos (hb.2 _ (h2 k hk))
  obtain ⟨kind, i1, i2, pos, pos1, pos2, r1, rot1, rot2⟩ := j
  obtain ⟨kind', i1', i2', pos', pos1', pos2', r1', rot1', rot2'⟩ := j'
  obtain ⟨k1, k2, k3, k4, k5, k6, -⟩ := hj
  simp only at k1 k2 k3 k4 k5 k6 ha e1 e2 h1 h2
  subst k1 k2 k3 k4 k5 k6
  cases kind' <;> cases i2 <;>
    simp only [reduceCtorEq, or_self, or_false, or_true, true_or, false_or, forall_const, true_implies, Option.mem_def,
      Option.some.injEq, forall_eq', IsEmpty.forall_iff] at ha e2 <;>
    constructor <;>
    simp [Joint.update_pos, e1, e2, ha, mirV_add, mirV_sub, mirV_zero]

theorem joint_move_turns {j : Joint} (bs : List Body) (d : ℝ) (h : j.kind = .revolute ∨ j.kind = .total) :
    ∃ q, j.move bs d = ({ j with rot1 := j.rot1 + (bodyAt bs j.i1).v.r * d, rot2 := q } : Joint).update_pos bs := by
  obtain ⟨kind, i1, i2, pos, pos1, pos2, r1, rot1, rot2⟩ := j
  cases kind <;> simp at h
  · exact ⟨_, rfl⟩
  · exact ⟨_, rfl⟩

theorem joint_move_follows {j : Joint} (bs : List Body) (d : ℝ) (h : ¬ (j.kind = .revolute ∨ j.kind = .total)) :
    j.move bs d = j.update_pos bs := by
  obtain ⟨kind, i1, i2, pos, pos1, pos2, r1, rot1, rot2⟩ := j
  cases kind <;> simp at h <;> rfl

theorem jointImage_move {m : ℝ} (hm : m * m = 1) {p : Equiv.Perm ℕ} {bs bs' : List Body}
    (hb : BodiesImage m p bs bs') {j j' : Joint} (hj : JointImage m p j j') (h1 : j.i1 < bs.length)
    (h2 : ∀ k ∈ j.i2, k < bs.length) (d : ℝ) : JointImage m p (j.move bs d) (j'.move bs' d) := by
  have hv : (bodyAt bs' j'.i1).v.r * d = m * ((bodyAt bs j.i1).v.r * d) := by
    rw [hj.i1, (hb.2 _ h1).v]
    simp only [mirT]
    ring
  by_cases hk : j'.kind = .revolute ∨ j'.kind = .total
  · obtain ⟨q, e⟩ := joint_move_turns bs d (by rw [← hj.kind]; exact hk)
    obtain ⟨q', e'⟩ := joint_move_turns bs' d hk
    rw [e, e', hv]
    exact jointImage_update hb hj h1 h2 fun ha => polar_turned hm (hj.anchor ha) _
  · rw [joint_move_follows bs d (by rw [← hj.kind]; exact hk), joint_move_follows bs' d hk]
    exact jointImage_update hb hj h1 h2 hj.anchor

theorem jointImage_drift {m : ℝ} {p : Equiv.Perm ℕ} {bs bs' : List Body} {j j' : Joint} (hj : JointImage m p j j')
    (s : ℝ) : JointImage m p (j.drift bs s) (j'.drift bs' s) := by
  have key : ∀ (j : Joint) (bs : List Body), ∃ q, j.drift bs s = { j with rot2 := q } := by
    intro j bs
    obtain ⟨kind, i1, i2, pos, pos1, pos2, r1, rot1, rot2⟩ := j
    cases kind <;> cases i2 <;> exact ⟨_, rfl⟩
  obtain ⟨q, e⟩ := key j bs
  obtain ⟨q', e'⟩ := key j' bs'
  rw [e, e']
  exact ⟨hj.kind, hj.i1, hj.i2, hj.pos, hj.pos1, hj.pos2, hj.anchor⟩

theorem jointsImage_map {m : ℝ} {p : Equiv.Perm ℕ} {js js' : List Joint} (h : JointsImage m p js js')
    {F F' : Joint → Joint} (hF : ∀ j ∈ js, ∀ j', JointImage m p j j' → JointImage m p (F j) (F' j')) :
    JointsImage m p (js.map F) (js'.map F') := by
  constructor
  · intro j hj
    obtain ⟨j0, h0, rfl⟩ := List.mem_map.1 hj
    obtain ⟨j', hj', hi⟩ := h.1 j0 h0
    exact ⟨F' j', List.mem_map_of_mem hj', hF _ h0 _ hi⟩
  · intro j hj
    obtain ⟨j0, h0, rfl⟩ := List.mem_map.1 hj
    obtain ⟨j', hj', hi⟩ := h.2 j0 h0
    exact ⟨F j', List.mem_map_of_mem hj', hF _ hj' _ hi⟩

/-! ## Worlds in lockstep -/

variable {φ φ' : Type} {m : ℝ} {p : Equiv.Perm ℕ} {w : World (Option Mat) φ} {w' : World (Option Mat) φ'}

theorem worldImage_set_v (hp : ∀ i, p i < w.bodies.length ↔ i < w.bodies.length) (h : WorldImage m p w w') {v v' : Vec}
    (e e' : Option Mat) (hv : VelImage m p w.bodies.length v v') :
    WorldImage m p (({ w with eng := e } : World (Option Mat) φ).set_v v)
      (({ w' with eng := e' } : World (Option Mat) φ').set_v v') := by
  refine ⟨h.t, h.dt, h.eps, h.tol, h.post_stab, h.strict, ?_, h.joints, ?_, h.contacts⟩
  · exact bodiesImage_set_v (w := ({ w with eng := e } : World (Option Mat) φ))
      (w' := ({ w' with eng := e' } : World (Option Mat) φ')) hp h.bodies hv
  · rw [set_v_length]; exact hv

theorem worldImage_accepted (hm : m * m = 1) (hp : ∀ i, p i < w.bodies.length ↔ i < w.bodies.length)
    (hji : ∀ j ∈ w.joints, j.i1 < w.bodies.length ∧ ∀ k ∈ j.i2, k < w.bodies.length)
    (h : WorldImage m p w w') (d q : ℝ) (f : φ) (f' : φ') {cs cs' : List Contact}
    (hc : ContactsImage m p cs cs') : WorldImage m p (w.accepted d q f cs) (w'.accepted d q f' cs') := by
  have hb := bodiesImage_move hp h.bodies d
  refine ⟨h.t, h.dt, h.eps, h.tol, h.post_stab, h.strict, hb, ?_, ?_, hc⟩
  · refine jointsImage_map h.joints fun j hj j' hi => ?_
    have hw : (j.drift w.bodies q).i1 = j.i1 ∧ (j.drift w.bodies q).i2 = j.i2 := by
      unfold Joint.drift
      cases j.kind <;> cases hi : j.i2 <;> simp [hi]
    refine jointImage_move hm hb (jointImage_drift hi q) ?_ ?_ d
    · rw [hw.1, List.length_map]; exact (hji j hj).1
    · rw [hw.2, List.length_map]; exact (hji j hj).2
  · simp only [World.accepted, List.length_map]
    exact h.v

theorem worldImage_moved (hm : m * m = 1) (hp : ∀ i, p i < w.bodies.length ↔ i < w.bodies.length)
    (hji : ∀ j ∈ w.joints, j.i1 < w.bodies.length ∧ ∀ k ∈ j.i2, k < w.bodies.length)
    (h : WorldImage m p w w') (d : ℝ) :
    WorldImage m p ((w.moveBodies d).moveJoints d) ((w'.moveBodies d).moveJoints d) := by
  have hb := bodiesImage_move hp h.bodies d
  refine ⟨h.t, h.dt, h.eps, h.tol, h.post_stab, h.strict, hb, ?_, ?_, h.contacts⟩
  · refine jointsImage_map h.joints fun j hj j' hi => ?_
    refine jointImage_move hm hb hi ?_ ?_ d
    · simp only [World.moveBodies, List.length_map]; exact (hji j hj).1
    · simp only [World.moveBodies, List.length_map]; exact (hji j hj).2
  · simp only [World.moveBodies, World.moveJoints, List.length_map]
    exact h.v

theorem contactsImage_pen {cs cs' : List Contact} (h : ContactsImage m p cs cs') (tol : ℝ) :
    (∀ c ∈ cs', c.pen ≤ tol) ↔ ∀ c ∈ cs, c.pen ≤ tol := by
  rw [sameContacts_pen h]
  simp [imageContact]

/-- Two contact searches of which the second reports the image of what the first reports. -/
def ImageFinders (m : ℝ) (p : Equiv.Perm ℕ) (n : ℕ) (collide : ℝ → φ → List Body → Except Err (φ × List Contact))
    (collide' : ℝ → φ' → List Body → Except Err (φ' × List Contact)) : Prop :=
  ∀ eps f f' bs bs' g cs g' cs', bs.length = n → BodiesImage m p bs bs' → collide eps f bs = .ok (g, cs) →
    collide' eps f' bs' = .ok (g', cs') → ContactsImage m p cs cs'

/-- The invariant of the pair of runs. -/
structure ImageRun (m : ℝ) (p : Equiv.Perm ℕ) (w : World (Option Mat) φ) (w' : World (Option Mat) φ') : Prop where
  image : WorldImage m p w w'
  inv : EngineInv w
  inv' : EngineInv w'
  pos : ∀ b ∈ w.bodies, 0 < b.mass ∧ 0 < b.ang_inertia
  slick : ∀ b ∈ w.bodies, b.fric_coeff = 0

theorem image_solve (hm : m * m = 1) (hp : ∀ i, p i < w.bodies.length ↔ i < w.bodies.length) {H H' : ForceHeap}
    {lcp lcp' : LcpSolver} {mi mi' : ℕ} (hx : Exact lcp) (hx' : Exact lcp') (h : ImageRun m p w w')
    (hH : ∀ t fl fl', forceCat H t w.bodies.length = .ok fl → forceCat H' t w.bodies.length = .ok fl' →
      ∀ i < w.bodies.length, fl'.getD (p i) 0 = mirT m (fl.getD i 0))
    {dt : ℝ} {e e' : Option Mat} {v v' : Vec} (h1 : pdipmSolve 2 H lcp mi w dt = .ok (e, v))
    (h2 : pdipmSolve 2 H' lcp' mi' w' dt = .ok (e', v')) : VelImage m p w.bodies.length v v' := by
  obtain ⟨fl, l, pn, a, b, g, hf, law⟩ := C38_engine_contact_law H lcp mi w dt e v h.inv.joints h.inv.contacts
    h.inv.cache.ok hx h1
  obtain ⟨fl', l', pn', a', b', g', hf', law'⟩ := C38_engine_contact_law H' lcp' mi' w' dt e' v' h.inv'.joints
    h.inv'.contacts h.inv'.cache.ok hx' h2
  have im := h.image
  have hlen := im.bodies.1
  rw [im.t, hlen] at hf'
  have hfl := hH _ _ _ hf hf'
  refine C114_impact m hm p w.bodies w'.bodies hp w.joints w'.joints w.contacts w'.contacts _ _ w.v v w'.v v' l l'
    pn a b g pn' a' b' g' law law' hlen ?_ (fun i hi => h.pos _ (bodyAt_mem' hi)) ?_ im.v im.joints im.contacts
    (fun c hc => ⟨(h.inv.contacts c hc).1, (h.inv.contacts c hc).2.1⟩) ?_ ?_
  · exact fun i hi => ⟨(im.bodies.2 i hi).mass, (im.bodies.2 i hi).ang_inertia, (im.bodies.2 i hi).restitution⟩
  · intro i hi
    unfold impulse
    rw [hfl i hi]
    apply V3.ext <;> simp [mirT] <;> ring
  · intro c hc
    unfold meanFriction
    rw [h.slick _ (bodyAt_mem' (h.inv.contacts c hc).1), h.slick _ (bodyAt_mem' (h.inv.contacts c hc).2.1)]
    norm_num
  · intro c hc
    have hz : ∀ k < w'.bodies.length, (bodyAt w'.bodies k).fric_coeff = 0 := by
      intro k hk
      rw [hlen] at hk
      have hk' : p.symm k < w.bodies.length := by rw [← hp, Equiv.apply_symm_apply]; exact hk
      have := (im.bodies.2 _ hk').fric_coeff
      rw [Equiv.apply_symm_apply] at this
      rw [this, h.slick _ (bodyAt_mem' hk')]
    unfold meanFriction
    rw [hz _ (h.inv'.contacts c hc).1, hz _ (h.inv'.contacts c hc).2.1]
    norm_num

theorem image_postStab (hm : m * m = 1) (hp : ∀ i, p i < w.bodies.length ↔ i < w.bodies.length)
    {lcp lcp' : LcpSolver} (hx : Exact lcp) (hx' : Exact lcp') (im : WorldImage m p w w') (hj : JointsOk w)
    (hc : ContactsOk w) (hcc : CacheInv w) (hj' : JointsOk w') (hc' : ContactsOk w') (hcc' : CacheInv w')
    (pos : ∀ b ∈ w.bodies, 0 < b.mass ∧ 0 < b.ang_inertia)
    {dp dp' : Vec} (h1 : pdipmPostStab lcp w = .ok dp)
    (h2 : pdipmPostStab lcp' w' = .ok dp') : VelImage m p w.bodies.length dp dp' := by
  obtain ⟨l, pn, law⟩ := C62_post_stab_law lcp w dp hj hc hcc.ok hx h1
  obtain ⟨l', pn', law'⟩ := C62_post_stab_law lcp' w' dp' hj' hc' hcc'.ok hx' h2
  exact C114_correction m hm p w.bodies w'.bodies hp w.joints w'.joints w.contacts w'.contacts w.v w'.v dp dp' l l'
    pn pn' law law' im.bodies.1
    (fun i hi => ⟨(im.bodies.2 i hi).mass, (im.bodies.2 i hi).ang_inertia, (im.bodies.2 i hi).restitution⟩)
    (fun i hi => pos _ (bodyAt_mem' hi)) im.v im.joints
    (fun j hjm => ⟨(hj j hjm).1, fun k hk => ((hj j hjm).2 k hk).1⟩) im.contacts
    (fun c hc1 => ⟨(hc c hc1).1, (hc c hc1).2.1⟩)

theorem image_specLoop (hm : m * m = 1) (hp : ∀ i, p i < w.bodies.length ↔ i < w.bodies.length)
    {env : Env (Option Mat) φ} {env' : Env (Option Mat) φ'}
    (hf : ImageFinders m p w.bodies.length env.collide env'.collide) (im : WorldImage m p w w') :
    ∀ (fuel : ℕ) (f : φ) (f' : φ') (d q : ℝ) (r r'),
    specLoop env w fuel f d q = .done r → specLoop env' w' fuel f' d q = .done r' →
    ∃ (d2 q2 : ℝ) (g : φ) (g' : φ') (cs cs' : List Contact), ContactsImage m p cs cs' ∧
      r = (w.accepted d2 q2 g cs, d2) ∧ r' = (w'.accepted d2 q2 g' cs', d2) ∧
      (∃ f0, env.collide w.eps f0 (w.bodies.map fun b => b.move d2) = .ok (g, cs)) ∧
      ∃ f0, env'.collide w'.eps f0 (w'.bodies.map fun b => b.move d2) = .ok (g', cs')
  | 0, _, _, _, _, _, _, h, _ => by cases h
  | fuel + 1, f, f', d, q, r, r', h1, h2 => by
    unfold specLoop at h1 h2
    cases c1 : env.collide w.eps f (w.bodies.map fun b => b.move d) with
    | error e => rw [c1] at h1; cases h1
    | ok x =>
      obtain ⟨g, cs⟩ := x
      rw [c1] at h1
      cases c2 : env'.collide w'.eps f' (w'.bodies.map fun b => b.move d) with
      | error e => rw [c2] at h2; cases h2
      | ok x =>
        obtain ⟨g', cs'⟩ := x
        rw [c2] at h2
        have c2' := c2
        rw [im.eps] at c2'
        have hsame := hf _ _ _ _ _ _ _ _ _ (by simp) (bodiesImage_move hp im.bodies d) c1 c2'
        have hacc : w'.accepts d cs' ↔ w.accepts d cs := by
          unfold World.accepts
          rw [im.tol, im.strict, im.dt, contactsImage_pen hsame]
        simp only at h1 h2
        by_cases ha : w.accepts d cs
        · rw [if_pos ha] at h1
          rw [if_pos (hacc.2 ha)] at h2
          injection h1 with h1
          injection h2 with h2
          exact ⟨d, q, g, g', cs, cs', hsame, h1.symm, h2.symm, ⟨f, c1⟩, ⟨f', c2⟩⟩
        · rw [if_neg ha] at h1
          rw [if_neg fun hh => ha (hacc.1 hh)] at h2
          exact image_specLoop hm hp hf im fuel g g' (d / 2) (q + d) r r' h1 h2

theorem velImage_half {n : ℕ} {v v' : Vec} (h : VelImage m p n v v') :
    VelImage m p n (fun k => v k / 2) (fun k => v' k / 2) := by
  intro i hi
  have := h i hi
  unfold twist mirT at this ⊢
  simp only [V3.mk.injEq] at this ⊢
  rw [this.1, this.2.1, this.2.2]
  exact ⟨by ring, by ring, rfl⟩

/-- The post-stabilization block of both worlds. -/
theorem image_postBlock (hm : m * m = 1) (hp : ∀ i, p i < w.bodies.length ↔ i < w.bodies.length) {H H' : ForceHeap}
    {lcp lcp' : LcpSolver} {mi mi' : ℕ} (hx : Exact lcp) (hx' : Exact lcp')
    {collide : ℝ → φ → List Body → Except Err (φ × List Contact)}
    {collide' : ℝ → φ' → List Body → Except Err (φ' × List Contact)}
    (hf : ImageFinders m p w.bodies.length collide collide')
    (im : WorldImage m p w w') (hj : JointsOk w) (hc : ContactsOk w) (hcc : CacheInv w)
    (hj' : JointsOk w') (hc' : ContactsOk w') (hcc' : CacheInv w')
    (pos : ∀ b ∈ w.bodies, 0 < b.mass ∧ 0 < b.ang_inertia)
    {d : ℝ} {u : World (Option Mat) φ} {u' : World (Option Mat) φ'}
    (h1 : postStab (pdipmEnv 2 H lcp mi collide) w d = .done u)
    (h2 : postStab (pdipmEnv 2 H' lcp' mi' collide') w' d = .done u') : WorldImage m p u u' := by
  unfold postStab at h1 h2
  simp only at h1 h2
  rw [Run.bind_eq_done] at h1 h2
  obtain ⟨dp, p1, h1⟩ := h1
  obtain ⟨dp', p2, h2⟩ := h2
  have p1 : pdipmPostStab lcp w = .ok dp := by
    change Run.ofExcept (pdipmPostStab lcp _) = _ at p1
    cases hq : pdipmPostStab lcp w with
    | error z => rw [hq] at p1; cases p1
    | ok z => rw [hq] at p1; injection p1 with p1; rw [p1]
  have p2 : pdipmPostStab lcp' w' = .ok dp' := by
    change Run.ofExcept (pdipmPostStab lcp' _) = _ at p2
    cases hq : pdipmPostStab lcp' w' with
    | error z => rw [hq] at p2; cases p2
    | ok z => rw [hq] at p2; injection p2 with p2; rw [p2]
  have hdp := image_postStab hm hp hx hx' im hj hc hcc hj' hc' hcc' pos p1 p2
  have im3 : WorldImage m p (w.set_v fun k => dp k / 2) (w'.set_v fun k => dp' k / 2) :=
    worldImage_set_v hp im w.eng w'.eng (velImage_half hdp)
  have hl3 : (w.set_v fun k => dp k / 2).bodies.length = w.bodies.length := set_v_length _ _
  have im4 := worldImage_moved hm (by rw [hl3]; exact hp)
    (by rw [hl3]; exact fun j hjm => ⟨(hj j hjm).1, fun k hk => ((hj j hjm).2 k hk).1⟩) im3 d
  have hl4 : (((w.set_v fun k => dp k / 2).moveBodies d).moveJoints d).bodies.length = w.bodies.length := by
    simp only [World.moveBodies, World.moveJoints, List.length_map, set_v_length]
  have im5 : WorldImage m p ((((w.set_v fun k => dp k / 2).moveBodies d).moveJoints d).set_v w.v)
      ((((w'.set_v fun k => dp' k / 2).moveBodies d).moveJoints d).set_v w'.v) :=
    worldImage_set_v (by rw [hl4]; exact hp) im4 w.eng w'.eng (by rw [hl4]; exact im.v)
  have hl5 : ((((w.set_v fun k => dp k / 2).moveBodies d).moveJoints d).set_v w.v).bodies.length =
      w.bodies.length := by rw [set_v_length]; exact hl4
  generalize (((w.set_v fun k => dp k / 2).moveBodies d).moveJoints d).set_v w.v = z at *
  generalize (((w'.set_v fun k => dp' k / 2).moveBodies d).moveJoints d).set_v w'.v = z' at *
  unfold World.find_contacts at h1 h2
  change (match collide z.eps z.fnd z.bodies with
    | .error e => .raised e
    | .ok (f, cs) => .done { z with contacts := cs, fnd := f } : Run (World (Option Mat) φ)) = _ at h1
  change (match collide' z'.eps z'.fnd z'.bodies with
    | .error e => .raised e
    | .ok (f, cs) => .done { z' with contacts := cs, fnd := f } : Run (World (Option Mat) φ')) = _ at h2
  cases c1 : collide z.eps z.fnd z.bodies with
  | error er => rw [c1] at h1; cases h1
  | ok o =>
    rw [c1] at h1
    cases c2 : collide' z'.eps z'.fnd z'.bodies with
    | error er => rw [c2] at h2; cases h2
    | ok o' =>
      rw [c2] at h2
      rw [im5.eps] at c2
      have hsame2 := hf _ _ _ _ _ _ _ _ _ hl5 im5.bodies c1 c2
      simp only at h1 h2
      injection h1 with h1
      injection h2 with h2
      subst h1 h2
      exact ⟨im5.t, im5.dt, im5.eps, im5.tol, im5.post_stab, im5.strict, im5.bodies, im5.joints, im5.v, hsame2⟩

/-- One step of both worlds. -/
theorem image_step (hm : m * m = 1) (hp : ∀ i, p i < w.bodies.length ↔ i < w.bodies.length) {H H' : ForceHeap}
    {lcp lcp' : LcpSolver} {mi mi' : ℕ} (hx : Exact lcp) (hx' : Exact lcp')
    {collide : ℝ → φ → List Body → Except Err (φ × List Contact)}
    {collide' : ℝ → φ' → List Body → Except Err (φ' × List Contact)} (hfo : FinderOk collide)
    (hfo' : FinderOk collide') (hf : ImageFinders m p w.bodies.length collide collide') (h : ImageRun m p w w')
    (hH : ∀ t fl fl', forceCat H t w.bodies.length = .ok fl → forceCat H' t w.bodies.length = .ok fl' →
      ∀ i < w.bodies.length, fl'.getD (p i) 0 = mirT m (fl.getD i 0))
    {fuel : ℕ} {dt : ℝ} {u : World (Option Mat) φ} {u' : World (Option Mat) φ'}
    (h1 : w.step_dt (pdipmEnv 2 H lcp mi collide) fuel dt = .done u)
    (h2 : w'.step_dt (pdipmEnv 2 H' lcp' mi' collide') fuel dt = .done u') : ImageRun m p u u' := by
  have i1 := step_inv hfo h.inv h1
  have i2 := step_inv hfo' h.inv' h2
  have hst := step_dt_statics h.inv.good h1
  have core : WorldImage m p u u' := by
    rw [step_dt_eq _ fuel w h.inv.good dt, Run.bind_eq_done] at h1
    rw [step_dt_eq _ fuel w' h.inv'.good dt, Run.bind_eq_done] at h2
    obtain ⟨⟨e, v⟩, s1, h1⟩ := h1
    obtain ⟨⟨e', v'⟩, s2, h2⟩ := h2
    have s1 : pdipmSolve 2 H lcp mi w dt = .ok (e, v) := by
      change Run.ofExcept (pdipmSolve 2 H lcp mi w dt) = _ at s1
      cases hq : pdipmSolve 2 H lcp mi w dt with
      | error x => rw [hq] at s1; cases s1
      | ok x => rw [hq] at s1; injection s1 with s1; rw [s1]
    have s2 : pdipmSolve 2 H' lcp' mi' w' dt = .ok (e', v') := by
      change Run.ofExcept (pdipmSolve 2 H' lcp' mi' w' dt) = _ at s2
      cases hq : pdipmSolve 2 H' lcp' mi' w' dt with
      | error x => rw [hq] at s2; cases s2
      | ok x => rw [hq] at s2; injection s2 with s2; rw [s2]
    have hv := image_solve hm hp hx hx' h hH s1 s2
    have im1 := worldImage_set_v hp h.image e e' hv
    simp only at h1 h2
    rw [Run.bind_eq_done] at h1 h2
    obtain ⟨r, l1, h1⟩ := h1
    obtain ⟨r', l2, h2⟩ := h2
    have ss1 : SameStatics w (({ w with eng := e } : World (Option Mat) φ).set_v v) := sameStatics_set_v w v e
    have hl1 : (({ w with eng := e } : World (Option Mat) φ).set_v v).bodies.length = w.bodies.length :=
      set_v_length _ _
    obtain ⟨d, q, g, g', cs, cs', hsame, rfl, rfl, ⟨f0, k1⟩, ⟨f0', k2⟩⟩ :=
      image_specLoop hm (by rw [hl1]; exact hp) (by rw [hl1]; exact hf) im1 fuel _ _ _ _ _ _ l1 l2
    have im2 := worldImage_accepted hm (by rw [hl1]; exact hp)
      (by rw [hl1]; exact fun j hjm => ⟨(h.inv.joints j hjm).1, fun k hk => ((h.inv.joints j hjm).2 k hk).1⟩) im1
      d q g g' hsame
    simp only at h1 h2
    set x := ({ w with eng := e } : World (Option Mat) φ).set_v v with hxdef
    set x' := ({ w' with eng := e' } : World (Option Mat) φ').set_v v' with hx'def
    by_cases hpo : w.post_stab = true
    · have hpo' : w'.post_stab = true := by rw [h.image.post_stab]; exact hpo
      have hpa : (x.accepted d q g cs).post_stab = true := hpo
      have hpa' : (x'.accepted d q g' cs').post_stab = true := hpo'
      rw [if_pos hpa, Run.bind_eq_done] at h1
      rw [if_pos hpa', Run.bind_eq_done] at h2
      obtain ⟨y, h1, hy⟩ := h1
      obtain ⟨y', h2, hy'⟩ := h2
      have ss : SameStatics w (x.accepted d q g cs) := ss1.trans (sameStatics_accepted _ _ _ _ _)
      have ss' : SameStatics w' (x'.accepted d q g' cs') :=
        (sameStatics_set_v w' v' e').trans (sameStatics_accepted _ _ _ _ _)
      have hlen : (x.accepted d q g cs).bodies.length = w.bodies.length := sameStatics_length ss
      have pos2 : ∀ b ∈ (x.accepted d q g cs).bodies, 0 < b.mass ∧ 0 < b.ang_inertia := by
        intro b hb
        have : b.consts ∈ w.bodies.map Body.consts := ss.1 ▸ List.mem_map.2 ⟨b, hb, rfl⟩
        obtain ⟨b0, hb0, he⟩ := List.mem_map.1 this
        have hq := h.pos b0 hb0
        simp only [Body.consts, Prod.mk.injEq] at he
        rw [← he.1, ← he.2.1]
        exact hq
      have ty := image_postBlock hm (by rw [hlen]; exact hp) (mi := mi) (mi' := mi') (H := H) (H' := H') hx hx'
        (by rw [hlen]; exact hf) im2
        (jointsOk_congr ss h.inv.joints) (fun c hc => hfo _ _ _ _ _ k1 c hc) (solve_cacheInv ss h.inv.cache s1)
        (jointsOk_congr ss' h.inv'.joints) (fun c hc => hfo' _ _ _ _ _ k2 c hc)
        (solve_cacheInv ss' h.inv'.cache s2) pos2 h1 h2
      injection hy with hy
      injection hy' with hy'
      subst hy hy'
      refine ⟨?_, ty.dt, ty.eps, ty.tol, ty.post_stab, ty.strict, ty.bodies, ty.joints, ty.v, ty.contacts⟩
      change y'.t + d = y.t + d
      rw [ty.t]
    · have hpo' : ¬ w'.post_stab = true := by rw [h.image.post_stab]; exact hpo
      have hpa : ¬ (x.accepted d q g cs).post_stab = true := hpo
      have hpa' : ¬ (x'.accepted d q g' cs').post_stab = true := hpo'
      rw [if_neg hpa] at h1
      rw [if_neg hpa'] at h2
      simp only [Run.bind] at h1 h2
      injection h1 with h1
      injection h2 with h2
      subst h1 h2
      refine ⟨?_, im2.dt, im2.eps, im2.tol, im2.post_stab, im2.strict, im2.bodies, im2.joints, im2.v, im2.contacts⟩
      change w'.t + d = w.t + d
      rw [h.image.t]
  have hcons : ∀ (Q : ℝ × ℝ × ℝ × ℝ → Prop), (∀ b ∈ w.bodies, Q b.consts) → ∀ b ∈ u.bodies, Q b.consts := by
    intro Q hQ b hb
    have : b.consts ∈ w.bodies.map Body.consts := hst.1 ▸ List.mem_map.2 ⟨b, hb, rfl⟩
    obtain ⟨b0, hb0, he⟩ := List.mem_map.1 this
    rw [← he]
    exact hQ b0 hb0
  exact ⟨core, i1, i2, hcons (fun c => 0 < c.1 ∧ 0 < c.2.1) h.pos, hcons (fun c => c.2.2.2 = 0) h.slick⟩

/-- Two runs in lockstep. -/
theorem image_run (hm : m * m = 1) {N : ℕ} (hp : ∀ i, p i < N ↔ i < N) {H H' : ForceHeap}
    {lcp lcp' : LcpSolver} {mi mi' : ℕ} (hx : Exact lcp) (hx' : Exact lcp')
    {collide : ℝ → φ → List Body → Except Err (φ × List Contact)}
    {collide' : ℝ → φ' → List Body → Except Err (φ' × List Contact)} (hfo : FinderOk collide)
    (hfo' : FinderOk collide') (hf : ImageFinders m p N collide collide')
    (hH : ∀ t fl fl', forceCat H t N = .ok fl → forceCat H' t N = .ok fl' →
      ∀ i < N, fl'.getD (p i) 0 = mirT m (fl.getD i 0))
    {fuel : ℕ} {T : ℝ} : ∀ (n : ℕ) {w : World (Option Mat) φ} {w' : World (Option Mat) φ'},
    w.bodies.length = N → ImageRun m p w w' → ∀ {u : World (Option Mat) φ} {u' : World (Option Mat) φ'},
    runWorld (pdipmEnv 2 H lcp mi collide) fuel T n w = .done u →
    runWorld (pdipmEnv 2 H' lcp' mi' collide') fuel T n w' = .done u' → ImageRun m p u u' ∧ u.bodies.length = N := by
  intro n
  induction n with
  | zero =>
    intro w w' hN h u u' h1 h2
    unfold runWorld at h1 h2
    by_cases ht : w.t < T
    · rw [if_pos ht] at h1; cases h1
    · rw [if_neg ht] at h1
      rw [if_neg (by rw [h.image.t]; exact ht)] at h2
      injection h1 with h1
      injection h2 with h2
      subst h1 h2
      exact ⟨h, hN⟩
  | succ n ih =>
    intro w w' hN h u u' h1 h2
    unfold runWorld at h1 h2
    by_cases ht : w.t < T
    · rw [if_pos ht] at h1
      rw [if_pos (by rw [h.image.t]; exact ht)] at h2
      simp only at h1 h2
      rw [Run.bind_eq_done] at h1 h2
      obtain ⟨x, a1, b1⟩ := h1
      obtain ⟨x', a2, b2⟩ := h2
      simp only [World.step, Bool.false_eq_true, if_false] at a1 a2
      rw [h.image.dt] at a2
      have hx2 := image_step hm (by rw [hN]; exact hp) hx hx' hfo hfo' (by rw [hN]; exact hf) h
        (by rw [hN]; exact hH) a1 a2
      exact ih ((sameStatics_length (step_dt_statics h.inv.good a1)).trans hN) hx2 b1 b2
    · rw [if_neg ht] at h1
      rw [if_neg (by rw [h.image.t]; exact ht)] at h2
      injection h1 with h1
      injection h2 with h2
      subst h1 h2
      exact ⟨h, hN⟩

/-! ## Circles -/

theorem nrm_mirV {m : ℝ} (hm : m * m = 1) (a : V2) : nrm (mirV m a) = nrm a := by
  unfold nrm mirV
  congr 1
  simp only
  linear_combination a.1 * a.1 * hm

theorem mirV_smul (m s : ℝ) (a : V2) : mirV m (s • a) = s • mirV m a := by
  unfold mirV; ext <;> simp; ring

theorem mirV_neg (m : ℝ) (a : V2) : mirV m (-a) = -mirV m a := by
  unfold mirV; ext <;> simp

theorem circleContacts_image (hm : m * m = 1) {nc nc' : ℕ → List ℕ} {eps : ℝ} {bs bs' : List Body}
    (hnc : ∀ i k, i ∈ nc k ↔ p i ∈ nc' (p k)) (hb : BodiesImage m p bs bs') {ps : List (ℕ × ℕ)}
    (hps : ∀ q ∈ ps, q.1 < bs.length ∧ q.2 < bs.length) :
    circleContacts nc' eps bs' (ps.map fun q => (p q.1, p q.2)) =
      (circleContacts nc eps bs ps).map (imageContact m p) := by
  unfold circleContacts
  rw [List.map_flatMap, List.flatMap_map]
  refine List.flatMap_congr fun q hq => ?_
  obtain ⟨q1, q2⟩ := hps q hq
  by_cases hx : q.1 ∈ nc q.2
  · rw [if_pos hx, if_pos ((hnc _ _).1 hx)]; rfl
  · rw [if_neg hx, if_neg fun hh => hx ((hnc _ _).2 hh)]
    have hr : ∀ k < bs.length, (bodyAt bs' (p k)).rad = (bodyAt bs k).rad := by
      intro k hk
      obtain ⟨r, e1, e2⟩ := (hb.2 k hk).shape
      unfold Body.rad
      rw [e1, e2]
    rw [hr _ q1, hr _ q2, bodyImage_pos (hb.2 _ q1), bodyImage_pos (hb.2 _ q2)]
    unfold circleCircle
    simp only [← mirV_sub, nrm_mirV hm]
    split_ifs
    · rfl
    · simp [imageContact, mirV_smul, mirV_neg]

theorem circles_found {cfuel : ℕ} {nc : ℕ → List ℕ} {pairs : List Body → List (ℕ × ℕ)}
    (hp : ∀ bs, ∀ p ∈ pairs bs, p.1 < bs.length ∧ p.2 < bs.length ∧ p.1 ≠ p.2) {eps : ℝ} {f : Finder} {bs : List Body}
    {g : Finder} {cs : List Contact} (hb : ∀ i < bs.length, (bodyAt bs i).isCircle = true)
    (h : rejectNan (diffCollide cfuel nc pairs) eps f bs = .ok (g, cs)) : cs = circleContacts nc eps bs (pairs bs) := by
  unfold rejectNan diffCollide at h
  rw [handleAll_circles hb _ _ fun p hpm => ⟨(hp bs p hpm).1, (hp bs p hpm).2.1⟩] at h
  simp only [Run.toExcept] at h
  split_ifs at h
  injection h with h
  injection h with _ h
  exact h.symm

theorem image_circles (hm : m * m = 1) {N : ℕ} (hpN : ∀ i, p i < N ↔ i < N) {cfuel cfuel' : ℕ} {nc nc' : ℕ → List ℕ}
    (hnc : ∀ i k, i ∈ nc k ↔ p i ∈ nc' (p k)) (hsym : ∀ i j, i ∈ nc' j → j ∈ nc' i)
    {pairs pairs' : List Body → List (ℕ × ℕ)}
    (hp : ∀ bs, ∀ p ∈ pairs bs, p.1 < bs.length ∧ p.2 < bs.length ∧ p.1 ≠ p.2)
    (hp' : ∀ bs, ∀ p ∈ pairs' bs, p.1 < bs.length ∧ p.2 < bs.length ∧ p.1 ≠ p.2)
    (h12 : ∀ bs bs', BodiesImage m p bs bs' → ∀ q ∈ pairs bs,
      (p q.1, p q.2) ∈ pairs' bs' ∨ (p q.2, p q.1) ∈ pairs' bs')
    (h21 : ∀ bs bs', BodiesImage m p bs bs' → ∀ q ∈ pairs' bs',
      (p.symm q.1, p.symm q.2) ∈ pairs bs ∨ (p.symm q.2, p.symm q.1) ∈ pairs bs) :
    ImageFinders m p N (rejectNan (diffCollide cfuel nc pairs)) (rejectNan (diffCollide cfuel' nc' pairs')) := by
  intro eps f f' bs bs' g cs g' cs' hN hb e1 e2
  have hc : ∀ i < bs.length, (bodyAt bs i).isCircle = true := by
    intro i hi
    obtain ⟨r, h1, h2⟩ := (hb.2 i hi).shape
    unfold Body.isCircle; rw [h1]
  have hc' : ∀ i < bs'.length, (bodyAt bs' i).isCircle = true := by
    intro i hi
    have hi' : p.symm i < bs.length := by
      rw [hN, ← hpN, Equiv.apply_symm_apply, ← hN, ← hb.1]; exact hi
    obtain ⟨r, h1, h2⟩ := (hb.2 _ hi').shape
    rw [Equiv.apply_symm_apply] at h2
    unfold Body.isCircle; rw [h2]
  rw [circles_found hp hc e1, circles_found hp' hc' e2]
  unfold ContactsImage
  rw [← circleContacts_image hm hnc hb fun q hq => ⟨(hp bs q hq).1, (hp bs q hq).2.1⟩]
  constructor
  · refine circleContacts_swap hsym ?_
    intro q hq
    obtain ⟨q0, h0, rfl⟩ := List.mem_map.1 hq
    exact h12 bs bs' hb q0 h0
  · refine circleContacts_swap hsym ?_
    intro q hq
    rcases h21 bs bs' hb q hq with h | h
    · exact Or.inl (List.mem_map.2 ⟨_, h, by simp⟩)
    · exact Or.inr (List.mem_map.2 ⟨_, h, by simp⟩)

theorem forceCat_image {H H' : ForceHeap} {N : ℕ} (hpN : ∀ i, p i < N ↔ i < N)
    (hH : ∀ i < N, ∀ t, H'.apply_forces (p i) t = (H.apply_forces i t).map (mirT m)) (t : ℝ) (fl fl' : List V3)
    (h1 : forceCat H t N = .ok fl) (h2 : forceCat H' t N = .ok fl') :
    ∀ i < N, fl'.getD (p i) 0 = mirT m (fl.getD i 0) := by
  intro i hi
  obtain ⟨l1, k1⟩ := forceCat_length h1
  obtain ⟨l2, k2⟩ := forceCat_length h2
  have hi' := (hpN i).2 hi
  have e1 := k1 i hi (by omega)
  have e2 := k2 (p i) hi' (by omega)
  rw [hH i hi t, e1, Option.map_some, Option.some.injEq] at e2
  have g1 : fl.getD i 0 = fl[i] := by simp [List.getD_eq_getElem?_getD, l1, hi]
  have g2 : fl'.getD (p i) 0 = fl'[p i] := by simp [List.getD_eq_getElem?_getD, l2, hi']
  rw [g1, g2, e2]

/-- C114: weight is its own mirror image. -/
theorem C114_gravity (m M g : ℝ) (c : Option V3) (t : ℝ) :
    (((Force.gravity g c).set_body M).force t) = (((Force.gravity g c).set_body M).force t).map (mirT m) := by
  simp [Force.set_body, Force.force, mirT]

/-- C114: list the frictionless circles of a scene in any other order, exchange left and right, or both: whatever the
two runs do (halve steps, stabilise, meet contacts), at their end the one is the image of the other. -/
theorem C114_run (m : ℝ) (hm : m = 1 ∨ m = -1) (p : Equiv.Perm ℕ) (H H' : ForceHeap) (lcp lcp' : LcpSolver)
    (hx : Exact lcp) (hx' : Exact lcp') (mi mi' cfuel cfuel' : ℕ) (nc nc' : ℕ → List ℕ)
    (hnc : ∀ i k, i ∈ nc k ↔ p i ∈ nc' (p k)) (hsym : ∀ i j, i ∈ nc' j → j ∈ nc' i)
    (pairs pairs' : List Body → List (ℕ × ℕ))
    (hpv : ∀ bs, ∀ p ∈ pairs bs, p.1 < bs.length ∧ p.2 < bs.length ∧ p.1 ≠ p.2)
    (hpv' : ∀ bs, ∀ p ∈ pairs' bs, p.1 < bs.length ∧ p.2 < bs.length ∧ p.1 ≠ p.2)
    (h12 : ∀ bs bs', BodiesImage m p bs bs' → ∀ q ∈ pairs bs,
      (p q.1, p q.2) ∈ pairs' bs' ∨ (p q.2, p q.1) ∈ pairs' bs')
    (h21 : ∀ bs bs', BodiesImage m p bs bs' → ∀ q ∈ pairs' bs',
      (p.symm q.1, p.symm q.2) ∈ pairs bs ∨ (p.symm q.2, p.symm q.1) ∈ pairs bs)
    (w w' : World (Option Mat) Finder) (hp : ∀ i, p i < w.bodies.length ↔ i < w.bodies.length)
    (hw : EngineInv w) (hw' : EngineInv w') (hi : WorldImage m p w w')
    (hH : ∀ i < w.bodies.length, ∀ t, H'.apply_forces (p i) t = (H.apply_forces i t).map (mirT m))
    (hpos : ∀ b ∈ w.bodies, 0 < b.mass ∧ 0 < b.ang_inertia) (hmu : ∀ b ∈ w.bodies, b.fric_coeff = 0)
    (fuel n : ℕ) (T : ℝ) (u u' : World (Option Mat) Finder)
    (h1 : runWorld (pdipmEnv 2 H lcp mi (rejectNan (diffCollide cfuel nc pairs))) fuel T n w = .done u)
    (h2 : runWorld (pdipmEnv 2 H' lcp' mi' (rejectNan (diffCollide cfuel' nc' pairs'))) fuel T n w' = .done u') :
    u.bodies.length = w.bodies.length ∧ WorldImage m p u u' := by
  have hm2 : m * m = 1 := mul_self_eq_one_iff.2 hm
  have h := image_run hm2 hp hx hx' (C12_finder_ok cfuel nc pairs hpv) (C12_finder_ok cfuel' nc' pairs' hpv')
    (image_circles hm2 hp hnc hsym hpv hpv' h12 h21) (forceCat_image hp hH) n rfl ⟨hi, hw, hw', hpos, hmu⟩ h1 h2
  exact ⟨h.2, h.1.image⟩

/-! ## The two circles of C82 in the mirror -/

/-- The mirror image of `bounceWorld`, with the circles listed in the other order. -/
def bounceBack (fnd : Finder) : World (Option Mat) Finder :=
  { t := 0, dt := 1, eps := 0, tol := 2, post_stab := false, strict_no_pen := false,
    bodies := [unitCircle (-1) 0 0, { unitCircle 1 0 0 with v := ⟨0, -1, 0⟩ }],
    joints := [], v := cat3 [0, ⟨0, -1, 0⟩], contacts := [spinContact], eng := none, fnd := fnd }

theorem bounceBack_inv (fnd : Finder) : EngineInv (bounceBack fnd) := by
  refine ⟨⟨?_, ?_, ?_, ?_⟩, ?_, ?_, ?_⟩
  · intro b hb
    simp [bounceBack] at hb
    rcases hb with rfl | rfl <;> simp [Body.RectForm, unitCircle]
  · intro j hj; cases hj
  · intro j hj; cases hj
  · intro i hi
    have : i = 0 ∨ i = 1 := by simp [bounceBack] at hi; omega
    rcases this with rfl | rfl <;> simp [bounceBack, slice3, cat3, unitCircle] <;> rfl
  · intro j hj; cases hj
  · intro c hc
    simp [bounceBack] at hc
    subst hc
    simp [spinContact, bounceBack]
  · intro inv hi; cases hi

theorem bounceBack_bodies (fnd : Finder) : ∀ b ∈ (bounceBack fnd).bodies,
    (0 < b.mass ∧ 0 < b.ang_inertia) ∧ b.fric_coeff = 0 ∧ b.restitution = 0 ∧ b.isCircle = true := by
  intro b hb
  simp [bounceBack] at hb
  rcases hb with rfl | rfl <;> simp [unitCircle, Body.isCircle]

theorem bounceBack_runs (fnd : Finder) (mi cfuel : ℕ) :
    ∃ u, runWorld (pdipmEnv 2 noForces exactLcp mi (rejectNan (diffCollide cfuel (fun _ => []) (bouncePairs false))))
      1 1 1 (bounceBack fnd) = .done u := by
  have hinv := bounceBack_inv fnd
  have hb := bounceBack_bodies fnd
  have hlen : (bounceBack fnd).bodies.length = 2 := rfl
  have hcm : ∀ c ∈ (bounceBack fnd).contacts, meanFriction (bounceBack fnd).bodies c = 0 ∧
      meanRestitution (bounceBack fnd).bodies c = 0 := by
    intro c hc
    obtain ⟨q1, q2, -⟩ := hinv.contacts c hc
    have b1 := hb _ (bodyAt_mem' q1)
    have b2 := hb _ (bodyAt_mem' q2)
    unfold meanFriction meanRestitution
    rw [b1.2.1, b2.2.1, b1.2.2.1, b2.2.2.1]
    norm_num
  obtain ⟨v0, l0, pn0, a0, b0, g0, h0⟩ := C74_inelastic (bounceBack fnd) hinv.joints hinv.contacts
    (fun b hbm => (hb b hbm).1) (fun c hc => (hcm c hc).1) (fun c hc => (hcm c hc).2)
    (impulse (List.replicate 2 0) 1)
  obtain ⟨-, ⟨e, v⟩, hr⟩ := C74_exact_engine_returns noForces mi (bounceBack fnd) 1 hinv.joints
    hinv.contacts (by simp [bounceBack]) _ (noForces_cat 0 2) _ _ _ _ _ _ h0
  obtain ⟨fl', l, pn, a, b, g, -, law⟩ := C38_engine_contact_law noForces exactLcp mi (bounceBack fnd) 1 e v
    hinv.joints hinv.contacts hinv.cache.ok exactLcp_exact hr
  have hsep : v 1 ≤ v 4 := by
    have h := (law.restitution 0 (by simp [bounceBack])).1
    have hm := (hcm _ (List.getElem_mem (l := (bounceBack fnd).contacts) (n := 0) (by simp [bounceBack]))).2
    rw [hm] at h
    simp [bounceBack] at h
    simp [normalVel, spinContact, contactVel, pointVel, twist, Spec.inner] at h
    linarith
  set bs := ((({ bounceBack fnd with eng := e } : World (Option Mat) Finder).set_v v).bodies.map
    fun b => b.move 1) with hbs
  have hbl : bs.length = 2 := by simp [hbs, World.set_v, bounceBack]
  have hcirc : ∀ i < bs.length, (bodyAt bs i).isCircle = true := by
    intro i hi
    rw [hbl] at hi
    interval_cases i <;> rfl
  have hp0 : (bodyAt bs 0).pos = (-1 + v 1, v 2) ∧ (bodyAt bs 0).rad = 1 := by
    simp [hbs, World.set_v, bounceBack, bodyAt, unitCircle, Body.move, Body.set_p, Body.baseSetP, Body.pos,
      Body.rad, slice3, V3.xy]
  have hp1 : (bodyAt bs 1).pos = (1 + v 4, v 5) ∧ (bodyAt bs 1).rad = 1 := by
    simp [hbs, World.set_v, bounceBack, bodyAt, unitCircle, Body.move, Body.set_p, Body.baseSetP, Body.pos,
      Body.rad, slice3, V3.xy]
  have hfar : ∀ p ∈ bouncePairs false bs, nrm ((bodyAt bs p.1).pos - (bodyAt bs p.2).pos) ≠ 0 ∧
      (bodyAt bs p.1).rad + (bodyAt bs p.2).rad = 2 := by
    intro p hp
    unfold bouncePairs at hp
    rw [if_pos hbl] at hp
    simp only [List.mem_singleton] at hp
    have hne : ∀ x y : ℝ, x ≠ 0 → nrm (x, y) ≠ 0 := by
      intro x y hx h
      unfold nrm at h
      rw [Real.sqrt_eq_zero (by nlinarith [mul_self_nonneg x, mul_self_nonneg y])] at h
      have : 0 < x * x := mul_self_pos.2 hx
      nlinarith [mul_self_nonneg y]
    simp at hp
    subst hp
    simp only [hp0.1, hp0.2, hp1.1, hp1.2, Prod.mk_sub_mk]
    refine ⟨hne _ _ ?_, by norm_num⟩
    intro h; linarith
  have hcol : (pdipmEnv 2 noForces exactLcp mi (rejectNan (diffCollide cfuel (fun _ => []) (bouncePairs false)))).collide
      (bounceBack fnd).eps (bounceBack fnd).fnd bs =
      .ok ((bounceBack fnd).fnd, circleContacts (fun _ => []) 0 bs (bouncePairs false bs)) := by
    change rejectNan (diffCollide cfuel (fun _ => []) (bouncePairs false)) 0 fnd bs = _
    unfold rejectNan diffCollide
    rw [handleAll_circles hcirc _ _ fun p hp => ⟨(bouncePairs_valid false bs p hp).1, (bouncePairs_valid false bs p hp).2.1⟩]
    simp only [Run.toExcept]
    rw [if_pos]
    · rfl
    · rw [List.all_eq_true]
      intro c hc
      unfold circleContacts at hc
      simp only [List.mem_flatMap, List.not_mem_nil, if_false] at hc
      obtain ⟨p, hp, hc⟩ := hc
      unfold circleCircle at hc
      simp only at hc
      split_ifs at hc
      · cases hc
      · simp only [List.map_cons, List.map_nil, List.mem_singleton] at hc
        subst hc
        simpa using (hfar p hp).1
  have hstep := step_first _ 0 (bounceBack fnd) hinv.good 1 rfl e v hr _ _ hcol (by
    intro c hc
    unfold circleContacts at hc
    simp only [List.mem_flatMap, List.not_mem_nil, if_false] at hc
    obtain ⟨p, hp, hc⟩ := hc
    unfold circleCircle at hc
    simp only at hc
    split_ifs at hc
    · cases hc
    · simp only [List.map_cons, List.map_nil, List.mem_singleton] at hc
      subst hc
      simp only
      rw [(hfar p hp).2]
      have : 0 ≤ nrm ((bodyAt bs p.1).pos - (bodyAt bs p.2).pos) := Real.sqrt_nonneg _
      change _ ≤ (2 : ℝ)
      linarith)
  obtain ⟨u, hu, ht⟩ : ∃ u, World.step_dt (pdipmEnv 2 noForces exactLcp mi
      (rejectNan (diffCollide cfuel (fun _ => []) (bouncePairs false)))) 1 (bounceBack fnd) 1 = .done u ∧
      u.t = 1 := ⟨_, hstep, by simp [bounceBack]⟩
  clear hstep hcol
  refine ⟨u, ?_⟩
  have hdt : (bounceBack fnd).dt = 1 := rfl
  unfold runWorld
  rw [if_pos (by simp [bounceBack])]
  simp only [World.step, Bool.false_eq_true, if_false]
  rw [hdt, hu, Run.bind_done]
  unfold runWorld
  rw [if_neg (by rw [ht]; simp)]

theorem bounce_image (fnd : Finder) :
    WorldImage (-1) (Equiv.swap 0 1) (bounceWorld 1 false fnd) (bounceBack fnd) := by
  have hb : (bounceWorld 1 false fnd).bodies = [{ unitCircle (-1) 0 0 with v := ⟨0, 1, 0⟩ }, unitCircle 1 0 0] :=
    scaleMass_one _
  have hlt : ∀ i < 2, i = 0 ∨ i = 1 := by intro i hi; omega
  refine ⟨rfl, rfl, rfl, rfl, rfl, rfl, ?_, ?_, ?_, ?_⟩
  · rw [hb]
    refine ⟨rfl, fun i hi => ?_⟩
    rcases hlt i hi with rfl | rfl
    · rw [Equiv.swap_apply_left]
      constructor <;> simp [bounceBack, bodyAt, unitCircle, mirT]
    · rw [Equiv.swap_apply_right]
      constructor <;> simp [bounceBack, bodyAt, unitCircle, mirT] <;> rfl
  · exact ⟨fun j hj => (List.not_mem_nil hj).elim, fun j hj => (List.not_mem_nil hj).elim⟩
  · intro i hi
    rcases hlt i hi with rfl | rfl
    · rw [Equiv.swap_apply_left]
      simp [bounceBack, bounceWorld, twist, cat3, mirT]
    · rw [Equiv.swap_apply_right]
      simp [bounceBack, bounceWorld, twist, cat3, mirT]
  · have e : flipped spinContact = imageContact (-1) (Equiv.swap 0 1) spinContact := by
      simp [flipped, imageContact, spinContact, mirV]
    constructor
    · intro c hc
      simp [bounceWorld] at hc
      subst hc
      refine Or.inr ?_
      rw [← e, flipped_flipped]
      simp [bounceBack]
    · intro c hc
      simp [bounceBack] at hc
      subst hc
      refine Or.inr ?_
      rw [e]
      simp [bounceWorld]

theorem swap_below : ∀ i, Equiv.swap 0 1 i < 2 ↔ i < 2 := by
  intro i
  by_cases h0 : i = 0
  · subst h0; simp
  · by_cases h1 : i = 1
    · subst h1; simp
    · rw [Equiv.swap_apply_of_ne_of_ne h0 h1]

/-- Example for `C114_run`: the impact and its mirror image both run, and the final poses are mirror images. -/
example (fnd : Finder) : ∃ u u', runWorld (pdipmEnv 2 noForces exactLcp 10
      (rejectNan (diffCollide 5 (fun _ => []) (bouncePairs false)))) 1 1 1 (bounceWorld 1 false fnd) = .done u ∧
    runWorld (pdipmEnv 2 noForces exactLcp 10
      (rejectNan (diffCollide 5 (fun _ => []) (bouncePairs false)))) 1 1 1 (bounceBack fnd) = .done u' ∧
    (bodyAt u'.bodies 1).p = mirT (-1) (bodyAt u.bodies 0).p ∧ (bodyAt u'.bodies 0).p = mirT (-1) (bodyAt u.bodies 1).p := by
  obtain ⟨u, hu⟩ := bounce_runs 1 one_pos false fnd 10 5
  obtain ⟨u', hu'⟩ := bounceBack_runs fnd 10 5
  have hb := bounceWorld_bodies 1 one_pos false fnd
  obtain ⟨hl, h⟩ := C114_run (-1) (Or.inr rfl) (Equiv.swap 0 1) noForces noForces exactLcp exactLcp exactLcp_exact
    exactLcp_exact 10 10 5 5 (fun _ => []) (fun _ => []) (by simp) (by simp) (bouncePairs false) (bouncePairs false)
    (bouncePairs_valid false) (bouncePairs_valid false)
    (by
      intro bs bs' hbb q hq
      unfold bouncePairs at hq ⊢
      rw [hbb.1]
      split_ifs at hq ⊢ <;> simp_all)
    (by
      intro bs bs' hbb q hq
      unfold bouncePairs at hq ⊢
      rw [hbb.1] at hq
      split_ifs at hq ⊢ <;> simp_all) (bounceWorld 1 false fnd) (bounceBack fnd) swap_below
    (bounceWorld_inv 1 false fnd) (bounceBack_inv fnd) (bounce_image fnd)
    (by intro i _ t; simp [ForceHeap.apply_forces, noForces, mirT]; rfl)
    (fun b h => (hb b h).1) (fun b h => (hb b h).2.1) 1 1 1 u u' hu hu'
  have hlen : u.bodies.length = 2 := by
    rw [hl]; rfl
  refine ⟨u, u', hu, hu', ?_, ?_⟩
  · have := (h.bodies.2 0 (by omega)).p
    rwa [Equiv.swap_apply_left] at this
  · have := (h.bodies.2 1 (by omega)).p
    rwa [Equiv.swap_apply_right] at this

theorem bounce_rest (fnd : Finder) : (∀ c ∈ (bounceWorld 1 false fnd).contacts,
      meanFriction (bounceWorld 1 false fnd).bodies c = 0 ∧ meanRestitution (bounceWorld 1 false fnd).bodies c = 0) ∧
    ∀ c ∈ (bounceBack fnd).contacts,
      meanFriction (bounceBack fnd).bodies c = 0 ∧ meanRestitution (bounceBack fnd).bodies c = 0 := by
  constructor
  · intro c hc
    obtain ⟨q1, q2, -⟩ := (bounceWorld_inv 1 false fnd).contacts c hc
    have b1 := bounceWorld_bodies 1 one_pos false fnd _ (bodyAt_mem' q1)
    have b2 := bounceWorld_bodies 1 one_pos false fnd _ (bodyAt_mem' q2)
    unfold meanFriction meanRestitution
    rw [b1.2.1, b2.2.1, b1.2.2.1, b2.2.2.1]
    norm_num
  · intro c hc
    obtain ⟨q1, q2, -⟩ := (bounceBack_inv fnd).contacts c hc
    have b1 := bounceBack_bodies fnd _ (bodyAt_mem' q1)
    have b2 := bounceBack_bodies fnd _ (bodyAt_mem' q2)
    unfold meanFriction meanRestitution
    rw [b1.2.1, b2.2.1, b1.2.2.1, b2.2.2.1]
    norm_num

/-- Example for `C114_impact`: both impacts have outcomes, and these are mirror images. -/
example (fnd : Finder) : ∃ v' w' : Vec,
    (∃ l pn a b g, ContactLaw (bounceWorld 1 false fnd).bodies [] [spinContact] (fun _ => 0)
      (bounceWorld 1 false fnd).v v' l pn a b g) ∧
    (∃ l pn a b g, ContactLaw (bounceBack fnd).bodies [] [spinContact] (fun _ => 0)
      (bounceBack fnd).v w' l pn a b g) ∧ twist w' 1 = mirT (-1) (twist v' 0) := by
  obtain ⟨r1, r2⟩ := bounce_rest fnd
  obtain ⟨v', l, pn, a, b, g, h⟩ := C74_inelastic (bounceWorld 1 false fnd) (bounceWorld_inv 1 false fnd).joints
    (bounceWorld_inv 1 false fnd).contacts (fun b hb => (bounceWorld_bodies 1 one_pos false fnd b hb).1)
    (fun c hc => (r1 c hc).1) (fun c hc => (r1 c hc).2) (fun _ => 0)
  obtain ⟨w', l', pn', a', b', g', h'⟩ := C74_inelastic (bounceBack fnd) (bounceBack_inv fnd).joints
    (bounceBack_inv fnd).contacts (fun b hb => (bounceBack_bodies fnd b hb).1)
    (fun c hc => (r2 c hc).1) (fun c hc => (r2 c hc).2) (fun _ => 0)
  have im := bounce_image fnd
  have key := C114_impact (-1) (by norm_num) (Equiv.swap 0 1) (bounceWorld 1 false fnd).bodies (bounceBack fnd).bodies swap_below _ _ _ _ _ _ _ _ _ _ _ _ _ _ _ _ _ _ _ _
    h h' rfl (fun i hi => ⟨(im.bodies.2 i hi).mass, (im.bodies.2 i hi).ang_inertia, (im.bodies.2 i hi).restitution⟩)
    (fun i hi => (bounceWorld_bodies 1 one_pos false fnd _ (bodyAt_mem' hi)).1)
    (fun i _ => by apply V3.ext <;> simp [mirT]) im.v im.joints im.contacts
    (fun c hc => ⟨((bounceWorld_inv 1 false fnd).contacts c hc).1, ((bounceWorld_inv 1 false fnd).contacts c hc).2.1⟩)
    (fun c hc => (r1 c hc).1) (fun c hc => (r2 c hc).1)
  refine ⟨v', w', ⟨l, pn, a, b, g, h⟩, ⟨l', pn', a', b', g', h'⟩, ?_⟩
  have := key 0 (by simp [bounceWorld])
  rwa [Equiv.swap_apply_left] at this

/-- Example for `C114_correction`: the same with the post-stabilization of the approaching circles. -/
example (fnd : Finder) : ∃ d d' : Vec,
    (∃ l pn, PostStabLaw (bounceWorld 1 false fnd).bodies [] [spinContact] (bounceWorld 1 false fnd).v d l pn) ∧
    (∃ l pn, PostStabLaw (bounceBack fnd).bodies [] [spinContact] (bounceBack fnd).v d' l pn) ∧
    twist d' 1 = mirT (-1) (twist d 0) := by
  obtain ⟨r1, r2⟩ := bounce_rest fnd
  have neg : ∀ (c : Contact) (v : Vec), normalVel c (-v) = -normalVel c v := by
    intro c v
    simp [normalVel, contactVel, pointVel, twist, Spec.inner]
    ring
  obtain ⟨d, l, pn, h⟩ := (C62_post_stab_solvable (bounceWorld 1 false fnd) (bounceWorld_inv 1 false fnd).joints
    (bounceWorld_inv 1 false fnd).contacts (fun b hb => (bounceWorld_bodies 1 one_pos false fnd b hb).1)).2
    ⟨-(bounceWorld 1 false fnd).v, by simp [bounceWorld, jointVels], by
      intro c hc; rw [(r1 c hc).2, neg]; linarith⟩
  obtain ⟨d', l', pn', h'⟩ := (C62_post_stab_solvable (bounceBack fnd) (bounceBack_inv fnd).joints
    (bounceBack_inv fnd).contacts (fun b hb => (bounceBack_bodies fnd b hb).1)).2
    ⟨-(bounceBack fnd).v, by simp [bounceBack, jointVels], by
      intro c hc; rw [(r2 c hc).2, neg]; linarith⟩
  have im := bounce_image fnd
  have key := C114_correction (-1) (by norm_num) (Equiv.swap 0 1) (bounceWorld 1 false fnd).bodies (bounceBack fnd).bodies swap_below _ _ _ _ _ _ _ _ _ _ _ _
    h h' rfl (fun i hi => ⟨(im.bodies.2 i hi).mass, (im.bodies.2 i hi).ang_inertia, (im.bodies.2 i hi).restitution⟩)
    (fun i hi => (bounceWorld_bodies 1 one_pos false fnd _ (bodyAt_mem' hi)).1)
    im.v im.joints (fun j hj => by cases hj) im.contacts
    (fun c hc => ⟨((bounceWorld_inv 1 false fnd).contacts c hc).1, ((bounceWorld_inv 1 false fnd).contacts c hc).2.1⟩)
  refine ⟨d, d', ⟨l, pn, h⟩, ⟨l', pn', h'⟩, ?_⟩
  have := key 0 (by simp [bounceWorld])
  rwa [Equiv.swap_apply_left] at this

/-- Example for the constraints of `C114_run`: the mirror image of a hinge to the world has the supplementary angle. -/
example (j : Joint) (h2 : j.i2 = none) : JointImage (-1) (Equiv.swap 0 1) j
    { j with i1 := Equiv.swap 0 1 j.i1, pos := mirV (-1) j.pos, pos1 := mirV (-1) j.pos1, pos2 := mirV (-1) j.pos2,
             rot1 := Real.pi - j.rot1 } := by
  refine ⟨rfl, rfl, by simp [h2], rfl, rfl, rfl, fun _ => ?_⟩
  simp [polar_to_cart, mirV, Real.cos_pi_sub, Real.sin_pi_sub]

/-- Example for `C114_gravity`: the force of a body of mass 2. -/
example : ((Force.gravity 10 none).set_body 2).force 0 = some ⟨0, 0, 20⟩ := by
  simp [Force.set_body, Force.force]; norm_num

end LcpPhysics
